import Verif.Spec.Life
import Verif.Spec.SoFar
/-! The lives of a request stream in the log of a whole connection, and what may happen in one of them. -/
namespace Nghttp3
open Spec Http

namespace Bidi

/-- the callbacks of a stream, cut after each stream_close (which is left out); the last part is the life that has not ended -/
def lives : List Ev → List (List Ev)
  | [] => [[]]
  | e :: t =>
    if e = .streamClose then [] :: lives t
    else
      match lives t with
      | [] => [[e]]
      | a :: r => (e :: a) :: r

/-- the callbacks of a complete request (as in C26) -/
def CompleteRequest (ext : Bool) (cb : List Cb) : Prop :=
  ∃ (fs : List Field) (ds : List Nat) (tr : Option (Option (List Field))),
    RequestOk ext (fs.map fl) ∧
    (∀ t, tr = some t → ¬ hasValue ":method" "CONNECT" (fs.map fl) ∧ ∀ ts, t = some ts → TrailersOk true (decide (hosts (fs.map fl) ≠ [])) (ts.map fl)) ∧
    lengthOk (requestLength (fs.map fl)) ds.sum ∧
    cb = .beginHeaders :: (fs.filter (fun f => deliverRequest (fl f))).map .header ++ .endHeaders :: ds.map .data ++ tr.elim [] (trailerCbs true) ++ [.endStream]

/-- the callbacks of a complete response to a request with this method (as in C26) -/
def CompleteResponse (method : Option (List UInt8)) (cb : List Cb) : Prop :=
  ∃ (is : List (Nat × List Field)) (st : Nat) (fs : List Field) (ds : List Nat) (tr : Option (Option (List Field))),
    InterimOk (decide (method = some (ascii "CONNECT"))) is ∧
    ResponseOk (decide (method = some (ascii "CONNECT"))) st (fs.map fl) ∧ st / 100 ≠ 1 ∧
    (∀ t, tr = some t → ¬ (method = some (ascii "CONNECT") ∧ st / 100 = 2) ∧ ∀ ts, t = some ts → TrailersOk false false (ts.map fl)) ∧
    lengthOk (responseLength method st (fs.map fl)) ds.sum ∧
    cb = interimCbs (decide (method = some (ascii "CONNECT"))) is ++ sectionCbs (decide (method = some (ascii "CONNECT"))) st fs ++ ds.map .data ++
      tr.elim [] (trailerCbs false) ++ [.endStream]

/-- the callbacks stop within a header or trailer section -/
def InSection (cb : List Cb) : Prop :=
  ∃ (a : List Cb) (out : List Field), cb = a ++ .beginHeaders :: out.map .header ∨ cb = a ++ .beginTrailers :: out.map .trailer

/-- What may happen in one life of a stream, if `soFar` says what a message in progress looks like and `complete` what a complete one does:
the message is in progress; it is complete, end_stream is the last callback; a header section was malformed, stop_sending and reset_stream with
H3_MESSAGE_ERROR (0x010e) are the last callbacks.  deferred_consume and changes of the priority are left out (`loud`), and in any case the
former are the only callbacks that may follow the last one. -/
inductive LifeOk (soFar complete : List Cb → Prop) (life : List Ev) : Prop
  | progress (hp : Plain life) (h : soFar (cbs life))
  | complete (b : List Ev) (hl : loud life = b ++ [.endStream]) (hp : Plain b) (h : complete (cbs b ++ [.endStream]))
  | malformed (b : List Ev) (hl : loud life = b ++ [.stopSending 0x010e, .resetStream 0x010e]) (hp : Plain b) (h : soFar (cbs b)) (hs : InSection (cbs b))

/-- the stream was refused with H3_REQUEST_REJECTED (0x010b), and that is all -/
def RefusedLife (life : List Ev) : Prop := loud life = [.stopSending 0x010b, .resetStream 0x010b]

end Bidi
end Nghttp3
