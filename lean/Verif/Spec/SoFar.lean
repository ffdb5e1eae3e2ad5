import Verif.Lemmas.Message
/-! Messages in progress: which callbacks may have been made so far for a request or a response that is still being received. -/
namespace Nghttp3
namespace Http
open Spec

/-- `n` bytes of body are not too many -/
def withinLength (declared : Option Nat) (n : Nat) : Prop := ∀ k, declared = some k → n ≤ k

/-- after the header section: body, at most as long as declared, then perhaps trailers (empty ones are not reported); `noTrailers`: they
are not allowed -/
inductive RestSoFar (request hostSeen : Bool) (noTrailers : Prop) (declared : Option Nat) : List Cb → Prop
  | body (ds : List Nat) (h : withinLength declared ds.sum) : RestSoFar request hostSeen noTrailers declared (ds.map .data)
  /-- in the trailer section -/
  | inTrailers (ds : List Nat) (out : List Field) (h : withinLength declared ds.sum) (hn : ¬ noTrailers) :
      RestSoFar request hostSeen noTrailers declared (ds.map .data ++ .beginTrailers :: out.map .trailer)
  /-- the trailer section is complete -/
  | trailers (ds : List Nat) (ts : Option (List Field)) (h : withinLength declared ds.sum) (hn : ¬ noTrailers)
      (ht : ∀ fs, ts = some fs → TrailersOk request hostSeen (fs.map fl)) :
      RestSoFar request hostSeen noTrailers declared (ds.map .data ++ trailerCbs request ts)

/-- a request, as far as it has been received -/
inductive RequestSoFar (ext : Bool) : List Cb → Prop
  | start : RequestSoFar ext []
  /-- in the header section -/
  | inHeaders (out : List Field) : RequestSoFar ext (.beginHeaders :: out.map .header)
  | rest (fs : List Field) (r : List Cb) (h : RequestOk ext (fs.map fl))
      (hr : RestSoFar true (decide (hosts (fs.map fl) ≠ [])) (hasValue ":method" "CONNECT" (fs.map fl)) (requestLength (fs.map fl)) r) :
      RequestSoFar ext (.beginHeaders :: (fs.filter (fun f => deliverRequest (fl f))).map .header ++ .endHeaders :: r)

/-- the callbacks for a complete header section of a response -/
def sectionCbs (connect : Bool) (st : Nat) (fs : List Field) : List Cb :=
  .beginHeaders :: (fs.filter (fun f => deliverResponse (lengthRule connect st) (fl f))).map .header ++ [.endHeaders]

/-- interim responses `is` with their status codes -/
def interimCbs (connect : Bool) (is : List (Nat × List Field)) : List Cb := is.flatMap fun i => sectionCbs connect i.1 i.2

/-- all of them well-formed, all of them interim -/
def InterimOk (connect : Bool) (is : List (Nat × List Field)) : Prop := ∀ i ∈ is, ResponseOk connect i.1 (i.2.map fl) ∧ i.1 / 100 = 1

/-- a response to a request with this method, as far as it has been received -/
inductive ResponseSoFar (method : Option (List UInt8)) : List Cb → Prop
  | interim (is : List (Nat × List Field)) (h : InterimOk (decide (method = some (ascii "CONNECT"))) is) :
      ResponseSoFar method (interimCbs (decide (method = some (ascii "CONNECT"))) is)
  | inHeaders (is : List (Nat × List Field)) (out : List Field) (h : InterimOk (decide (method = some (ascii "CONNECT"))) is) :
      ResponseSoFar method (interimCbs (decide (method = some (ascii "CONNECT"))) is ++ .beginHeaders :: out.map .header)
  | rest (is : List (Nat × List Field)) (st : Nat) (fs : List Field) (r : List Cb) (h : InterimOk (decide (method = some (ascii "CONNECT"))) is)
      (hs : ResponseOk (decide (method = some (ascii "CONNECT"))) st (fs.map fl)) (hf : st / 100 ≠ 1)
      (hr : RestSoFar false false (method = some (ascii "CONNECT") ∧ st / 100 = 2) (responseLength method st (fs.map fl)) r) :
      ResponseSoFar method (interimCbs (decide (method = some (ascii "CONNECT"))) is ++ sectionCbs (decide (method = some (ascii "CONNECT"))) st fs ++ r)

end Http
end Nghttp3
