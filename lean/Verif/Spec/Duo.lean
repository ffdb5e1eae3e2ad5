import Verif.Spec.Sent
import Verif.Spec.Net
/-! Two endpoints: the application of the sender makes calls on a connection (Model/Conn.lean, with the QPACK encoder of Model/QpackEnc.lean),
its transport takes what nghttp3_conn_writev_stream offers, and the other endpoint reads the request streams and the QPACK encoder stream
(Spec/Net.lean).  In contrast to Spec/Net.lean, messages do not come into being by magic: they are submitted by API calls, bodies come from
read_data, and the schedule and the partial writes decide what is on its way. -/
namespace Nghttp3
namespace Duo
open Http Qpack Bidi Conn
open Outq (R Frent Ans)
open Sent (Book Ledger Serve Permits note)
open Net (SFrame NOp NRes Par)

/-- a field section and the stream that it is for -/
abbrev Fld := Nat × List Nv

/-- the strings fit into the buffers of the receiver: `NvFits` -/
def fits (nvs : List Nv) : Bool := nvs.all fun nv => decide (codedLen nv.name ≤ 256) && decide (codedLen nv.value ≤ 65536)

/-- The sender's QPACK encoder: nghttp3_qpack_encoder_encode.  Field sections without fields, with strings that are too long, or beyond the
limits of the protocol are not considered: here a call ends with an error. -/
def encode : Encode ESys Fld := fun s f =>
  match s.e.encode f.1 f.2, s.step (.encode f.1 f.2) with
  | some o, .ok s' =>
    if !f.2.isEmpty && fits f.2 && decide (o.e.ctx.next ≤ QInt.INT_MAX) && decide (o.section.length < 2 ^ 62) then
      some (s', o.pfx, o.reps.flatMap (Rep.bytes o.base), o.ebuf)
    else none
  | _, _ => none

/-- what arrives from the receiver changes the encoder: SETTINGS and the decoder stream -/
def Peer (s s' : ESys) : Prop := ∃ o, s.step o = .ok s'

structure Duo where
  /-- the sender, and what is known of its calls -/
  l : Ledger Fld := {}
  c : Conn ESys Fld
  /-- the bytes on their way, and the receiver -/
  net : Net.Sys
  /-- of every stream, also of those that the sender has closed -/
  book : Nat → Book Fld := fun _ => {}
  /-- fin came with what was offered last; fin was offered once; the stream was closed by the sender -/
  last : Nat → Bool := fun _ => false
  sealed : Nat → Bool := fun _ => false
  gone : Nat → Bool := fun _ => false

def init (P : Par) (server : Bool) (st : Settings) : Duo := { c := Conn.init server st (ESys.init P.H), net := Net.init P }

/-- what the transport of the sender puts on its way: bytes of request streams, with the end of the stream if it was offered with them, and
bytes of the encoder stream, without the stream type in front of them -/
def Duo.sent (d : Duo) : Op Fld → Net.Sys
  | .addWrite id n =>
    if (d.c.str id).isSome then
      let t := (d.l.at id).offered.take n
      if d.c.qenc = some id then { d.net with ech := d.net.ech ++ (if (d.l.at id).taken.isEmpty then t.drop 1 else t) }
      else if streamUni id then d.net
      else
        let st := d.net.str id
        d.net.set id { st with wire := st.wire ++ t, ended := st.ended || (d.last id && ((d.l.at id).offered.drop n).isEmpty) }
    else d.net
  | _ => d.net

/-- what was offered last for `x` came with fin -/
def Duo.lastFin (d : Duo) (o : Op Fld) (r : Ret) (x : Nat) : Bool :=
  match o, r with
  | .writev _ _ _, .vecs (some (y, fin, _)) => if y = x then fin else d.last x
  | _, _ => d.last x

/-- a call of the sender's application or transport: it returned `r`, the connection is now `c'` -/
def Duo.call (d : Duo) (o : Op Fld) (c' : Conn ESys Fld) (r : Ret) : Duo where
  l := note d.l d.c o r
  c := c'
  net := { d.sent o with sys := c'.enc }
  book x := if (c'.str x).isSome then (note d.l d.c o r).at x else d.book x
  last x := d.lastFin o r x
  sealed x := d.sealed x || d.lastFin o r x
  gone x := d.gone x || ((d.c.str x).isSome && (c'.str x).isNone)

/-- something happens at the receiver, or arrives at the sender from it -/
def receiver : NOp → Bool
  | .headers _ _ => false
  | .data _ _ => false
  | .fin _ => false
  | _ => true

/-- a call that has submitted a field section: for a stream of the other endpoint, and the end of the stream has not been offered yet -/
def Keeps (P : Par) (d : Duo) (o : Op Fld) (r : Ret) : Prop :=
  r = .code 0 →
    match o with
    | .submitRequest id nva _ => nva.1 = id ∧ id ∈ P.ids ∧ d.sealed id = false
    | .submitInfo id nva => nva.1 = id ∧ id ∈ P.ids ∧ d.sealed id = false
    | .submitResponse id nva _ => nva.1 = id ∧ id ∈ P.ids ∧ d.sealed id = false
    | .submitTrailers id nva => nva.1 = id ∧ id ∈ P.ids ∧ d.sealed id = false
    | _ => True

/-- the states that the two endpoints can reach.  Stream ids are not used again. -/
inductive Run (P : Par) (server : Bool) (st : Settings) : Duo → Prop where
  | init : Run P server st (init P server st)
  | call {d : Duo} {o : Op Fld} {c' : Conn ESys Fld} {r : Ret} : Run P server st d → Permits d.l d.c o → Conn.step encode d.c o = R.ok (c', r) →
      Keeps P d o r → (∀ x, d.gone x = true → c'.str x = none) → Run P server st (d.call o c' r)
  | net {d : Duo} {o : NOp} {n : Net.Sys} : Run P server st d → receiver o = true → d.net.admits P o → d.net.step P o = NRes.ok n →
      Run P server st { d with net := n, c := { d.c with enc := n.sys } }

/-- a piece of the body, if it is not empty -/
def piece (v : List Bidi.Bytes) : List SFrame := if v.flatten.isEmpty then [] else [.data v.flatten]

/-- a body made of answers of read_data, up to the first one that says EOF: the frames, the answers that are left, and whether there was EOF -/
def bodyOf : List Ans → List SFrame × List Ans × Bool
  | [] => ([], [], false)
  | .vecs v eof _ :: t => if eof then (piece v, t, true) else (piece v ++ (bodyOf t).1, (bodyOf t).2.1, (bodyOf t).2.2)
  | _ :: t => bodyOf t

/-- the message that the submitted frames make, as far as `k` field sections have been encoded and the answers `as` of read_data have been
given; and whether this is all that was submitted -/
def message : List (Frent Fld) → Nat → List Ans → List SFrame × Bool
  | [], _, _ => ([], true)
  | .headers f :: t, k, as => if k = 0 then ([], false) else (.headers f.2 :: (message t (k - 1) as).1, (message t (k - 1) as).2)
  | .data :: t, k, as =>
    if (bodyOf as).2.2 then ((bodyOf as).1 ++ (message t k (bodyOf as).2.1).1, (message t k (bodyOf as).2.1).2) else ((bodyOf as).1, false)
  | _ :: t, k, as => message t k as

/-- the message that the sender has produced on stream `x`, by the log of what each call of nghttp3_conn_writev_stream has used -/
def Duo.msg (d : Duo) (log : List (Serve Fld)) (x : Nat) : List SFrame × Bool :=
  let s := Sent.servedSince log (d.book x).born x
  message (d.book x).submitted (s.flatMap Serve.made).length (s.flatMap Serve.used)

/-- the bytes that an answer of read_data gives -/
def ansBytes : Ans → Bidi.Bytes
  | .vecs v _ _ => v.flatten
  | _ => []

/-- the bytes that read_data has given for the stream `x` -/
def Duo.body (d : Duo) (log : List (Serve Fld)) (x : Nat) : Bidi.Bytes := ((Sent.servedSince log (d.book x).born x).flatMap Serve.used).flatMap ansBytes

/-- the field sections of a message, and those that were submitted -/
def sections (m : List SFrame) : List (List Nv) := m.filterMap fun | .headers nvs => some nvs | _ => none
def submittedSections (s : List (Frent Fld)) : List (List Nv) := s.filterMap fun | .headers f => some f.2 | _ => none

/-- `m` is what the submitted frames can make: the field sections, and in place of each body any pieces of data; all of it (`true`), or a
first part of it -/
inductive Fill : List (Frent Fld) → List SFrame → Bool → Prop where
  | all : Fill [] [] true
  | part (s : List (Frent Fld)) : Fill s [] false
  | headers {f : Fld} {t : List (Frent Fld)} {m : List SFrame} {c : Bool} : Fill t m c → Fill (.headers f :: t) (.headers f.2 :: m) c
  | piece {b : Bidi.Bytes} {t : List (Frent Fld)} {m : List SFrame} {c : Bool} : Fill (.data :: t) m c → Fill (.data :: t) (.data b :: m) c
  | bodyEnd {t : List (Frent Fld)} {m : List SFrame} {c : Bool} : Fill t m c → Fill (.data :: t) m c
  | skip {f : Frent Fld} {t : List (Frent Fld)} {m : List SFrame} {c : Bool} : (∀ g, f ≠ .headers g) → f ≠ .data → Fill t m c → Fill (f :: t) m c

/-- all messages are well-formed, as far as they have been produced -/
def Duo.Wellformed (P : Par) (d : Duo) (log : List (Serve Fld)) : Prop :=
  ∀ x ∈ P.ids, Net.Valid (P.cfg x) (d.msg log x).1 (d.net.str x).ended

end Duo
end Nghttp3
