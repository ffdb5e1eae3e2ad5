import Verif.Spec.Conn
import Verif.Spec.Outq
/-! Specification: what the streams of a connection carry, told from the calls made and from what they return. -/
namespace Nghttp3
namespace Sent
open Conn
open Outq (R Frent Ans Emit FrentOk AnsOk)

abbrev Bytes := List UInt8

variable {E F : Type}

/-- What has been done with a stream: the frames that the calls have asked for, in order; whether a call has announced the end of the stream;
the bytes that the transport has taken; those that were offered last and that it has not taken; the acknowledged length; the number of calls of
nghttp3_conn_writev_stream before the stream came into being. -/
structure Book (F : Type) where
  submitted : List (Frent F) := []
  closed : Bool := false
  taken : Bytes := []
  offered : Bytes := []
  acked : Nat := 0
  born : Nat := 0

/-- the streams, and what was available to each call of nghttp3_conn_writev_stream so far: the bytes the QPACK decoder had to send (none if the
call does not get to the decoder stream), and the answers of read_data -/
structure Ledger (F : Type) where
  «at» : Nat → Book F := fun _ => {}
  asks : List (Bytes × List Ans) := []

/-- the frames that a call, which returned `r`, has asked for on the stream `x` -/
def subm (c : Conn E F) (o : Op F) (r : Ret) (x : Nat) : List (Frent F) :=
  if r = .code 0 then
    match o with
    | .bindControl id => if id = x then [.settings c.settings] else []
    | .submitRequest id nva dr => if id = x then .headers nva :: (if dr then [.data] else []) else []
    | .submitInfo id nva => if id = x then [.headers nva] else []
    | .submitResponse id nva dr => if id = x then .headers nva :: (if dr then [.data] else []) else []
    | .submitTrailers id nva => if id = x then [.headers nva] else []
    | .notice => if c.ctrl = some x then [.goaway (if c.server then 2 ^ 62 - 4 else 2 ^ 62 - 1)] else []
    | .shutdown => if c.ctrl = some x then [.goaway (if c.server then min (2 ^ 62 - 4) (c.maxBidi + 4).toNat else 0)] else []
    | .setClientPri id v => if c.ctrl = some x then [.priorityUpdate 0x0f0700 id v] else []
    | _ => []
  else []

/-- has the call announced the end of the stream `x`?  A request or response without a body, and trailers -/
def closes (o : Op F) (r : Ret) (x : Nat) : Bool :=
  if r = .code 0 then
    match o with
    | .submitRequest id _ dr => id == x && !dr
    | .submitResponse id _ dr => id == x && !dr
    | .submitTrailers id _ => id == x
    | _ => false
  else false

/-- what a call does to the book of a stream -/
def enter (b : Book F) (c : Conn E F) (o : Op F) (r : Ret) (x : Nat) : Book F :=
  match o with
  | .writev _ _ _ =>
    match r with
    | .vecs (some (y, _, vs)) => if y = x then { b with offered := vs.flatten } else b
    | _ => b
  | .addWrite id n => if id = x then { b with taken := b.taken ++ b.offered.take n, offered := b.offered.drop n } else b
  | .addAck id n => if id = x then { b with acked := b.acked + n } else b
  | .updAck id off => if id = x ∧ r = .code 0 then { b with acked := off } else b
  | _ => { b with submitted := b.submitted ++ subm c o r x, closed := b.closed || closes o r x }

/-- the call has offered something on the control stream -/
def onCtrl (c : Conn E F) : Ret → Bool
  | .vecs (some (y, _, _)) => decide (c.ctrl = some y)
  | _ => false

/-- a call of nghttp3_conn_writev_stream with room for `k` vectors, which returns `r`, gets to the decoder stream: there is room, nothing is
offered on the control stream, and the decoder stream exists and may be written -/
def reached (c : Conn E F) (k : Nat) (r : Ret) : Bool :=
  decide (k ≠ 0) && !onCtrl c r &&
    match c.qdec with
    | none => false
    | some q => match c.str q with | none => false | some s => !isBlocked s

/-- what a call does to the ledger; a stream that does not exist has no book -/
def note (l : Ledger F) (c : Conn E F) (o : Op F) (r : Ret) : Ledger F where
  «at» x := enter (if (c.str x).isSome then l.at x else { born := l.asks.length }) c o r x
  asks := match o with | .writev k db as => l.asks ++ [(if reached c k r then db else [], as)] | _ => l.asks

/-- the caller keeps to the documentation: no more is taken than was offered, no more is acknowledged than was taken, read_data says EOF if it
has no data, and the value of a PRIORITY_UPDATE frame fits into a frame -/
def Permits (l : Ledger F) (c : Conn E F) (o : Op F) : Prop :=
  OpOk o ∧
  match o with
  | .writev _ _ as => ∀ a ∈ as, AnsOk a
  | .addWrite id n => (c.str id).isSome → n ≤ (l.at id).offered.length
  | .addAck id n => (c.str id).isSome → (l.at id).acked + n ≤ (l.at id).taken.length
  | .updAck id off => (c.str id).isSome → off ≤ (l.at id).taken.length
  | .setClientPri _ v => v.length < 2 ^ 62 - 8
  | _ => True

/-- the ledgers and connections that a history of such calls can reach.  In between, what arrives from the peer (SETTINGS, the decoder
stream) may change the encoder, as `peer` says -/
inductive Run (encode : Encode E F) (peer : E → E → Prop) (c0 : Conn E F) : Ledger F → Conn E F → Prop where
  | init : Run encode peer c0 {} c0
  | step {l : Ledger F} {c c' : Conn E F} {o : Op F} {r : Ret} : Run encode peer c0 l c → Permits l c o → Conn.step encode c o = R.ok (c', r) →
      Run encode peer c0 (note l c o r) c'
  | peer {l : Ledger F} {c : Conn E F} {e : E} : Run encode peer c0 l c → peer c.enc e → Run encode peer c0 l { c with enc := e }

/-- what the encoder made of a field section: the prefix, the field lines, and what goes on the encoder stream -/
structure Made (F : Type) where
  nva : F
  pre : Bytes
  lines : Bytes
  enc : Bytes

/-- what a call of nghttp3_conn_writev_stream has done: the request stream it served, the answers of read_data it used, the field sections it
had encoded, and the bytes of the QPACK decoder it has put on the decoder stream -/
structure Serve (F : Type) where
  id : Nat := 0
  used : List Ans := []
  made : List (Made F) := []
  dec : Bytes := []

/-- the field sections were encoded one after the other, from the encoder state `e` to `e'`, which may change in between as `peer` says -/
inductive Chain (encode : Encode E F) (peer : E → E → Prop) : E → List (Made F) → E → Prop where
  | nil (e : E) : Chain encode peer e [] e
  | cons {e e1 e' : E} {m : Made F} {t : List (Made F)} : encode e m.nva = some (e1, m.pre, m.lines, m.enc) → Chain encode peer e1 t e' →
      Chain encode peer e (m :: t) e'
  | peer {e e1 e' : E} {t : List (Made F)} : peer e e1 → Chain encode peer e1 t e' → Chain encode peer e t e'

/-- the items `em` serve the submitted frames in order, each once, and `rest` are still to be served; the field sections are those of `ks`, in
order; a body is served by any number of answers of which only the last says EOF -/
inductive Serves : List (Frent F) → List (Made F) → List Emit → List (Frent F) → Prop where
  | done (rest : List (Frent F)) : Serves rest [] [] rest
  | settings {s fs ks em rest} : Serves fs ks em rest → Serves (.settings s :: fs) ks (.settings s :: em) rest
  | headers {m : Made F} {fs ks em rest} : Serves fs ks em rest → Serves (.headers m.nva :: fs) (m :: ks) (.headers m.pre m.lines m.enc :: em) rest
  | dataMore {v noEnd fs ks em rest} : Serves (.data :: fs) ks em rest → Serves (.data :: fs) ks (.data v false noEnd :: em) rest
  | dataEnd {v noEnd fs ks em rest} : Serves fs ks em rest → Serves (.data :: fs) ks (.data v true noEnd :: em) rest
  | goaway {id fs ks em rest} : Serves fs ks em rest → Serves (.goaway id :: fs) ks (.goaway id :: em) rest
  | priorityUpdate {ft el v fs ks em rest} : Serves fs ks em rest → Serves (.priorityUpdate ft el v :: fs) ks (.priorityUpdate ft el v :: em) rest

/-- the calls that served the stream `x`, after the first `n` calls -/
def servedSince (log : List (Serve F)) (n x : Nat) : List (Serve F) := (log.drop n).filter (fun e => e.id == x)

/-- the log has one entry for each call of nghttp3_conn_writev_stream, and each call has used what was available to it: the first answers
of read_data, and all that the decoder had to send -/
def Tallies (log : List (Serve F)) (asks : List (Bytes × List Ans)) : Prop :=
  log.length = asks.length ∧ ∀ p ∈ log.zip asks, p.1.used <+: p.2.2 ∧ p.1.dec = p.2.1

end Sent
end Nghttp3
