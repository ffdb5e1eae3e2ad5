import Verif.Model.Conn
/-! What the application of a connection can rely on: vocabulary for the properties of the scheduler. -/
namespace Nghttp3
namespace Conn
open Outq (R)

variable {E F : Type}

/-- the stream has something to send and may send it: it is neither blocked by flow control nor shut for writing, and it has unsent bytes,
or frames from which bytes can be made -/
def sendable (s : Strm F) : Bool :=
  !s.fc && !s.shutWr && (!Outq.writeDone s.out || (!s.out.frq.isEmpty && !s.out.readBlocked))

/-- the call is one that the documentation allows: responses and trailers are for request streams; a priority has an urgency below 8
(for those that are received nghttp3_http_parse_priority makes sure of that, C36); only request streams wait for QPACK -/
def OpOk : Op F → Prop
  | .submitInfo id _ => clientBidi id = true
  | .submitResponse id _ _ => clientBidi id = true
  | .submitTrailers id _ => clientBidi id = true
  | .priUpd _ p => p.urgency < 8
  | .hdrPri _ p => p.urgency < 8
  | .qpackUnblock id p _ => clientBidi id = true ∧ ∀ q, p = some q → q.urgency < 8
  | _ => True

/-- the stream, if there is one, has not been closed -/
def Open (c : Conn E F) (id : Nat) : Prop := ∀ s, c.str id = some s → s.closed = false

/-- the call does not make a stream ready for sending that the application has closed but that still waits for QPACK -/
def LeavesClosed (c : Conn E F) : Op F → Prop
  | .submitInfo id _ => Open c id
  | .submitResponse id _ _ => Open c id
  | .submitTrailers id _ => Open c id
  | .unblock id => Open c id
  | .resume id => Open c id
  | .addWrite id _ => Open c id
  | .setServerPri id _ => Open c id
  | .priUpd id _ => Open c id
  | .hdrPri id _ => Open c id
  | .qpackUnblock id p _ => p ≠ none → Open c id
  | _ => True

/-- the cycle of the first stream of an urgency level -/
def Conn.firstCyc (c : Conn E F) (u : Nat) : UInt64 := c.cyc ((c.sched u).q 0)

/-- most bytes written in one turn for which the comparison of cycles is right: 800 * (2^24 + 1) - 1, about 13 GB -/
def WLIM : Nat := 800 * (2 ^ 24 + 1)

/-- what is reported as written goes, for a scheduled request stream, to one with the smallest cycle, and is less than the limit -/
def WriteOk (c : Conn E F) (id n : Nat) : Prop :=
  ∀ s, c.str id = some s → clientBidi id = true → s.uwrite + n < WLIM ∧ (s.sched = true → 0 < n → s.cycle = c.firstCyc s.pri.urgency)

/-- written bytes are reported for the stream that was offered -/
def FairWrite (c : Conn E F) : Op F → Prop
  | .addWrite id n => WriteOk c id n
  | _ => True

/-- the states that a history of calls can reach, each of which satisfies `P` in the state in which it is made; in between, what arrives from
the peer (SETTINGS, the decoder stream) may change the encoder in any way -/
inductive Reach (encode : Encode E F) (P : Conn E F → Op F → Prop) (c0 : Conn E F) : Conn E F → Prop where
  | init : Reach encode P c0 c0
  | step {c c' : Conn E F} {o : Op F} {r : Ret} : Reach encode P c0 c → P c o → Conn.step encode c o = R.ok (c', r) → Reach encode P c0 c'
  | peer {c : Conn E F} (e : E) : Reach encode P c0 c → Reach encode P c0 { c with enc := e }

/-- a history of calls from one state to another; in between, the encoder may change -/
inductive Hist (encode : Encode E F) (P : Conn E F → Op F → Prop) : Conn E F → List (Op F) → Conn E F → Prop where
  | nil {c : Conn E F} : Hist encode P c [] c
  | cons {c c1 c2 : Conn E F} {o : Op F} {t : List (Op F)} {r : Ret} : P c o → Conn.step encode c o = R.ok (c1, r) → Hist encode P c1 t c2 →
      Hist encode P c (o :: t) c2
  | peer {c c2 : Conn E F} {t : List (Op F)} (e : E) : Hist encode P { c with enc := e } t c2 → Hist encode P c t c2

/-- the stream waits for its turn among the incremental streams of urgency `u` -/
def rr (c : Conn E F) (u x : Nat) : Bool :=
  match c.str x with
  | some s => s.sched && decide (s.pri = ⟨u, true⟩)
  | none => false

/-- the streams that a call, or a received frame, names -/
def names : Op F → Nat → Bool
  | .bindControl id, x => id == x
  | .bindQpack e d, x => e == x || d == x
  | .submitRequest id _ _, x => id == x
  | .submitInfo id _, x => id == x
  | .submitResponse id _ _, x => id == x
  | .submitTrailers id _, x => id == x
  | .addWrite id _, x => id == x
  | .addAck id _, x => id == x
  | .updAck id _, x => id == x
  | .block id, x => id == x
  | .unblock id, x => id == x
  | .shutWr id, x => id == x
  | .resume id, x => id == x
  | .shutRd id, x => id == x
  | .close id, x => id == x
  | .setServerPri id _, x => id == x
  | .setClientPri id _, x => id == x
  | .open id _, x => id == x
  | .uni id _ _, x => id == x
  | .priUpd id _, x => id == x
  | .hdrPri id _, x => id == x
  | .qpackBlock id, x => id == x
  | .qpackUnblock id _ _, x => id == x
  | _, _ => false

/-- what other incremental streams of urgency `u` get by this call: the bytes written, counted up to 800 per turn -/
def served (c : Conn E F) (u : Nat) : Op F → Nat
  | .addWrite x n => if rr c u x then min n 800 else 0
  | _ => 0

/-- a stream other than `a` has become ready, or ready again -/
def Arrives (c c' : Conn E F) (u a : Nat) : Prop := ∃ x, x ≠ a ∧ rr c u x = false ∧ rr c' u x = true

open Classical in
/-- A history in which the incremental stream `a` of urgency `u` waits all the time, and no call names it: in particular nothing is written
on it.  `m`: what the other incremental streams of this urgency get meanwhile; `j`: the number of arrivals. -/
inductive Waits (encode : Encode E F) (u a : Nat) : Conn E F → Nat → Nat → Conn E F → Prop where
  | nil {c : Conn E F} : Waits encode u a c 0 0 c
  | cons {c c1 c2 : Conn E F} {o : Op F} {r : Ret} {m j : Nat} : OpOk o → FairWrite c o → names o a = false →
      Conn.step encode c o = R.ok (c1, r) → rr c1 u a = true → Waits encode u a c1 m j c2 →
      Waits encode u a c (served c u o + m) ((if Arrives c c1 u a then 1 else 0) + j) c2

/-- how many cycles the stream is behind the first stream of its urgency -/
def gap (c : Conn E F) (u a : Nat) : Nat := (c.cyc a - c.firstCyc u).toNat

end Conn
end Nghttp3
