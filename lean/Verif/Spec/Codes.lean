import Verif.Spec.Sent
/-! Specification: what the calls return, from their documentation in nghttp3.h. -/
namespace Nghttp3
namespace Sent
open Conn
open Outq (Ans)

variable {E F : Type}

/-- read_data has said that there is no more data and that the stream ends with it (EOF without NO_END_STREAM) -/
def saysEnd : Ans → Bool
  | .vecs _ true false => true
  | _ => false

/-- the application has announced the end of the stream `x`: by a call, or by an answer of read_data -/
def Ended (l : Ledger F) (log : List (Serve F)) (x : Nat) : Prop :=
  (l.at x).closed = true ∨ ∃ e ∈ servedSince log (l.at x).born x, ∃ a ∈ e.used, saysEnd a = true

/-- `n` is the documented return value of the call: 0, or NGHTTP3_ERR_INVALID_ARGUMENT −101, NGHTTP3_ERR_INVALID_STATE −102,
NGHTTP3_ERR_STREAM_IN_USE −104, NGHTTP3_ERR_STREAM_NOT_FOUND −110, NGHTTP3_ERR_CONN_CLOSING −111, NGHTTP3_ERR_H3_CLOSED_CRITICAL_STREAM −605.
For the calls that receive data or write, nothing is said here. -/
def Documented (l : Ledger F) (c : Conn E F) (log : List (Serve F)) (n : Int) : Op F → Prop
  | .submitRequest id _ _ =>
      (n = -111 ∧ c.goawayRecved = true) ∨ (n = -104 ∧ c.goawayRecved = false ∧ (c.str id).isSome) ∨ (n = 0 ∧ c.goawayRecved = false ∧ c.str id = none)
  | .submitInfo id _ | .submitResponse id _ _ => (n = -110 ∧ c.str id = none) ∨ (n = 0 ∧ (c.str id).isSome)
  | .submitTrailers id _ =>
      (n = -110 ∧ c.str id = none) ∨ (n = -102 ∧ (c.str id).isSome ∧ Ended l log id) ∨ (n = 0 ∧ (c.str id).isSome ∧ ¬ Ended l log id)
  | .close id => (n = -110 ∧ c.str id = none) ∨ ∃ s, c.str id = some s ∧
      ((n = -605 ∧ streamUni id = true ∧ s.ty ≠ .unknown) ∨ (n = 0 ∧ (streamUni id = false ∨ s.ty = .unknown)))
  | .updAck id off => (n = -101 ∧ (c.str id).isSome ∧ off < (l.at id).acked) ∨ (n = 0 ∧ ((c.str id).isSome → (l.at id).acked ≤ off))
  | .setServerPri id _ | .setClientPri id _ =>
      (n = -101 ∧ clientBidi id = false) ∨ (n = -110 ∧ clientBidi id = true ∧ c.str id = none) ∨ (n = 0 ∧ clientBidi id = true ∧ (c.str id).isSome)
  | .bindControl id =>
      (n = -102 ∧ c.ctrl ≠ none) ∨ (n = -101 ∧ c.ctrl = none ∧ (c.str id).isSome) ∨ (n = 0 ∧ c.ctrl = none ∧ c.str id = none)
  | .bindQpack e d =>
      (n = -102 ∧ ¬ (c.qenc = none ∧ c.qdec = none)) ∨
      (n = -101 ∧ c.qenc = none ∧ c.qdec = none ∧ ((c.str e).isSome ∨ (c.str d).isSome ∨ e = d)) ∨
      (n = 0 ∧ c.qenc = none ∧ c.qdec = none ∧ c.str e = none ∧ c.str d = none ∧ e ≠ d)
  | .addWrite .. | .addAck .. | .block _ | .unblock _ | .shutWr _ | .resume _ | .shutRd _ | .notice | .shutdown | .setMaxClient _ => n = 0
  | .writev .. | .open .. | .uni .. | .priUpd .. | .hdrPri .. | .qpackBlock _ | .qpackUnblock .. | .recvGoaway => True

/-- the calls about which `Documented` says something -/
def isApi : Op F → Bool
  | .writev .. | .open .. | .uni .. | .priUpd .. | .hdrPri .. | .qpackBlock _ | .qpackUnblock .. | .recvGoaway => false
  | _ => true

end Sent
end Nghttp3
