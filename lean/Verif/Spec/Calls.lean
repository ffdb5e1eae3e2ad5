import Verif.Spec.Conn
import Verif.Spec.Outq
/-! The conditions under which each call is allowed: what the documentation (nghttp3.h) or the transport guarantees. -/
namespace Nghttp3
namespace Conn
open Outq (Frent FrentOk AnsOk)

variable {E F : Type}

/-- unidirectional streams that this endpoint opens, and that its peer opens -/
def ownUni (server : Bool) (id : Nat) : Prop := id % 4 = if server then 3 else 2
def peerUni (server : Bool) (id : Nat) : Prop := id % 4 = if server then 2 else 3

/-- What the caller has to make sure of.  Stream identifiers are below 2^62 and belong to the right side; the control and QPACK streams are
bound before they are needed; no more bytes are reported as written than are waiting, no more are acknowledged than were written; the
application calls nghttp3_conn_shutdown once, and no shutdown notice after it; the limit on streams does not shrink.  The last group are
events of the receiving side, which arise only for existing request streams; a stream waits for QPACK at most once at a time. -/
def Allowed (c : Conn E F) : Op F → Prop
  | .bindControl id => id < 2 ^ 62 ∧ ownUni c.server id
  | .bindQpack e d => e < 2 ^ 62 ∧ d < 2 ^ 62 ∧ ownUni c.server e ∧ ownUni c.server d
  | .submitRequest id _ _ => c.server = false ∧ c.qenc.isSome = true ∧ id < 2 ^ 62 ∧ id % 4 = 0
  | .submitInfo _ _ => c.server = true ∧ c.qenc.isSome = true
  | .submitResponse _ _ _ => c.server = true ∧ c.qenc.isSome = true
  | .submitTrailers _ _ => c.qenc.isSome = true
  | .writev _ _ as => ∀ a ∈ as, AnsOk a
  | .addWrite id n => ∀ s, c.str id = some s → n ≤ s.out.unsent
  | .addAck id n => ∀ s, c.str id = some s → s.out.ackOffset + n + s.out.unsent ≤ s.out.txOffset
  | .updAck id off => ∀ s, c.str id = some s → off + s.out.unsent ≤ s.out.txOffset
  | .block _ => True
  | .unblock _ => True
  | .shutWr _ => True
  | .resume _ => True
  | .shutRd id => id < 2 ^ 62
  | .close _ => True
  | .notice => c.ctrl.isSome = true ∧ c.shutdownCommenced = false
  | .shutdown => c.ctrl.isSome = true ∧ c.shutdownCommenced = false
  | .setServerPri id pri => c.server = true ∧ pri.urgency < 8 ∧ id < 2 ^ 62
  | .setClientPri id v => c.server = false ∧ id < 2 ^ 62 ∧ c.ctrl.isSome = true ∧ v.length < 2 ^ 62 - 8
  | .setMaxClient n => c.server = true ∧ c.maxClient ≤ n
  | .open id _ => id < 2 ^ 62 ∧ ¬ ownUni c.server id
  | .uni id _ _ => peerUni c.server id ∧ (c.str id).isSome = true
  | .priUpd id _ => c.server = true ∧ id < 2 ^ 62
  | .hdrPri id _ => id % 4 = 0 ∧ (c.str id).isSome = true
  | .qpackBlock id => id % 4 = 0 ∧ ∃ s, c.str id = some s ∧ s.qblocked = false
  | .qpackUnblock id _ _ => id % 4 = 0 ∧ ∃ s, c.str id = some s ∧ s.qblocked = true
  | .recvGoaway => True

end Conn
end Nghttp3
