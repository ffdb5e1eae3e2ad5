import Verif.Model.Endpoint
import Verif.Spec.Calls
/-! Histories of a whole connection: which calls a program may make, and the states it can reach. -/
namespace Nghttp3
namespace Endpoint
open Outq (FrentOk)

/-- the calls of the application as calls on the part of the connection that Spec/Calls.lean speaks of -/
def Call.op : Call → Option (Conn.Op Fld)
  | .read _ _ _ => none
  | .setMaxConc _ => none
  | .bindControl id => some (.bindControl id)
  | .bindQpack e d => some (.bindQpack e d)
  | .submitRequest id nva dr => some (.submitRequest id (id, nva) dr)
  | .submitInfo id nva => some (.submitInfo id (id, nva))
  | .submitResponse id nva dr => some (.submitResponse id (id, nva) dr)
  | .submitTrailers id nva => some (.submitTrailers id (id, nva))
  | .writev k as => some (.writev k [] as)
  | .addWrite id n => some (.addWrite id n)
  | .addAck id n => some (.addAck id n)
  | .updAck id off => some (.updAck id off)
  | .block id => some (.block id)
  | .unblock id => some (.unblock id)
  | .shutWr id => some (.shutWr id)
  | .resume id => some (.resume id)
  | .shutRd id => some (.shutRd id)
  | .close id => some (.close id)
  | .notice => some .notice
  | .shutdown => some .shutdown
  | .setServerPri id pri => some (.setServerPri id pri)
  | .setClientPri id v => some (.setClientPri id v)
  | .setMaxClient n => some (.setMaxClient n)

/-- What the caller has to make sure of.  For received data only this: the transport does not report data on a unidirectional stream that this
endpoint has opened.  For calls of the application: what the documentation asks for (`Allowed`); no call makes a stream ready for sending that
was closed while it waits for the QPACK encoder stream (`LeavesClosed`, see C49); a server does not close a stream that waits for the QPACK
encoder stream, because afterwards received data can do just that. -/
def Permitted (ep : Ep) (o : Call) : Prop :=
  match o.op with
  | some op => Conn.OpOk op ∧ Conn.LeavesClosed ep.c op ∧ Conn.Allowed ep.c op ∧
      (∀ id, o = .close id → ep.c.server = true → ∀ s, ep.c.str id = some s → s.qblocked = false)
  | none => ∀ id src fin, o = .read id src fin → id < 2 ^ 62 ∧ ¬ Conn.ownUni ep.c.server id

/-- a record of what was called, what it returned, and which callbacks it made -/
abbrev Log := List (Call × Conn.Ret × List Ev)

/-- histories: a new connection, then permitted calls that do not end the connection -/
inductive Hist (P : Par) (server : Bool) (st : Settings) : Log → Ep → Prop where
  | init : Hist P server st [] (init server st)
  | step {l : Log} {ep ep' : Ep} {o : Call} {r : Conn.Ret} {ev : List Ev} : Hist P server st l ep → Permitted ep o →
      step P ep o = .ok ep' r ev → Hist P server st (l ++ [(o, r, ev)]) ep'

/-- what conn_new asserts of the settings, nghttp3_conn.c:239-242 -/
def SettingsOk (st : Settings) : Prop :=
  st.maxFieldSectionSize < 2 ^ 62 ∧ st.qpackMaxDtableCapacity < 2 ^ 62 ∧ st.qpackEncoderMaxDtableCapacity < 2 ^ 62 ∧ st.qpackBlockedStreams < 2 ^ 62

/-- the parser of priority field values gives urgencies from 0 to 7 (C18) -/
def ParOk (P : Par) : Prop := ∀ p b q, p.urgency < 8 → P.pp p b = some q → q.urgency < 8

/-- the request stream exists and waits for entries of the QPACK encoder stream -/
def Waiting (ep : Ep) (id : Nat) : Prop := Conn.clientBidi id = true ∧ ∃ s, ep.c.str id = some s ∧ s.qblocked = true

end Endpoint
end Nghttp3
