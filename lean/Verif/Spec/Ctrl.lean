import Verif.Spec.Endpoint
import Verif.Spec.Varint
/-! The control stream of the peer, seen in the history of a whole connection. -/
namespace Nghttp3
namespace Endpoint

/-- the bytes of the stream, after one more call; a stream that was closed is a new one afterwards -/
def arrive (u : Nat) (b : Bytes) (x : Call × Conn.Ret × List Ev) : Bytes :=
  match x.1 with
  | .read id src _ => if id = u then b ++ src else b
  | .close id => if id = u ∧ x.2.1 = .code 0 then [] else b
  | _ => b

/-- the bytes that have arrived on the stream -/
def Log.arrived (l : Log) (u : Nat) : Bytes := l.foldl (arrive u) []

/-- the callbacks of the control stream: recv_settings and shutdown -/
def ctlOf : Ev → Option Control.Ev
  | .ctl e => some e
  | .str _ _ => none

def Log.reports (l : Log) : List Control.Ev := l.flatMap fun x => x.2.2.filterMap ctlOf

/-- The stream belongs to the peer and the bytes that have arrived on it begin with the stream type 0 (RFC 9114, section 6.2.1), in any of its
encodings; what follows is `bs`. -/
def IsControl (server : Bool) (l : Log) (u : Nat) (bs : Bytes) : Prop :=
  Conn.peerUni server u ∧ ∃ t, Spec.IsVarint 0 t ∧ l.arrived u = t ++ bs

/-- the same for any stream type -/
def HasType (server : Bool) (l : Log) (u v : Nat) : Prop := Conn.peerUni server u ∧ ∃ t bs, Spec.IsVarint v t ∧ l.arrived u = t ++ bs

end Endpoint
end Nghttp3
