import Verif.Spec.Endpoint
import Verif.Spec.Sent
/-! The ledger of Spec/Sent.lean for histories of a whole connection: what its streams carry, told from the calls made and from what they return. -/
namespace Nghttp3
namespace Endpoint
open Outq (R)
open Sent (Ledger)

/-- how received data changes the encoder: the decoder stream of the peer, and its SETTINGS -/
def FromPeer (e e' : Qpack.Enc) : Prop := (∃ b, e.readDecoder b = .ok e') ∨ (∃ v, e' = e.setMaxCap v) ∨ ∃ v, e' = e.setMaxBlocked (min 100 v)

/-- the call as Spec/Sent.lean speaks of it: a write has the bytes that the QPACK decoder has to send -/
def opOn (ep : Ep) (o : Call) : Option (Conn.Op Fld) :=
  match o with
  | .writev k as => some (.writev k ep.dec.writeDecoder.2 as)
  | _ => o.op

/-- what a call that returned `r` does to the ledger; received data does not concern it, except that the streams it opens begin with an empty
book -/
def note (L : Ledger Fld) (ep : Ep) (o : Call) (r : Conn.Ret) : Ledger Fld :=
  match opOn ep o with
  | some op => Sent.note L ep.c op r
  | none => { L with «at» := fun x => if (ep.c.str x).isSome then L.at x else { born := L.asks.length } }

/-- histories of a whole connection, with the ledger; besides what is `Permitted`, the transport takes no more than was offered and acknowledges
no more than it took, and read_data says EOF if it has no data (`Sent.Permits`) -/
inductive Kept (P : Par) (server : Bool) (st : Settings) : Ledger Fld → Log → Ep → Prop where
  | init : Kept P server st {} [] (init server st)
  | step {L : Ledger Fld} {l : Log} {ep ep' : Ep} {o : Call} {r : Conn.Ret} {ev : List Ev} : Kept P server st L l ep → Permitted ep o →
      (∀ op, opOn ep o = some op → Sent.Permits L ep.c op) → step P ep o = .ok ep' r ev → Kept P server st (note L ep o r) (l ++ [(o, r, ev)]) ep'

end Endpoint
end Nghttp3
