import Verif.Props.QpackEnc
import Verif.Spec.Endpoint
import Verif.Spec.Sent
/-! Specification: what a history of a QPACK encoder (`EncOp`, Props/QpackEnc.lean) consists of, and what the bytes of a decoder stream say. -/
namespace Nghttp3
namespace Qpack

/-- no decoder instruction is complete at the beginning of `p` -/
def Unfinished (p : Bytes) : Prop := ∀ (x y : Bytes) (op : DOpc) (n : Nat), DsInstr x op n → p ≠ x ++ y

/-- the bytes are the instructions, one after the other, and then at most the beginning of another -/
def Spells (is : List (DOpc × Nat)) (bs : Bytes) : Prop :=
  ∃ (l : List (Bytes × DOpc × Nat)) (p : Bytes), (∀ x ∈ l, DsInstr x.1 x.2.1 x.2.2) ∧ l.map (·.2) = is ∧ bs = l.flatMap (·.1) ++ p ∧ Unfinished p

/-- the decoder instructions in a history -/
def instrs (ops : List EncOp) : List (DOpc × Nat) := ops.filterMap fun | .instr op n => some (op, n) | _ => none

/-- the capacities set in a history -/
def caps (ops : List EncOp) : List Nat := ops.filterMap fun | .setCap n => some n | _ => none

/-- the limits of blocked streams set in a history -/
def blocks (ops : List EncOp) : List Nat := ops.filterMap fun | .setMaxBlocked n => some n | _ => none

/-- the field section encoded by an operation, and what nghttp3_qpack_encoder_encode makes of it -/
def madeBy (s : ESys) : EncOp → List ((Nat × List Nv) × EncOut)
  | .encode id nvs => ((s.e.encode id nvs).map fun r => ((id, nvs), r)).toList
  | _ => []

/-- the field sections encoded in a history that starts with `s` -/
def made : ESys → List EncOp → List ((Nat × List Nv) × EncOut)
  | _, [] => []
  | s, o :: t => madeBy s o ++ match s.step o with | .ok s' => made s' t | _ => []

/-- in the words of Spec/Sent.lean: the fields, the prefix, the field lines, and what goes on the encoder stream -/
def asMade (x : (Nat × List Nv) × EncOut) : Sent.Made (Nat × List Nv) := ⟨x.1, x.2.pfx, x.2.reps.flatMap (Rep.bytes x.2.base), x.2.ebuf⟩

/-- what has been written is never declared received without the peer's saying so -/
def NoShortcut (ops : List EncOp) : Prop := EncOp.ackEverything ∉ ops

/-- what the SETTINGS of the peer allow, `cap` bytes of dynamic table and `n` blocked streams, was set once each; 0 is what is assumed without
SETTINGS.  Limits above 100 count as 100, nghttp3_conn.c:1702-1704 -/
def Allowed (cap n : Nat) (ops : List EncOp) : Prop :=
  caps ops = (if cap = 0 then [] else [cap]) ∧ blocks ops = if n = 0 then [] else [min 100 n]

end Qpack
end Nghttp3
