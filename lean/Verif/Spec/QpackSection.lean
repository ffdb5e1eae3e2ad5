import Verif.Model.QpackEnc
import Verif.Spec.QpackInt
/-! What field line representations and encoder instructions mean (RFC 9204, sections 4.3 and 4.5) with respect to the
contents of a dynamic table. -/
namespace Nghttp3
namespace Qpack

/-- the field line a representation denotes with respect to a dynamic table -/
def Rep.denotes (c : Ctx) : Rep → Nv → Prop
  | .static i, nv => nv.never = false ∧ ∃ t, stable[i]? = some (nv.name, nv.value, t)
  | .dyn a, nv => nv.never = false ∧ ∃ x, c.get a = some x ∧ x.name = nv.name ∧ x.value = nv.value
  | .nameStatic i v never, nv => v = nv.value ∧ never = nv.never ∧ ∃ v' t, stable[i]? = some (nv.name, v', t)
  | .nameDyn a v never, nv => v = nv.value ∧ never = nv.never ∧ ∃ x, c.get a = some x ∧ x.name = nv.name
  | .lit n v never, nv => n = nv.name ∧ v = nv.value ∧ never = nv.never

/-- the dynamic entries a representation refers to -/
def Rep.refs : Rep → List Nat
  | .dyn a | .nameDyn a _ _ => [a]
  | _ => []

/-- the entry an insertion creates -/
def EIns.inserts (c : Ctx) : EIns → Bytes → Bytes → Prop
  | .setCap _, _, _ => False
  | .insStatic i v, name, value => v = value ∧ ∃ v' t, stable[i]? = some (name, v', t)
  | .insDyn rel v, name, value => v = value ∧ rel < c.next ∧ ∃ x, c.get (c.next - rel - 1) = some x ∧ x.name = name
  | .insLit n v, name, value => n = name ∧ v = value
  | .dup rel, name, value => rel < c.next ∧ ∃ x, c.get (c.next - rel - 1) = some x ∧ x.name = name ∧ x.value = value

/-- does the instruction insert an entry (RFC 9204, section 4.3: all but Set Dynamic Table Capacity) -/
def EIns.isInsert : EIns → Bool
  | .setCap _ => false
  | _ => true

/-- the representation is a literal with the N bit (RFC 9204, sections 4.5.4-4.5.6) -/
def Rep.neverBit : Rep → Bool
  | .static _ => false
  | .dyn _ => false
  | .nameStatic _ _ n => n
  | .nameDyn _ _ n => n
  | .lit _ _ n => n

/-- first byte of a literal whose N bit is set (RFC 9204, sections 4.5.4-4.5.6): 011Txxxx, 00001xxx, 0011xxxx -/
def NeverLiteral : Bytes → Prop
  | [] => False
  | b :: _ => b.toNat / 32 = 3 ∨ b.toNat / 8 = 1 ∨ b.toNat / 16 = 3

/-- decoder instructions of RFC 9204, section 4.4: length of the integer prefix -/
def DOpc.pfx : DOpc → Nat
  | .ack => 7
  | .cancel => 6
  | .icnt => 6

/-- 1xxxxxxx, 01xxxxxx, 00xxxxxx -/
def DOpc.bits : DOpc → Nat
  | .ack => 1
  | .cancel => 1
  | .icnt => 0

/-- `enc` encodes a decoder instruction; at most ten bytes, value below 2^62 -/
def DsInstr (enc : Bytes) (op : DOpc) (n : Nat) : Prop :=
  (∃ b t, enc = b :: t ∧ b.toNat / 2 ^ op.pfx = op.bits) ∧ Spec.QInt.Encodes op.pfx enc n ∧ n ≤ 2 ^ 62 - 1 ∧ enc.length ≤ 10

end Qpack
end Nghttp3
