/-
Independent specification of QUIC variable-length integers (RFC 9000 section 16), not using any
function of the model.
-/
namespace Spec

/-- Big-endian number denoted by a byte string, given by positions. -/
def bigEndian : List UInt8 → Nat
  | [] => 0
  | b :: t => b.toNat * 256 ^ t.length + bigEndian t

/-- `bs` is a variable-length integer encoding of `n`: the two most significant bits of the first
byte are the base-2 logarithm of the length, the remaining bits are `n` in network byte order. -/
def IsVarint (n : Nat) (bs : List UInt8) : Prop :=
  ∃ e, e ≤ 3 ∧ bs.length = 2 ^ e ∧ n < 2 ^ (8 * 2 ^ e - 2) ∧
    bigEndian bs = e * 2 ^ (8 * 2 ^ e - 2) + n

end Spec
