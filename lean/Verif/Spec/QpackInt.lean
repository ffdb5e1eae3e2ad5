/-! RFC 7541 §5.1 / RFC 9204 §4.1.1: integer with an N-bit prefix. -/
namespace Nghttp3
namespace Spec
namespace QInt

/-- value of the continuation bytes: 7-bit groups, least significant first -/
def groupsVal : List UInt8 → Nat
  | [] => 0
  | b :: t => b.toNat % 128 + 128 * groupsVal t

/-- the continuation bytes are complete: every byte but the last has its top bit set, the last one has not -/
def groupsOk : List UInt8 → Prop
  | [] => False
  | [b] => b.toNat < 128
  | b :: c :: t => 128 ≤ b.toNat ∧ groupsOk (c :: t)

/-- `enc` is an encoding of the integer `n` in an `N`-bit prefix -/
def Encodes (N : Nat) (enc : List UInt8) (n : Nat) : Prop :=
  match enc with
  | [] => False
  | b :: g =>
    (g = [] ∧ b.toNat % 2 ^ N < 2 ^ N - 1 ∧ n = b.toNat % 2 ^ N) ∨
    (b.toNat % 2 ^ N = 2 ^ N - 1 ∧ groupsOk g ∧ n = 2 ^ N - 1 + groupsVal g)

end QInt
end Spec
end Nghttp3
