import Verif.Spec.Varint

/-! Independent description of the HTTP/3 wire format (RFC 9114 section 7, RFC 9218 section 7):
which byte strings are which frames. -/
namespace Spec

/-- `bs` is a frame of type `type` with payload `payload`. -/
def IsFrame (type : Nat) (payload bs : List UInt8) : Prop :=
  ∃ t l, IsVarint type t ∧ IsVarint payload.length l ∧ bs = t ++ l ++ payload

/-- `bs` is a sequence of (identifier, value) pairs. -/
inductive IsSettings : List (Nat × Nat) → List UInt8 → Prop
  | nil : IsSettings [] []
  | cons {i v : Nat} {bi bv : List UInt8} {ivs : List (Nat × Nat)} {bs : List UInt8} :
      IsVarint i bi → IsVarint v bv → IsSettings ivs bs → IsSettings ((i, v) :: ivs) (bi ++ bv ++ bs)

end Spec
