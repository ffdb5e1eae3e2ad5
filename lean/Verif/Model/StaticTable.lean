import Verif.Gen.StaticTable
/-! Model of qpack_lookup_token and nghttp3_qpack_lookup_stable (lib/nghttp3_qpack.c). -/
namespace Nghttp3
namespace Qpack

/-- memeq, nghttp3_qpack.c:337-339; `none` when fewer than `n` bytes can be read -/
def memeq (s1 s2 : List UInt8) (n : Nat) : Bool := n == 0 || s1.take n == s2.take n

/-- the `case 'c':` arms of one length -/
def lookupArms (name : List UInt8) (c : Nat) : List (Nat × List (List UInt8 × Nat × Nat)) → Option Nat
  | [] => none
  | (ch, xs) :: t =>
    if ch == c then (xs.find? fun x => memeq x.1 name x.2.1).map (·.2.2) else lookupArms name c t

/-- the `case len:` arms -/
def lookupRows (name : List UInt8) : List SwitchRow → Option Nat
  | [] => none
  | r :: t =>
    if r.len == name.length then lookupArms name ((name[r.idx]?).getD 0).toNat r.cases else lookupRows name t

/-- qpack_lookup_token, nghttp3_qpack.c:342-735; `none` is −1 -/
def lookupToken (name : List UInt8) : Option Nat := lookupRows name lookupSwitch

/-- nghttp3_qpack_indexing_mode, nghttp3_qpack.h -/
inductive Mode where | literal | store | never
deriving DecidableEq, Repr

/-- the loop of nghttp3_qpack_lookup_stable, nghttp3_qpack.c:1627-1638: `l` is the rest of `token_stable`
from the current `i` -/
def lookupStableLoop (value : List UInt8) (token : Nat) : List (Nat × Nat × Nat) → Option Nat
  | [] => none
  | (absidx, tk, _) :: t =>
    if tk == token then
      if ((stable[absidx]?).getD ([], [], 0)).2.1 == value then some absidx
      else lookupStableLoop value token t
    else none

/-- nghttp3_qpack_lookup_stable, nghttp3_qpack.c:1610-1640: (index, name_value_match) -/
def lookupStable (value : List UInt8) (token : Nat) (mode : Mode) : Nat × Bool :=
  let first := ((tokenStable[token]?).getD (0, 0, 0)).1
  if mode = .never then (first, false)
  else
    match lookupStableLoop value token (tokenStable.drop token) with
    | some i => (i, true)
    | none => (first, false)

/-- qpack_hash_name, nghttp3_qpack.c:1282-1293 (uint32_t arithmetic) -/
def hashName (name : List UInt8) : Nat :=
  name.foldl (fun h b =>
    let h := h ^^^ b.toNat
    (h + (h <<< 1) + (h <<< 4) + (h <<< 7) + (h <<< 8) + (h <<< 24)) % 2 ^ 32) 2166136261

end Qpack
end Nghttp3
