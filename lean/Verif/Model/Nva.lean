import Verif.Gen.Chars
/-! Model of nghttp3_nva_copy (lib/nghttp3_frame.c) and nghttp3_downcase (lib/nghttp3_str.c). -/
namespace Nghttp3

/-- nghttp3_nv as submitted, nghttp3.h (the strings the pointers refer to are part of it) -/
structure Nv where
  name : List UInt8
  value : List UInt8
  flags : Nat
deriving DecidableEq, Repr

/-- `flags & NGHTTP3_NV_FLAG_NO_COPY_NAME`, nghttp3.h:713 -/
def Nv.noCopyName (x : Nv) : Bool := x.flags.testBit 1

/-- `flags & NGHTTP3_NV_FLAG_NO_COPY_VALUE`, nghttp3.h:722 -/
def Nv.noCopyValue (x : Nv) : Bool := x.flags.testBit 2

/-- where a pointer of the copy points to: the string of the submitted list, or an offset from the start of the data area (the
part of the allocation behind the array of nghttp3_nv) -/
inductive NvPtr where
  | orig
  | data (off : Nat)
deriving DecidableEq, Repr

/-- an element of the copied array -/
structure NvOut where
  name : NvPtr
  namelen : Nat
  value : NvPtr
  valuelen : Nat
  flags : Nat
deriving DecidableEq, Repr

/-- memory write with bounds check: `none` is a write outside the allocation -/
def memWrite (m : List UInt8) (off : Nat) (bs : List UInt8) : Option (List UInt8) :=
  if off + bs.length ≤ m.length then some (m.take off ++ bs ++ m.drop (off + bs.length)) else none

/-- nghttp3_downcase, nghttp3_str.c:105-110, on `n` bytes at `off` -/
def downcaseAt (m : List UInt8) (off : Nat) : Nat → Option (List UInt8)
  | 0 => some m
  | n + 1 =>
    match m[off]? with
    | none => none
    | some c => downcaseAt (m.set off (UInt8.ofNat ((Chars.downcaseTbl[c.toNat]?).getD 0))) (off + 1) n

/-- the size of the data area, nghttp3_frame.c:127-135 (without the array itself, l.137) -/
def nvaBuflen : List Nv → Nat
  | [] => 0
  | x :: t => (if x.noCopyName then 0 else x.name.length + 1) + (if x.noCopyValue then 0 else x.value.length + 1) + nvaBuflen t

/-- a string copied to `data`, with its NUL, nghttp3_frame.c:155-162 (`lower`) or 169-175; the new value of `data` is returned -/
def copyStr (m : List UInt8) (data : Nat) (s : List UInt8) (lower : Bool) : Option (List UInt8 × Nat) :=
  ((if s.length ≠ 0 then (memWrite m data s).bind fun m => if lower then downcaseAt m data s.length else some m
    else some m).bind fun m => memWrite m (data + s.length) [0]).map fun m => (m, data + s.length + 1)

/-- the loop, nghttp3_frame.c:148-179; `data`: the offset of the pointer `data` -/
def nvaCopyLoop (m : List UInt8) (data : Nat) : List Nv → Option (List NvOut × List UInt8 × Nat)
  | [] => some ([], m, data)
  | x :: t =>
    (if x.noCopyName then some (NvPtr.orig, m, data)
      else (copyStr m data x.name true).map fun r => (NvPtr.data data, r.1, r.2)).bind fun (np, m, data) =>
    (if x.noCopyValue then some (NvPtr.orig, m, data)
      else (copyStr m data x.value false).map fun r => (NvPtr.data data, r.1, r.2)).bind fun (vp, m, data) =>
    (nvaCopyLoop m data t).map fun (os, m, data) => (⟨np, x.name.length, vp, x.value.length, x.flags⟩ :: os, m, data)

/-- nghttp3_nva_copy, nghttp3_frame.c:114-181; `garbage`: what malloc'ed memory contains (malloc does not fail; size_t does not
overflow) -/
def nvaCopy (garbage : Nat → List UInt8) (nva : List Nv) : Option (List NvOut × List UInt8 × Nat) :=
  nvaCopyLoop (garbage (nvaBuflen nva)) 0 nva

end Nghttp3
