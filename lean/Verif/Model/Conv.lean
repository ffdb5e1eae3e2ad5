/-
Model of lib/nghttp3_conv.c (QUIC variable-length integers), lib/nghttp3_vec.c and of
`nghttp3_read_varint` (lib/nghttp3_stream.c).

Conventions: a byte string in memory is a `List UInt8`; reading past the end of the list is the
outcome `none` (in C: an out-of-bounds read).
-/

namespace Nghttp3

/-- NGHTTP3_MAX_VARINT, lib/nghttp3_conv.h / nghttp3_macro.h: `(1ull << 62) - 1`. -/
def MAX_VARINT : Nat := 2 ^ 62 - 1

/-- The `k` low-order bytes of `n`, most significant first.  Models `nghttp3_put_uint16be`,
`nghttp3_put_uint32be`, `nghttp3_put_uint64be` (nghttp3_conv.c:73-86) for k = 2, 4, 8
(`htons/htonl/htonl64` followed by memcpy). -/
def beBytes : Nat → Nat → List UInt8
  | 0, _ => []
  | k + 1, n => UInt8.ofNat (n / 256 ^ k) :: beBytes k n

/-- Big-endian value of a byte string: `ntohs/ntohl/ntohl64` of the bytes
(nghttp3_conv.c:49,55,61). -/
def beVal (l : List UInt8) : Nat := l.foldl (fun a b => a * 256 + b.toNat) 0

/-- `*p |= m` on the first byte of the output (nghttp3_conv.c:96,101,106). -/
def orHead (m : UInt8) : List UInt8 → List UInt8
  | [] => []
  | b :: t => (b ||| m) :: t

/-- `*p &= m` on the first byte (nghttp3_conv.c:48,54,60 `n.n8 &= 0x3f`). -/
def andHead (m : UInt8) : List UInt8 → List UInt8
  | [] => []
  | b :: t => (b &&& m) :: t

/-- nghttp3_put_varint, nghttp3_conv.c:88-108.  The assert `n < 2^62` (l.104) is not part of the
value; theorems carry it as a hypothesis. -/
def putVarint (n : Nat) : List UInt8 :=
  if n < 64 then [UInt8.ofNat n]
  else if n < 16384 then orHead 0x40 (beBytes 2 n)
  else if n < 1073741824 then orHead 0x80 (beBytes 4 n)
  else orHead 0xc0 (beBytes 8 n)

/-- nghttp3_put_varintlen, nghttp3_conv.c:110-122. -/
def putVarintLen (n : Nat) : Nat :=
  if n < 64 then 1
  else if n < 16384 then 2
  else if n < 1073741824 then 4
  else 8

/-- nghttp3_get_varintlen, nghttp3_conv.c:69-71: `1u << (*p >> 6)`. -/
def getVarintLen (b : UInt8) : Nat := 1 <<< (b.toNat >>> 6)

/-- nghttp3_get_varint, nghttp3_conv.c:34-67.  Returns the value and the rest of the buffer;
`none` if the buffer is too short (out-of-bounds read in C). -/
def getVarint (p : List UInt8) : Option (Nat × List UInt8) :=
  match p with
  | [] => none
  | b :: t =>
    match b.toNat >>> 6 with
    | 0 => some (b.toNat, t)
    | 1 => if p.length < 2 then none else some (beVal (andHead 0x3f (p.take 2)), p.drop 2)
    | 2 => if p.length < 4 then none else some (beVal (andHead 0x3f (p.take 4)), p.drop 4)
    | _ => if p.length < 8 then none else some (beVal (andHead 0x3f (p.take 8)), p.drop 8)

/-- nghttp3_ord_stream_id, nghttp3_conv.c:124-126 (for non-negative ids). -/
def ordStreamId (id : Nat) : Nat := (id >>> 2) + 1

/-- nghttp3_varint_read_state, nghttp3_stream.h:83-86.  While `left > 0`, `acc` here is the
big-endian reading of the eight bytes of the C variable (on a little-endian host the C variable
holds the byte-swapped number until nghttp3_stream.c:217 swaps it back). -/
structure RVInt where
  acc : Nat := 0
  left : Nat := 0
deriving DecidableEq, Repr, Inhabited

/-- Outcome of one `nghttp3_read_varint` call. -/
inductive RVRes where
  /-- returned `n` bytes read; `st.left = 0` means the integer is complete and is `st.acc`. -/
  | read (n : Nat) (st : RVInt)
  /-- NGHTTP3_ERR_INVALID_ARGUMENT -/
  | err
  /-- an `assert` of the function fails -/
  | abort
deriving DecidableEq, Repr

/-- nghttp3_read_varint, nghttp3_stream.c:181-223.  `src` is `[begin, end)`.
Simplification: the memcpy into the middle of `acc` (l.203-205, 212-213) is modelled by adding the
shifted value of the copied bytes; the bytes overwritten are zero because `acc` is zeroed by
`nghttp3_varint_read_state_reset` before each integer and each position is written once. -/
def readVarint (rv : RVInt) (src : List UInt8) (fin : Bool) : RVRes :=
  match src with
  | [] => .abort
  | b :: _ =>
    if rv.left = 0 then
      if rv.acc ≠ 0 then .abort
      else
        let vlen := getVarintLen b
        let len := min vlen src.length
        if vlen ≤ len then
          match getVarint src with
          | some (v, _) => .read vlen { acc := v, left := 0 }
          | none => .abort
        else if fin then .err
        else .read len { acc := beVal (andHead 0x3f (src.take len)) * 256 ^ (vlen - len),
                         left := vlen - len }
    else
      let len := min rv.left src.length
      let left := rv.left - len
      let st : RVInt := { acc := rv.acc + beVal (src.take len) * 256 ^ left, left := left }
      if left = 0 then .read len st
      else if fin then .err
      else .read len st

/-- nghttp3_vec_len, nghttp3_vec.c:29-38; uint64_t accumulation wraps. -/
def vecLen (lens : List Nat) : Nat := lens.foldl (fun r l => (r + l) % 2 ^ 64) 0

/-- nghttp3_vec_len_varint, nghttp3_vec.c:40-55; `none` is the return value -1. -/
def vecLenVarintGo : Nat → List Nat → Option Nat
  | res, [] => some res
  | res, len :: t => if len > MAX_VARINT - res then none else vecLenVarintGo (res + len) t

def vecLenVarint (lens : List Nat) : Option Nat := vecLenVarintGo 0 lens

end Nghttp3
