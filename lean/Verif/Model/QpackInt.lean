import Verif.Model.Conv
/-! Model of the prefixed integer codec of lib/nghttp3_qpack.c (RFC 9204 §4.1.1, RFC 7541 §5.1). -/
namespace Nghttp3
namespace QInt

/-- NGHTTP3_QPACK_INT_MAX, nghttp3_qpack.h:43 `((1ull << 62) - 1)` -/
def INT_MAX : Nat := 2 ^ 62 - 1

/-- nghttp3_qpack.c:2634-2637: the loop of `nghttp3_qpack_put_varint_len` -/
def putLenTail (n : Nat) : Nat :=
  if 128 ≤ n then putLenTail (n / 128) + 1 else 1
termination_by n
decreasing_by exact Nat.div_lt_self (by omega) (by omega)

/-- nghttp3_qpack_put_varint_len, nghttp3_qpack.c:2623-2638 -/
def putLen (n pfx : Nat) : Nat :=
  if n < 2 ^ pfx - 1 then 1 else 1 + putLenTail (n - (2 ^ pfx - 1))

/-- the loop and the last store of nghttp3_qpack_put_varint, nghttp3_qpack.c:2655-2659 (`n >>= 7` is `n / 128`) -/
def putTail (n : Nat) : List UInt8 :=
  if 128 ≤ n then UInt8.ofNat (128 ||| (n &&& 0x7f)) :: putTail (n / 128) else [UInt8.ofNat n]
termination_by n
decreasing_by exact Nat.div_lt_self (by omega) (by omega)

/-- nghttp3_qpack_put_varint, nghttp3_qpack.c:2640-2662.  `b` is the byte already stored at `*buf` (the
instruction pattern); the result is the list of bytes from `buf` to the returned pointer.  `*buf & ~k` keeps the
high `8 - prefix` bits. -/
def put (b : UInt8) (n pfx : Nat) : List UInt8 :=
  let k := 2 ^ pfx - 1
  let b0 := b &&& UInt8.ofNat (255 - k)
  if n < k then [b0 ||| UInt8.ofNat n] else (b0 ||| UInt8.ofNat k) :: putTail (n - k)

/-- outcome of `qpack_read_varint` -/
inductive RV where
  /-- `*p` was read with `p == end` -/
  | oob
  /-- NGHTTP3_ERR_QPACK_FATAL -/
  | fatal
  /-- `*fin == 0`: all input was consumed; new `rstate->left`, `rstate->shift` -/
  | part (left shift : Nat)
  /-- `*fin == 1`: new `rstate->left`, `rstate->shift`, and the input not consumed -/
  | done (left shift : Nat) (rest : List UInt8)
deriving DecidableEq, Repr

/-- the loop of qpack_read_varint and what follows, nghttp3_qpack.c:2489-2522 -/
def readLoop (n shift : Nat) : List UInt8 → RV
  | [] => .part n shift
  | b :: t =>
    let add := b.toNat &&& 0x7f
    if 62 < shift then .fatal
    else if INT_MAX >>> shift < add then .fatal
    else if INT_MAX - (add <<< shift) < n then .fatal
    else if b.toNat &&& 0x80 = 0 then .done (n + add <<< shift) shift t
    else readLoop (n + add <<< shift) (shift + 7) t

/-- qpack_read_varint, nghttp3_qpack.c:2461-2523; `pfx`, `left`, `shift` are the fields of `rstate`. -/
def readInt (pfx left shift : Nat) (src : List UInt8) : RV :=
  if left = 0 then
    match src with
    | [] => .oob
    | b :: t =>
      let k := 2 ^ pfx - 1
      if b.toNat &&& k ≠ k then .done (b.toNat &&& k) 0 t
      else
        match t with
        | [] => .part k 0
        | c :: u => readLoop k shift (c :: u)
  else readLoop left shift src

end QInt
end Nghttp3
