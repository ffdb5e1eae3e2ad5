import Verif.Model.Conv
import Verif.Gen.HuffData
/-! Model of lib/nghttp3_qpack_huffman.c. -/
namespace Nghttp3
namespace Huff

/-- `huffman_sym_table[s]` -/
def sym (s : Nat) : Nat × Nat := (symTable[s]?).getD (0, 0)

/-- nghttp3_qpack_huffman_encode_count, nghttp3_qpack_huffman.c:34-43 -/
def encodeCount (src : List UInt8) : Nat :=
  (src.foldl (fun nbits b => nbits + (sym b.toNat).1) 0 + 7) / 8

/-- the last two statements of nghttp3_qpack_huffman_encode, nghttp3_qpack_huffman.c:67-75 -/
def encTail (code nbits : Nat) : List UInt8 :=
  if h : 8 ≤ nbits then UInt8.ofNat (code >>> 56) :: encTail ((code <<< 8) % 2 ^ 64) (nbits - 8)
  else if nbits ≠ 0 then [UInt8.ofNat (code >>> 56) ||| UInt8.ofNat ((1 <<< (8 - nbits)) - 1)]
  else []
termination_by nbits

/-- the loop of nghttp3_qpack_huffman_encode, nghttp3_qpack_huffman.c:53-65 (`code` is a uint64_t) -/
def encGo : List UInt8 → Nat → Nat → List UInt8
  | [], code, nbits => encTail code nbits
  | s :: t, code, nbits =>
    let code1 := code ||| (((sym s.toNat).2 <<< (32 - nbits)) % 2 ^ 64)
    let nb := nbits + (sym s.toNat).1
    if nb < 32 then encGo t code1 nb
    else beBytes 4 (code1 >>> 32) ++ encGo t ((code1 <<< 32) % 2 ^ 64) (nb - 32)

/-- nghttp3_qpack_huffman_encode, nghttp3_qpack_huffman.c:45-78: the bytes written -/
def encode (src : List UInt8) : List UInt8 := encGo src 0 0

def ACCEPTED : Nat := 1 <<< 14
def SYM : Nat := 1 <<< 15

/-- nghttp3_qpack_huffman_decode_context_init, nghttp3_qpack_huffman.c:80-83 -/
def ctxInit : Nat := ACCEPTED

/-- `&qpack_huffman_decode_table[fstate & 0x1ff][x]` -/
def entry (fstate x : Nat) : Nat × Nat := ((((decTable[fstate &&& 0x1ff]?).getD [])[x]?).getD (0, 0))

/-- one nibble: new fstate and the symbol written if any, nghttp3_qpack_huffman.c:103-106 -/
def nibble (fstate x : Nat) : Nat × List UInt8 :=
  let t := entry fstate x
  (t.1, if t.1 &&& SYM ≠ 0 then [UInt8.ofNat t.2] else [])

/-- the loop of nghttp3_qpack_huffman_decode, nghttp3_qpack_huffman.c:101-112 -/
def decGo : List UInt8 → Nat → Nat × List UInt8
  | [], st => (st, [])
  | c :: t, st =>
    let r1 := nibble st (c.toNat >>> 4)
    let r2 := nibble r1.1 (c.toNat &&& 0xf)
    let r := decGo t r2.1
    (r.1, r1.2 ++ (r2.2 ++ r.2))

/-- nghttp3_qpack_huffman_decode, nghttp3_qpack_huffman.c:85-121: the new context and the bytes written, or `none` for
NGHTTP3_ERR_QPACK_FATAL.  (With a fatal error the bytes written before are of no use to the caller.) -/
def decode (ctx : Nat) (src : List UInt8) (fin : Bool) : Nat × Option (List UInt8) :=
  let r := decGo src ctx
  (r.1, if fin ∧ r.1 &&& ACCEPTED = 0 then none else some r.2)

/-- nghttp3_qpack_huffman_decode_failure_state, nghttp3_qpack_huffman.c:123-126 -/
def failureState (ctx : Nat) : Bool := ctx = 0x100

end Huff
end Nghttp3
