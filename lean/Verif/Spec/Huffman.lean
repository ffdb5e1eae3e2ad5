import Verif.Gen.HuffData
/-! What Huffman coding of strings is (RFC 7541, section 5.2): concatenate the code words, most significant bit
first, and pad the last byte with one bits. -/
namespace Spec
namespace Huff

/-- the `n` low-order bits of `v`, most significant first -/
def bitsMSB : Nat → Nat → List Bool
  | 0, _ => []
  | n + 1, v => v.testBit n :: bitsMSB n v

/-- a byte string as bits -/
def bitsOf (l : List UInt8) : List Bool := l.flatMap fun b => bitsMSB 8 b.toNat

/-- code word of symbol `s` (256 is EOS): the `nbits` leading bits of the 32-bit table entry -/
def codeWord (s : Nat) : List Bool :=
  let e := (Nghttp3.Huff.symTable[s]?).getD (0, 0)
  bitsMSB e.1 (e.2 >>> (32 - e.1))

/-- the code words of a string one after the other -/
def codeBits (l : List UInt8) : List Bool := l.flatMap fun b => codeWord b.toNat

/-- padding to a byte boundary with ones, fewer than 8 -/
def pad (l : List Bool) : List Bool := l ++ List.replicate ((8 - l.length % 8) % 8) true

/-- `e` is the Huffman encoding of `s` -/
def IsEncoding (e s : List UInt8) : Prop := bitsOf e = pad (codeBits s)

end Huff
end Spec
