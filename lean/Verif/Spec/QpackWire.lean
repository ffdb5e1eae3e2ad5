import Verif.Model.StaticTable
import Verif.Spec.QpackInt
import Verif.Spec.Huffman
/-! QPACK as RFC 9204 describes it, for a decoder: the dynamic table (section 3.2), the bytes of encoder instructions (section 4.3) and of
field sections (section 4.5), and what they mean.  Nothing here refers to the model of the library's decoder; only the static table
(proved equal to RFC 9204, Appendix A in C48) and the Huffman code (C09) are shared. -/
namespace Nghttp3
namespace Rfc9204

abbrev Bytes := List UInt8

/-! ### The dynamic table -/

/-- the capacity in force, the number of entries inserted since the beginning, and the entries present, the newest first -/
structure Table where
  cap : Nat := 0
  inserted : Nat := 0
  entries : List (Bytes × Bytes) := []

/-- section 3.2.1 -/
def entrySize (e : Bytes × Bytes) : Nat := e.1.length + e.2.length + 32

/-- the newest entries that fit into `room` bytes together (section 3.2.2: the oldest entries are evicted first) -/
def keep : Nat → List (Bytes × Bytes) → List (Bytes × Bytes)
  | _, [] => []
  | room, e :: t => if entrySize e ≤ room then e :: keep (room - entrySize e) t else []

/-- the entry with an absolute index (section 3.2.4), if it is still there -/
def Table.at (t : Table) (a : Nat) : Option (Bytes × Bytes) :=
  if a < t.inserted then t.entries[t.inserted - 1 - a]? else none

/-- section 3.2.2: an entry larger than the capacity is an error -/
def Table.insert (t : Table) (e : Bytes × Bytes) : Option Table :=
  if entrySize e ≤ t.cap then some { t with inserted := t.inserted + 1, entries := e :: keep (t.cap - entrySize e) t.entries } else none

/-- the static table, Appendix A -/
def staticEntry (i : Nat) : Option (Bytes × Bytes) := Nghttp3.Qpack.stable[i]?.map fun x => (x.1, x.2.1)

/-! ### Primitives -/

/-- `enc` is `n` in a `pfx`-bit prefix, the bits of the first byte above the prefix being `top`.  The library accepts integers below 2^62 in
at most ten bytes. -/
def IntAs (pfx top : Nat) (enc : Bytes) (n : Nat) : Prop :=
  (∃ b t, enc = b :: t ∧ b.toNat / 2 ^ pfx = top) ∧ Spec.QInt.Encodes pfx enc n ∧ n ≤ 2 ^ 62 - 1 ∧ enc.length ≤ 10

/-- section 4.1.2: a string literal with a `pfx`-bit length; the bit above the length says whether the string is Huffman coded; `top` are
the bits above that one.  The library accepts encoded strings of at most `limit` bytes. -/
def StrAs (pfx top limit : Nat) (enc s : Bytes) : Prop :=
  ∃ len body, enc = len ++ body ∧ body.length ≤ limit ∧
    ((IntAs pfx (2 * top) len body.length ∧ body = s) ∨ (IntAs pfx (2 * top + 1) len body.length ∧ _root_.Spec.Huff.IsEncoding body s))

def nameLimit : Nat := 256
def valueLimit : Nat := 65536

/-! ### Encoder instructions, section 4.3 -/

inductive Instr where
  | setCapacity (n : Nat)
  | insertStaticName (i : Nat) (value : Bytes)
  | insertDynamicName (rel : Nat) (value : Bytes)
  | insertLiteral (name value : Bytes)
  | duplicate (rel : Nat)

def Instr.Is : Instr → Bytes → Prop
  | .setCapacity n, b => IntAs 5 1 b n
  | .insertStaticName i v, b => ∃ x y, b = x ++ y ∧ IntAs 6 3 x i ∧ StrAs 7 0 valueLimit y v
  | .insertDynamicName r v, b => ∃ x y, b = x ++ y ∧ IntAs 6 2 x r ∧ StrAs 7 0 valueLimit y v
  | .insertLiteral n v, b => ∃ x y, b = x ++ y ∧ StrAs 5 1 nameLimit x n ∧ StrAs 7 0 valueLimit y v
  | .duplicate r, b => IntAs 5 0 b r

/-- the entry a relative index of an instruction refers to: 0 is the newest (section 3.2.5) -/
def Table.newest (t : Table) (rel : Nat) : Option (Bytes × Bytes) := t.entries[rel]?

/-- effect of an instruction when the decoder has announced the limit `max`; `none`: QPACK_ENCODER_STREAM_ERROR -/
def Table.apply (max : Nat) (t : Table) : Instr → Option Table
  | .setCapacity n => if n ≤ max then some { t with cap := n, entries := keep n t.entries } else none
  | .insertStaticName i v => (staticEntry i).bind fun e => t.insert (e.1, v)
  | .insertDynamicName r v => (t.newest r).bind fun e => t.insert (e.1, v)
  | .insertLiteral n v => t.insert (n, v)
  | .duplicate r => (t.newest r).bind fun e => t.insert e

/-- effect of a sequence of instructions -/
def Table.applyAll (max : Nat) : Table → List Instr → Option Table
  | t, [] => some t
  | t, i :: l => (t.apply max i).bind fun t' => t'.applyAll max l

/-- a sequence of instructions one after the other -/
def AreInstrs : List Instr → Bytes → Prop
  | [], b => b = []
  | i :: l, b => ∃ x y, b = x ++ y ∧ i.Is x ∧ AreInstrs l y

/-! ### Field sections, section 4.5 -/

/-- section 4.5.1.1: the Required Insert Count that an encoded value stands for, when `inserted` entries have been inserted and the table
has room for at most `maxEntries`.  0 stands for 0; `v` is encoded as `v mod 2*maxEntries + 1`, and is taken from the window of
`2*maxEntries` values around what has been inserted. -/
def IsRequired (maxEntries inserted enc v : Nat) : Prop :=
  (enc = 0 ∧ v = 0) ∨
  (0 < v ∧ 0 < enc ∧ enc = v % (2 * maxEntries) + 1 ∧ inserted < v + maxEntries ∧ v ≤ inserted + maxEntries)

/-- field line representations, sections 4.5.2-4.5.6 -/
inductive Line where
  | static (i : Nat)
  | dynamic (rel : Nat)
  | postBase (k : Nat)
  | staticName (i : Nat) (value : Bytes) (never : Bool)
  | dynamicName (rel : Nat) (value : Bytes) (never : Bool)
  | postBaseName (k : Nat) (value : Bytes) (never : Bool)
  | literal (name value : Bytes) (never : Bool)

def bit (b : Bool) : Nat := if b then 1 else 0

def Line.Is : Line → Bytes → Prop
  | .static i, b => IntAs 6 3 b i
  | .dynamic r, b => IntAs 6 2 b r
  | .postBase k, b => IntAs 4 1 b k
  | .staticName i v n, b => ∃ x y, b = x ++ y ∧ IntAs 4 (5 + 2 * bit n) x i ∧ StrAs 7 0 valueLimit y v
  | .dynamicName r v n, b => ∃ x y, b = x ++ y ∧ IntAs 4 (4 + 2 * bit n) x r ∧ StrAs 7 0 valueLimit y v
  | .postBaseName k v n, b => ∃ x y, b = x ++ y ∧ IntAs 3 (bit n) x k ∧ StrAs 7 0 valueLimit y v
  | .literal nm v n, b => ∃ x y, b = x ++ y ∧ StrAs 3 (2 + bit n) nameLimit x nm ∧ StrAs 7 0 valueLimit y v

def AreLines : List Line → Bytes → Prop
  | [], b => b = []
  | i :: l, b => ∃ x y, b = x ++ y ∧ i.Is x ∧ AreLines l y

/-- a decoded field line: name, value, and whether it must never be indexed -/
structure Field where
  name : Bytes
  value : Bytes
  never : Bool

/-- a reference to the dynamic table must be below the Required Insert Count and to an entry that is still there (section 2.2.3) -/
def Table.ref (t : Table) (ric a : Nat) : Option (Bytes × Bytes) := if a < ric then t.at a else none

/-- what a field line means in a section with this Required Insert Count and Base; `none`: QPACK_DECOMPRESSION_FAILED -/
def Line.field (t : Table) (ric base : Nat) : Line → Option Field
  | .static i => (staticEntry i).map fun e => ⟨e.1, e.2, false⟩
  | .dynamic r => if r < base then (t.ref ric (base - 1 - r)).map fun e => ⟨e.1, e.2, false⟩ else none
  | .postBase k => (t.ref ric (base + k)).map fun e => ⟨e.1, e.2, false⟩
  | .staticName i v n => (staticEntry i).map fun e => ⟨e.1, v, n⟩
  | .dynamicName r v n => if r < base then (t.ref ric (base - 1 - r)).map fun e => ⟨e.1, v, n⟩ else none
  | .postBaseName k v n => (t.ref ric (base + k)).map fun e => ⟨e.1, v, n⟩
  | .literal nm v n => some ⟨nm, v, n⟩

/-- the field lines before the first invalid one, and whether there is none -/
def fields (t : Table) (ric base : Nat) : List Line → List Field × Bool
  | [] => ([], true)
  | l :: r =>
    match l.field t ric base with
    | none => ([], false)
    | some f => (f :: (fields t ric base r).1, (fields t ric base r).2)

/-- section 4.5.1: the prefix of a field section, the encoded Required Insert Count and the Base as a sign and a difference -/
def IsPrefix (encRic : Nat) (sign : Bool) (delta : Nat) (b : Bytes) : Prop :=
  ∃ x y, b = x ++ y ∧ IntAs 8 0 x encRic ∧ IntAs 7 (bit sign) y delta

/-- section 4.5.1.2: the Base must not be negative -/
def baseOf (ric : Nat) (sign : Bool) (delta : Nat) : Option Nat :=
  if sign then if delta < ric then some (ric - delta - 1) else none else some (ric + delta)

end Rfc9204
end Nghttp3
