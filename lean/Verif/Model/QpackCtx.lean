import Verif.Model.StaticTable
import Verif.Model.QpackInt
import Verif.Model.Huffman
/-! Model of the dynamic table (nghttp3_qpack_context) of lib/nghttp3_qpack.c and of the resumable reading of
string literals shared by nghttp3_qpack_decoder_read_encoder and nghttp3_qpack_decoder_read_request.

Simplifications: memory allocation never fails; `size_t`/`uint64_t` quantities are natural numbers (sizes and
insert counts are assumed not to reach 2^62); the ring buffer holding the entries is a list, index 0 (the newest
entry) first — that the ring buffer behaves as such a list is C05. -/
namespace Nghttp3
namespace Qpack

abbrev Bytes := List UInt8

/-- nghttp3_qpack_entry, nghttp3_qpack.h:76-89 (`map_next`: see `Enc`) -/
structure Ent where
  name : Bytes
  value : Bytes
  token : Option Nat := none
  sum : Nat := 0
  absidx : Nat := 0
  hash : Nat := 0
deriving DecidableEq, Repr

/-- table_space, nghttp3_qpack.c:737-739 -/
def tableSpace (namelen valuelen : Nat) : Nat := 32 + namelen + valuelen

def Ent.space (e : Ent) : Nat := tableSpace e.name.length e.value.length

/-- nghttp3_qpack_context, nghttp3_qpack.h:155-181 -/
structure Ctx where
  ents : List Ent := []
  size : Nat := 0
  sum : Nat := 0
  hardMax : Nat
  maxCap : Nat := 0
  maxBlocked : Nat := 0
  next : Nat := 0
  bad : Bool := false
deriving DecidableEq, Repr

/-- the eviction loops of nghttp3_qpack_context_dtable_add (nghttp3_qpack.c:2069-2083, with `space` the space of
the new entry) and of nghttp3_qpack_decoder_set_max_dtable_capacity (3125-3135, with `space = 0`), on the entries
oldest first; `none` is the failed `assert(i)`. -/
def evictOld (cap space : Nat) : List Ent → Nat → Option (List Ent × Nat)
  | [], size => if size + space ≤ cap then some ([], size) else none
  | e :: t, size => if size + space ≤ cap then some (e :: t, size) else evictOld cap space t (size - e.space)

/-- nghttp3_qpack_context_dtable_add, nghttp3_qpack.c:2055-2119; `none` is a failed assertion -/
def Ctx.add (c : Ctx) (name value : Bytes) (token : Option Nat) (hash : Nat) : Option Ctx :=
  let space := tableSpace name.length value.length
  if c.maxCap < space then none
  else
    match evictOld c.maxCap space c.ents.reverse c.size with
    | none => none
    | some (old, size) =>
      some { c with
        ents := ⟨name, value, token, c.sum, c.next, hash⟩ :: old.reverse
        size := size + space
        sum := c.sum + space
        next := c.next + 1 }

/-- nghttp3_qpack_context_dtable_get, nghttp3_qpack.c:2233-2243; `none` is a failed assertion -/
def Ctx.get (c : Ctx) (absidx : Nat) : Option Ent :=
  if absidx < c.next then c.ents[c.next - absidx - 1]? else none

/-- `&stable[absidx]` -/
def stableGet (i : Nat) : Option (Bytes × Bytes × Nat) := stable[i]?

/-- nghttp3_qpack_read_state, nghttp3_qpack.h:183-196.  `name`/`value` are the bytes written so far to
`namebuf`/`valuebuf`, `ncap`/`vcap` the sizes of these buffers. -/
structure RState where
  left : Nat := 0
  pfx : Nat := 0
  shift : Nat := 0
  absidx : Nat := 0
  never : Bool := false
  dynamic : Bool := false
  huff : Bool := false
  hctx : Nat := 0
  name : Bytes := []
  ncap : Nat := 0
  value : Bytes := []
  vcap : Nat := 0
deriving DecidableEq, Repr

/-- nghttp3_qpack_read_state_reset, nghttp3_qpack.c:2669-2681 -/
def RState.reset (r : RState) : RState := { hctx := r.hctx }

/-- outcome of reading part of a string -/
inductive StrRes where
  /-- a write outside the destination buffer -/
  | crash
  /-- NGHTTP3_ERR_QPACK_FATAL -/
  | fatal
  /-- new buffer contents, `rstate->left`, Huffman context, and the input not consumed -/
  | ok (buf : Bytes) (left hctx : Nat) (rest : Bytes)
deriving DecidableEq, Repr

/-- qpack_read_huffman_string, nghttp3_qpack.c:2717-2743 -/
def readHuff (left hctx : Nat) (buf : Bytes) (cap : Nat) (src : Bytes) : StrRes :=
  let fin := decide (left ≤ src.length)
  let len := if fin then left else src.length
  if cap < buf.length + (Huff.decGo (src.take len) hctx).2.length then .crash
  else
    match Huff.decode hctx (src.take len) fin with
    | (_, none) => .fatal
    | (ctx', some out) =>
      if Huff.failureState ctx' then .fatal else .ok (buf ++ out) (left - len) ctx' (src.drop len)

/-- qpack_read_string, nghttp3_qpack.c:2745-2755 -/
def readPlain (left hctx : Nat) (buf : Bytes) (cap : Nat) (src : Bytes) : StrRes :=
  let n := min src.length left
  if cap < buf.length + n then .crash else .ok (buf ++ src.take n) (left - n) hctx (src.drop n)

/-- the string-literal states common to NGHTTP3_QPACK_ES_STATE_* and NGHTTP3_QPACK_RS_STATE_*
(nghttp3_qpack.h:718-757) -/
inductive Ph where
  | checkName | nameLen | nameHuff | name | checkValue | valueLen | valueHuff | value
deriving DecidableEq, Repr

/-- outcome of one pass through the `switch` in a string-literal state -/
inductive SRes where
  /-- out-of-bounds access or failed assertion -/
  | crash
  /-- invalid integer or Huffman string -/
  | fatal
  /-- NGHTTP3_ERR_QPACK_HEADER_TOO_LARGE -/
  | tooLarge
  /-- `break`: next state, rest of the input, `busy` -/
  | cont (ph : Ph) (r : RState) (rest : Bytes) (busy : Bool)
  /-- `return p - src` / `goto almost_ok`: all input consumed -/
  | ret (ph : Ph) (r : RState) (rest : Bytes)
  /-- the value is complete -/
  | done (r : RState) (rest : Bytes)
deriving DecidableEq, Repr

/-- READ_NAMELEN, nghttp3_qpack.c:2920-2956 and 3516-3551 -/
def nameLenStep (r : RState) (src : Bytes) : SRes :=
  match QInt.readInt r.pfx r.left r.shift src with
  | .oob => .crash
  | .fatal => .fatal
  | .part l s => .ret .nameLen { r with left := l, shift := s } []
  | .done l s rest =>
    if 256 < l then .tooLarge
    else if r.huff then
      .cont .nameHuff { r with left := l, shift := s, hctx := Huff.ctxInit, name := [], ncap := l * 2 + 1 } rest false
    else .cont .name { r with left := l, shift := s, name := [], ncap := l + 1 } rest false

/-- READ_VALUELEN, nghttp3_qpack.c:3002-3041 and 3596-3634 -/
def valueLenStep (r : RState) (src : Bytes) : SRes :=
  match QInt.readInt r.pfx r.left r.shift src with
  | .oob => .crash
  | .fatal => .fatal
  | .part l s => .ret .valueLen { r with left := l, shift := s } []
  | .done l s rest =>
    if 65536 < l then .tooLarge
    else if r.huff then
      .cont .valueHuff { r with left := l, shift := s, hctx := Huff.ctxInit, value := [], vcap := l * 2 + 1 } rest true
    else .cont .value { r with left := l, shift := s, value := [], vcap := l + 1 } rest true

/-- after qpack_read_string/qpack_read_huffman_string for a name: nghttp3_qpack.c:2966-2976 (and 2985-2995,
3561-3571, 3579-3589).  `*namebuf.last = 0` needs one byte. -/
def nameFin (ph : Ph) (r : RState) : StrRes → SRes
  | .crash => .crash
  | .fatal => .fatal
  | .ok buf left hctx rest =>
    let r' := { r with name := buf, left := left, hctx := hctx }
    if left ≠ 0 then .ret ph r' rest
    else if r.ncap ≤ buf.length then .crash
    else .cont .checkValue { r' with pfx := 7 } rest false

/-- likewise for a value: nghttp3_qpack.c:3051-3057 (and 3084-3090, 3644-3650, 3681-3687) -/
def valueFin (ph : Ph) (r : RState) : StrRes → SRes
  | .crash => .crash
  | .fatal => .fatal
  | .ok buf left hctx rest =>
    let r' := { r with value := buf, left := left, hctx := hctx }
    if left ≠ 0 then .ret ph r' rest
    else if r.vcap ≤ buf.length then .crash
    else .done r' rest

/-- qpack_read_state_check_huffman and the assignments that follow, nghttp3_qpack.c:2914-2918, 2996-3000,
3510-3514, 3590-3594 -/
def checkHuff (r : RState) (b : UInt8) : RState :=
  { r with huff := b.toNat &&& (1 <<< r.pfx) ≠ 0, left := 0, shift := 0 }

/-- the string-literal `case`s of the two `switch`es (nghttp3_qpack.c:2914-3108 and 3510-3710 up to the
completion of the value); they differ only in the error codes, which the callers supply. -/
def strStep (ph : Ph) (r : RState) (src : Bytes) : SRes :=
  match ph with
  | .checkName => match src with | [] => .crash | b :: t => nameLenStep (checkHuff r b) (b :: t)
  | .nameLen => nameLenStep r src
  | .nameHuff => nameFin .nameHuff r (readHuff r.left r.hctx r.name r.ncap src)
  | .name => nameFin .name r (readPlain r.left r.hctx r.name r.ncap src)
  | .checkValue => match src with | [] => .crash | b :: t => valueLenStep (checkHuff r b) (b :: t)
  | .valueLen => valueLenStep r src
  | .valueHuff => valueFin .valueHuff r (readHuff r.left r.hctx r.value r.vcap src)
  | .value => valueFin .value r (readPlain r.left r.hctx r.value r.vcap src)

/-- library error codes returned by the QPACK functions -/
inductive Err where
  | fatal | encoderStream | decoderStream | decompression | headerTooLarge
deriving DecidableEq, Repr

end Qpack
end Nghttp3
