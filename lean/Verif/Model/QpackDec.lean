import Verif.Model.QpackCtx
/-! Model of the QPACK decoder of lib/nghttp3_qpack.c. -/
namespace Nghttp3
namespace Qpack

/-- nghttp3_qpack_encoder_stream_opcode, nghttp3_qpack.h:733-738 -/
inductive EOp where | insertIndexed | insert | setCap | duplicate
deriving DecidableEq, Repr

/-- nghttp3_qpack_encoder_stream_state, nghttp3_qpack.h:718-729 -/
inductive ESt where | opcode | readIndex | str (ph : Ph)
deriving DecidableEq, Repr

/-- struct nghttp3_qpack_decoder, nghttp3_qpack.h:769-790.  `dbuf` is the contents of the buffer of decoder
stream instructions not yet written. -/
structure Dec where
  ctx : Ctx
  state : ESt := .opcode
  op : EOp := .insertIndexed
  rs : RState := {}
  writtenIcnt : Nat := 0
  maxConc : Nat := 0
  uninterrupted : Nat := 0
  dbuf : Bytes := []
deriving DecidableEq, Repr

/-- nghttp3_qpack_decoder_init, nghttp3_qpack.c:2683-2698 -/
def Dec.init (hardMax maxBlocked : Nat) : Dec := { ctx := { hardMax := hardMax, maxBlocked := maxBlocked } }

/-- qpack_decoder_validate_index, nghttp3_qpack.c:2766-2777 -/
def validateIndex (c : Ctx) (dynamic : Bool) (absidx : Nat) : Bool :=
  if dynamic then decide (absidx < c.next) && decide (c.next - absidx - 1 < c.ents.length)
  else decide (absidx < 99)

/-- nghttp3_qpack_decoder_rel2abs, nghttp3_qpack.c:3889-3906; `none` is NGHTTP3_ERR_QPACK_ENCODER_STREAM_ERROR -/
def rel2abs (c : Ctx) (r : RState) : Option RState :=
  if r.dynamic then
    if c.next < r.left + 1 then none
    else if validateIndex c true (c.next - r.left - 1) then some { r with absidx := c.next - r.left - 1 } else none
  else if validateIndex c false r.left then some { r with absidx := r.left } else none

/-- nghttp3_qpack_decoder_set_max_dtable_capacity, nghttp3_qpack.c:3119-3145.  Outer `none`: failed assertion;
inner `none`: NGHTTP3_ERR_INVALID_ARGUMENT. -/
def Ctx.setCap (c : Ctx) (cap : Nat) : Option (Option Ctx) :=
  if c.hardMax < cap then some none
  else
    match evictOld cap 0 c.ents.reverse c.size with
    | none => none
    | some (old, size) => some (some { c with maxCap := cap, ents := old.reverse, size := size })

/-- the common shape of nghttp3_qpack_decoder_dtable_*_add, nghttp3_qpack.c:3160-3266: an entry larger than the
capacity is an encoder stream error -/
def Ctx.addChecked (c : Ctx) (name value : Bytes) (token : Option Nat) : Option (Option Ctx) :=
  if c.maxCap < tableSpace name.length value.length then some none
  else (c.add name value token 0).map some

/-- nghttp3_qpack_decoder_dtable_indexed_add, nghttp3_qpack.c:3147-3211 -/
def indexedAdd (c : Ctx) (r : RState) : Option (Option Ctx) :=
  if r.dynamic then
    match c.get r.absidx with
    | none => none
    | some e => c.addChecked e.name r.value e.token
  else
    match stableGet r.absidx with
    | none => none
    | some (n, _, t) => c.addChecked n r.value (some t)

/-- nghttp3_qpack_decoder_dtable_duplicate_add, nghttp3_qpack.c:3213-3238 -/
def duplicateAdd (c : Ctx) (r : RState) : Option (Option Ctx) :=
  match c.get r.absidx with
  | none => none
  | some e => c.addChecked e.name e.value e.token

/-- nghttp3_qpack_decoder_dtable_literal_add, nghttp3_qpack.c:3240-3266 -/
def literalAdd (c : Ctx) (r : RState) : Option (Option Ctx) :=
  c.addChecked r.name r.value (lookupToken r.name)

/-- outcome of one pass through the loop of nghttp3_qpack_decoder_read_encoder -/
inductive ERes where
  | crash
  | fail (d : Dec) (e : Err)
  | cont (d : Dec) (rest : Bytes) (busy : Bool)
  | ret (d : Dec) (rest : Bytes)
deriving DecidableEq, Repr

/-- end of an instruction: `goto fail` on an error, else back to the opcode state with the read state reset -/
def Dec.finish (d : Dec) (rest : Bytes) : Option (Option Ctx) → ERes
  | none => .crash
  | some none => .fail d .encoderStream
  | some (some c) => .cont { d with ctx := c, state := .opcode, rs := d.rs.reset } rest false

/-- case NGHTTP3_QPACK_ES_STATE_OPCODE, nghttp3_qpack.c:2822-2858 -/
def esOpcode (d : Dec) (b : UInt8) : Dec :=
  if 0x80 ≤ b.toNat &&& 0xe0 then
    { d with op := .insertIndexed, state := .readIndex, rs := { d.rs with dynamic := b.toNat &&& 0x40 = 0, pfx := 6 } }
  else if b.toNat &&& 0xe0 = 0x40 ∨ b.toNat &&& 0xe0 = 0x60 then
    { d with op := .insert, state := .str .checkName, rs := { d.rs with dynamic := false, pfx := 5 } }
  else if b.toNat &&& 0xe0 = 0x20 then
    { d with op := .setCap, state := .readIndex, rs := { d.rs with pfx := 5 } }
  else
    { d with op := .duplicate, state := .readIndex, rs := { d.rs with dynamic := true, pfx := 5 } }

/-- after the index has been read, nghttp3_qpack.c:2873-2913 -/
def esIndexDone (d : Dec) (rest : Bytes) : ERes :=
  match d.op with
  | .setCap => d.finish rest (d.ctx.setCap d.rs.left)
  | .duplicate =>
    match rel2abs d.ctx d.rs with
    | none => .fail d .encoderStream
    | some r => { d with rs := r }.finish rest (duplicateAdd d.ctx r)
  | .insertIndexed =>
    match rel2abs d.ctx d.rs with
    | none => .fail d .encoderStream
    | some r => .cont { d with rs := { r with pfx := 7 }, state := .str .checkValue } rest false
  | .insert => match rel2abs d.ctx d.rs with | none => .fail d .encoderStream | some _ => .crash

/-- case NGHTTP3_QPACK_ES_STATE_READ_INDEX, nghttp3_qpack.c:2859-2913 -/
def esIndex (d : Dec) (src : Bytes) : ERes :=
  match QInt.readInt d.rs.pfx d.rs.left d.rs.shift src with
  | .oob => .crash
  | .fatal => .fail d .encoderStream
  | .part l s => .ret { d with rs := { d.rs with left := l, shift := s } } []
  | .done l s rest => esIndexDone { d with rs := { d.rs with left := l, shift := s } } rest

/-- the value of an insertion is complete, nghttp3_qpack.c:3059-3075 and 3092-3108 -/
def esValueDone (d : Dec) (rest : Bytes) : ERes :=
  match d.op with
  | .insertIndexed => d.finish rest (indexedAdd d.ctx d.rs)
  | .insert => d.finish rest (literalAdd d.ctx d.rs)
  | _ => .crash

/-- one pass through the `switch` of nghttp3_qpack_decoder_read_encoder, nghttp3_qpack.c:2821-3109 -/
def esStep (d : Dec) (src : Bytes) : ERes :=
  match d.state with
  | .opcode => match src with | [] => .crash | b :: t => .cont (esOpcode d b) (b :: t) false
  | .readIndex => esIndex d src
  | .str ph =>
    match strStep ph d.rs src with
    | .crash => .crash
    | .fatal => .fail d .encoderStream
    | .tooLarge => .fail d .headerTooLarge
    | .cont ph' r rest busy => .cont { d with state := .str ph', rs := r } rest busy
    | .ret ph' r rest => .ret { d with state := .str ph', rs := r } rest
    | .done r rest => esValueDone { d with rs := r } rest

/-- result of a decoder call on the encoder stream -/
inductive EOut where
  | crash
  | fail (d : Dec) (e : Err)
  | ok (d : Dec)
deriving DecidableEq, Repr

/-- the loop of nghttp3_qpack_decoder_read_encoder, nghttp3_qpack.c:2819-3110.  The first argument bounds the
number of passes; `esFuel` is always enough (theorem `esLoop_fuel`). -/
def esLoop : Nat → Dec → Bytes → Bool → EOut
  | 0, _, _, _ => .crash
  | f + 1, d, src, busy =>
    if src = [] ∧ busy = false then .ok d
    else
      match esStep d src with
      | .crash => .crash
      | .fail d' e => .fail { d' with ctx := { d'.ctx with bad := true } } e
      | .cont d' rest b => esLoop f d' rest b
      | .ret d' _ => .ok d'

def esFuel (src : Bytes) : Nat := 8 * src.length + 9

/-- nghttp3_qpack_decoder_read_encoder, nghttp3_qpack.c:2794-3117.  On success all bytes are consumed. -/
def Dec.readEncoder (d : Dec) (src : Bytes) : EOut :=
  if d.ctx.bad then .fail d .fatal
  else if src = [] then .ok d
  else
    let d := { d with uninterrupted := d.uninterrupted + src.length }
    if 128 * 1024 < d.uninterrupted then .fail d .encoderStream
    else esLoop (esFuel src) d src false

/-! ### Request streams -/

/-- nghttp3_qpack_request_stream_opcode, nghttp3_qpack.h:761-767 -/
inductive ROp where | indexed | indexedPB | indexedName | indexedNamePB | literal
deriving DecidableEq, Repr

/-- nghttp3_qpack_request_stream_state, nghttp3_qpack.h:742-757 -/
inductive RSt where | ricnt | dbaseSign | dbase | opcode | readIndex | str (ph : Ph) | blocked
deriving DecidableEq, Repr

/-- struct nghttp3_qpack_stream_context, nghttp3_qpack.h -/
structure SCtx where
  streamId : Nat
  state : RSt := .ricnt
  op : ROp := .indexed
  rs : RState := { pfx := 8 }
  ricnt : Nat := 0
  sign : Bool := false
  base : Nat := 0
deriving DecidableEq, Repr

/-- a decoded field line: nghttp3_qpack_nv -/
structure QNv where
  name : Bytes
  value : Bytes
  token : Option Nat
  never : Bool
deriving DecidableEq, Repr

/-- nghttp3_qpack_stream_context_init, nghttp3_qpack.c:3274-3287 -/
def SCtx.init (id : Nat) : SCtx := { streamId := id }

/-- nghttp3_qpack_decoder_reconstruct_ricnt, nghttp3_qpack.c:3852-3887; `none` is
NGHTTP3_ERR_QPACK_DECOMPRESSION_FAILED -/
def reconstructRicnt (c : Ctx) (enc : Nat) : Option Nat :=
  if enc = 0 then some 0
  else
    let maxEnts := c.hardMax / 32
    let full := 2 * maxEnts
    if full < enc then none
    else
      let max := c.next + maxEnts
      let wrapped := max / full * full
      let ric := wrapped + enc - 1
      if max < ric then
        if ric ≤ full then none
        else if ric - full = 0 then none else some (ric - full)
      else if ric = 0 then none else some ric

/-- nghttp3_qpack_decoder_brel2abs, nghttp3_qpack.c:3908-3933 -/
def brel2abs (c : Ctx) (s : SCtx) : Option SCtx :=
  if s.rs.dynamic then
    if s.base < s.rs.left + 1 then none
    else
      let a := s.base - s.rs.left - 1
      if s.ricnt ≤ a then none
      else if validateIndex c true a then some { s with rs := { s.rs with absidx := a } } else none
  else if validateIndex c false s.rs.left then some { s with rs := { s.rs with absidx := s.rs.left } } else none

/-- nghttp3_qpack_decoder_pbrel2abs, nghttp3_qpack.c:3935-3954 (`rstate->dynamic` is asserted) -/
def pbrel2abs (c : Ctx) (s : SCtx) : Option SCtx :=
  let a := s.rs.left + s.base
  if s.ricnt ≤ a then none
  else if validateIndex c s.rs.dynamic a then some { s with rs := { s.rs with absidx := a } } else none

/-- nghttp3_qpack_decoder_emit_indexed, nghttp3_qpack.c:3956-3993; `none` is a failed assertion / out-of-bounds -/
def emitIndexed (c : Ctx) (r : RState) : Option QNv :=
  if r.dynamic then (c.get r.absidx).map fun e => ⟨e.name, e.value, e.token, false⟩
  else (stableGet r.absidx).map fun x => ⟨x.1, x.2.1, some x.2.2, false⟩

/-- nghttp3_qpack_decoder_emit_indexed_name, nghttp3_qpack.c:3995-4054.  Outer `none`: out-of-bounds; inner:
NGHTTP3_ERR_QPACK_DECOMPRESSION_FAILED. -/
def emitIndexedName (c : Ctx) (r : RState) : Option (Option QNv) :=
  if r.dynamic then
    if validateIndex c true r.absidx then (c.get r.absidx).map fun e => some ⟨e.name, r.value, e.token, r.never⟩
    else some none
  else (stableGet r.absidx).map fun x => some ⟨x.1, r.value, some x.2.2, r.never⟩

/-- nghttp3_qpack_decoder_emit_literal, nghttp3_qpack.c:4056-4073 -/
def emitLiteral (r : RState) : QNv := ⟨r.name, r.value, lookupToken r.name, r.never⟩

/-- outcome of one pass through the loop of nghttp3_qpack_decoder_read_request -/
inductive RRes where
  | crash
  | fail (e : Err)
  | cont (s : SCtx) (rest : Bytes) (busy : Bool)
  /-- `goto almost_ok` -/
  | part (s : SCtx) (rest : Bytes)
  /-- NGHTTP3_QPACK_DECODE_FLAG_EMIT; return -/
  | emit (s : SCtx) (nv : QNv) (rest : Bytes)
  /-- NGHTTP3_QPACK_DECODE_FLAG_BLOCKED; return -/
  | blocked (s : SCtx) (rest : Bytes)
deriving DecidableEq, Repr

/-- after a field line has been emitted: nghttp3_qpack.c:3471-3477 -/
def emitRes (s : SCtx) (rest : Bytes) : Option QNv → RRes
  | none => .crash
  | some nv => .emit { s with state := .opcode, rs := s.rs.reset } nv rest

/-- case NGHTTP3_QPACK_RS_STATE_OPCODE, nghttp3_qpack.c:3393-3450 (after the assertions) -/
def rsOpcode (s : SCtx) (b : UInt8) : SCtx :=
  let b := b.toNat
  if 0x80 ≤ b &&& 0xf0 then
    { s with op := .indexed, state := .readIndex, rs := { s.rs with dynamic := b &&& 0x40 = 0, pfx := 6 } }
  else if 0x40 ≤ b &&& 0xf0 then
    { s with op := .indexedName, state := .readIndex,
             rs := { s.rs with never := b &&& 0x20 ≠ 0, dynamic := b &&& 0x10 = 0, pfx := 4 } }
  else if 0x20 ≤ b &&& 0xf0 then
    { s with op := .literal, state := .str .checkName,
             rs := { s.rs with never := b &&& 0x10 ≠ 0, dynamic := false, pfx := 3 } }
  else if b &&& 0xf0 = 0x10 then
    { s with op := .indexedPB, state := .readIndex, rs := { s.rs with dynamic := true, pfx := 4 } }
  else
    { s with op := .indexedNamePB, state := .readIndex,
             rs := { s.rs with never := b &&& 0x08 ≠ 0, dynamic := true, pfx := 3 } }

/-- after the index has been read, nghttp3_qpack.c:3465-3509 -/
def rsIndexDone (c : Ctx) (s : SCtx) (rest : Bytes) : RRes :=
  match s.op with
  | .indexed =>
    match brel2abs c s with
    | none => .fail .decompression
    | some s => emitRes s rest (emitIndexed c s.rs)
  | .indexedPB =>
    match pbrel2abs c s with
    | none => .fail .decompression
    | some s => emitRes s rest (emitIndexed c s.rs)
  | .indexedName =>
    match brel2abs c s with
    | none => .fail .decompression
    | some s => .cont { s with rs := { s.rs with pfx := 7 }, state := .str .checkValue } rest false
  | .indexedNamePB =>
    match pbrel2abs c s with
    | none => .fail .decompression
    | some s => .cont { s with rs := { s.rs with pfx := 7 }, state := .str .checkValue } rest false
  | .literal => .crash

/-- the value of a field line is complete, nghttp3_qpack.c:3652-3673 and 3689-3710 -/
def rsValueDone (c : Ctx) (s : SCtx) (rest : Bytes) : RRes :=
  match s.op with
  | .indexedName | .indexedNamePB =>
    match emitIndexedName c s.rs with
    | none => .crash
    | some none => .fail .decompression
    | some (some nv) => emitRes s rest (some nv)
  | .literal => emitRes s rest (some (emitLiteral s.rs))
  | _ => .crash

/-- case NGHTTP3_QPACK_RS_STATE_DBASE after the integer is complete, nghttp3_qpack.c:3368-3392 -/
def rsBaseDone (c : Ctx) (s : SCtx) (rest : Bytes) : RRes :=
  if s.sign && decide (s.ricnt ≤ s.rs.left) then .fail .decompression
  else
    let base := if s.sign then s.ricnt - s.rs.left - 1 else s.ricnt + s.rs.left
    if c.next < s.ricnt then .blocked { s with base := base, state := .blocked } rest
    else .cont { s with base := base, state := .opcode, rs := { s.rs with left := 0, shift := 0 } } rest false

/-- NGHTTP3_QPACK_RS_STATE_DBASE, nghttp3_qpack.c:3354-3366 -/
def rsBase (c : Ctx) (s : SCtx) (src : Bytes) : RRes :=
  match QInt.readInt s.rs.pfx s.rs.left s.rs.shift src with
  | .oob => .crash
  | .fatal => .fail .decompression
  | .part l sh => .part { s with rs := { s.rs with left := l, shift := sh } } []
  | .done l sh rest => rsBaseDone c { s with rs := { s.rs with left := l, shift := sh } } rest

/-- one pass through the `switch` of nghttp3_qpack_decoder_read_request, nghttp3_qpack.c:3322-3720 -/
def rsStep (c : Ctx) (s : SCtx) (src : Bytes) : RRes :=
  match s.state with
  | .ricnt =>
    match QInt.readInt s.rs.pfx s.rs.left s.rs.shift src with
    | .oob => .crash
    | .fatal => .fail .decompression
    | .part l sh => .part { s with rs := { s.rs with left := l, shift := sh } } []
    | .done l sh rest =>
      match reconstructRicnt c l with
      | none => .fail .decompression
      | some n => .cont { s with rs := { s.rs with left := l, shift := sh }, ricnt := n, state := .dbaseSign } rest false
  | .dbaseSign =>
    match src with
    | [] => .crash
    | b :: t =>
      rsBase c { s with sign := s.sign || decide (b.toNat &&& 0x80 ≠ 0), state := .dbase,
                        rs := { s.rs with left := 0, pfx := 7, shift := 0 } } (b :: t)
  | .dbase => rsBase c s src
  | .opcode =>
    if s.rs.left ≠ 0 ∨ s.rs.shift ≠ 0 then .crash
    else match src with | [] => .crash | b :: t => .cont (rsOpcode s b) (b :: t) false
  | .readIndex =>
    match QInt.readInt s.rs.pfx s.rs.left s.rs.shift src with
    | .oob => .crash
    | .fatal => .fail .decompression
    | .part l sh => .part { s with rs := { s.rs with left := l, shift := sh } } []
    | .done l sh rest => rsIndexDone c { s with rs := { s.rs with left := l, shift := sh } } rest
  | .str ph =>
    match strStep ph s.rs src with
    | .crash => .crash
    | .fatal => .fail .decompression
    | .tooLarge => .fail .headerTooLarge
    | .cont ph' r rest busy => .cont { s with state := .str ph', rs := r } rest busy
    | .ret ph' r rest => .part { s with state := .str ph', rs := r } rest
    | .done r rest => rsValueDone c { s with rs := r } rest
  | .blocked =>
    if c.next < s.ricnt then .blocked s src
    else .cont { s with state := .opcode, rs := s.rs.reset } src false

/-- qpack_decoder_dbuf_overflow, nghttp3_qpack.c:3749-3753 -/
def Dec.dbufOverflow (d : Dec) : Bool := decide (max d.maxConc 100 * 2 * 10 < d.dbuf.length)

/-- nghttp3_qpack_decoder_write_section_ack, nghttp3_qpack.c:3755-3781; `none` is NGHTTP3_ERR_QPACK_FATAL -/
def Dec.writeSectionAck (d : Dec) (s : SCtx) : Option Dec :=
  if d.dbufOverflow then none
  else some { d with dbuf := d.dbuf ++ QInt.put 0x80 s.streamId 7,
                     writtenIcnt := if d.writtenIcnt < s.ricnt then s.ricnt else d.writtenIcnt }

/-- what one call of nghttp3_qpack_decoder_read_request reports -/
inductive ROut where
  | crash
  | fail (d : Dec) (e : Err)
  /-- more input is needed (no flag) -/
  | more (d : Dec) (s : SCtx)
  /-- NGHTTP3_QPACK_DECODE_FLAG_FINAL -/
  | final (d : Dec) (s : SCtx)
  | emit (d : Dec) (s : SCtx) (nv : QNv) (rest : Bytes)
  | blocked (d : Dec) (s : SCtx) (rest : Bytes)
deriving DecidableEq, Repr

def Dec.setBad (d : Dec) : Dec := { d with ctx := { d.ctx with bad := true } }

/-- `almost_ok:`, nghttp3_qpack.c:3723-3742 -/
def almostOk (d : Dec) (s : SCtx) (fin : Bool) : ROut :=
  if fin then
    if s.state ≠ .opcode then .fail d.setBad .decompression
    else if s.ricnt ≠ 0 then
      match d.writeSectionAck s with
      | none => .fail d.setBad .fatal
      | some d' => .final { d' with uninterrupted := 0 } s
    else .final { d with uninterrupted := 0 } s
  else .more d s

/-- the loop of nghttp3_qpack_decoder_read_request, nghttp3_qpack.c:3320-3721 -/
def rsLoop : Nat → Dec → SCtx → Bytes → Bool → Bool → ROut
  | 0, _, _, _, _, _ => .crash
  | f + 1, d, s, src, busy, fin =>
    if src = [] ∧ busy = false then almostOk d s fin
    else
      match rsStep d.ctx s src with
      | .crash => .crash
      | .fail e => .fail d.setBad e
      | .cont s' rest b => rsLoop f d s' rest b fin
      | .part s' _ => almostOk d s' fin
      | .emit s' nv rest => .emit d s' nv rest
      | .blocked s' rest => .blocked d s' rest

def rsFuel (src : Bytes) : Nat := 8 * src.length + 9

/-- nghttp3_qpack_decoder_read_request, nghttp3_qpack.c:3302-3747 -/
def Dec.readRequest (d : Dec) (s : SCtx) (src : Bytes) (fin : Bool) : ROut :=
  if d.ctx.bad then .fail d .fatal else rsLoop (rsFuel src) d s src false fin

/-- the loop of conn_decode_headers, nghttp3_conn.c:1588-1652, without the HTTP layer: nghttp3_qpack_decoder_read_request
is called until it asks for more input, finishes the section, blocks or fails; `acc` collects the field lines
handed out.  The first argument bounds the number of calls. -/
def secLoop : Nat → Dec → SCtx → Bytes → Bool → List QNv → List QNv × ROut
  | 0, _, _, _, _, acc => (acc, .crash)
  | f + 1, d, s, src, fin, acc =>
    match d.readRequest s src fin with
    | .emit d' s' nv rest =>
      if rest.length = src.length then (acc, .more d' s')
      else secLoop f d' s' rest fin (acc ++ [nv])
    | o => (acc, o)

/-- feed one piece of a field section -/
def Dec.readSection (d : Dec) (s : SCtx) (src : Bytes) (fin : Bool) : List QNv × ROut :=
  secLoop (src.length + 1) d s src fin []

/-- nghttp3_qpack_decoder_get_decoder_streamlen, nghttp3_qpack.c:3783-3794 -/
def Dec.streamLen (d : Dec) : Nat :=
  d.dbuf.length + if d.writtenIcnt < d.ctx.next then QInt.putLen (d.ctx.next - d.writtenIcnt) 6 else 0

/-- nghttp3_qpack_decoder_write_decoder, nghttp3_qpack.c:3796-3824: the new state and the bytes written -/
def Dec.writeDecoder (d : Dec) : Dec × Bytes :=
  if d.writtenIcnt < d.ctx.next then
    ({ d with writtenIcnt := d.ctx.next, dbuf := [] }, d.dbuf ++ QInt.put 0 (d.ctx.next - d.writtenIcnt) 6)
  else ({ d with dbuf := [] }, d.dbuf)

/-- nghttp3_qpack_decoder_cancel_stream, nghttp3_qpack.c:3826-3850; `none` is NGHTTP3_ERR_QPACK_FATAL -/
def Dec.cancelStream (d : Dec) (id : Nat) : Option Dec :=
  if d.dbufOverflow then none else some { d with dbuf := d.dbuf ++ QInt.put 0x40 id 6 }

/-- nghttp3_qpack_decoder_set_max_concurrent_streams, nghttp3_qpack.c:3268-3272 -/
def Dec.setMaxConc (d : Dec) (n : Nat) : Dec := { d with maxConc := max d.maxConc n }

end Qpack
end Nghttp3
