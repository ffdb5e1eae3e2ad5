import Verif.Model.QpackDec
/-! Model of the QPACK encoder of lib/nghttp3_qpack.c.

Simplifications: memory allocation never fails; `size_t`/`uint64_t` quantities are natural numbers, with `none`
for the sentinels SIZE_MAX/UINT64_MAX (so counts and capacities are assumed not to reach them); the containers are
represented by their contents — map `streams` (C07), ordered index `blocked_streams` (C08), priority queues `min_cnts`
and `max_cnts` (C06), ring buffers `dtable` and `refs` (C05); the hash chains `dtable_map` by the entries of the table,
newest first, whose hash falls in the bucket (nghttp3_qpack.c:751-784: entries are linked at the root when they are
inserted into the table and unlinked when they are evicted from it). -/
namespace Nghttp3
namespace Qpack

/-- nghttp3_nv with the flags the encoder looks at, nghttp3.h -/
structure Nv where
  name : Bytes
  value : Bytes
  never : Bool := false
  tryIndex : Bool := false
deriving DecidableEq, Repr

/-- nghttp3_qpack_header_block_ref, nghttp3_qpack.h:109-121 -/
structure Ref where
  max : Nat
  min : Nat
deriving DecidableEq, Repr

/-- NGHTTP3_QPACK_DS_OPCODE_*, nghttp3_qpack.h -/
inductive DOpc where | icnt | ack | cancel
deriving DecidableEq, Repr

/-- struct nghttp3_qpack_encoder, nghttp3_qpack.h:231-267.  `streams`: stream ID and the stream's references, oldest
first; `blocked`: keys (max_cnt, id); `minUpd = none` is SIZE_MAX; `reading`: state READ_NUMBER. -/
structure Enc where
  ctx : Ctx
  streams : List (Nat × List Ref) := []
  blocked : List (Nat × Nat) := []
  minCnts : List Nat := []
  krcnt : Nat := 0
  reading : Bool := false
  dop : DOpc := .icnt
  rs : RState := {}
  minUpd : Option Nat := none
  lastUpd : Nat := 0
  pending : Bool := false
  uninterrupted : Nat := 0
deriving DecidableEq, Repr

/-- nghttp3_qpack_encoder_init, nghttp3_qpack.c:899-922 -/
def Enc.init (hardMax : Nat) : Enc := { ctx := { hardMax := hardMax, maxBlocked := 0 } }

/-! ### Instructions and field line representations -/

/-- encoder instructions as handed to the nghttp3_qpack_encoder_write_* functions -/
inductive EIns where
  | setCap (n : Nat)
  | insStatic (i : Nat) (value : Bytes)
  /-- `rel`: next_absidx - absidx - 1 -/
  | insDyn (rel : Nat) (value : Bytes)
  | insLit (name value : Bytes)
  | dup (rel : Nat)
deriving DecidableEq, Repr

/-- field line representations as handed to the nghttp3_qpack_encoder_write_* functions (absolute indices) -/
inductive Rep where
  | static (i : Nat)
  | dyn (absidx : Nat)
  | nameStatic (i : Nat) (value : Bytes) (never : Bool)
  | nameDyn (absidx : Nat) (value : Bytes) (never : Bool)
  | lit (name value : Bytes) (never : Bool)
deriving DecidableEq, Repr

/-- a string literal with prefix `pfx` whose first byte starts as `fb`: Huffman coded when that is strictly shorter,
nghttp3_qpack.c:1844-1850, 1862-1872, 1935-1949, 1959-1981 -/
def strBytes (fb : UInt8) (pfx : Nat) (s : Bytes) : Bytes :=
  if Huff.encodeCount s < s.length then
    QInt.put (fb ||| UInt8.ofNat (1 <<< pfx)) (Huff.encodeCount s) pfx ++ Huff.encode s
  else QInt.put fb s.length pfx ++ s

/-- qpack_encoder_write_indexed_name, nghttp3_qpack.c:1834-1879 -/
def indexedNameBytes (fb : UInt8) (idx pfx : Nat) (value : Bytes) : Bytes :=
  QInt.put fb idx pfx ++ strBytes 0 7 value

/-- qpack_encoder_write_literal, nghttp3_qpack.c:1926-1988 -/
def literalBytes (fb : UInt8) (pfx : Nat) (name value : Bytes) : Bytes :=
  strBytes fb pfx name ++ strBytes 0 7 value

/-- nghttp3_qpack_encoder_write_set_dtable_cap (1264-1268), …_static_insert (2000-2008), …_dynamic_insert (2010-2019),
…_literal_insert (2048-2053), …_duplicate_insert (2021-2046) -/
def EIns.bytes : EIns → Bytes
  | .setCap n => QInt.put 0x20 n 5
  | .insStatic i v => indexedNameBytes 0xc0 i 6 v
  | .insDyn rel v => indexedNameBytes 0x80 rel 6 v
  | .insLit n v => literalBytes 0x40 5 n v
  | .dup rel => QInt.put 0 rel 5

/-- nghttp3_qpack_encoder_write_static_indexed (1797-1803), …_dynamic_indexed (1805-1820), …_static_indexed_name
(1880-1890), …_dynamic_indexed_name (1892-1912), …_literal (1990-1998) -/
def Rep.bytes (base : Nat) : Rep → Bytes
  | .static i => QInt.put 0xc0 i 6
  | .dyn a => if a < base then QInt.put 0x80 (base - a - 1) 6 else QInt.put 0x10 (a - base) 4
  | .nameStatic i v never => indexedNameBytes (0x50 ||| if never then 0x20 else 0) i 4 v
  | .nameDyn a v never =>
    if a < base then indexedNameBytes (0x40 ||| if never then 0x20 else 0) (base - a - 1) 4 v
    else indexedNameBytes (if never then 0x08 else 0) (a - base) 3 v
  | .lit n v never => literalBytes (0x20 ||| if never then 0x10 else 0) 3 n v

/-- nghttp3_qpack_encoder_write_field_section_prefix, nghttp3_qpack.c:2404-2440.  `none`: `ricnt % 0`. -/
def prefixBytes (hardMax ricnt base : Nat) : Option Bytes :=
  let maxEnts := hardMax / 32
  if ricnt ≠ 0 ∧ maxEnts = 0 then none
  else
    let enc := if ricnt = 0 then 0 else ricnt % (2 * maxEnts) + 1
    let sign := decide (base < ricnt)
    let delta := if sign then ricnt - base - 1 else base - ricnt
    some (QInt.put 0 enc 8 ++ QInt.put (if sign then 0x80 else 0) delta 7)

/-! ### Capacity -/

/-- nghttp3_qpack_encoder_set_max_dtable_capacity, nghttp3_qpack.c:940-956 -/
def Enc.setMaxCap (e : Enc) (n : Nat) : Enc :=
  let n := min n e.ctx.hardMax
  if e.ctx.maxCap = n then e
  else
    let e1 := { e with pending := true }
    let e2 := if (match e1.minUpd with | none => true | some m => decide (n < m)) then
        { e1 with minUpd := some n, ctx := { e1.ctx with maxCap := n } } else e1
    { e2 with lastUpd := n }

/-- nghttp3_qpack_encoder_set_max_blocked_streams, nghttp3_qpack.c:958-961 -/
def Enc.setMaxBlocked (e : Enc) (n : Nat) : Enc := { e with ctx := { e.ctx with maxBlocked := n } }

/-- the loop of nghttp3_qpack_encoder_shrink_dtable, nghttp3_qpack.c:986-1001, on the entries oldest first; `none`: the
table is empty -/
def shrinkOld (cap : Nat) (minCnt : Option Nat) : List Ent → Nat → Option (List Ent × Nat)
  | [], size => if size ≤ cap then some ([], size) else none
  | x :: t, size =>
    if size ≤ cap then some (x :: t, size)
    else if some (x.absidx + 1) = minCnt then some (x :: t, size)
    else shrinkOld cap minCnt t (size - x.space)

/-- nghttp3_qpack_encoder_shrink_dtable, nghttp3_qpack.c:971-1002 -/
def Enc.shrink (e : Enc) : Option Enc :=
  match shrinkOld e.ctx.maxCap e.minCnts.min? e.ctx.ents.reverse e.ctx.size with
  | none => none
  | some (old, size) => some { e with ctx := { e.ctx with ents := old.reverse, size := size } }

/-- nghttp3_qpack_encoder_process_dtable_update, nghttp3_qpack.c:1233-1263: the instructions written -/
def Enc.processUpdate (e : Enc) : Option (Enc × List EIns) :=
  match e.shrink with
  | none => none
  | some e =>
    if e.ctx.maxCap < e.ctx.size ∨ e.pending = false then some (e, [])
    else
      let first := match e.minUpd with
        | none => []
        | some m => if m < e.lastUpd then [EIns.setCap m] else []
      some ({ e with pending := false, minUpd := none, ctx := { e.ctx with maxCap := e.lastUpd } },
            first ++ [EIns.setCap e.lastUpd])

/-! ### Encoding one field -/

/-- qpack_encoder_decide_indexing_mode, nghttp3_qpack.c:1300-1350 -/
def decideMode (maxCap : Nat) (nv : Nv) (token : Option Nat) : Mode :=
  let storeOrLit := if maxCap * 3 / 4 < tableSpace nv.name.length nv.value.length then Mode.literal else .store
  let unlessTry := if nv.tryIndex then storeOrLit else .literal
  if nv.never then .never
  else
    match token with
    | none => unlessTry
    | some t =>
      if t = TOKEN_AUTHORIZATION then .never
      else if t = TOKEN_COOKIE then if nv.value.length < 20 then .never else storeOrLit
      else if t ∈ [TOKEN_PATH, TOKEN_AGE, TOKEN_CONTENT_LENGTH, TOKEN_ETAG, TOKEN_IF_MODIFIED_SINCE, TOKEN_IF_NONE_MATCH,
          TOKEN_LOCATION, TOKEN_SET_COOKIE] then unlessTry
      else if t ∈ [TOKEN_HOST, TOKEN_TE, TOKEN_PROTOCOL, TOKEN_PRIORITY] then storeOrLit
      else if nv.tryIndex then storeOrLit
      else if 1000 ≤ t then .literal
      else storeOrLit

/-- nghttp3_min_uint64 with `none` for UINT64_MAX -/
def optMin : Option Nat → Option Nat → Option Nat
  | none, b => b
  | a, none => a
  | some a, some b => some (min a b)

/-- qpack_encoder_can_index, nghttp3_qpack.c:1357-1392; `none` is a failed assertion -/
def Enc.canIndex (e : Enc) (need : Nat) (mn : Option Nat) : Option Bool :=
  let c := e.ctx
  let avail := c.maxCap - c.size
  if c.size < c.maxCap ∧ need ≤ avail then some true
  else
    match optMin mn e.minCnts.min? with
    | none => some (decide (need ≤ c.maxCap))
    | some m =>
      if m = 0 then none
      else
        match c.get (m - 1), c.ents.getLast? with
        | some me, some le =>
          if me.absidx = le.absidx then some false else some (decide (need ≤ avail + me.sum - le.sum))
        | _, _ => none

/-- qpack_context_check_draining, nghttp3_qpack.c:1425-1432 -/
def Ctx.draining (c : Ctx) (x : Ent) : Bool := decide (c.maxCap - min 512 (c.maxCap * 1 / 8) < c.sum - x.sum)

/-- encoder_qpack_map_find, nghttp3_qpack.c:799-835, over the rest of the chain; the accumulators are `*pmatch` and
`*ppb_match`.  Result: exact_match, match, pb_match. -/
def mapFind (c : Ctx) (krcnt : Nat) (allow nameOnly : Bool) (nv : Nv) (token : Option Nat) (hash : Nat) :
    List Ent → Option Ent → Option Ent → Bool × Option Ent × Option Ent
  | [], m, pb => (false, m, pb)
  | p :: t, m, pb =>
    if token ≠ p.token ∨ (token = none ∧ (hash ≠ p.hash ∨ p.name ≠ nv.name)) ∨ c.maxCap < c.sum - p.sum then
      mapFind c krcnt allow nameOnly nv token hash t m pb
    else if allow ∨ p.absidx + 1 ≤ krcnt then
      if m = none ∧ nameOnly then (false, some p, pb)
      else if p.value = nv.value then (true, some p, pb)
      else mapFind c krcnt allow nameOnly nv token hash t (if m = none then some p else m) pb
    else
      mapFind c krcnt allow nameOnly nv token hash t m (if pb = none ∧ p.value = nv.value then some p else pb)

/-- the hash of a field name, nghttp3_qpack.c:1468-1487 -/
def nvHash (nv : Nv) (token : Option Nat) : Nat :=
  match token with
  | some t =>
    if t < tokenStable.length then ((tokenStable[t]?).getD (0, 0, 0)).2.2
    else if t = TOKEN_HOST then 2952701295
    else if t = TOKEN_TE then 1011170994
    else if t = TOKEN_PROTOCOL then 1128642621
    else if t = TOKEN_PRIORITY then 2498028297
    else hashName nv.name
  | none => hashName nv.name

/-- nghttp3_qpack_encoder_lookup_dtable, nghttp3_qpack.c:1642-1665 (the entry instead of its index) -/
def Enc.lookupDtable (e : Enc) (nv : Nv) (token : Option Nat) (hash : Nat) (mode : Mode) (allow : Bool) :
    Bool × Option Ent × Option Ent :=
  mapFind e.ctx e.krcnt allow (decide (mode = .never)) nv token hash
    (e.ctx.ents.filter fun x => x.hash % 64 == hash % 64) none none

/-- what encoding one field produces: new encoder, new *pmax_cnt and *pmin_cnt, the instruction written to `ebuf` if
any, the representation written to `rbuf` -/
structure NvOut where
  e : Enc
  max : Nat
  min : Option Nat
  ins : List EIns
  rep : Rep
deriving DecidableEq, Repr

/-- insert and, when blocking is allowed, refer to the new entry: the shape of nghttp3_qpack.c:1523-1542, 1549-1579,
1588-1605 -/
def Enc.insertNv (e : Enc) (mx : Nat) (mn : Option Nat) (allow : Bool) (name value : Bytes) (token : Option Nat) (hash : Nat)
    (ins : EIns) (els : Enc → List EIns → NvOut) : Option NvOut :=
  match e.ctx.add name value token hash with
  | none => none
  | some c =>
    let e' := { e with ctx := c }
    if allow then
      match c.ents with
      | [] => none
      | t :: _ =>
        some ⟨e', Nat.max mx (t.absidx + 1), optMin mn (some (t.absidx + 1)), [ins], .dyn t.absidx⟩
    else some (els e' [ins])

/-- an exact match in the dynamic table, nghttp3_qpack.c:1496-1520 -/
def Enc.encodeExact (e : Enc) (mx : Nat) (mn : Option Nat) (allow : Bool) (x : Ent) : Option NvOut :=
  let plain : Option NvOut := some ⟨e, Nat.max mx (x.absidx + 1), optMin mn (some (x.absidx + 1)), [], .dyn x.absidx⟩
  if allow ∧ e.ctx.draining x = true then
    match e.canIndex x.space mn with
    | none => none
    | some true =>
      match e.ctx.add x.name x.value x.token x.hash with
      | none => none
      | some c =>
        match c.ents with
        | [] => none
        | t :: _ =>
          some ⟨{ e with ctx := c }, Nat.max mx (t.absidx + 1), optMin mn (some (t.absidx + 1)),
            [.dup (e.ctx.next - x.absidx - 1)], .dyn t.absidx⟩
    | some false => plain
  else plain

/-- a name match in the static table, nghttp3_qpack.c:1522-1546 -/
def Enc.encodeStaticName (e : Enc) (mx : Nat) (mn : Option Nat) (allow just : Bool) (nv : Nv) (hash i : Nat) : Option NvOut :=
  let out (e : Enc) (ins : List EIns) : NvOut := ⟨e, mx, mn, ins, .nameStatic i nv.value nv.never⟩
  if just then
    match e.canIndex (tableSpace nv.name.length nv.value.length) mn with
    | none => none
    | some true =>
      match stable[i]? with
      | none => none
      | some (n, _, t) => e.insertNv mx mn allow n nv.value (some t) hash (.insStatic i nv.value) out
    | some false => some (out e [])
  else some (out e [])

/-- a name match in the dynamic table, nghttp3_qpack.c:1548-1586 -/
def Enc.encodeDynName (e : Enc) (mx : Nat) (mn : Option Nat) (allow just : Bool) (nv : Nv) (hash : Nat) (x : Ent) : Option NvOut :=
  let mn' := optMin mn (some (x.absidx + 1))
  let out (e : Enc) (ins : List EIns) : NvOut :=
    ⟨e, Nat.max mx (x.absidx + 1), mn', ins, .nameDyn x.absidx nv.value nv.never⟩
  if just then
    match e.canIndex (tableSpace nv.name.length nv.value.length) (if allow then mn else mn') with
    | none => none
    | some true =>
      e.insertNv mx mn allow x.name nv.value x.token hash (.insDyn (e.ctx.next - x.absidx - 1) nv.value) out
    | some false => some (out e [])
  else some (out e [])

/-- no match at all, nghttp3_qpack.c:1588-1607 -/
def Enc.encodeLit (e : Enc) (mx : Nat) (mn : Option Nat) (allow just : Bool) (nv : Nv) (token : Option Nat) (hash : Nat) :
    Option NvOut :=
  let out (e : Enc) (ins : List EIns) : NvOut := ⟨e, mx, mn, ins, .lit nv.name nv.value nv.never⟩
  if just then
    match e.canIndex (tableSpace nv.name.length nv.value.length) mn with
    | none => none
    | some true => e.insertNv mx mn allow nv.name nv.value token hash (.insLit nv.name nv.value) out
    | some false => some (out e [])
  else some (out e [])

/-- NGHTTP3_QPACK_MAX_QPACK_STREAMS, nghttp3_qpack.h -/
def MAX_QPACK_STREAMS : Nat := 2000

/-- nghttp3_qpack_encoder_encode_nv after the static table lookup, nghttp3_qpack.c:1468-1608; `sidx` is `sres.index` -/
def Enc.encodeNvDyn (e : Enc) (mx : Nat) (mn : Option Nat) (allow : Bool) (nv : Nv) (token : Option Nat) (mode : Mode)
    (sidx : Option Nat) : Option NvOut :=
  let hash := nvHash nv token
  let dres := if e.streams.length < MAX_QPACK_STREAMS then e.lookupDtable nv token hash mode allow else (false, none, none)
  let just := decide (e.streams.length < MAX_QPACK_STREAMS) && decide (mode = .store) && decide (dres.2.2 = none)
  match dres.1, dres.2.1 with
  | true, some x => e.encodeExact mx mn allow x
  | _, m =>
    match sidx with
    | some i => e.encodeStaticName mx mn allow just nv hash i
    | none =>
      match m with
      | some x => e.encodeDynName mx mn allow just nv hash x
      | none => e.encodeLit mx mn allow just nv token hash

/-- nghttp3_qpack_encoder_encode_nv, nghttp3_qpack.c:1434-1608 -/
def Enc.encodeNv (e : Enc) (mx : Nat) (mn : Option Nat) (allow : Bool) (nv : Nv) : Option NvOut :=
  let token := lookupToken nv.name
  let mode := decideMode e.ctx.maxCap nv token
  let sres : Option (Nat × Bool) := match token with
    | some t => if t < tokenStable.length then some (lookupStable nv.value t mode) else none
    | none => none
  match sres with
  | some (i, true) => some ⟨e, mx, mn, [], .static i⟩
  | _ => e.encodeNvDyn mx mn allow nv token mode (sres.map (·.1))

/-- what encoding a list of fields produces -/
structure NvsOut where
  e : Enc
  max : Nat
  min : Option Nat
  ins : List EIns
  reps : List Rep
deriving DecidableEq, Repr

/-- the loop of nghttp3_qpack_encoder_encode, nghttp3_qpack.c:1168-1174 -/
def Enc.encodeNvs (e : Enc) (mx : Nat) (mn : Option Nat) (allow : Bool) : List Nv → Option NvsOut
  | [] => some ⟨e, mx, mn, [], []⟩
  | nv :: t =>
    match e.encodeNv mx mn allow nv with
    | none => none
    | some o =>
      match o.e.encodeNvs o.max o.min allow t with
      | none => none
      | some r => some { r with ins := o.ins ++ r.ins, reps := o.rep :: r.reps }

/-! ### Streams -/

/-- nghttp3_qpack_encoder_find_stream, nghttp3_qpack.c:1271-1275 -/
def Enc.find (e : Enc) (id : Nat) : Option (List Ref) := (e.streams.find? fun s => s.1 == id).map (·.2)

/-- nghttp3_qpack_stream_get_max_cnt, nghttp3_qpack.c:1746-1756 -/
def maxCnt (refs : List Ref) : Nat := (refs.map Ref.max).foldr Nat.max 0

/-- replace the references of a stream in the map -/
def putStream (id : Nat) (refs : List Ref) (l : List (Nat × List Ref)) : List (Nat × List Ref) :=
  l.map fun s => if s.1 = id then (id, refs) else s

/-- nghttp3_map_remove of a stream -/
def delStream (id : Nat) (l : List (Nat × List Ref)) : List (Nat × List Ref) := l.filter fun s => s.1 != id

/-- nghttp3_qpack_encoder_unblock_stream, nghttp3_qpack.c:2280-2297; `none`: the assertion that the stream is there -/
def Enc.unblockStream (e : Enc) (key : Nat × Nat) : Option Enc :=
  if key ∈ e.blocked then some { e with blocked := e.blocked.erase key } else none

/-- nghttp3_qpack_encoder_unblock, nghttp3_qpack.c:2299-2312 -/
def Enc.unblock (e : Enc) (cnt : Nat) : Enc := { e with blocked := e.blocked.filter fun k => decide (cnt < k.1) }

/-- the second part of qpack_encoder_add_stream_ref, nghttp3_qpack.c:1047-1067; `none`: the key is already in the index
(nghttp3_ksl_insert fails) -/
def Enc.pushRef (e : Enc) (id : Nat) (refs : List Ref) (prev : Nat) (r : Ref) : Option Enc :=
  let refs' := refs ++ [r]
  let e1 := { e with streams := putStream id refs' e.streams, minCnts := r.min :: e.minCnts }
  if prev < r.max ∧ e.krcnt < maxCnt refs' then
    if (maxCnt refs', id) ∈ e.blocked then none
    else some { e1 with blocked := (maxCnt refs', id) :: e.blocked }
  else some e1

/-- qpack_encoder_add_stream_ref, nghttp3_qpack.c:1017-1067.  `mn = none` would push UINT64_MAX; it does not occur. -/
def Enc.addStreamRef (e : Enc) (id mx : Nat) (mn : Option Nat) : Option Enc :=
  match mn with
  | none => none
  | some mn =>
    match e.find id with
    | none => { e with streams := (id, []) :: e.streams }.pushRef id [] 0 ⟨mx, mn⟩
    | some refs =>
      if e.krcnt < maxCnt refs ∧ maxCnt refs < mx then
        match e.unblockStream (maxCnt refs, id) with
        | none => none
        | some e' => e'.pushRef id refs (maxCnt refs) ⟨mx, mn⟩
      else e.pushRef id refs (maxCnt refs) ⟨mx, mn⟩

/-- what one call of nghttp3_qpack_encoder_encode produces; the field section is `pfx ++ rbuf` -/
structure EncOut where
  e : Enc
  ricnt : Nat
  base : Nat
  ins : List EIns
  reps : List Rep
  pfx : Bytes
deriving DecidableEq, Repr

/-- bytes appended to the encoder stream -/
def EncOut.ebuf (o : EncOut) : Bytes := o.ins.flatMap EIns.bytes

/-- the encoded field section -/
def EncOut.section (o : EncOut) : Bytes := o.pfx ++ o.reps.flatMap (Rep.bytes o.base)

/-- `allow_blocking`, nghttp3_qpack.c:1158-1163 -/
def Enc.allowBlocking (e : Enc) (id : Nat) : Bool :=
  (match e.find id with | none => false | some refs => decide (e.krcnt < maxCnt refs)) ||
    decide (e.blocked.length < e.ctx.maxBlocked)

/-- nghttp3_qpack_encoder_encode, nghttp3_qpack.c:1132-1197, of an encoder that has not failed (`ctx.bad` is 0);
`none` is a failed assertion, a division by zero or a failed internal operation -/
def Enc.encode (e : Enc) (id : Nat) (nvs : List Nv) : Option EncOut :=
  match e.processUpdate with
  | none => none
  | some (e, upd) =>
    match e.encodeNvs 0 none (e.allowBlocking id) nvs with
    | none => none
    | some r =>
      match prefixBytes e.ctx.hardMax r.max e.ctx.next with
      | none => none
      | some pfx =>
        let e' := { r.e with uninterrupted := 0 }
        if r.max = 0 then some ⟨e', r.max, e.ctx.next, upd ++ r.ins, r.reps, pfx⟩
        else
          match e'.addStreamRef id r.max r.min with
          | none => none
          | some e'' => some ⟨e'', r.max, e.ctx.next, upd ++ r.ins, r.reps, pfx⟩

/-! ### Decoder stream -/

/-- outcome of a decoder instruction: `crash` a failed assertion, `fail` NGHTTP3_ERR_QPACK_DECODER_STREAM_ERROR -/
inductive DRes where
  | crash
  | fail
  | ok (e : Enc)
deriving DecidableEq, Repr

/-- removing the references' entries from `min_cnts`; `none`: the assertion that they are there -/
def eraseMins : List Ref → List Nat → Option (List Nat)
  | [], l => some l
  | r :: t, l => if r.min ∈ l then eraseMins t (l.erase r.min) else none

/-- nghttp3_qpack_encoder_ack_header, nghttp3_qpack.c:2314-2357 -/
def Enc.ackHeader (e : Enc) (id : Nat) : DRes :=
  match e.find id with
  | none => .fail
  | some [] => .crash
  | some (r :: rest) =>
    let e1 := if e.krcnt < r.max then { e with krcnt := r.max }.unblock r.max else e
    match eraseMins [r] e1.minCnts with
    | none => .crash
    | some mc =>
      if rest = [] then .ok { e1 with minCnts := mc, streams := delStream id e1.streams }
      else .ok { e1 with minCnts := mc, streams := putStream id rest e1.streams }

/-- nghttp3_qpack_encoder_add_icnt, nghttp3_qpack.c:2359-2368 -/
def Enc.addIcnt (e : Enc) (n : Nat) : DRes :=
  if n = 0 ∨ e.ctx.next - e.krcnt < n then .fail
  else .ok ({ e with krcnt := e.krcnt + n }.unblock (e.krcnt + n))

/-- nghttp3_qpack_encoder_ack_everything, nghttp3_qpack.c:2370-2378 -/
def Enc.ackEverything (e : Enc) : Enc :=
  { e with krcnt := e.ctx.next, blocked := [], minCnts := [], streams := [] }

/-- nghttp3_qpack_encoder_cancel_stream, nghttp3_qpack.c:2380-2397 -/
def Enc.cancelStream (e : Enc) (id : Nat) : DRes :=
  match e.find id with
  | none => .ok e
  | some refs =>
    match (if e.krcnt < maxCnt refs then e.unblockStream (maxCnt refs, id) else some e) with
    | none => .crash
    | some e1 =>
      match eraseMins refs e1.minCnts with
      | none => .crash
      | some mc => .ok { e1 with minCnts := mc, streams := delStream id e1.streams }

/-- nghttp3_qpack_encoder_get_num_blocked_streams, nghttp3_qpack.c:2399-2402 -/
def Enc.numBlocked (e : Enc) : Nat := e.blocked.length

/-- one complete decoder instruction, nghttp3_qpack.c:2586-2606 -/
def Enc.apply (e : Enc) : DOpc → Nat → DRes
  | .icnt, n => e.addIcnt n
  | .ack, n => e.ackHeader n
  | .cancel, n => e.cancelStream n

/-- opcode and prefix from the first byte, nghttp3_qpack.c:2550-2570 -/
def dsOpcode (e : Enc) (b : UInt8) : Enc :=
  if 0x80 ≤ b.toNat &&& 0xc0 then { e with dop := .ack, reading := true, rs := { e.rs with pfx := 7 } }
  else if b.toNat &&& 0xc0 = 0x40 then { e with dop := .cancel, reading := true, rs := { e.rs with pfx := 6 } }
  else { e with dop := .icnt, reading := true, rs := { e.rs with pfx := 6 } }

/-- outcome of a pass through the loop of nghttp3_qpack_encoder_read_decoder -/
inductive DStep where
  | crash
  | fail
  | part (e : Enc)
  | cont (e : Enc) (rest : Bytes)
deriving DecidableEq, Repr

/-- NGHTTP3_QPACK_DS_STATE_READ_NUMBER, nghttp3_qpack.c:2572-2610 -/
def dsNumber (e : Enc) (src : Bytes) : DStep :=
  match QInt.readInt e.rs.pfx e.rs.left e.rs.shift src with
  | .oob => .crash
  | .fatal => .fail
  | .part l s => .part { e with rs := { e.rs with left := l, shift := s } }
  | .done l s rest =>
    match { e with rs := { e.rs with left := l, shift := s } }.apply e.dop l with
    | .crash => .crash
    | .fail => .fail
    | .ok e' => .cont { e' with reading := false, rs := e'.rs.reset } rest

/-- one pass, nghttp3_qpack.c:2549-2613 -/
def dsStep (e : Enc) (src : Bytes) : DStep :=
  if e.reading then dsNumber e src
  else match src with | [] => .crash | b :: t => dsNumber (dsOpcode e b) (b :: t)

/-- what nghttp3_qpack_encoder_read_decoder reports -/
inductive DOut where
  | crash
  | fail
  | ok (e : Enc)
deriving DecidableEq, Repr

/-- the loop of nghttp3_qpack_encoder_read_decoder, nghttp3_qpack.c:2548-2614; every pass consumes at least one byte, so
the length of the input bounds the number of passes -/
def dsLoop : Nat → Enc → Bytes → DOut
  | 0, e, src => if src = [] then .ok e else .crash
  | f + 1, e, src =>
    if src = [] then .ok e
    else
      match dsStep e src with
      | .crash => .crash
      | .fail => .fail
      | .part e' => .ok e'
      | .cont e' rest => dsLoop f e' rest

/-- nghttp3_qpack_encoder_read_decoder, nghttp3_qpack.c:2525-2621, of an encoder that has not failed -/
def Enc.readDecoder (e : Enc) (src : Bytes) : DOut :=
  if src = [] then .ok e
  else
    let e := { e with uninterrupted := e.uninterrupted + src.length }
    if 4096 < e.uninterrupted then .fail else dsLoop src.length e src

end Qpack
end Nghttp3
