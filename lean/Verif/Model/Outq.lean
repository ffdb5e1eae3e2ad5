import Verif.Model.Frame
/-! Model of the sending side of a stream, lib/nghttp3_stream.c: chunks of memory, the queue of buffers (outq), the queue of frames (frq),
partial writes and acknowledgements.  The ring buffers `frq`, `outq` and `chunks` are lists (they are proved to be deques in C05), memory
allocation does not fail. -/
namespace Nghttp3
namespace Outq

abbrev Bytes := List UInt8

/-- outcome of a function: a failed assertion or an access outside of live memory; an error code; a value -/
inductive R (α : Type) where
  | crash
  | overflow
  | callbackFailure
  | ok (a : α)
deriving DecidableEq

def R.bind {α β : Type} (r : R α) (f : α → R β) : R β :=
  match r with
  | .crash => .crash
  | .overflow => .overflow
  | .callbackFailure => .callbackFailure
  | .ok a => f a

instance : Monad R where
  pure := .ok
  bind := R.bind

/-- a chunk of memory (an nghttp3_buf in `chunks`): `id` stands for its address, `cap` is `end - begin`, `data` are the bytes from `begin`
to `last` -/
structure Chunk where
  id : Nat
  cap : Nat
  data : Bytes
deriving DecidableEq, Repr

/-- where the bytes of a buffer are: NGHTTP3_BUF_TYPE_*, nghttp3_buf.h:58-68 -/
inductive Src where
  | priv (bs : Bytes)
  | alien (bs : Bytes)
  | shared (id : Nat)
deriving DecidableEq, Repr

/-- nghttp3_typed_buf, nghttp3_buf.h:70-73: `begin`, `pos`, `last` as offsets from the start of the memory; `end` is that of the chunk -/
structure Ent where
  src : Src
  beg : Nat
  pos : Nat
  last : Nat
deriving DecidableEq, Repr

/-- nghttp3_buf_len, nghttp3_buf.c:45-47 -/
def Ent.len (e : Ent) : Nat := e.last - e.pos

def Ent.isAlien (e : Ent) : Bool := match e.src with | .alien _ => true | _ => false

/-- live memory of an address -/
def mem (cs : List Chunk) (id : Nat) : Option Bytes := (cs.find? (fun c => c.id == id)).map (·.data)

/-- the memory of a buffer; `none`: it has been freed -/
def Ent.region (cs : List Chunk) (e : Ent) : Option Bytes :=
  match e.src with
  | .priv bs => some bs
  | .alien bs => some bs
  | .shared id => mem cs id

/-- bytes from offset `a` to `b` -/
def slice (r : Bytes) (a b : Nat) : Bytes := (r.drop a).take (b - a)

/-- nghttp3_frame_entry, nghttp3_stream.h:257-267; a HEADERS frame carries its fields in a form `F` that only the encoder looks into;
`ft` is the type of a PRIORITY_UPDATE frame -/
inductive Frent (F : Type) where
  | settings (s : Settings)
  | headers (nva : F)
  | data
  | goaway (id : Nat)
  | priorityUpdate (ft elemId : Nat) (val : Bytes)

/-- sending side of nghttp3_stream, nghttp3_stream.h:202-253.  `nextId` supplies addresses for new chunks. -/
structure St (F : Type) where
  frq : List (Frent F) := []
  chunks : List Chunk := []
  outq : List Ent := []
  nextId : Nat := 0
  outqIdx : Nat := 0
  unsent : Nat := 0
  txOffset : Nat := 0
  ackBase : Nat := 0
  ackOffset : Nat := 0
  endStream : Bool := false
  readBlocked : Bool := false

variable {F : Type}

/-- NGHTTP3_STREAM_MIN_CHUNK_SIZE, nghttp3_stream.h:42 -/
def MIN_CHUNK_SIZE : Nat := 256
/-- NGHTTP3_MIN_UNSENT_BYTES, nghttp3_stream.h:46 -/
def MIN_UNSENT_BYTES : Nat := 4096
/-- NGHTTP3_STREAM_MAX_COPY_THRES, nghttp3_stream.c:42 -/
def MAX_COPY_THRES : Nat := 128
/-- NGHTTP3_MAX_VARINT, nghttp3_macro.h:46 -/
def MAX_VARINT : Nat := 2 ^ 62 - 1

/-- `for (; n < need; n *= 2)`, nghttp3_stream.c:764-765; `fuel` = `need` is enough for `n` > 0 (`growTo_ge`) -/
def growTo (need : Nat) : Nat → Nat → Nat
  | 0, n => n
  | fuel + 1, n => if n < need then growTo need fuel (n * 2) else n

/-- nghttp3_stream_ensure_chunk, nghttp3_stream.c:749-789 -/
def ensureChunk (s : St F) (need : Nat) : St F :=
  match s.chunks.getLast? with
  | some c =>
    if c.cap - c.data.length ≥ need then s
    else { s with chunks := s.chunks ++ [⟨s.nextId, growTo need need MIN_CHUNK_SIZE, []⟩], nextId := s.nextId + 1 }
  | none => { s with chunks := s.chunks ++ [⟨s.nextId, growTo need need MIN_CHUNK_SIZE, []⟩], nextId := s.nextId + 1 }

/-- write at `chunk->last` of the last chunk (nghttp3_stream_get_chunk, nghttp3_stream.c:791-798): its new state, its address and the
offset before; `crash` if there is none or it is too small -/
def appendChunk : List Chunk → Bytes → R (List Chunk × Nat × Nat)
  | [], _ => .crash
  | [c], bs => if c.data.length + bs.length ≤ c.cap then .ok ([{ c with data := c.data ++ bs }], c.id, c.data.length) else .crash
  | c :: cs, bs => (appendChunk cs bs).bind fun r => .ok (c :: r.1, r.2)

/-- test of nghttp3_stream.c:719-720: the buffer continues the last buffer of the queue -/
def mergeable (d t : Ent) : Bool :=
  match d.src, t.src with
  | .shared i, .shared j => i == j && d.last == t.pos
  | _, _ => false

/-- nghttp3_stream_outq_add, nghttp3_stream.c:702-747; `dest->buf.end == tbuf->buf.end` holds iff they are in the same chunk.
NGHTTP3_ERR_STREAM_DATA_OVERFLOW is `overflow`. -/
def outqAdd (s : St F) (t : Ent) : R (St F) :=
  if t.len > MAX_VARINT - s.txOffset then .overflow
  else
    let s := { s with txOffset := s.txOffset + t.len, unsent := s.unsent + t.len }
    match s.outq.getLast? with
    | some d =>
      if mergeable d t then
        .ok { s with outq := s.outq.dropLast ++ [{ d with last := t.last }],
                     outqIdx := if s.outq.length = s.outqIdx then s.outqIdx - 1 else s.outqIdx }
      else .ok { s with outq := s.outq ++ [t] }
    | none => .ok { s with outq := s.outq ++ [t] }

/-- reserve `need` bytes, write `bs` and queue them: the pattern of nghttp3_stream_write_stream_type (nghttp3_stream.c:307-325),
_write_settings (326-384), _write_goaway (386-410), _write_priority_update (412-436), _write_qpack_decoder_stream (669-701) -/
def sharedWrite (s : St F) (need : Nat) (bs : Bytes) : R (St F) :=
  let s := ensureChunk s need
  (appendChunk s.chunks bs).bind fun r =>
    outqAdd { s with chunks := r.1 } ⟨.shared r.2.1, r.2.2, r.2.2, r.2.2 + bs.length⟩

/-- nghttp3_stream_write_stream_type, nghttp3_stream.c:307-325 -/
def writeStreamType (s : St F) (ty : Nat) : R (St F) := sharedWrite s (putVarintLen ty) (putVarint ty)

/-- a buffer of type PRIVATE: nghttp3_typed_buf_init, nghttp3_buf.c:90-95 -/
def privEnt (bs : Bytes) : Ent := ⟨.priv bs, 0, 0, bs.length⟩
/-- a buffer of type ALIEN, nghttp3_stream.c:655-657 -/
def alienEnt (bs : Bytes) : Ent := ⟨.alien bs, 0, 0, bs.length⟩

/-- part of nghttp3_stream_write_header_block that writes the HEADERS frame, nghttp3_stream.c:474-523; `p`, `r`: the prefix and the field
lines made by the encoder.  If `r` is empty, the chunk is written to but no buffer is queued. -/
def writeHeaderFrame (s : St F) (p r : Bytes) : R (St F) :=
  let hd := frameWriteHd FRAME_HEADERS (p.length + r.length)
  let len := frameWriteHdLen FRAME_HEADERS (p.length + r.length) + p.length
  let len := if r.length ≤ MAX_COPY_THRES then len + r.length else len
  if r.length > MAX_COPY_THRES then
    (sharedWrite s len (hd ++ p)).bind fun s => outqAdd s (privEnt r)
  else if r.length ≠ 0 then sharedWrite s len (hd ++ p ++ r)
  else
    let s := ensureChunk s len
    (appendChunk s.chunks (hd ++ p)).bind fun x => .ok { s with chunks := x.1 }

/-- part of nghttp3_stream_write_header_block that writes to the encoder stream, nghttp3_stream.c:525-553 -/
def writeEncoderBytes (q : St F) (eb : Bytes) : R (St F) :=
  if eb.length > MAX_COPY_THRES then outqAdd q (privEnt eb)
  else if eb.length ≠ 0 then sharedWrite q eb.length eb
  else .ok q

/-- result of the read_data callback: NGHTTP3_ERR_WOULDBLOCK, another error, or the vectors and the flags EOF and NO_END_STREAM -/
inductive Ans where
  | wouldblock
  | fail
  | vecs (v : List Bytes) (eof noEnd : Bool)
deriving DecidableEq, Repr

/-- nghttp3_stream_outq_write_done, nghttp3_stream.c:874-879 -/
def writeDone (s : St F) : Bool := s.outq.length == 0 || decide (s.outqIdx ≥ s.outq.length)

/-- queue the vectors, nghttp3_stream.c:649-663 -/
def addAlien (s : St F) : List Bytes → R (St F)
  | [] => .ok s
  | v :: t => if v.length = 0 then addAlien s t else (outqAdd s (alienEnt v)).bind fun s => addAlien s t

/-- NGHTTP3_STREAM_FLAG_WRITE_END_STREAM, nghttp3_stream.c:602-605 -/
def setEnd (s : St F) (b : Bool) : St F := if b then { s with endStream := true } else s

/-- nghttp3_stream_write_data, nghttp3_stream.c:562-666: the new state and `*peof` -/
def writeData (s : St F) (a : Ans) : R (St F × Bool) :=
  if s.readBlocked then .crash
  else
  match a with
  | .wouldblock => .ok ({ s with readBlocked := true }, false)
  | .fail => .callbackFailure
  | .vecs v eof noEnd =>
    match vecLenVarint (v.map (·.length)) with
    | none => .overflow
    | some datalen =>
      if datalen = 0 ∧ eof = false then .crash
      else
        let s := setEnd s (eof && !noEnd)
        if datalen = 0 then
          if !noEnd && writeDone s then (outqAdd s (privEnt [])).bind fun s => .ok (s, eof)
          else .ok (s, eof)
        else
          (sharedWrite s (frameWriteHdLen FRAME_DATA datalen) (frameWriteHd FRAME_DATA datalen)).bind fun s =>
            (addAlien s v).bind fun s => .ok (s, eof)

/-- what a call of fill_outq has put in the queue, frame by frame (a record for the specification, not in the code) -/
inductive Emit where
  | streamType (ty : Nat)
  | settings (s : Settings)
  | headers (p r eb : Bytes)
  | data (v : List Bytes) (eof noEnd : Bool)
  | goaway (id : Nat)
  | priorityUpdate (ft elemId : Nat) (val : Bytes)
  | raw (bs : Bytes)
deriving DecidableEq, Repr

/-- nghttp3_stream_fill_outq, nghttp3_stream.c:246-305.  `encode`: the QPACK encoder (`none`: error; otherwise its new state, the prefix,
the field lines and the bytes for the encoder stream); `q`: the encoder stream; `as`: the results of read_data in the order of the calls.
The loop is a recursion over `frq`; a missing answer is treated like WOULDBLOCK.  frames removed from `frq` are recorded. -/
def fillLoop {E : Type} (encode : E → F → Option (E × Bytes × Bytes × Bytes)) :
    List (Frent F) → E → St F → St F → List Ans → List Emit → R (E × St F × St F × List Emit)
  | [], e, s, q, _, em => .ok (e, { s with frq := [] }, q, em)
  | f :: t, e, s, q, as, em =>
    if s.unsent ≥ MIN_UNSENT_BYTES then .ok (e, { s with frq := f :: t }, q, em)
    else
    match f with
    | .settings st =>
      (sharedWrite s (streamWriteSettings st).1 (streamWriteSettings st).2).bind fun s =>
        fillLoop encode t e s q as (em ++ [.settings st])
    | .headers nva =>
      match encode e nva with
      | none => .callbackFailure
      | some (e', p, r, eb) =>
        (writeHeaderFrame s p r).bind fun s => (writeEncoderBytes q eb).bind fun q =>
          fillLoop encode t e' s q as (em ++ [.headers p r eb])
    | .data =>
      (writeData s (as.head?.getD .wouldblock)).bind fun (s, eof) =>
        if s.readBlocked then .ok (e, { s with frq := f :: t }, q, em)
        else
          let em' := match as.head?.getD .wouldblock with | .vecs v eof noEnd => em ++ [.data v eof noEnd] | _ => em
          if !eof then .ok (e, { s with frq := f :: t }, q, em')
          else fillLoop encode t e s q as.tail em'
    | .goaway id =>
      (sharedWrite s (streamWriteGoaway id).1 (streamWriteGoaway id).2).bind fun s =>
        fillLoop encode t e s q as (em ++ [.goaway id])
    | .priorityUpdate ft el v =>
      (sharedWrite s (streamWritePriorityUpdate ft el v).1 (streamWritePriorityUpdate ft el v).2).bind fun s =>
        fillLoop encode t e s q as (em ++ [.priorityUpdate ft el v])

def fillOutq {E : Type} (encode : E → F → Option (E × Bytes × Bytes × Bytes)) (e : E) (s q : St F) (as : List Ans) :
    R (E × St F × St F × List Emit) := fillLoop encode s.frq e s q as []

/-- loop of nghttp3_stream_writev, nghttp3_stream.c:825-837, over the buffers from `outq_idx` on; `k` vectors are left.  The bytes the
vectors point to, and whether the end of the queue has been reached; `none`: a vector points to freed memory. -/
def writevLoop (cs : List Chunk) : List Ent → Nat → Option (List Bytes × Bool)
  | [], _ => some ([], true)
  | _ :: _, 0 => some ([], false)
  | e :: t, k + 1 =>
    if e.len = 0 then writevLoop cs t (k + 1)
    else
      match e.region cs, writevLoop cs t k with
      | some r, some (vs, b) => some (slice r e.pos e.last :: vs, b)
      | _, _ => none

/-- nghttp3_stream_writev, nghttp3_stream.c:814-845: the vectors and fin -/
def writev (s : St F) (veccnt : Nat) : R (List Bytes × Bool) :=
  if veccnt = 0 then .crash
  else
    match writevLoop s.chunks (s.outq.drop s.outqIdx) veccnt with
    | none => .crash
    | some (vs, b) => .ok (vs, s.frq.isEmpty && b && s.endStream)

/-- loop of nghttp3_stream_add_outq_offset, nghttp3_stream.c:856-867: buffers, number of buffers skipped, bytes left over -/
def addLoop : List Ent → Nat → List Ent × Nat × Nat
  | [], n => ([], 0, n)
  | e :: t, n =>
    if n < e.len then ({ e with pos := e.pos + n } :: t, 0, 0)
    else
      let r := addLoop t (n - e.len)
      ({ e with pos := e.last } :: r.1, r.2.1 + 1, r.2.2)

/-- nghttp3_stream_add_outq_offset, nghttp3_stream.c:847-872 -/
def addOutqOffset (s : St F) (n : Nat) : R (St F) :=
  let r := addLoop (s.outq.drop s.outqIdx) n
  if r.2.2 ≠ 0 then .crash
  else .ok { s with outq := s.outq.take s.outqIdx ++ r.1, outqIdx := s.outqIdx + r.2.1, unsent := s.unsent - n }

/-- memory release of stream_pop_outq_entry, nghttp3_stream.c:881-914: the chunks left; `none`: a failed assertion -/
def popChunks (cs : List Chunk) (e : Ent) : Option (List Chunk) :=
  match e.src with
  | .priv _ => some cs
  | .alien _ => some cs
  | .shared id =>
    match cs with
    | [] => none
    | c :: t => if c.id ≠ id then none else if c.data.length = e.last then some t else some (c :: t)

/-- loop of nghttp3_stream_update_ack_offset, nghttp3_stream.c:923-952: queue, chunks, outq_idx, ack_base, and the arguments of the
acked_stream_data callbacks (which succeed) -/
def ackLoop (off : Nat) : List Ent → List Chunk → Nat → Nat → Nat → Option (List Ent × List Chunk × Nat × Nat × List Int)
  | [], cs, idx, base, _ => some ([], cs, idx, base, [])
  | e :: t, cs, idx, base, ao =>
    let buflen := e.last - e.beg
    let rep : List Int := if e.isAlien && decide (ao < off) then [(min off (base + buflen) : Nat) - (ao : Int)] else []
    if idx > 0 ∧ off ≥ base + buflen then
      match popChunks cs e with
      | none => none
      | some cs' =>
        (ackLoop off t cs' (idx - 1) (base + buflen) (base + buflen)).map fun r => (r.1, r.2.1, r.2.2.1, r.2.2.2.1, rep ++ r.2.2.2.2)
    else some (e :: t, cs, idx, base, rep)

/-- nghttp3_stream_update_ack_offset, nghttp3_stream.c:916-957 -/
def updateAckOffset (s : St F) (off : Nat) : R (St F × List Int) :=
  match ackLoop off s.outq s.chunks s.outqIdx s.ackBase s.ackOffset with
  | none => .crash
  | some (oq, cs, idx, base, rep) => .ok ({ s with outq := oq, chunks := cs, outqIdx := idx, ackBase := base, ackOffset := off }, rep)

/-- nghttp3_conn_update_ack_offset, nghttp3_conn.c:2105-2118, for an existing stream: `none` is NGHTTP3_ERR_INVALID_ARGUMENT -/
def connUpdateAckOffset (s : St F) (off : Nat) : Option (R (St F × List Int)) :=
  if s.ackOffset > off then none else some (updateAckOffset s off)

/-- nghttp3_conn_add_ack_offset, nghttp3_conn.c:2094-2103 -/
def connAddAckOffset (s : St F) (n : Nat) : R (St F × List Int) := updateAckOffset s (s.ackOffset + n)

end Outq
end Nghttp3
