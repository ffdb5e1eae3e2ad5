import Verif.Model.Outq
import Verif.Model.Pq
import Verif.Model.Gaptr
import Verif.Model.Err
import Verif.Model.Http
import Verif.Model.Rd
/-! Model of the connection, lib/nghttp3_conn.c and lib/nghttp3_tnode.c: the set of streams, the scheduler, what the application submits,
writes, blocks, resumes and closes, and the effects of received data on that state.

Simplifications: the map of streams is a partial function (C07); what is received is given by its effect (a new stream, a PRIORITY_UPDATE,
the priority of a complete request header section, a stream becoming blocked on or released by the QPACK decoder); memory allocation does
not fail; the callbacks stream_close, deferred_consume and acked_stream_data succeed; `unscheduled_nwrite` and the number of streams are
unbounded.  An error that ends the connection is `overflow` or `callbackFailure` of `R`, a failed assertion or an access to a freed
stream is `crash`. -/
namespace Nghttp3
namespace Conn
open Outq (R Frent Ans Bytes St)

/-- NGHTTP3_STREAM_TYPE_*, nghttp3_stream.h -/
inductive Ty where
  | unknown | control | push | qenc | qdec
deriving DecidableEq, Repr

/-- nghttp3_stream, nghttp3_stream.h:202-253, with its nghttp3_tnode (nghttp3_tnode.h:38-45): `sched` is `pe.index ≠ NGHTTP3_PQ_BAD_INDEX`,
`qblocked` is `qpack_blocked_pe.index ≠ NGHTTP3_PQ_BAD_INDEX`, which goes with the flag QPACK_DECODE_BLOCKED.
`ident` is the flag TYPE_IDENTIFIED, `rv` is `rstate.rvint` of a unidirectional stream.  A new stream has type 0 from the memset of nghttp3_stream_new (nghttp3_stream.c:60), that is NGHTTP3_STREAM_TYPE_CONTROL. -/
structure Strm (F : Type) where
  pri : Http.Pri := ⟨3, false⟩
  cycle : UInt64 := 0
  sched : Bool := false
  out : St F := {}
  fc : Bool := false
  shutWr : Bool := false
  shutRd : Bool := false
  closed : Bool := false
  qblocked : Bool := false
  priUpd : Bool := false
  srvPri : Bool := false
  uwrite : Nat := 0
  ty : Ty := .control
  ident : Bool := false
  rv : RVInt := {}

/-- nghttp3_conn, nghttp3_conn.h:81-145, the part that concerns streams.  `goaways`: ghost, the identifiers of the GOAWAY frames queued so
far, newest first; `closes`: ghost, the streams for which stream_close was called, newest first. -/
structure Conn (E F : Type) where
  server : Bool
  settings : Settings := {}
  str : Nat → Option (Strm F) := fun _ => none
  sched : Nat → PQ Nat := fun _ => ⟨fun _ => 0, fun _ => 0, 0⟩
  num : Nat := 0
  gaps : List Range := []
  maxBidi : Int := -4
  txGoaway : Nat := 2 ^ 62
  goawayQueued : Bool := false
  shutdownCommenced : Bool := false
  goawayRecved : Bool := false
  ctrlOpened : Bool := false
  qencOpened : Bool := false
  qdecOpened : Bool := false
  maxClient : Nat := 0
  ctrl : Option Nat := none
  qenc : Option Nat := none
  qdec : Option Nat := none
  enc : E
  goaways : List Nat := []
  closes : List Nat := []

variable {E F : Type}

/-- what a call returns: a return code, the vectors of nghttp3_conn_writev_stream (`none`: no stream, `*pstream_id` is −1),
or, for received data of a unidirectional stream, the bytes that are given to the reader of streams of its type; bytes of a stream of unknown
type are discarded (`discard`: the number of bytes, and whether the peer is asked to stop sending) -/
inductive Ret where
  | code (e : Int)
  | route (r : Option (Ty × Bytes))
  | vecs (r : Option (Nat × Bool × List Bytes))
  | discard (n : Nat) (stop : Bool)
deriving DecidableEq, Repr

/-- nghttp3_client_stream_bidi, nghttp3_conv.c -/
def clientBidi (id : Nat) : Bool := id % 4 == 0
/-- nghttp3_client_stream_uni -/
def clientUni (id : Nat) : Bool := id % 4 == 2
/-- nghttp3_server_stream_uni -/
def serverUni (id : Nat) : Bool := id % 4 == 3
/-- nghttp3_stream_uni, nghttp3_stream.c -/
def streamUni (id : Nat) : Bool := id % 4 == 2 || id % 4 == 3
/-- nghttp3_ord_stream_id -/
def ordStreamId (id : Nat) : Nat := id / 4 + 1

/-- NGHTTP3_STREAM_MIN_WRITELEN, nghttp3_stream.h:50 -/
def MIN_WRITELEN : Nat := 800
/-- NGHTTP3_TNODE_MAX_CYCLE_GAP, nghttp3_tnode.h:36 -/
def MAX_CYCLE_GAP : UInt64 := 16777216
/-- NGHTTP3_URGENCY_LEVELS, nghttp3.h:2652 -/
def URGENCY_LEVELS : Nat := 8

/-- cycle_less, nghttp3_conn.c:220-230; entries are stream IDs, `cyc` gives the `cycle` of the node -/
def cycleLess (cyc : Nat → UInt64) (a b : Nat) : Bool :=
  if cyc a = cyc b then decide (a < b) else decide (cyc b - cyc a ≤ MAX_CYCLE_GAP)

/-- pq_get_first_cycle, nghttp3_tnode.c:59-68 -/
def firstCycle (pq : PQ Nat) (cyc : Nat → UInt64) : UInt64 :=
  match pq.top with
  | none => 0
  | some t => cyc t

/-- `nghttp3_max_uint64(1, penalty)`, nghttp3_tnode.c:72, 77, 85 -/
def penalty (nwrite : Nat) : UInt64 := UInt64.ofNat (max 1 (nwrite / MIN_WRITELEN))

/-- nghttp3_tnode_schedule, nghttp3_tnode.c:70-91: the queue and the cycle of the node afterwards; `none`: a failed assertion -/
def tnodeSchedule (pq : PQ Nat) (cyc : Nat → UInt64) (x : Nat) (sched inc : Bool) (nwrite : Nat) : Option (PQ Nat × UInt64) :=
  if sched = false then
    let c := firstCycle pq cyc + (if nwrite = 0 ∨ inc = false then 0 else penalty nwrite)
    some (pq.push (cycleLess (PQ.upd cyc x c)) x, c)
  else if nwrite > 0 then
    if inc = false ∨ pq.len = 1 then some (pq, cyc x)
    else
      let c := cyc x + penalty nwrite
      match pq.remove (cycleLess cyc) x with
      | none => none
      | some pq => some (pq.push (cycleLess (PQ.upd cyc x c)) x, c)
  else some (pq, cyc x)

/-- the `cycle` field of the node of a stream -/
def Conn.cyc (c : Conn E F) (id : Nat) : UInt64 :=
  match c.str id with
  | some s => s.cycle
  | none => 0

def Conn.set (c : Conn E F) (id : Nat) (s : Strm F) : Conn E F := { c with str := PQ.upd c.str id (some s) }

/-- nghttp3_stream_require_schedule, nghttp3_stream.c:806-812 -/
def requireSchedule (s : Strm F) : Bool :=
  (!Outq.writeDone s.out && !s.fc && !s.shutWr) || (!s.out.frq.isEmpty && !s.out.readBlocked)

/-- nghttp3_stream_is_blocked, nghttp3_stream.c:800-804 -/
def isBlocked (s : Strm F) : Bool := s.fc || s.shutWr || s.out.readBlocked

/-- nghttp3_conn_schedule_stream, nghttp3_conn.c:2159-2173, with conn_get_sched_pq (l.1545-1549) -/
def scheduleStream (c : Conn E F) (id : Nat) (s : Strm F) : R (Conn E F) :=
  if s.pri.urgency ≥ URGENCY_LEVELS then .crash
  else
    match tnodeSchedule (c.sched s.pri.urgency) (PQ.upd c.cyc id s.cycle) id s.sched s.pri.inc s.uwrite with
    | none => .crash
    | some (pq, cy) =>
      .ok ({ c with sched := PQ.upd c.sched s.pri.urgency pq }.set id { s with sched := true, cycle := cy, uwrite := 0 })

/-- nghttp3_conn_ensure_stream_scheduled, nghttp3_conn.c:2175-2182 -/
def ensureScheduled (c : Conn E F) (id : Nat) (s : Strm F) : R (Conn E F) :=
  if s.sched then .ok (c.set id s) else scheduleStream c id s

/-- nghttp3_conn_unschedule_stream, nghttp3_conn.c:2184-2189, with nghttp3_tnode_unschedule, nghttp3_tnode.c:51-57 -/
def unscheduleStream (c : Conn E F) (id : Nat) (s : Strm F) : R (Conn E F) :=
  if s.pri.urgency ≥ URGENCY_LEVELS then .crash
  else if s.sched = false then .ok (c.set id s)
  else
    match (c.sched s.pri.urgency).remove (cycleLess (PQ.upd c.cyc id s.cycle)) id with
    | none => .crash
    | some pq => .ok ({ c with sched := PQ.upd c.sched s.pri.urgency pq }.set id { s with sched := false })

/-- conn_update_stream_priority, nghttp3_conn.c:1182-1200 -/
def updatePriority (c : Conn E F) (id : Nat) (s : Strm F) (pri : Http.Pri) : R (Conn E F) :=
  if !clientBidi id then .crash
  else if s.pri = pri then .ok (c.set id s)
  else
    (unscheduleStream c id s).bind fun c =>
      let s := { s with sched := false, pri := pri }
      if requireSchedule s then scheduleStream c id s else .ok (c.set id s)

/-- nghttp3_conn_create_stream, nghttp3_conn.c:1832-1863; the caller has checked that there is no such stream -/
def createStream (c : Conn E F) (id : Nat) (s : Strm F) : Conn E F :=
  { c with str := PQ.upd c.str id (some s), num := if c.server && clientBidi id then c.num + 1 else c.num }

/-- conn_delete_stream, nghttp3_conn.c:1050-1082: the stream is freed.  If the scheduler still has it, it keeps a pointer to freed memory,
which it follows when it compares or returns entries: `crash`. -/
def deleteStream (c : Conn E F) (id : Nat) (s : Strm F) : R (Conn E F) :=
  if c.server && clientBidi id && c.num == 0 then .crash
  else if s.sched then .crash
  else .ok { c with str := PQ.upd c.str id none, num := if c.server && clientBidi id then c.num - 1 else c.num,
                    closes := if clientBidi id then id :: c.closes else c.closes }

/-- conn_submit_headers_data, nghttp3_conn.c:2120-2157 -/
def submitHeadersData (c : Conn E F) (id : Nat) (s : Strm F) (nva : F) (dr : Bool) : R (Conn E F) :=
  let s := { s with out := { s.out with frq := s.out.frq ++ (Frent.headers nva :: if dr then [Frent.data] else []) } }
  if requireSchedule s then scheduleStream c id s else .ok (c.set id s)

/-- NGHTTP3_STREAM_FLAG_WRITE_END_STREAM -/
def setEnd (s : Strm F) (b : Bool) : Strm F := { s with out := Outq.setEnd s.out b }

/-- nghttp3_conn_submit_request, nghttp3_conn.c:2191-2231; rx.hstate, tx.hstate and the request method are not in this model -/
def submitRequest (c : Conn E F) (id : Nat) (nva : F) (dr : Bool) : R (Conn E F × Ret) :=
  if c.server || c.qenc.isNone || decide (id ≥ 2 ^ 62) || !clientBidi id then .crash
  else if c.goawayRecved then .ok (c, .code Err.CONN_CLOSING)
  else
    match c.str id with
    | some _ => .ok (c, .code Err.STREAM_IN_USE)
    | none =>
      (submitHeadersData (createStream c id {}) id (setEnd {} (!dr)) nva dr).bind fun c => .ok (c, .code 0)

/-- nghttp3_conn_submit_info, nghttp3_conn.c:2233-2248 -/
def submitInfo (c : Conn E F) (id : Nat) (nva : F) : R (Conn E F × Ret) :=
  if !c.server || c.qenc.isNone then .crash
  else
    match c.str id with
    | none => .ok (c, .code Err.STREAM_NOT_FOUND)
    | some s => (submitHeadersData c id s nva false).bind fun c => .ok (c, .code 0)

/-- nghttp3_conn_submit_response, nghttp3_conn.c:2250-2269 -/
def submitResponse (c : Conn E F) (id : Nat) (nva : F) (dr : Bool) : R (Conn E F × Ret) :=
  if !c.server || c.qenc.isNone then .crash
  else
    match c.str id with
    | none => .ok (c, .code Err.STREAM_NOT_FOUND)
    | some s => (submitHeadersData c id (setEnd s (!dr)) nva dr).bind fun c => .ok (c, .code 0)

/-- nghttp3_conn_submit_trailers, nghttp3_conn.c:2271-2290 -/
def submitTrailers (c : Conn E F) (id : Nat) (nva : F) : R (Conn E F × Ret) :=
  if c.qenc.isNone then .crash
  else
    match c.str id with
    | none => .ok (c, .code Err.STREAM_NOT_FOUND)
    | some s =>
      if s.out.endStream then .ok (c, .code Err.INVALID_STATE)
      else (submitHeadersData c id (setEnd s true) nva false).bind fun c => .ok (c, .code 0)

/-- add a frame to the queue of the control stream (nghttp3_stream_frq_add, nghttp3_stream.c:225-244) -/
def ctrlFrame (c : Conn E F) (f : Frent F) : R (Conn E F) :=
  match c.ctrl with
  | none => .crash
  | some id =>
    match c.str id with
    | none => .crash
    | some s => .ok (c.set id { s with out := { s.out with frq := s.out.frq ++ [f] } })

/-- the common part of the two functions below: queue a GOAWAY frame -/
def queueGoaway (c : Conn E F) (id : Nat) : R (Conn E F) :=
  if c.ctrl.isNone then .crash
  else if c.txGoaway < id then .crash
  else (ctrlFrame c (.goaway id)).bind fun c => .ok { c with txGoaway := id, goawayQueued := true, goaways := id :: c.goaways }

/-- nghttp3_conn_submit_shutdown_notice, nghttp3_conn.c:2292-2313 -/
def submitNotice (c : Conn E F) : R (Conn E F × Ret) :=
  (queueGoaway c (if c.server then 2 ^ 62 - 4 else 2 ^ 62 - 1)).bind fun c => .ok (c, .code 0)

/-- nghttp3_conn_shutdown, nghttp3_conn.c:2315-2341; max_stream_id_bidi is at least −4 -/
def shutdown (c : Conn E F) : R (Conn E F × Ret) :=
  (queueGoaway c (if c.server then min (2 ^ 62 - 4) (c.maxBidi + 4).toNat else 0)).bind fun c => .ok ({ c with shutdownCommenced := true }, .code 0)

/-- nghttp3_conn_block_stream, nghttp3_conn.c:2354-2367 -/
def blockStream (c : Conn E F) (id : Nat) : R (Conn E F × Ret) :=
  match c.str id with
  | none => .ok (c, .code 0)
  | some s =>
    let s := { s with fc := true, uwrite := 0 }
    if clientBidi id then (unscheduleStream c id s).bind fun c => .ok (c, .code 0) else .ok (c.set id s, .code 0)

/-- nghttp3_conn_shutdown_stream_write, nghttp3_conn.c:2369-2382 -/
def shutdownWrite (c : Conn E F) (id : Nat) : R (Conn E F × Ret) :=
  match c.str id with
  | none => .ok (c, .code 0)
  | some s =>
    let s := { s with shutWr := true, uwrite := 0 }
    if clientBidi id then (unscheduleStream c id s).bind fun c => .ok (c, .code 0) else .ok (c.set id s, .code 0)

/-- nghttp3_conn_unblock_stream, nghttp3_conn.c:2384-2399 -/
def unblockStream (c : Conn E F) (id : Nat) : R (Conn E F × Ret) :=
  match c.str id with
  | none => .ok (c, .code 0)
  | some s =>
    let s := { s with fc := false }
    if clientBidi id && requireSchedule s then (ensureScheduled c id s).bind fun c => .ok (c, .code 0) else .ok (c.set id s, .code 0)

/-- nghttp3_conn_resume_stream, nghttp3_conn.c:2414-2429 -/
def resumeStream (c : Conn E F) (id : Nat) : R (Conn E F × Ret) :=
  match c.str id with
  | none => .ok (c, .code 0)
  | some s =>
    let s := { s with out := { s.out with readBlocked := false } }
    if clientBidi id && requireSchedule s then (ensureScheduled c id s).bind fun c => .ok (c, .code 0) else .ok (c.set id s, .code 0)

/-- nghttp3_conn_is_stream_writable, nghttp3_conn.c:2401-2412 -/
def isStreamWritable (c : Conn E F) (id : Nat) : Bool :=
  match c.str id with
  | none => false
  | some s => !(s.fc || s.out.readBlocked || s.shutWr || s.closed)

/-- nghttp3_conn_close_stream, nghttp3_conn.c:2431-2454 -/
def closeStream (c : Conn E F) (id : Nat) : R (Conn E F × Ret) :=
  match c.str id with
  | none => .ok (c, .code Err.STREAM_NOT_FOUND)
  | some s =>
    if streamUni id && s.ty != .unknown then .ok (c, .code Err.H3_CLOSED_CRITICAL_STREAM)
    else
      (unscheduleStream c id s).bind fun c =>
        let s := { s with sched := false }
        if s.qblocked = false then (deleteStream c id s).bind fun c => .ok (c, .code 0)
        else .ok (c.set id { s with closed := true }, .code 0)

/-- nghttp3_conn_shutdown_stream_read, nghttp3_conn.c:2456-2476; what the QPACK decoder does is not in this model -/
def shutdownRead (c : Conn E F) (id : Nat) : R (Conn E F × Ret) :=
  if decide (id ≥ 2 ^ 62) then .crash
  else if !clientBidi id then .ok (c, .code 0)
  else
    match c.str id with
    | none => .ok (c, .code 0)
    | some s => .ok (c.set id { s with shutRd := true }, .code 0)

/-- nghttp3_conn_add_write_offset, nghttp3_conn.c:2066-2092 -/
def addWriteOffset (c : Conn E F) (id : Nat) (n : Nat) : R (Conn E F × Ret) :=
  match c.str id with
  | none => .ok (c, .code 0)
  | some s =>
    (Outq.addOutqOffset s.out n).bind fun o =>
      let s := { s with out := o, uwrite := s.uwrite + n }
      if !clientBidi id then .ok (c.set id s, .code 0)
      else if !requireSchedule s then (unscheduleStream c id s).bind fun c => .ok (c, .code 0)
      else if s.uwrite < MIN_WRITELEN then .ok (c.set id s, .code 0)
      else (scheduleStream c id s).bind fun c => .ok (c, .code 0)

/-- nghttp3_conn_add_ack_offset, nghttp3_conn.c:2094-2103 -/
def addAckOffset (c : Conn E F) (id : Nat) (n : Nat) : R (Conn E F × Ret) :=
  match c.str id with
  | none => .ok (c, .code 0)
  | some s => (Outq.connAddAckOffset s.out n).bind fun r => .ok (c.set id { s with out := r.1 }, .code 0)

/-- nghttp3_conn_update_ack_offset, nghttp3_conn.c:2105-2118 -/
def updateAckOffset (c : Conn E F) (id : Nat) (off : Nat) : R (Conn E F × Ret) :=
  match c.str id with
  | none => .ok (c, .code 0)
  | some s =>
    match Outq.connUpdateAckOffset s.out off with
    | none => .ok (c, .code Err.INVALID_ARGUMENT)
    | some r => r.bind fun r => .ok (c.set id { s with out := r.1 }, .code 0)

/-- nghttp3_conn_bind_control_stream, nghttp3_conn.c:1870-1902; `none` for an existing stream is the error of nghttp3_map_insert -/
def bindControl (c : Conn E F) (id : Nat) : R (Conn E F × Ret) :=
  if decide (id ≥ 2 ^ 62) || (c.server && !serverUni id) || (!c.server && !clientUni id) then .crash
  else if c.ctrl.isSome then .ok (c, .code Err.INVALID_STATE)
  else if (c.str id).isSome then .ok (c, .code Err.INVALID_ARGUMENT)
  else
    (Outq.writeStreamType ({} : St F) 0).bind fun o =>
      .ok ({ createStream c id { ty := .control, out := { o with frq := o.frq ++ [.settings c.settings] } } with ctrl := some id }, .code 0)

/-- nghttp3_conn_bind_qpack_streams, nghttp3_conn.c:1904-1946 -/
def bindQpack (c : Conn E F) (e d : Nat) : R (Conn E F × Ret) :=
  if decide (e ≥ 2 ^ 62) || decide (d ≥ 2 ^ 62) || (c.server && (!serverUni e || !serverUni d)) ||
      (!c.server && (!clientUni e || !clientUni d)) then .crash
  else if c.qenc.isSome || c.qdec.isSome then .ok (c, .code Err.INVALID_STATE)
  else if (c.str e).isSome then .ok (c, .code Err.INVALID_ARGUMENT)
  else
    (Outq.writeStreamType ({} : St F) 2).bind fun oe =>
      let c := { createStream c e { ty := .qenc, out := oe } with qenc := some e }
      if (c.str d).isSome then .ok (c, .code Err.INVALID_ARGUMENT)
      else
        (Outq.writeStreamType ({} : St F) 3).bind fun od =>
          .ok ({ createStream c d { ty := .qdec, out := od } with qdec := some d }, .code 0)

/-- nghttp3_conn_set_server_stream_priority_versioned, nghttp3_conn.c:2608-2633 -/
def setServerPriority (c : Conn E F) (id : Nat) (pri : Http.Pri) : R (Conn E F × Ret) :=
  if !c.server || decide (pri.urgency ≥ URGENCY_LEVELS) || decide (id ≥ 2 ^ 62) then .crash
  else if !clientBidi id then .ok (c, .code Err.INVALID_ARGUMENT)
  else
    match c.str id with
    | none => .ok (c, .code Err.STREAM_NOT_FOUND)
    | some s => (updatePriority c id { s with srvPri := true } pri).bind fun c => .ok (c, .code 0)

/-- nghttp3_conn_get_stream_priority_versioned, nghttp3_conn.c:2545-2568: the error or the priority -/
def getStreamPriority (c : Conn E F) (id : Nat) : Except Int Http.Pri :=
  if !clientBidi id then .error Err.INVALID_ARGUMENT
  else
    match c.str id with
    | none => .error Err.STREAM_NOT_FOUND
    | some s => .ok s.pri

/-- nghttp3_conn_set_client_stream_priority, nghttp3_conn.c:2570-2606; the type of the frame is NGHTTP3_FRAME_PRIORITY_UPDATE, 0x0f0700 -/
def setClientPriority (c : Conn E F) (id : Nat) (v : Bytes) : R (Conn E F × Ret) :=
  if c.server || decide (id ≥ 2 ^ 62) then .crash
  else if !clientBidi id then .ok (c, .code Err.INVALID_ARGUMENT)
  else
    match c.str id with
    | none => .ok (c, .code Err.STREAM_NOT_FOUND)
    | some _ => (ctrlFrame c (.priorityUpdate 0x0f0700 id v)).bind fun c => .ok (c, .code 0)

/-- nghttp3_conn_set_max_client_streams_bidi, nghttp3_conn.c:2491-2497 -/
def setMaxClientStreams (c : Conn E F) (n : Nat) : R (Conn E F × Ret) :=
  if !c.server || decide (n < c.maxClient) then .crash else .ok ({ c with maxClient := n }, .code 0)

/-- nghttp3_conn_is_drained, nghttp3_conn.c:2635-2642; `none`: a failed assertion or a null pointer -/
def isDrained (c : Conn E F) : Option Bool :=
  if !c.server then none
  else if c.shutdownCommenced = false then some false
  else if c.num ≠ 0 then some false
  else
    match c.ctrl with
    | none => none
    | some id =>
      match c.str id with
      | none => none
      | some s => some (Outq.writeDone s.out && s.out.frq.isEmpty)

/-- the part of nghttp3_conn_read_stream (nghttp3_conn.c:389-472) that finds or creates the stream; `empty`: `srclen == 0 && fin`.  The
callbacks of nghttp3_conn_reject_stream are in `reject`: the new stream is refused because of GOAWAY. -/
def openStream (c : Conn E F) (id : Nat) (empty : Bool) : R (Conn E F × Ret) :=
  if decide (id ≥ 2 ^ 62) then .crash
  else
    match c.str id with
    | some _ =>
      if c.server && !(clientBidi id || clientUni id) then .crash
      else if !c.server && !(clientBidi id || serverUni id) then .crash
      else .ok (c, .code 0)
    | none =>
      if c.server then
        if clientBidi id then
          match connBidiIdtrOpen c.gaps id with
          | (.abort, _) => .crash
          | (_, g) => .ok (createStream { c with gaps := g, maxBidi := max c.maxBidi id } id {}, .code 0)
        else if !clientUni id then .ok (c, .code Err.H3_STREAM_CREATION_ERROR)
        else if empty then .ok (c, .code 0)
        else .ok (createStream c id {}, .code 0)
      else if serverUni id then
        if empty then .ok (c, .code 0) else .ok (createStream c id {}, .code 0)
      else .ok (c, .code Err.H3_STREAM_CREATION_ERROR)

/-- the new stream is refused: nghttp3_conn.c:418-426 -/
def rejects (c : Conn E F) (id : Nat) : Bool := c.goawayQueued && decide (c.txGoaway ≤ id)

/-- conn_read_type, nghttp3_conn.c:503-538, once the type is known; an error, or the connection and the stream -/
def setUniType (c : Conn E F) (s : Strm F) (v : Nat) : Except Int (Conn E F × Strm F) :=
  let ok (c : Conn E F) (ty : Ty) : Except Int (Conn E F × Strm F) := .ok (c, { s with ty := ty, ident := true, rv := {} })
  if v = 0 then if c.ctrlOpened then .error Err.H3_STREAM_CREATION_ERROR else ok { c with ctrlOpened := true } .control
  else if v = 1 then .error Err.H3_STREAM_CREATION_ERROR
  else if v = 2 then if c.qencOpened then .error Err.H3_STREAM_CREATION_ERROR else ok { c with qencOpened := true } .qenc
  else if v = 3 then if c.qdecOpened then .error Err.H3_STREAM_CREATION_ERROR else ok { c with qdecOpened := true } .qdec
  else ok c .unknown

/-- the switch of nghttp3_conn_read_uni, nghttp3_conn.c:583-615: the result holds the bytes given to nghttp3_conn_read_control,
nghttp3_conn_read_qpack_encoder or nghttp3_conn_read_qpack_decoder; those of unknown type are ignored, with conn_call_stop_sending -/
def deliverUni (ty : Ty) (src : Bytes) (fin : Bool) : Ret :=
  match ty with
  | .unknown => .discard src.length (!fin)
  | _ => if fin then .code Err.H3_CLOSED_CRITICAL_STREAM else .route (some (ty, src))

/-- nghttp3_conn_read_uni, nghttp3_conn.c:543-622, with conn_read_type (l.484-539) and the assertions of nghttp3_conn_read_stream l.462-468.
When an error is returned the state is left as it was (the connection is not used after that). -/
def readUni (c : Conn E F) (id : Nat) (src : Bytes) (fin : Bool) : R (Conn E F × Ret) :=
  if (c.server && !clientUni id) || (!c.server && !serverUni id) then .crash
  else
  match c.str id with
  | none => .crash
  | some s =>
    if src.isEmpty && !fin then .ok (c, .code 0)
    else if s.ident then .ok (c, deliverUni s.ty src fin)
    else if src.isEmpty then
      if s.rv.left ≠ 0 then .ok (c, .code Err.H3_GENERAL_PROTOCOL_ERROR)
      else (deleteStream c id s).bind fun c => .ok (c, .route none)
    else
      match rd s.rv src fin with
      | .crash => .crash
      | .err => .ok (c, .code Err.H3_GENERAL_PROTOCOL_ERROR)
      | .part rv => .ok (c.set id { s with rv := rv }, .route none)
      | .done v n =>
        match setUniType c s v with
        | .error e => .ok (c, .code e)
        | .ok (c', s') =>
          if n = src.length then .ok (c'.set id s', .route none)
          else
            match deliverUni s'.ty (src.drop n) fin with
            | .code e => .ok (c, .code e)
            | r => .ok (c'.set id s', r)

/-- conn_on_priority_update_stream, nghttp3_conn.c:1750-1804; the argument `pri` was made by nghttp3_http_parse_priority -/
def onPriorityUpdate (c : Conn E F) (id : Nat) (pri : Http.Pri) : R (Conn E F × Ret) :=
  if !c.server then .crash
  else if !clientBidi id || decide (ordStreamId id > c.maxClient) then .ok (c, .code Err.H3_ID_ERROR)
  else
    match c.str id with
    | none =>
      if rejects c id then .ok (c, .code 0)
      else
        match connBidiIdtrOpen c.gaps id with
        | (.abort, _) => .crash
        | (.streamInUse, _) => .ok (c, .code 0)
        | (.ok, g) =>
          .ok (createStream { c with gaps := g, maxBidi := max c.maxBidi id } id { pri := pri, priUpd := true }, .code 0)
    | some s =>
      if s.srvPri then .ok (c, .code 0)
      else (updatePriority c id { s with priUpd := true } pri).bind fun c => .ok (c, .code 0)

/-- the end of a request header section with a valid priority field, nghttp3_conn.c:1422-1434 -/
def onHeaderPriority (c : Conn E F) (id : Nat) (pri : Http.Pri) : R (Conn E F × Ret) :=
  match c.str id with
  | none => .crash
  | some s =>
    if c.server && !s.priUpd && !s.srvPri then (updatePriority c id s pri).bind fun c => .ok (c, .code 0)
    else .ok (c, .code 0)

/-- a header section of the stream refers to table entries that have not arrived: nghttp3_conn_qpack_blocked_streams_push,
nghttp3_conn.c:2478-2484, from conn_decode_headers l.1599-1611 -/
def qpackBlock (c : Conn E F) (id : Nat) : R (Conn E F × Ret) :=
  match c.str id with
  | none => .crash
  | some s => if s.qblocked then .crash else .ok (c.set id { s with qblocked := true }, .code 0)

/-- the loop body of nghttp3_conn_read_qpack_encoder, nghttp3_conn.c:1151-1167, with conn_process_blocked_stream_data (l.1084-1137): the
stream is released; the buffered data may complete a request header section with a priority (`pri`), and may block again (`again`) -/
def qpackUnblock (c : Conn E F) (id : Nat) (pri : Option Http.Pri) (again : Bool) : R (Conn E F × Ret) :=
  match c.str id with
  | none => .crash
  | some s =>
    if s.qblocked = false then .crash
    else
      let c := c.set id { s with qblocked := false }
      (match pri with
        | none => R.ok (c, Ret.code 0)
        | some p => onHeaderPriority c id p).bind fun r =>
      match r.1.str id with
      | none => .crash
      | some s =>
        if again then .ok (r.1.set id { s with qblocked := true }, .code 0)
        else if s.closed then (deleteStream r.1 id s).bind fun c => .ok (c, .code 0)
        else .ok r

/-- a GOAWAY frame was received (nghttp3_conn.c:892-912) -/
def recvGoaway (c : Conn E F) : R (Conn E F × Ret) := .ok ({ c with goawayRecved := true }, .code 0)

/-- the encoder: new state, prefix, field lines, bytes for the encoder stream -/
abbrev Encode (E F : Type) := E → F → Option (E × Bytes × Bytes × Bytes)

/-- nghttp3_stream_fill_outq for the stream: HEADERS frames also write to the QPACK encoder stream.  Streams other than request streams
never have HEADERS frames, the encoder stream is not touched. -/
def fillStream (encode : Encode E F) (c : Conn E F) (id : Nat) (s : Strm F) (as : List Ans) : R (Conn E F) :=
  if streamUni id then
    (Outq.fillOutq encode c.enc s.out {} as).bind fun r => .ok (c.set id { s with out := r.2.1 })
  else
    match c.qenc with
    | none => if s.out.frq.isEmpty then .ok c else .crash
    | some qid =>
      match c.str qid with
      | none => .crash
      | some q =>
        (Outq.fillOutq encode c.enc s.out q.out as).bind fun r =>
          .ok (({ c with enc := r.1 }.set id { s with out := r.2.1 }).set qid { q with out := r.2.2.1 })

/-- the encoder stream first, nghttp3_conn.c:1965-1972: `none`: nothing was offered -/
def offerQenc (c : Conn E F) (id k : Nat) : R (Option (Nat × Bool × List Bytes)) :=
  if streamUni id then R.ok none
  else
    match c.qenc with
    | none => .ok none
    | some qid =>
      match c.str qid with
      | none => .crash
      | some q =>
        if isBlocked q then .ok none
        else (Outq.writev q.out k).bind fun r => .ok (if r.1.isEmpty then none else some (qid, r.2, r.1))

/-- conn_writev_stream, nghttp3_conn.c:1948-1984 -/
def connWritev (encode : Encode E F) (c : Conn E F) (id k : Nat) (as : List Ans) : R (Conn E F × Option (Nat × Bool × List Bytes)) :=
  match c.str id with
  | none => .crash
  | some s =>
    (if s.out.readBlocked then R.ok c else fillStream encode c id s as).bind fun c =>
    (offerQenc c id k).bind fun q =>
      match q with
      | some r => .ok (c, some r)
      | none =>
        match c.str id with
        | none => .crash
        | some s =>
          (Outq.writev s.out k).bind fun r =>
            .ok (c, if r.1.isEmpty && !r.2 then none else some (id, r.2, r.1))

/-- nghttp3_conn_get_next_tx_stream, nghttp3_conn.c:2047-2064: the top of the first level that is not empty -/
def nextTx (c : Conn E F) : Option Nat := (List.range URGENCY_LEVELS).findSome? fun i => (c.sched i).top

/-- one of the first three steps of nghttp3_conn_writev_stream: a critical stream, if there is one and it is not blocked; `pre` is done
before.  The call returns if there is data (`ncnt` not 0). -/
def critical (encode : Encode E F) (c : Conn E F) (k : Nat) (sid : Option Nat) (pre : St F → R (St F)) :
    R (Conn E F × Option (Nat × Bool × List Bytes)) :=
  match sid with
  | none => .ok (c, none)
  | some id =>
    match c.str id with
    | none => .crash
    | some s =>
      if isBlocked s then .ok (c, none)
      else
        (pre s.out).bind fun o =>
          (connWritev encode (c.set id { s with out := o }) id k []).bind fun r =>
            .ok (r.1, match r.2 with | some (i, fin, v) => if v.isEmpty then none else some (i, fin, v) | none => none)

/-- nghttp3_stream_write_qpack_decoder_stream, nghttp3_stream.c:668-700; `db`: what nghttp3_qpack_decoder_write_decoder writes -/
def decoderBytes (db : Bytes) (o : St F) : R (St F) := if db.isEmpty then .ok o else Outq.sharedWrite o db.length db

/-- the last step of nghttp3_conn_writev_stream, nghttp3_conn.c:2029-2044 -/
def writeRequest (encode : Encode E F) (c : Conn E F) (k : Nat) (as : List Ans) : R (Conn E F × Ret) :=
  match nextTx c with
  | none => .ok (c, .vecs none)
  | some id =>
    (connWritev encode c id k as).bind fun r =>
      match r.1.str id with
      | none => .crash
      | some s =>
        if clientBidi id && !requireSchedule s then (unscheduleStream r.1 id s).bind fun c => .ok (c, .vecs r.2)
        else .ok (r.1, .vecs r.2)

/-- nghttp3_conn_writev_stream, nghttp3_conn.c:1986-2045.  `db`: bytes the QPACK decoder has to send; `as`: the results of read_data. -/
def writevStream (encode : Encode E F) (c : Conn E F) (k : Nat) (db : Bytes) (as : List Ans) : R (Conn E F × Ret) :=
  if k = 0 then .ok (c, .vecs none)
  else
    (critical encode c k c.ctrl R.ok).bind fun r =>
    match r.2 with
    | some x => .ok (r.1, .vecs (some x))
    | none =>
    (critical encode r.1 k r.1.qdec (decoderBytes db)).bind fun r =>
    match r.2 with
    | some x => .ok (r.1, .vecs (some x))
    | none =>
    (critical encode r.1 k r.1.qenc R.ok).bind fun r =>
    match r.2 with
    | some x => .ok (r.1, .vecs (some x))
    | none => writeRequest encode r.1 k as

/-- what the application does with the connection, and what is received -/
inductive Op (F : Type) where
  | bindControl (id : Nat)
  | bindQpack (e d : Nat)
  | submitRequest (id : Nat) (nva : F) (dr : Bool)
  | submitInfo (id : Nat) (nva : F)
  | submitResponse (id : Nat) (nva : F) (dr : Bool)
  | submitTrailers (id : Nat) (nva : F)
  | writev (k : Nat) (db : Bytes) (as : List Ans)
  | addWrite (id n : Nat)
  | addAck (id n : Nat)
  | updAck (id off : Nat)
  | block (id : Nat)
  | unblock (id : Nat)
  | shutWr (id : Nat)
  | resume (id : Nat)
  | shutRd (id : Nat)
  | close (id : Nat)
  | notice
  | shutdown
  | setServerPri (id : Nat) (pri : Http.Pri)
  | setClientPri (id : Nat) (v : Bytes)
  | setMaxClient (n : Nat)
  | open (id : Nat) (empty : Bool)
  | uni (id : Nat) (src : Bytes) (fin : Bool)
  | priUpd (id : Nat) (pri : Http.Pri)
  | hdrPri (id : Nat) (pri : Http.Pri)
  | qpackBlock (id : Nat)
  | qpackUnblock (id : Nat) (pri : Option Http.Pri) (again : Bool)
  | recvGoaway

def step (encode : Encode E F) (c : Conn E F) : Op F → R (Conn E F × Ret)
  | .bindControl id => bindControl c id
  | .bindQpack e d => bindQpack c e d
  | .submitRequest id nva dr => submitRequest c id nva dr
  | .submitInfo id nva => submitInfo c id nva
  | .submitResponse id nva dr => submitResponse c id nva dr
  | .submitTrailers id nva => submitTrailers c id nva
  | .writev k db as => writevStream encode c k db as
  | .addWrite id n => addWriteOffset c id n
  | .addAck id n => addAckOffset c id n
  | .updAck id off => updateAckOffset c id off
  | .block id => blockStream c id
  | .unblock id => unblockStream c id
  | .shutWr id => shutdownWrite c id
  | .resume id => resumeStream c id
  | .shutRd id => shutdownRead c id
  | .close id => closeStream c id
  | .notice => submitNotice c
  | .shutdown => shutdown c
  | .setServerPri id pri => setServerPriority c id pri
  | .setClientPri id v => setClientPriority c id v
  | .setMaxClient n => setMaxClientStreams c n
  | .open id empty => openStream c id empty
  | .uni id src fin => readUni c id src fin
  | .priUpd id pri => onPriorityUpdate c id pri
  | .hdrPri id pri => onHeaderPriority c id pri
  | .qpackBlock id => qpackBlock c id
  | .qpackUnblock id pri again => qpackUnblock c id pri again
  | .recvGoaway => recvGoaway c

/-- nghttp3_conn_new, nghttp3_conn.c:232-332: a new connection -/
def init (server : Bool) (settings : Settings) (enc : E) : Conn E F := { server := server, settings := settings, enc := enc }

/-- a history of calls; it ends at the first call that fails -/
def run (encode : Encode E F) (c : Conn E F) : List (Op F) → R (Conn E F)
  | [] => .ok c
  | o :: t => (step encode c o).bind fun r => run encode r.1 t

end Conn
end Nghttp3
