import Verif.Model.Rd
import Verif.Model.Frame
import Verif.Model.Err
import Verif.Model.Message
import Verif.Model.QpackDec
/-! Model of the way a request stream is read, byte by byte: nghttp3_conn_read_bidi, nghttp3_conn_on_headers, nghttp3_conn_on_data,
conn_process_blocked_stream_data, conn_delete_stream, nghttp3_conn_shutdown_stream_read (lib/nghttp3_conn.c) and
nghttp3_stream_buffer_data (lib/nghttp3_stream.c), with the QPACK decoder of Model/QpackDec.lean and the HTTP layer of Model/Http.lean.

Simplifications: allocations succeed, callbacks return 0 and do not call the library. -/
namespace Nghttp3
namespace Bidi
open Http Qpack

abbrev Bytes := List UInt8

/-- nghttp3_req_stream_state, nghttp3_stream.h:74-81 -/
inductive Rst where
  | frameType | frameLen | data | headers | ignFrame | ignRest
deriving DecidableEq, Repr

/-- what does not change: the stream's id, conn->server, conn->local.settings.enable_connect_protocol, the parser of the `priority` field
value; for a client `req`, the fields of the request that was sent on the stream -/
structure Cfg where
  id : Nat
  server : Bool
  ext : Bool
  pp : Pri → Bytes → Option Pri
  req : List Field := []

/-- a buffer of nghttp3_stream's `inq`: the bytes between `pos` and `last`, the number of bytes between `last` and `end` -/
structure Buf where
  data : Bytes
  room : Nat
deriving DecidableEq, Repr

/-- the parts of nghttp3_stream that nghttp3_conn_read_bidi uses: `rstate` (state, rvint, fr.hd.type, left), rx.hstate, rx.http,
qpack_sctx, inq, and the flags QPACK_DECODE_BLOCKED, SHUT_RD, READ_EOF, HTTP_ERROR, CLOSED; `priFixed`: PRIORITY_UPDATE_RECVED or
SERVER_PRIORITY_SET.  `gone`: the stream object was deleted. -/
structure Str where
  rst : Rst := .frameType
  rv : RVInt := {}
  ftype : Nat := 0
  left : Nat := 0
  h : Hs
  http : State := {}
  sc : SCtx
  inq : List Buf := []
  blocked : Bool := false
  shutRd : Bool := false
  eof : Bool := false
  httpErr : Bool := false
  closed : Bool := false
  priFixed : Bool := false
  gone : Bool := false
deriving DecidableEq, Repr

/-- a new request stream: nghttp3_stream_new (nghttp3_stream.c:49-88) and nghttp3_conn.c:443-444 for a server,
nghttp3_conn_submit_request (nghttp3_conn.c:2216-2224) for a client, which records the request method -/
def Str.new (c : Cfg) : Str :=
  { h := if c.server then .reqInitial else .respInitial, http := if c.server then {} else recordRequestMethod {} c.req, sc := SCtx.init c.id }

/-- callbacks, and the two effects that are not callbacks of nghttp3_callbacks: `priority` is the call of conn_update_stream_priority -/
inductive Ev where
  | beginHeaders | header (nv : QNv) | endHeaders (fin : Bool)
  | beginTrailers | trailer (nv : QNv) | endTrailers (fin : Bool)
  | data (bs : Bytes)
  | endStream
  | stopSending (code : Nat) | resetStream (code : Nat)
  | deferredConsume (n : Nat)
  | priority (p : Pri)
  | streamClose
deriving DecidableEq, Repr

/-- error codes of the QPACK decoder -/
def qerr : Qpack.Err → Int
  | .fatal => Err.QPACK_FATAL
  | .encoderStream => Err.QPACK_ENCODER_STREAM_ERROR
  | .decoderStream => Err.QPACK_DECODER_STREAM_ERROR
  | .decompression => Err.QPACK_DECOMPRESSION_FAILED
  | .headerTooLarge => Err.QPACK_HEADER_TOO_LARGE

/-- the loop `for (; datalen;)` of nghttp3_stream_buffer_data, nghttp3_stream.c:978-1000: buffers of 16384 bytes -/
def newBufs (x : Bytes) : List Buf :=
  if h : x = [] then [] else ⟨x.take 16384, 16384 - (x.take 16384).length⟩ :: newBufs (x.drop 16384)
termination_by x.length
decreasing_by
  have : 0 < x.length := List.length_pos_iff.2 h
  simp only [List.length_drop]; omega

/-- nghttp3_stream_buffer_data, nghttp3_stream.c:959-1003: fill the last buffer, then append buffers -/
def bufferData (inq : List Buf) (x : Bytes) : List Buf :=
  match inq.getLast? with
  | none => newBufs x
  | some b => inq.dropLast ++ ⟨b.data ++ x.take b.room, b.room - (x.take b.room).length⟩ :: newBufs (x.drop b.room)

/-- nghttp3_stream_get_buffered_datalen, nghttp3_stream.c:1005-1017 -/
def bufferedLen (inq : List Buf) : Nat := (inq.map fun b => b.data.length).sum

/-! ### Field sections -/

/-- what conn_decode_headers reports; `more`, `done` (the section is complete) and `blocked` return the number of bytes read: all of
them, or all but `rest` -/
inductive DRes where
  | crash
  | fail (e : Int)
  /-- NGHTTP3_ERR_MALFORMED_HTTP_HEADER -/
  | malformed (d : Dec)
  | more (d : Dec) (s : SCtx) (http : State)
  | done (d : Dec) (s : SCtx) (http : State)
  | blocked (d : Dec) (s : SCtx) (http : State) (rest : Bytes)
deriving DecidableEq, Repr

/-- the recv_header or recv_trailer callback: nghttp3_conn.c:1566-1582, 1632-1640 -/
def fieldEv (h : Hs) (nv : QNv) : Ev := if isTrailers h then .trailer nv else .header nv

/-- nghttp3_http_on_header as conn_decode_headers calls it, nghttp3_conn.c:1622-1625 -/
def fieldRes (c : Cfg) (h : Hs) (http : State) (nv : QNv) : Http.Res :=
  onHeader c.pp http ⟨nv.name, nv.value⟩ nv.token (isRequest h) (isTrailers h) (c.server && c.ext)

/-- the loop of conn_decode_headers, nghttp3_conn.c:1588-1652.  The limit on blocked streams (l.1600-1603) is checked in
`headersStep`; nghttp3_qpack_stream_context_reset (l.1614) at the end of the section. -/
def decLoop (c : Cfg) (h : Hs) : Nat → Dec → SCtx → State → Bytes → Bool → List Ev → List Ev × DRes
  | 0, _, _, _, _, _, acc => (acc, .crash)
  | f + 1, d, s, http, src, fin, acc =>
    match d.readRequest s src fin with
    | .crash => (acc, .crash)
    | .fail _ e => (acc, .fail (qerr e))
    | .more d' s' => (acc, .more d' s' http)
    | .final d' s' => (acc, .done d' (SCtx.init s'.streamId) http)
    | .blocked d' s' rest => (acc, .blocked d' s' http rest)
    | .emit d' s' nv rest =>
      if rest.length = src.length then (acc, .more d' s' http)
      else
        match fieldRes c h http nv with
        | .malformed => (acc, .malformed d')
        | .remove http' => decLoop c h f d' s' http' rest fin acc
        | .ok http' => decLoop c h f d' s' http' rest fin (acc ++ [fieldEv h nv])

/-- nghttp3_conn_on_headers, nghttp3_conn.c:1657-1666, and conn_decode_headers, nghttp3_conn.c:1551-1655 -/
def onHeaders (c : Cfg) (h : Hs) (d : Dec) (s : SCtx) (http : State) (src : Bytes) (fin : Bool) : List Ev × DRes :=
  if src = [] ∧ fin = false then ([], .more d s http)
  else decLoop c h (src.length + 1) d s http src fin []

/-! ### Frames -/

/-- one pass through the `switch` of nghttp3_conn_read_bidi: failed assertion; error; next pass with the input `rest` (`n` bytes were added
to nconsumed); `goto almost_done` with all input processed; QPACK blocked with input `rest` left -/
inductive BRes where
  | crash
  | fail (e : Int)
  | cont (s : Str) (d : Dec) (rest : Bytes) (busy : Bool) (ev : List Ev) (n : Nat)
  | ret (s : Str) (d : Dec) (ev : List Ev) (n : Nat)
  | blocked (s : Str) (d : Dec) (rest : Bytes) (ev : List Ev) (n : Nat)
deriving DecidableEq, Repr

/-- nghttp3_stream_read_state_reset, nghttp3_stream.c:177-179 (NGHTTP3_REQ_STREAM_STATE_FRAME_TYPE is 0) -/
def Str.reset (s : Str) : Str := { s with rst := .frameType, rv := {}, ftype := 0, left := 0 }

/-- frame types refused on a request stream, nghttp3_conn.c:1330-1341 -/
def unexpectedType (ty : Nat) : Bool :=
  decide (ty = FRAME_PUSH_PROMISE ∨ ty = FRAME_CANCEL_PUSH ∨ ty = FRAME_SETTINGS ∨ ty = FRAME_GOAWAY ∨ ty = FRAME_MAX_PUSH_ID ∨
    ty = FRAME_PRIORITY_UPDATE ∨ ty = FRAME_PRIORITY_UPDATE_PUSH_ID ∨ ty = H2_FRAME_PRIORITY ∨ ty = H2_FRAME_PING ∨
    ty = H2_FRAME_WINDOW_UPDATE ∨ ty = H2_FRAME_CONTINUATION)

/-- nghttp3_stream_transit_rx_http_state and `if (rv != 0) return rv;` -/
def transitOr (s : Str) (e : Hev) (k : Str → BRes) : BRes :=
  match transit s.h s.http e with
  | .crash => .crash
  | .unexpected => .fail Err.H3_FRAME_UNEXPECTED
  | .malformed => .fail Err.MALFORMED_HTTP_MESSAGING
  | .ok h => k { s with h := h }

/-- nghttp3_stream_transit_rx_http_state and `assert(0 == rv)`, then nghttp3_stream_read_state_reset and the next pass -/
def endFrame (s : Str) (d : Dec) (e : Hev) (rest : Bytes) (ev : List Ev) (n : Nat) : BRes :=
  match transit s.h s.http e with
  | .ok h => .cont { s with h := h }.reset d rest false ev n
  | _ => .crash

/-- the frame header is complete, nghttp3_conn.c:1270-1347; `s.ftype`, `s.left`: type and length; `n`: bytes of the length field -/
def frameHead (s : Str) (d : Dec) (rest : Bytes) (n : Nat) : BRes :=
  if s.ftype = FRAME_DATA then
    transitOr s .dataBegin fun s =>
      if s.left = 0 then endFrame s d .dataEnd rest [] n
      else .cont { s with rst := .data } d rest false [] n
  else if s.ftype = FRAME_HEADERS then
    transitOr s .headersBegin fun s =>
      if s.left = 0 then
        if emptyHeadersAllowed s.h then endFrame s d .headersEnd rest [] n else .fail Err.MALFORMED_HTTP_MESSAGING
      else
        match s.h with
        | .reqHeadersBegin | .respHeadersBegin => .cont { s with rst := .headers } d rest false [.beginHeaders] n
        | .reqTrailersBegin | .respTrailersBegin => .cont { s with rst := .headers } d rest false [.beginTrailers] n
        | _ => .crash
  else if unexpectedType s.ftype then .fail Err.H3_FRAME_UNEXPECTED
  else .cont { s with rst := .ignFrame } d rest true [] n

/-- case NGHTTP3_REQ_STREAM_STATE_DATA, nghttp3_conn.c:1349-1367, and nghttp3_conn_on_data, l.1523-1543.  The bytes are not added to
nconsumed. -/
def dataStep (s : Str) (d : Dec) (src : Bytes) : BRes :=
  let x := src.take s.left
  match onDataChunk s.http x.length with
  | none => .fail Err.MALFORMED_HTTP_MESSAGING
  | some http =>
    let s := { s with http := http, left := s.left - x.length }
    if s.left ≠ 0 then .ret s d [.data x] 0
    else endFrame s d .dataEnd (src.drop x.length) [.data x] 0

/-- `http_header_error:`, nghttp3_conn.c:1459-1475 (NGHTTP3_H3_MESSAGE_ERROR is 0x010e) -/
def headerError (s : Str) (d : Dec) (rest : Bytes) (ev : List Ev) (n : Nat) : BRes :=
  .cont { s with httpErr := true, rst := .ignRest } d rest true (ev ++ [.stopSending 0x010e, .resetStream 0x010e]) n

/-- a section is complete, nghttp3_conn.c:1399-1457; `last`: `p == end && fin` -/
def sectionEnd (c : Cfg) (last : Bool) (s : Str) (d : Dec) (rest : Bytes) (ev : List Ev) (n : Nat) : BRes :=
  match endSection s.h s.http with
  | none => headerError s d rest ev n
  | some http =>
    let s := { s with http := http }
    match s.h with
    | .reqHeadersBegin =>
      let pri := if c.server && http.priority && !s.priFixed then [.priority http.pri] else []
      endFrame s d .headersEnd rest (ev ++ pri ++ [.endHeaders last]) n
    | .respHeadersBegin => endFrame s d .headersEnd rest (ev ++ [.endHeaders last]) n
    | .reqTrailersBegin | .respTrailersBegin => endFrame s d .headersEnd rest (ev ++ [.endTrailers last]) n
    | _ => .crash

/-- case NGHTTP3_REQ_STREAM_STATE_HEADERS, nghttp3_conn.c:1368-1457.  `room`: the limit on blocked streams (l.1600-1603) is not reached.
When the header is malformed the bytes of this piece are not skipped here but by IGN_REST. -/
def headersStep (c : Cfg) (room fin : Bool) (s : Str) (d : Dec) (src : Bytes) : BRes :=
  let x := src.take s.left
  match onHeaders c s.h d s.sc s.http x (decide (x.length = s.left)) with
  | (_, .crash) => .crash
  | (_, .fail e) => .fail e
  | (ev, .malformed d') => headerError s d' src ev 0
  | (ev, .blocked d' sc http rest) =>
    if room then
      .blocked { s with sc := sc, http := http, blocked := true, left := s.left - (x.length - rest.length) } d'
        (rest ++ src.drop x.length) ev (x.length - rest.length)
    else .fail Err.QPACK_DECOMPRESSION_FAILED
  | (ev, .more d' sc http) | (ev, .done d' sc http) =>
    let s := { s with sc := sc, http := http, left := s.left - x.length }
    if s.left ≠ 0 then .ret s d' ev x.length
    else sectionEnd c (fin && decide (src.drop x.length = [])) s d' (src.drop x.length) ev x.length

/-- one pass through the loop of nghttp3_conn_read_bidi, nghttp3_conn.c:1235-1492.  The fall through from FRAME_TYPE to FRAME_LENGTH is a
second pass: with no input left the loop ends where the code says `goto almost_done`.  IGN_REST returns without looking at `fin`; so does
`almostDone` in that state. -/
def step (c : Cfg) (room fin : Bool) (s : Str) (d : Dec) (src : Bytes) : BRes :=
  match s.rst with
  | .frameType =>
    match rd s.rv src fin with
    | .crash => .crash
    | .err => .fail Err.H3_GENERAL_PROTOCOL_ERROR
    | .part rv => .ret { s with rv := rv } d [] src.length
    | .done v n => .cont { s with rv := {}, ftype := v, rst := .frameLen } d (src.drop n) false [] n
  | .frameLen =>
    match rd s.rv src fin with
    | .crash => .crash
    | .err => .fail Err.H3_FRAME_ERROR
    | .part rv => .ret { s with rv := rv } d [] src.length
    | .done v n => frameHead { s with rv := {}, left := v } d (src.drop n) n
  | .data => dataStep s d src
  | .headers => headersStep c room fin s d src
  | .ignFrame =>
    let n := (src.take s.left).length
    if s.left - n ≠ 0 then .ret { s with left := s.left - n } d [] n
    else .cont s.reset d (src.drop n) false [] n
  | .ignRest => .ret s d [] src.length

/-- outcome of nghttp3_conn_read_bidi: `n` is the returned number of consumed bytes, `rest` the input after the `*pnproc` processed bytes -/
inductive Out where
  | crash
  | fail (e : Int)
  | ok (s : Str) (d : Dec) (ev : List Ev) (n : Nat) (rest : Bytes)
deriving DecidableEq, Repr

/-- `almost_done:`, nghttp3_conn.c:1495-1520 -/
def almostDone (fin : Bool) (s : Str) (d : Dec) (ev : List Ev) (n : Nat) : Out :=
  if fin then
    match s.rst with
    | .frameType =>
      if s.rv.left ≠ 0 then .fail Err.H3_GENERAL_PROTOCOL_ERROR
      else
        match transit s.h s.http .msgEnd with
        | .crash => .crash
        | .unexpected => .fail Err.H3_FRAME_UNEXPECTED
        | .malformed => .fail Err.MALFORMED_HTTP_MESSAGING
        | .ok h => .ok { s with h := h } d (ev ++ [.endStream]) n []
    | .ignRest => .ok s d ev n []
    | _ => .fail Err.H3_FRAME_ERROR
  else .ok s d ev n []

/-- the stream has just become blocked: buffer the rest unless it is in a buffer already, nghttp3_conn.c:1384-1393 -/
def justBlocked (s : Str) (rest : Bytes) : Str :=
  if rest ≠ [] ∧ bufferedLen s.inq = 0 then { s with inq := bufferData s.inq rest } else s

/-- the loop of nghttp3_conn_read_bidi, nghttp3_conn.c:1234-1493 -/
def loop (c : Cfg) (room fin : Bool) : Nat → Str → Dec → Bytes → Bool → List Ev → Nat → Out
  | 0, _, _, _, _, _, _ => .crash
  | f + 1, s, d, src, busy, ev, n =>
    if src = [] ∧ busy = false then almostDone fin s d ev n
    else
      match step c room fin s d src with
      | .crash => .crash
      | .fail e => .fail e
      | .cont s' d' rest b ev' n' => loop c room fin f s' d' rest b (ev ++ ev') (n + n')
      | .ret s' d' ev' n' => almostDone fin s' d' (ev ++ ev') (n + n')
      | .blocked s' d' rest ev' n' => .ok (justBlocked s' rest) d' (ev ++ ev') (n + n') rest

/-- number of passes that always suffices -/
def fuel (src : Bytes) : Nat := 8 * src.length + 2

/-- nghttp3_conn_read_bidi, nghttp3_conn.c:1202-1521 -/
def readBidi (c : Cfg) (room fin : Bool) (s : Str) (d : Dec) (src : Bytes) : Out :=
  if s.shutRd then .ok s d [] src.length []
  else if s.blocked then
    if src = [] then .ok s d [] 0 src else .ok { s with inq := bufferData s.inq src } d [] 0 src
  else loop c room fin (fuel src) s d src false [] 0

/-- nghttp3_conn_read_stream for an existing request stream, nghttp3_conn.c:462-482 -/
def readStream (c : Cfg) (room fin : Bool) (s : Str) (d : Dec) (src : Bytes) : Out :=
  if src = [] ∧ fin = false then .ok s d [] 0 []
  else readBidi c room fin (if fin then { s with eof := true } else s) d src

/-- conn_call_deferred_consume, nghttp3_conn.c:176-192 -/
def deferred (n : Nat) : List Ev := if n = 0 then [] else [.deferredConsume n]

/-- conn_delete_stream, nghttp3_conn.c:1050-1082, as far as this stream is concerned -/
def delete (s : Str) (ev : List Ev) : Str × List Ev :=
  ({ s with inq := [], gone := true }, ev ++ deferred (bufferedLen s.inq) ++ [.streamClose])

/-- the loop of conn_process_blocked_stream_data, nghttp3_conn.c:1094-1124 -/
def procLoop (c : Cfg) (room : Bool) : Nat → Str → Dec → List Ev → Out
  | 0, _, _, _ => .crash
  | f + 1, s, d, ev =>
    match s.inq with
    | [] => .ok s d ev 0 []
    | b :: t =>
      match readBidi c room (decide (t = []) && s.eof) s d b.data with
      | .crash => .crash
      | .fail e => .fail e
      | .ok s' d' ev' n rest =>
        let s' := { s' with inq := if rest = [] then t else { b with data := rest } :: t }
        if s'.blocked then .ok s' d' (ev ++ ev' ++ deferred n) 0 [] else procLoop c room f s' d' (ev ++ ev' ++ deferred n)

/-- conn_process_blocked_stream_data, nghttp3_conn.c:1084-1137 -/
def processBlocked (c : Cfg) (room : Bool) (s : Str) (d : Dec) : Out :=
  match procLoop c room (s.inq.length + 1) s d [] with
  | .ok s' d' ev _ _ =>
    if s'.blocked = false ∧ s'.closed then .ok (delete s' ev).1 d' (delete s' ev).2 0 [] else .ok s' d' ev 0 []
  | o => o

/-- nghttp3_conn_read_qpack_encoder, nghttp3_conn.c:1139-1170, as far as this stream is concerned: a blocked stream whose Required Insert
Count has been reached is no longer blocked, and its buffered data is processed -/
def wake (c : Cfg) (room : Bool) (s : Str) (d : Dec) : Out :=
  if s.blocked ∧ s.sc.ricnt ≤ d.ctx.next then processBlocked c room { s with blocked := false } d else .ok s d [] 0 []

/-- nghttp3_conn_shutdown_stream_read, nghttp3_conn.c:2456-2476 -/
def shutdownRead (c : Cfg) (s : Str) (d : Dec) : Out :=
  if s.shutRd then .ok s d [] 0 []
  else
    match d.cancelStream c.id with
    | none => .fail Err.QPACK_FATAL
    | some d' => .ok { s with shutRd := true } d' [] 0 []

/-- nghttp3_conn_close_stream, nghttp3_conn.c:2431-2454: deleted at once unless blocked -/
def closeStream (s : Str) (d : Dec) : Out :=
  if s.blocked then .ok { s with closed := true } d [] 0 [] else .ok (delete s []).1 d (delete s []).2 0 []

end Bidi
end Nghttp3
