import Verif.Model.Bidi
/-! Model of the way a request stream is read when callbacks may fail: the functions of Model/Bidi.lean again, in the order in which the code
calls the application, with an early return if a callback returns nonzero.  In contrast to Model/Bidi.lean the callbacks of a call that fails
are kept.

Simplifications: allocations succeed, callbacks do not call the library.  The object is not looked at after an error: the documentation says
that the connection must then be closed. -/
namespace Nghttp3
namespace BidiCb
open Http Qpack Bidi

/-- Does the callback return 0?  It may depend on all callbacks made before it.  A callback that the application has not set returns 0. -/
abbrev Cb := List Ev → Ev → Bool

/-- a failed assertion; an error code; the value -/
inductive Res (α : Type) where
  | crash
  | fail (e : Int)
  | ok (a : α)
deriving DecidableEq, Repr

/-- code that calls the application: it gets the callbacks made so far and adds its own -/
def M (α : Type) : Type := Cb → List Ev → List Ev × Res α

namespace M
def ret {α : Type} (a : α) : M α := fun _ h => (h, .ok a)
def crash {α : Type} : M α := fun _ h => (h, .crash)
/-- `return e;` -/
def fail {α : Type} (e : Int) : M α := fun _ h => (h, .fail e)
/-- `rv = …; if (rv != 0) { return rv; }` -/
def bind {α β : Type} (m : M α) (k : α → M β) : M β := fun cb h =>
  match m cb h with
  | (h', .ok a) => k a cb h'
  | (h', .crash) => (h', .crash)
  | (h', .fail e) => (h', .fail e)
/-- conn_call_*, nghttp3_conn.c:54-192 -/
def call (e : Ev) : M Unit := fun cb h => (h ++ [e], if cb h e then .ok () else .fail Err.CALLBACK_FAILURE)
/-- not a callback: recorded only, so that the records can be compared with those of Model/Bidi.lean -/
def mark (e : Ev) : M Unit := fun _ h => (h ++ [e], .ok ())
end M

/-- what conn_decode_headers reports if it does not return an error; see `Bidi.DRes` -/
inductive Sec where
  | malformed (d : Dec)
  | more (d : Dec) (s : SCtx) (http : State)
  | done (d : Dec) (s : SCtx) (http : State)
  | blocked (d : Dec) (s : SCtx) (http : State) (rest : Bidi.Bytes)

/-- the loop of conn_decode_headers, nghttp3_conn.c:1588-1652: `Bidi.decLoop` with the callback of l.1632-1640 -/
def decLoop (c : Cfg) (h : Hs) : Nat → Dec → SCtx → State → Bidi.Bytes → Bool → M Sec
  | 0, _, _, _, _, _ => .crash
  | f + 1, d, s, http, src, fin =>
    match d.readRequest s src fin with
    | .crash => .crash
    | .fail _ e => .fail (qerr e)
    | .more d' s' => .ret (.more d' s' http)
    | .final d' s' => .ret (.done d' (SCtx.init s'.streamId) http)
    | .blocked d' s' rest => .ret (.blocked d' s' http rest)
    | .emit d' s' nv rest =>
      if rest.length = src.length then .ret (.more d' s' http)
      else
        match fieldRes c h http nv with
        | .malformed => .ret (.malformed d')
        | .remove http' => decLoop c h f d' s' http' rest fin
        | .ok http' => M.bind (.call (fieldEv h nv)) fun _ => decLoop c h f d' s' http' rest fin

/-- nghttp3_conn_on_headers, nghttp3_conn.c:1657-1666 -/
def onHeaders (c : Cfg) (h : Hs) (d : Dec) (s : SCtx) (http : State) (src : Bidi.Bytes) (fin : Bool) : M Sec :=
  if src = [] ∧ fin = false then .ret (.more d s http) else decLoop c h (src.length + 1) d s http src fin

/-- how a pass through the `switch` of nghttp3_conn_read_bidi ends, if without error -/
inductive Pass where
  | cont (s : Str) (d : Dec) (rest : Bidi.Bytes) (busy : Bool) (n : Nat)
  | ret (s : Str) (d : Dec) (n : Nat)
  | blocked (s : Str) (d : Dec) (rest : Bidi.Bytes) (n : Nat)

/-- `Bidi.transitOr` -/
def transitOr (s : Str) (e : Hev) (k : Str → M Pass) : M Pass :=
  match transit s.h s.http e with
  | .crash => .crash
  | .unexpected => .fail Err.H3_FRAME_UNEXPECTED
  | .malformed => .fail Err.MALFORMED_HTTP_MESSAGING
  | .ok h => k { s with h := h }

/-- `Bidi.endFrame` -/
def endFrame (s : Str) (d : Dec) (e : Hev) (rest : Bidi.Bytes) (n : Nat) : M Pass :=
  match transit s.h s.http e with
  | .ok h => .ret (.cont { s with h := h }.reset d rest false n)
  | _ => .crash

/-- the frame header is complete, nghttp3_conn.c:1270-1347; begin_headers or begin_trailers: l.1303-1319 -/
def frameHead (s : Str) (d : Dec) (rest : Bidi.Bytes) (n : Nat) : M Pass :=
  if s.ftype = FRAME_DATA then
    transitOr s .dataBegin fun s =>
      if s.left = 0 then endFrame s d .dataEnd rest n
      else .ret (.cont { s with rst := .data } d rest false n)
  else if s.ftype = FRAME_HEADERS then
    transitOr s .headersBegin fun s =>
      if s.left = 0 then
        if emptyHeadersAllowed s.h then endFrame s d .headersEnd rest n else .fail Err.MALFORMED_HTTP_MESSAGING
      else
        match s.h with
        | .reqHeadersBegin | .respHeadersBegin => M.bind (.call .beginHeaders) fun _ => .ret (.cont { s with rst := .headers } d rest false n)
        | .reqTrailersBegin | .respTrailersBegin => M.bind (.call .beginTrailers) fun _ => .ret (.cont { s with rst := .headers } d rest false n)
        | _ => .crash
  else if unexpectedType s.ftype then .fail Err.H3_FRAME_UNEXPECTED
  else .ret (.cont { s with rst := .ignFrame } d rest true n)

/-- case NGHTTP3_REQ_STREAM_STATE_DATA, nghttp3_conn.c:1349-1367; nghttp3_conn_on_data, l.1523-1543, with the recv_data callback -/
def dataStep (s : Str) (d : Dec) (src : Bidi.Bytes) : M Pass :=
  let x := src.take s.left
  match onDataChunk s.http x.length with
  | none => .fail Err.MALFORMED_HTTP_MESSAGING
  | some http =>
    M.bind (.call (.data x)) fun _ =>
      let s := { s with http := http, left := s.left - x.length }
      if s.left ≠ 0 then .ret (.ret s d 0)
      else endFrame s d .dataEnd (src.drop x.length) 0

/-- `http_header_error:`, nghttp3_conn.c:1459-1475: stop_sending, then reset_stream -/
def headerError (s : Str) (d : Dec) (rest : Bidi.Bytes) (n : Nat) : M Pass :=
  M.bind (.call (.stopSending 0x010e)) fun _ =>
    M.bind (.call (.resetStream 0x010e)) fun _ => .ret (.cont { s with httpErr := true, rst := .ignRest } d rest true n)

/-- a section is complete, nghttp3_conn.c:1399-1457; the priority is set before end_headers is called -/
def sectionEnd (c : Cfg) (last : Bool) (s : Str) (d : Dec) (rest : Bidi.Bytes) (n : Nat) : M Pass :=
  match endSection s.h s.http with
  | none => headerError s d rest n
  | some http =>
    let s := { s with http := http }
    match s.h with
    | .reqHeadersBegin =>
      M.bind (if c.server && http.priority && !s.priFixed then .mark (.priority http.pri) else .ret ()) fun _ =>
        M.bind (.call (.endHeaders last)) fun _ => endFrame s d .headersEnd rest n
    | .respHeadersBegin => M.bind (.call (.endHeaders last)) fun _ => endFrame s d .headersEnd rest n
    | .reqTrailersBegin | .respTrailersBegin => M.bind (.call (.endTrailers last)) fun _ => endFrame s d .headersEnd rest n
    | _ => .crash

/-- case NGHTTP3_REQ_STREAM_STATE_HEADERS, nghttp3_conn.c:1368-1457: `Bidi.headersStep` -/
def headersStep (c : Cfg) (room fin : Bool) (s : Str) (d : Dec) (src : Bidi.Bytes) : M Pass :=
  let x := src.take s.left
  M.bind (onHeaders c s.h d s.sc s.http x (decide (x.length = s.left))) fun r =>
    match r with
    | .malformed d' => headerError s d' src 0
    | .blocked d' sc http rest =>
      if room then
        .ret (.blocked { s with sc := sc, http := http, blocked := true, left := s.left - (x.length - rest.length) } d'
          (rest ++ src.drop x.length) (x.length - rest.length))
      else .fail Err.QPACK_DECOMPRESSION_FAILED
    | .more d' sc http | .done d' sc http =>
      let s := { s with sc := sc, http := http, left := s.left - x.length }
      if s.left ≠ 0 then .ret (.ret s d' x.length)
      else sectionEnd c (fin && decide (src.drop x.length = [])) s d' (src.drop x.length) x.length

/-- one pass through the loop of nghttp3_conn_read_bidi, nghttp3_conn.c:1235-1492: `Bidi.step` -/
def step (c : Cfg) (room fin : Bool) (s : Str) (d : Dec) (src : Bidi.Bytes) : M Pass :=
  match s.rst with
  | .frameType =>
    match rd s.rv src fin with
    | .crash => .crash
    | .err => .fail Err.H3_GENERAL_PROTOCOL_ERROR
    | .part rv => .ret (.ret { s with rv := rv } d src.length)
    | .done v n => .ret (.cont { s with rv := {}, ftype := v, rst := .frameLen } d (src.drop n) false n)
  | .frameLen =>
    match rd s.rv src fin with
    | .crash => .crash
    | .err => .fail Err.H3_FRAME_ERROR
    | .part rv => .ret (.ret { s with rv := rv } d src.length)
    | .done v n => frameHead { s with rv := {}, left := v } d (src.drop n) n
  | .data => dataStep s d src
  | .headers => headersStep c room fin s d src
  | .ignFrame =>
    let n := (src.take s.left).length
    if s.left - n ≠ 0 then .ret (.ret { s with left := s.left - n } d n)
    else .ret (.cont s.reset d (src.drop n) false n)
  | .ignRest => .ret (.ret s d src.length)

/-- what a call returns: the object, the decoder, the number of consumed bytes, the input that was not processed -/
structure Val where
  s : Str
  d : Dec
  n : Nat
  rest : Bidi.Bytes

/-- `almost_done:`, nghttp3_conn.c:1495-1520, with the end_stream callback -/
def almostDone (fin : Bool) (s : Str) (d : Dec) (n : Nat) : M Val :=
  if fin then
    match s.rst with
    | .frameType =>
      if s.rv.left ≠ 0 then .fail Err.H3_GENERAL_PROTOCOL_ERROR
      else
        match transit s.h s.http .msgEnd with
        | .crash => .crash
        | .unexpected => .fail Err.H3_FRAME_UNEXPECTED
        | .malformed => .fail Err.MALFORMED_HTTP_MESSAGING
        | .ok h => M.bind (.call .endStream) fun _ => .ret ⟨{ s with h := h }, d, n, []⟩
    | .ignRest => .ret ⟨s, d, n, []⟩
    | _ => .fail Err.H3_FRAME_ERROR
  else .ret ⟨s, d, n, []⟩

/-- the loop of nghttp3_conn_read_bidi, nghttp3_conn.c:1234-1493 -/
def loop (c : Cfg) (room fin : Bool) : Nat → Str → Dec → Bidi.Bytes → Bool → Nat → M Val
  | 0, _, _, _, _, _ => .crash
  | f + 1, s, d, src, busy, n =>
    if src = [] ∧ busy = false then almostDone fin s d n
    else
      M.bind (step c room fin s d src) fun p =>
        match p with
        | .cont s' d' rest b n' => loop c room fin f s' d' rest b (n + n')
        | .ret s' d' n' => almostDone fin s' d' (n + n')
        | .blocked s' d' rest n' => .ret ⟨justBlocked s' rest, d', n + n', rest⟩

/-- nghttp3_conn_read_bidi, nghttp3_conn.c:1202-1521 -/
def readBidi (c : Cfg) (room fin : Bool) (s : Str) (d : Dec) (src : Bidi.Bytes) : M Val :=
  if s.shutRd then .ret ⟨s, d, src.length, []⟩
  else if s.blocked then
    if src = [] then .ret ⟨s, d, 0, src⟩ else .ret ⟨{ s with inq := bufferData s.inq src }, d, 0, src⟩
  else loop c room fin (fuel src) s d src false 0

/-- nghttp3_conn_read_stream for an existing request stream, nghttp3_conn.c:462-482 -/
def readStream (c : Cfg) (room fin : Bool) (s : Str) (d : Dec) (src : Bidi.Bytes) : M Val :=
  if src = [] ∧ fin = false then .ret ⟨s, d, 0, []⟩
  else readBidi c room fin (if fin then { s with eof := true } else s) d src

/-- conn_call_deferred_consume, nghttp3_conn.c:176-192 -/
def deferred (n : Nat) : M Unit := if n = 0 then .ret () else .call (.deferredConsume n)

/-- conn_delete_stream, nghttp3_conn.c:1050-1082: deferred_consume, then stream_close -/
def delete (s : Str) : M Str :=
  M.bind (deferred (bufferedLen s.inq)) fun _ => M.bind (.call .streamClose) fun _ => .ret { s with inq := [], gone := true }

/-- `rv = conn_call_deferred_consume(…); if (rv != 0) { return 0; }`, nghttp3_conn.c:1111-1114: the failure of the callback is not reported;
`alt` is what happens then -/
def deferredOr {α : Type} (n : Nat) (alt : α) (k : M α) : M α := fun cb h =>
  match deferred n cb h with
  | (h', .ok _) => k cb h'
  | (h', _) => (h', .ok alt)

/-- the loop of conn_process_blocked_stream_data, nghttp3_conn.c:1094-1124.  The second component: the loop was left by `break`, not by
`return 0` (l.1113), after which a stream that was closed meanwhile is not deleted; the buffer has then not been removed even if all of it
was processed. -/
def procLoop (c : Cfg) (room : Bool) : Nat → Str → Dec → M (Val × Bool)
  | 0, _, _ => .crash
  | f + 1, s, d =>
    match s.inq with
    | [] => .ret (⟨s, d, 0, []⟩, true)
    | b :: t =>
      M.bind (readBidi c room (decide (t = []) && s.eof) s d b.data) fun v =>
        let kept := { v.s with inq := { b with data := v.rest } :: t }
        let s' := { v.s with inq := if v.rest = [] then t else { b with data := v.rest } :: t }
        deferredOr v.n (⟨kept, v.d, 0, []⟩, false)
          (if s'.blocked then .ret (⟨s', v.d, 0, []⟩, true) else procLoop c room f s' v.d)

/-- conn_process_blocked_stream_data, nghttp3_conn.c:1084-1137 -/
def processBlocked (c : Cfg) (room : Bool) (s : Str) (d : Dec) : M Val :=
  M.bind (procLoop c room (s.inq.length + 1) s d) fun p =>
    if p.2 = true ∧ p.1.s.blocked = false ∧ p.1.s.closed then M.bind (delete p.1.s) fun s' => .ret ⟨s', p.1.d, 0, []⟩
    else .ret ⟨p.1.s, p.1.d, 0, []⟩

/-- nghttp3_conn_read_qpack_encoder, nghttp3_conn.c:1139-1170, as far as this stream is concerned: `Bidi.wake` -/
def wake (c : Cfg) (room : Bool) (s : Str) (d : Dec) : M Val :=
  if s.blocked ∧ s.sc.ricnt ≤ d.ctx.next then processBlocked c room { s with blocked := false } d else .ret ⟨s, d, 0, []⟩

/-- nghttp3_conn_close_stream, nghttp3_conn.c:2431-2454 -/
def closeStream (s : Str) (d : Dec) : M Val :=
  if s.blocked then .ret ⟨{ s with closed := true }, d, 0, []⟩ else M.bind (delete s) fun s' => .ret ⟨s', d, 0, []⟩

end BidiCb
end Nghttp3
