import Verif.Model.Http
/-! Model of the message framing on a request stream: nghttp3_stream_transit_rx_http_state (lib/nghttp3_stream.c) and the order in which
nghttp3_conn_read_bidi (lib/nghttp3_conn.c) calls it, the HTTP layer and the application, frame by frame. -/
namespace Nghttp3
namespace Http

/-- nghttp3_stream_http_state, nghttp3_stream.h:137-157.  The states NONE, REQ_BEGIN and RESP_BEGIN are never entered by received data. -/
inductive Hs where
  | reqInitial | reqHeadersBegin | reqHeadersEnd | reqDataBegin | reqDataEnd | reqTrailersBegin | reqTrailersEnd | reqEnd
  | respInitial | respHeadersBegin | respHeadersEnd | respDataBegin | respDataEnd | respTrailersBegin | respTrailersEnd | respEnd
deriving DecidableEq, Repr

/-- nghttp3_stream_http_event, nghttp3_stream.h:159-165 -/
inductive Hev where
  | dataBegin | dataEnd | headersBegin | headersEnd | msgEnd
deriving DecidableEq, Repr

/-- what nghttp3_stream_transit_rx_http_state returns -/
inductive Tr where
  /-- a failed assertion or nghttp3_unreachable -/
  | crash
  /-- NGHTTP3_ERR_H3_FRAME_UNEXPECTED -/
  | unexpected
  /-- NGHTTP3_ERR_MALFORMED_HTTP_MESSAGING -/
  | malformed
  | ok (h : Hs)
deriving DecidableEq, Repr

/-- MSG_END: nghttp3_http_on_remote_end_stream, then the final state -/
def trEnd (s : State) (h : Hs) : Tr := if onRemoteEndStream s then .ok h else .malformed

/-- nghttp3_stream_transit_rx_http_state, nghttp3_stream.c:1019-1188 -/
def transit (h : Hs) (s : State) (e : Hev) : Tr :=
  match h with
  | .reqInitial => if e ≠ .headersBegin then .unexpected else .ok .reqHeadersBegin
  | .reqHeadersBegin => if e = .headersEnd then .ok .reqHeadersEnd else .crash
  | .reqHeadersEnd =>
    match e with
    | .headersBegin => if s.methConnect then .unexpected else .ok .reqTrailersBegin
    | .dataBegin => .ok .reqDataBegin
    | .msgEnd => trEnd s .reqEnd
    | _ => .crash
  | .reqDataBegin => if e = .dataEnd then .ok .reqDataEnd else .crash
  | .reqDataEnd =>
    match e with
    | .dataBegin => .ok .reqDataBegin
    | .headersBegin => if s.methConnect then .unexpected else .ok .reqTrailersBegin
    | .msgEnd => trEnd s .reqEnd
    | _ => .crash
  | .reqTrailersBegin => if e = .headersEnd then .ok .reqTrailersEnd else .crash
  | .reqTrailersEnd => if e ≠ .msgEnd then .unexpected else trEnd s .reqEnd
  | .reqEnd => .unexpected
  | .respInitial => if e ≠ .headersBegin then .unexpected else .ok .respHeadersBegin
  | .respHeadersBegin => if e = .headersEnd then .ok .respHeadersEnd else .crash
  | .respHeadersEnd =>
    match e with
    | .headersBegin =>
      if s.statusCode = -1 then .ok .respHeadersBegin
      else if s.methConnect ∧ Int.tdiv s.statusCode 100 = 2 then .unexpected
      else .ok .respTrailersBegin
    | .dataBegin => if s.expectFinal then .unexpected else .ok .respDataBegin
    | .msgEnd => trEnd s .respEnd
    | _ => .crash
  | .respDataBegin => if e = .dataEnd then .ok .respDataEnd else .crash
  | .respDataEnd =>
    match e with
    | .dataBegin => .ok .respDataBegin
    | .headersBegin => if s.methConnect ∧ Int.tdiv s.statusCode 100 = 2 then .unexpected else .ok .respTrailersBegin
    | .msgEnd => trEnd s .respEnd
    | _ => .crash
  | .respTrailersBegin => if e = .headersEnd then .ok .respTrailersEnd else .crash
  | .respTrailersEnd => if e ≠ .msgEnd then .unexpected else trEnd s .respEnd
  | .respEnd => .unexpected

/-- nghttp3_stream_empty_headers_allowed, nghttp3_stream.c:1190-1198 -/
def emptyHeadersAllowed (h : Hs) : Bool := h = .reqTrailersBegin || h = .respTrailersBegin

/-- `request` in conn_decode_headers, nghttp3_conn.c:1566-1582 -/
def isRequest (h : Hs) : Bool := h = .reqHeadersBegin || h = .reqTrailersBegin
/-- `trailers` in conn_decode_headers, nghttp3_conn.c:1566-1582 -/
def isTrailers (h : Hs) : Bool := h = .reqTrailersBegin || h = .respTrailersBegin

/-- the check at the end of a section, nghttp3_conn.c:1399-1420; `none`: NGHTTP3_ERR_MALFORMED_HTTP_HEADER -/
def endSection (h : Hs) (s : State) : Option State :=
  match h with
  | .reqHeadersBegin => onRequestHeaders s
  | .respHeadersBegin => onResponseHeaders s
  | _ => some s

/-- callbacks: begin_headers, recv_header, end_headers, recv_data (its length), begin_trailers, recv_trailer, end_trailers, end_stream -/
inductive Cb where
  | beginHeaders | header (f : Field) | endHeaders
  | data (n : Nat)
  | beginTrailers | trailer (f : Field) | endTrailers
  | endStream
deriving DecidableEq, Repr

/-- a frame on a request stream: HEADERS with its decoded field lines (`none`: its length is 0), DATA with the sizes of the pieces in
which its payload is processed -/
inductive Frm where
  | headers (fs : Option (List Field))
  | data (pieces : List Nat)
deriving DecidableEq, Repr

/-- state of the message and outcome of a frame -/
structure Msg where
  h : Hs
  s : State
deriving DecidableEq, Repr

inductive MRes where
  | crash
  | unexpected
  | malformedMessaging
  /-- NGHTTP3_ERR_MALFORMED_HTTP_HEADER: the stream is reset with H3_MESSAGE_ERROR -/
  | malformedHeader
  | ok (m : Msg)
deriving DecidableEq, Repr

/-- DATA payload: nghttp3_conn_on_data, nghttp3_conn.c:1523-1543, for every piece -/
def onData (s : State) : List Nat → List Cb × Option State
  | [] => ([], some s)
  | n :: t =>
    match onDataChunk s n with
    | none => ([], none)
    | some s' => (.data n :: (onData s' t).1, (onData s' t).2)

/-- continue with the next state -/
def Tr.bind (t : Tr) (k : Hs → List Cb × MRes) : List Cb × MRes :=
  match t with
  | .crash => ([], .crash)
  | .unexpected => ([], .unexpected)
  | .malformed => ([], .malformedMessaging)
  | .ok h => k h

/-- a whole frame: nghttp3_conn_read_bidi, nghttp3_conn.c:1273-1475 -/
def onFrame (pp : Pri → List UInt8 → Option Pri) (ext : Bool) (m : Msg) : Frm → List Cb × MRes
  | .data ps =>
    (transit m.h m.s .dataBegin).bind fun h =>
      match onData m.s ps with
      | (cb, none) => (cb, .malformedMessaging)
      | (cb, some s) =>
        let r := (transit h s .dataEnd).bind fun h => ([], .ok ⟨h, s⟩)
        (cb ++ r.1, r.2)
  | .headers none =>
    (transit m.h m.s .headersBegin).bind fun h =>
      if emptyHeadersAllowed h then (transit h m.s .headersEnd).bind fun h => ([], .ok ⟨h, m.s⟩)
      else ([], .malformedMessaging)
  | .headers (some fs) =>
    (transit m.h m.s .headersBegin).bind fun h =>
      let tr := isTrailers h
      let r := runFields pp (isRequest h) tr ext m.s fs
      let cb := (if tr then .beginTrailers else .beginHeaders) :: r.1.map (if tr then .trailer else .header)
      match r.2.bind (endSection h) with
      | none => (cb, .malformedHeader)
      | some s =>
        let r := (transit h s .headersEnd).bind fun h => ([], .ok ⟨h, s⟩)
        (cb ++ (if tr then .endTrailers else .endHeaders) :: r.1, r.2)

/-- a sequence of frames -/
def onFrames (pp : Pri → List UInt8 → Option Pri) (ext : Bool) (m : Msg) : List Frm → List Cb × MRes
  | [] => ([], .ok m)
  | f :: t =>
    match onFrame pp ext m f with
    | (cb, .ok m') => (cb ++ (onFrames pp ext m' t).1, (onFrames pp ext m' t).2)
    | r => r

/-- end of the stream, nghttp3_conn.c:1495-1517 (between frames) -/
def onEnd (m : Msg) : List Cb × MRes := (transit m.h m.s .msgEnd).bind fun h => ([.endStream], .ok ⟨h, m.s⟩)

/-- a complete message -/
def onMessage (pp : Pri → List UInt8 → Option Pri) (ext : Bool) (m : Msg) (fr : List Frm) : List Cb × MRes :=
  match onFrames pp ext m fr with
  | (cb, .ok m') => (cb ++ (onEnd m').1, (onEnd m').2)
  | r => r

end Http
end Nghttp3
