import Verif.Spec.BidiHist
import Verif.Spec.Frame
/-! What the bytes of a request stream mean: a sequence of frames (RFC 9114 section 7), each of which is handed to the rules for messages
(Model/Message.lean) as a whole, its field section decoded by the QPACK decoder. -/
namespace Nghttp3
namespace Bidi
open Http Qpack

/-- a frame on the wire -/
inductive WFrame where
  | headers (sec : Bytes)
  | data (body : Bytes)
  /-- neither DATA (0) nor HEADERS (1) -/
  | other (ty : Nat) (payload : Bytes)
deriving DecidableEq, Repr

/-- RFC 9114 section 7.2: DATA is 0, HEADERS is 1 -/
def WFrame.Is : WFrame → Bytes → Prop
  | .headers sec, bs => Spec.IsFrame 1 sec bs
  | .data body, bs => Spec.IsFrame 0 body bs
  | .other ty p, bs => ty ≠ 0 ∧ ty ≠ 1 ∧ Spec.IsFrame ty p bs

/-- Frame types that must not appear on a request stream: PUSH_PROMISE (server push is not used), CANCEL_PUSH, SETTINGS, GOAWAY,
MAX_PUSH_ID, PRIORITY_UPDATE for requests and pushes (RFC 9218 section 7.2), and the HTTP/2 types PRIORITY, PING, WINDOW_UPDATE,
CONTINUATION (RFC 9114 section 7.2.8) -/
def refused : List Nat := [0x05, 0x03, 0x04, 0x07, 0x0d, 0xf0700, 0xf0701, 0x02, 0x06, 0x08, 0x09]

/-- a decoded field line, for the HTTP layer -/
def QNv.field (nv : QNv) : Field := ⟨nv.name, nv.value⟩

/-- how a sequence of frames ends -/
inductive WOut where
  /-- not reached -/
  | crash
  /-- connection error -/
  | fail (e : Int)
  /-- the header section is malformed: the stream is reset, the rest of it ignored -/
  | reset
  /-- the stream waits for the QPACK encoder stream -/
  | blocked
  | open (d : Dec) (m : Msg)

def WOut.of (d : Dec) : MRes → WOut
  | .crash => .crash
  | .unexpected => .fail Err.H3_FRAME_UNEXPECTED
  | .malformedMessaging => .fail Err.MALFORMED_HTTP_MESSAGING
  | .malformedHeader => .reset
  | .ok m => .open d m

/-- a field section: first whether a section may come here at all, then decoded; what was decoded before an error or before the stream
blocks goes to the HTTP layer -/
def wHeaders (c : Cfg) (d : Dec) (m : Msg) (sec : Bytes) : List Cb × WOut :=
  match d.readSection (SCtx.init c.id) sec true with
  | (nvs, .final d' _) => 
    let r := onFrame c.pp (c.server && c.ext) m (.headers (some (nvs.map QNv.field)))
    (r.1, .of d' r.2)
  | (nvs, o) =>
    match transit m.h m.s .headersBegin with
    | .ok h =>
      let r := runFields c.pp (isRequest h) (isTrailers h) (c.server && c.ext) m.s (nvs.map QNv.field)
      let cb := (if isTrailers h then Cb.beginTrailers else Cb.beginHeaders) :: r.1.map (if isTrailers h then Cb.trailer else Cb.header)
      (cb, if r.2 = none then .reset else match o with
        | .fail _ e => .fail (qerr e)
        | .blocked _ _ _ => .blocked
        | _ => .crash)
    | t => ([], .of d (t.bind fun _ => ([], .crash)).2)

/-- one frame; the payload of DATA is handed over byte by byte, frames of unknown types are skipped -/
def wFrame (c : Cfg) (d : Dec) (m : Msg) : WFrame → List Cb × WOut
  | .data b => let r := onFrame c.pp (c.server && c.ext) m (.data (b.map fun _ => 1)); (r.1, .of d r.2)
  | .headers [] => let r := onFrame c.pp (c.server && c.ext) m (.headers none); (r.1, .of d r.2)
  | .headers (b :: t) => wHeaders c d m (b :: t)
  | .other ty _ => ([], if ty ∈ refused then .fail Err.H3_FRAME_UNEXPECTED else .open d m)

/-- a sequence of frames: it ends at the first that does not leave the stream open -/
def wFrames (c : Cfg) (d : Dec) (m : Msg) : List WFrame → List Cb × WOut
  | [] => ([], .open d m)
  | f :: t =>
    match wFrame c d m f with
    | (cb, .open d' m') => (cb ++ (wFrames c d' m' t).1, (wFrames c d' m' t).2)
    | r => r

/-- the frames and, if `fin`, the end of the stream -/
def wStream (c : Cfg) (d : Dec) (m : Msg) (fs : List WFrame) (fin : Bool) : List Cb × WOut :=
  match wFrames c d m fs with
  | (cb, .open d' m') => if fin then (cb ++ (onEnd m').1, .of d' (onEnd m').2) else (cb, .open d' m')
  | r => r

/-- the message has not begun -/
def Msg.start (c : Cfg) : Msg := if c.server then ⟨.reqInitial, {}⟩ else ⟨.respInitial, recordRequestMethod {} c.req⟩

/-- the callbacks of the message; a body byte counts as a piece of size 1 -/
def Obs.cb : Obs → Option Cb
  | .beginHeaders => some .beginHeaders
  | .header nv => some (.header (QNv.field nv))
  | .endHeaders => some .endHeaders
  | .beginTrailers => some .beginTrailers
  | .trailer nv => some (.trailer (QNv.field nv))
  | .endTrailers => some .endTrailers
  | .byte _ => some (.data 1)
  | .endStream => some .endStream
  | .stopSending _ | .resetStream _ | .priority _ | .streamClose => none

/-- the body -/
def Obs.body : Obs → Option UInt8
  | .byte b => some b
  | _ => none

/-- everything but callbacks of the message and the priority signal -/
def Obs.signal : Obs → Option Obs
  | .stopSending c => some (.stopSending c)
  | .resetStream c => some (.resetStream c)
  | .streamClose => some .streamClose
  | _ => none

def WFrame.bodyOf : WFrame → Bytes
  | .data b => b
  | _ => []

/-- the body bytes handed over: those of the DATA frames before the first frame that does not leave the stream open -/
def wBody (c : Cfg) (d : Dec) (m : Msg) : List WFrame → Bytes
  | [] => []
  | f :: t =>
    match wFrame c d m f with
    | (_, .open d' m') => f.bodyOf ++ wBody c d' m' t
    | _ => []

/-- `x` is a sequence of frames -/
def IsFrames : List WFrame → Bytes → Prop
  | [], x => x = []
  | f :: t, x => ∃ a b, x = a ++ b ∧ f.Is a ∧ IsFrames t b

/-- the frames as the rules for messages see them, if every section can be decoded and none is of a refused type: frames of unknown types
are left out -/
def wDecode (c : Cfg) (d : Dec) : List WFrame → Option (List Frm × Dec)
  | [] => some ([], d)
  | .data b :: t => (wDecode c d t).map fun r => (.data (b.map fun _ => 1) :: r.1, r.2)
  | .headers [] :: t => (wDecode c d t).map fun r => (.headers none :: r.1, r.2)
  | .headers (b :: sec) :: t =>
    match d.readSection (SCtx.init c.id) (b :: sec) true with
    | (nvs, .final d' _) => (wDecode c d' t).map fun r => (.headers (some (nvs.map QNv.field)) :: r.1, r.2)
    | _ => none
  | .other ty _ :: t => if ty ∈ refused then none else wDecode c d t

/-- what has been seen of a stream: the callbacks of the message, the body, and whether the stream has been reset -/
def Shows (ev : List Ev) (cb : List Cb) (body : Bytes) (signal : List Obs) : Prop :=
  (obs ev).filterMap Obs.cb = cb ∧ (obs ev).filterMap Obs.body = body ∧ (obs ev).filterMap Obs.signal = signal

end Bidi
end Nghttp3
