import Verif.Model.Bidi
/-! What an application can see of a request stream, however the bytes were cut into calls. -/
namespace Nghttp3
namespace Bidi
open Http Qpack

/-- an observation: the callbacks of a message in order, body bytes one by one -/
inductive Obs where
  | beginHeaders | header (nv : QNv) | endHeaders
  | beginTrailers | trailer (nv : QNv) | endTrailers
  | byte (b : UInt8)
  | endStream
  | stopSending (code : Nat) | resetStream (code : Nat)
  | priority (p : Pri)
  | streamClose
deriving DecidableEq, Repr

/-- pieces of the body are split into bytes, the `fin` hint of end_headers and end_trailers is dropped (it says that the call that completed
the section also carried the end of the stream), and so are the amounts of deferred_consume -/
def Ev.obs : Ev → List Obs
  | .beginHeaders => [.beginHeaders]
  | .header nv => [.header nv]
  | .endHeaders _ => [.endHeaders]
  | .beginTrailers => [.beginTrailers]
  | .trailer nv => [.trailer nv]
  | .endTrailers _ => [.endTrailers]
  | .data bs => bs.map .byte
  | .endStream => [.endStream]
  | .stopSending c => [.stopSending c]
  | .resetStream c => [.resetStream c]
  | .deferredConsume _ => []
  | .priority p => [.priority p]
  | .streamClose => [.streamClose]

def obs (ev : List Ev) : List Obs := ev.flatMap Ev.obs

/-- bytes handed to recv_data -/
def Ev.dataLen : Ev → Nat
  | .data bs => bs.length
  | _ => 0

/-- bytes reported through deferred_consume -/
def Ev.deferredLen : Ev → Nat
  | .deferredConsume n => n
  | _ => 0

def dataLen (ev : List Ev) : Nat := (ev.map Ev.dataLen).sum
def deferredLen (ev : List Ev) : Nat := (ev.map Ev.deferredLen).sum

/-- the bytes waiting in the stream's buffers -/
def buffered (s : Str) : Bytes := s.inq.flatMap Buf.data

end Bidi
end Nghttp3
