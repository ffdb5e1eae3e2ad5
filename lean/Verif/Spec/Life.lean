import Verif.Spec.Cut
import Verif.Spec.WireMsg
/-! What a log of a whole connection says about one request stream. -/
namespace Nghttp3

namespace Bidi
open Http

/-- the callbacks of the message; recv_data with the number of bytes -/
def Ev.cb : Ev → Option Cb
  | .beginHeaders => some .beginHeaders
  | .header nv => some (.header (QNv.field nv))
  | .endHeaders _ => some .endHeaders
  | .beginTrailers => some .beginTrailers
  | .trailer nv => some (.trailer (QNv.field nv))
  | .endTrailers _ => some .endTrailers
  | .data bs => some (.data bs.length)
  | .endStream => some .endStream
  | .stopSending _ | .resetStream _ | .deferredConsume _ | .priority _ | .streamClose => none

def cbs (ev : List Ev) : List Cb := ev.filterMap Ev.cb

/-- everything but deferred_consume, which may come at any time while a stream is released, and the priority signal (no callback) -/
def Ev.loud : Ev → Bool
  | .deferredConsume _ | .priority _ => false
  | _ => true

def loud (ev : List Ev) : List Ev := ev.filter Ev.loud

/-- the two ways of giving up a stream, and its end -/
def Ev.signal : Ev → Bool
  | .stopSending _ | .resetStream _ | .streamClose => true
  | _ => false

/-- nothing but callbacks of the message (and deferred_consume) -/
def Plain (ev : List Ev) : Prop := ∀ e ∈ ev, e.signal = false

end Bidi

namespace Endpoint

/-- the callbacks of stream `x` -/
def Ev.ofStr (x : Nat) : Ev → Option Bidi.Ev
  | .str i e => if i = x then some e else none
  | .ctl _ => none

/-- all callbacks of stream `x`, in order -/
def Log.events (l : Log) (x : Nat) : List Bidi.Ev := l.flatMap fun r => r.2.2.filterMap (Ev.ofStr x)

/-- the number of bytes of stream `x` that a call hands to nghttp3_conn_read_stream -/
def Call.given (x : Nat) : Call → Nat
  | .read i src _ => if i = x then src.length else 0
  | _ => 0

/-- a call of nghttp3_conn_read_stream for stream `i`, as stream `x` sees it; nothing happens if there are no bytes and no fin -/
def pieceOf (x i : Nat) (src : Bytes) (fin : Bool) : List (Bytes × Bool) := if i = x ∧ (src.isEmpty && !fin) = false then [(src, fin)] else []

def Call.pieces (x : Nat) : Call → List (Bytes × Bool)
  | .read i src fin => pieceOf x i src fin
  | _ => []

/-- the pieces in which the bytes of stream `x` have arrived, each with fin or without -/
def Log.pieces (l : Log) (x : Nat) : List (Bytes × Bool) := l.flatMap fun r => r.1.pieces x

/-- all bytes of stream `x` -/
def Log.received (l : Log) (x : Nat) : Nat := (l.map fun r => r.1.given x).sum

end Endpoint
end Nghttp3
