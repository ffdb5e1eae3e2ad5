import Verif.Spec.Bidi
import Verif.Spec.QpackSys
/-! The life of a request stream: bytes arrive, the QPACK decoder changes because of other streams, the stream is unblocked, reading is shut
down, the stream is closed. -/
namespace Nghttp3
namespace Bidi
open Http Qpack

inductive Op where
  /-- nghttp3_conn_read_stream; `room`: the limit on blocked streams is not reached by the other streams -/
  | recv (x : Bytes) (fin room : Bool)
  /-- the QPACK decoder is used for something else: encoder stream, decoder stream, other request streams -/
  | env (o : DOp)
  /-- the check for unblocked streams after each piece of the QPACK encoder stream -/
  | wake (room : Bool)
  /-- nghttp3_conn_shutdown_stream_read -/
  | shutdownRead
  /-- nghttp3_conn_close_stream -/
  | close
  /-- a PRIORITY_UPDATE frame for this stream, or nghttp3_conn_set_server_stream_priority -/
  | priority

/-- the stream, the decoder, the contexts of the other streams, every callback so far, the number of bytes given to
read_stream so far, and the sum of what read_stream returned -/
structure World where
  s : Str
  d : Dec
  oth : Nat → SCtx := SCtx.init
  ev : List Ev := []
  got : Nat := 0
  used : Nat := 0

inductive WRes where
  | crash
  | fail (e : Int)
  | ok (w : World)

def after (w : World) (got : Nat) : Out → WRes
  | .crash => .crash
  | .fail e => .fail e
  | .ok s d ev n _ => .ok { s := s, d := d, oth := w.oth, ev := w.ev ++ ev, got := w.got + got, used := w.used + n }

/-- one operation; nothing reaches a stream that has been deleted -/
def exec (c : Cfg) (w : World) : Op → WRes
  | .recv x fin room => if w.s.gone then .ok w else after w x.length (readStream c room fin w.s w.d x)
  | .env o =>
    match (DSys.mk w.d w.oth).step o with
    | none => .crash
    | some st => .ok { w with d := st.d, oth := st.sc }
  | .wake room => if w.s.gone then .ok w else after w 0 (wake c room w.s w.d)
  | .shutdownRead => if w.s.gone then .ok w else after w 0 (shutdownRead c w.s w.d)
  | .close => if w.s.gone then .ok w else after w 0 (closeStream w.s w.d)
  | .priority => .ok { w with s := { w.s with priFixed := true } }

/-- a history; it ends at the first connection error -/
def exec' (c : Cfg) (r : WRes) (op : Op) : WRes :=
  match r with
  | .ok w => exec c w op
  | r => r

def hist (c : Cfg) (w : World) (ops : List Op) : WRes := ops.foldl (exec' c) (.ok w)

/-- a new request stream on a new connection -/
def World.start (c : Cfg) (hardMax maxBlocked : Nat) : World := { s := Str.new c, d := Dec.init hardMax maxBlocked }

/-- Two outcomes an application, the peer and QUIC flow control cannot tell apart: the same connection error; or the same callbacks with the
same content, the same QPACK decoder (so the same bytes on the decoder stream), the same bytes received, handed to recv_data, returned as
flow-control credit (by read_stream or through deferred_consume) and still waiting. -/
def SameView : WRes → WRes → Prop
  | .fail e, .fail e' => e = e'
  | .ok w, .ok w' => obs w.ev = obs w'.ev ∧ w.d = w'.d ∧ w.oth = w'.oth ∧ w.got = w'.got ∧ dataLen w.ev = dataLen w'.ev ∧
      w.used + deferredLen w.ev = w'.used + deferredLen w'.ev ∧ buffered w.s = buffered w'.s ∧ w.s.blocked = w'.s.blocked ∧ w.s.gone = w'.s.gone
  | _, _ => False

/-- the same bytes given in one call, or in several; only the last call carries `fin` -/
def oneCall (x : Bytes) (fin room : Bool) : List Op := [.recv x fin room]
def manyCalls (xs : List Bytes) (last : Bytes) (fin room : Bool) : List Op := xs.map (fun x => .recv x false room) ++ [.recv last fin room]

end Bidi
end Nghttp3
