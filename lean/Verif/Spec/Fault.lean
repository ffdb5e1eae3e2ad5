import Verif.Spec.Ctrl
import Verif.Spec.QpackWire
/-! Violations that nghttp3_conn_read_stream reports. -/
namespace Nghttp3

/-- errors of nghttp3_conn_read_stream that are about the frames of a control stream -/
def Control.faults : List Int :=
  [Err.H3_MISSING_SETTINGS, Err.H3_SETTINGS_ERROR, Err.H3_FRAME_UNEXPECTED, Err.H3_FRAME_ERROR, Err.H3_ID_ERROR, Err.H3_GENERAL_PROTOCOL_ERROR]

/-- errors that are about the frames of a request stream, its messages and field sections -/
def Bidi.faults : List Int :=
  [Err.H3_FRAME_UNEXPECTED, Err.H3_FRAME_ERROR, Err.H3_GENERAL_PROTOCOL_ERROR, Err.MALFORMED_HTTP_MESSAGING, Err.QPACK_DECOMPRESSION_FAILED,
   Err.QPACK_HEADER_TOO_LARGE, Err.QPACK_FATAL]

/-- the bytes begin with an encoding of `v` -/
def Conn.Begins (v : Nat) (b : List UInt8) : Prop := ∃ p rest, Spec.IsVarint v p ∧ b = p ++ rest

namespace Endpoint
open Conn (Begins clientBidi peerUni)
open Rfc9204 (AreInstrs Table)

/-- the stream types whose streams a peer opens only once and never ends: control, QPACK encoder and QPACK decoder stream -/
def critical (v : Nat) : Prop := v = 0 ∨ v = 2 ∨ v = 3

/-- Instructions of an encoder stream that no further bytes make valid, if the table may have the size `cap` (RFC 9204, section 4.3). -/
def Hopeless (cap : Nat) (bs : Bytes) : Prop := ∀ y is, AreInstrs is (bs ++ y) → Table.applyAll cap {} is = none

/-- What has happened if, after the calls in `l`, a call that reads `src` from the stream `id` returns the error. -/
inductive Fault (P : Par) (server : Bool) (st : Settings) (l : Log) (ep : Ep) (id : Nat) (src : Bytes) (fin : Bool) : Int → Prop
  /- data for a stream that does not exist, and that the peer cannot open -/
  | notYours : ep.c.str id = none → ¬ peerUni server id → ¬ (server = true ∧ clientBidi id = true) →
      Fault P server st l ep id src fin Err.H3_STREAM_CREATION_ERROR
  /- the stream has ended within its stream type -/
  | cutType : peerUni server id → fin = true → l.arrived id ++ src ≠ [] → (∀ v, ¬ Begins v (l.arrived id ++ src)) →
      Fault P server st l ep id src fin Err.H3_GENERAL_PROTOCOL_ERROR
  /- a push stream: nghttp3 never allows any -/
  | push : peerUni server id → Begins 1 (l.arrived id ++ src) → Fault P server st l ep id src fin Err.H3_STREAM_CREATION_ERROR
  /- a second stream of a type that there is only once -/
  | second (v u : Nat) : peerUni server id → critical v → Begins v (l.arrived id ++ src) → ¬ Begins v (l.arrived id) → u ≠ id → HasType server l u v →
      Fault P server st l ep id src fin Err.H3_STREAM_CREATION_ERROR
  /- the end of a stream that must not end -/
  | ended (v : Nat) : peerUni server id → critical v → Begins v (l.arrived id ++ src) → fin = true →
      Fault P server st l ep id src fin Err.H3_CLOSED_CRITICAL_STREAM
  /- the control stream -/
  | control (e : Int) : peerUni server id → Begins 0 (l.arrived id ++ src) → fin = false → e ∈ Control.faults → Fault P server st l ep id src fin e
  /- a callback of the control stream -/
  | callback : peerUni server id → Begins 0 (l.arrived id ++ src) → (∃ evs, P.cb evs = false) → Fault P server st l ep id src fin Err.CALLBACK_FAILURE
  /- the encoder stream has instructions that are not allowed -/
  | encoder (e : Int) (p bs : Bytes) : peerUni server id → Spec.IsVarint 2 p → l.arrived id ++ src = p ++ bs → fin = false →
      e = Err.QPACK_ENCODER_STREAM_ERROR ∨ e = Err.QPACK_HEADER_TOO_LARGE → Hopeless st.qpackMaxDtableCapacity bs →
      Fault P server st l ep id src fin e
  /- the encoder stream is too long, without a field section in between -/
  | flood : peerUni server id → Begins 2 (l.arrived id ++ src) → fin = false → 128 * 1024 < ep.dec.uninterrupted + src.length →
      Fault P server st l ep id src fin Err.QPACK_ENCODER_STREAM_ERROR
  /- a request stream that had waited for the encoder stream -/
  | waiting (e : Int) (x : Nat) : peerUni server id → Begins 2 (l.arrived id ++ src) → fin = false → Waiting ep x → e ∈ Bidi.faults →
      Fault P server st l ep id src fin e
  /- the decoder stream -/
  | decoder : peerUni server id → Begins 3 (l.arrived id ++ src) → fin = false → Fault P server st l ep id src fin Err.QPACK_DECODER_STREAM_ERROR
  /- a request stream -/
  | request (e : Int) : clientBidi id = true → e ∈ Bidi.faults → Fault P server st l ep id src fin e

end Endpoint
end Nghttp3
