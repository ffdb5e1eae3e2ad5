import Verif.Lemmas.EndpointUnknown
import Verif.Props.Fault
/-! Property theorems C73: unidirectional streams of unknown type in a whole connection (RFC 9114, section 6.2). -/
namespace Nghttp3
namespace Props
open Endpoint EpDemo
open Conn (Begins clientBidi)

variable {P : Par}

/-- C73.  Whatever arrives on a unidirectional stream of a type other than 0, 1, 2 and 3 is taken and dropped: nghttp3_conn_read_stream returns the
length, and nothing of the connection changes but the record of this stream.  The application is asked to stop the peer from sending
(H3_STREAM_CREATION_ERROR, 0x0103) by every call that brings bytes behind the type, except at the end of the stream. -/
theorem C73_dropped (P : Par) (server : Bool) (st : Settings) (l : Log) (ep : Ep) (id v : Nat) (src p y : Bytes) (fin : Bool) (hP : ParOk P) (hst : SettingsOk st)
    (h : Endpoint.Hist P server st l ep) (hid : id < 2 ^ 62) (hpu : Conn.peerUni server id) (hv : 3 < v) (hp : Spec.IsVarint v p)
    (ha : l.arrived id ++ src = p ++ y) (hne : src ≠ [] ∨ fin = true) :
    ∃ o, Endpoint.step P ep (.read id src fin) = .ok { ep with c := { ep.c with str := PQ.upd ep.c.str id o } } (.code src.length)
      (if src ≠ [] ∧ y ≠ [] ∧ fin = false then [.str id (.stopSending 0x0103)] else []) :=
  drop_unknown hP hst h hid hpu hv hp ha hne

/-- C73.  Such a stream never causes a connection error. -/
theorem C73_no_error (P : Par) (server : Bool) (st : Settings) (l : Log) (ep : Ep) (id v : Nat) (src : Bytes) (fin : Bool) (e : Int) (hP : ParOk P) (hst : SettingsOk st)
    (h : Endpoint.Hist P server st l ep) (hid : id < 2 ^ 62) (hpu : Conn.peerUni server id) (hv : 3 < v) (hb : Begins v (l.arrived id ++ src)) (hne : src ≠ [] ∨ fin = true) :
    Endpoint.step P ep (.read id src fin) ≠ .fail e := by
  obtain ⟨p, y, hp, ha⟩ := hb
  obtain ⟨o, k⟩ := C73_dropped P server st l ep id v src p y fin hP hst h hid hpu hv hp ha hne
  rw [k]
  intro g
  cases g

/-- C57.  nghttp3_conn_shutdown_stream_read of a stream that is no request stream returns 0 and does nothing. -/
theorem C57_shutdown_read_other (ep : Ep) (id : Nat) (hid : id < 2 ^ 62) (h : clientBidi id = false) : Endpoint.step P ep (.shutRd id) = .ok ep (.code 0) [] := by
  change shutRd ep id = _
  unfold shutRd Conn.shutdownRead
  rw [if_neg (by simpa using hid), h]
  rfl

/-- C57.  The only error of nghttp3_conn_shutdown_stream_read is NGHTTP3_ERR_QPACK_FATAL, when the Stream Cancellations that wait to be sent are too long;
the stream has not been shut down before. -/
theorem C57_shutdown_read_error (P : Par) (ep : Ep) (id : Nat) (e : Int) (he : Endpoint.step P ep (.shutRd id) = .fail e) :
    e = Err.QPACK_FATAL ∧ clientBidi id = true ∧ ep.dec.cancelStream id = none ∧ ((ep.c.str id).isSome = true → (ep.rx id).shutRd = false) := by
  change shutRd ep id = _ at he
  unfold shutRd Conn.shutdownRead at he
  by_cases h1 : id ≥ 2 ^ 62
  · rw [if_pos (by simpa using h1)] at he; cases he
  rw [if_neg (by simpa using h1)] at he
  rcases hb : clientBidi id with _ | _ <;> rw [hb] at he
  · cases he
  rcases h0 : ep.c.str id with _ | s <;> rw [h0] at he
  all_goals
    simp only [Bool.not_true, Bool.false_eq_true, if_false, lift, Option.isSome_none, Bool.false_and, Option.isSome_some, Bool.true_and] at he
    try split_ifs at he
    try
      rcases hd : ep.dec.cancelStream id with _ | d <;> rw [hd] at he <;> cases he
      refine ⟨rfl, rfl, rfl, ?_⟩
      simp_all

/-! ## example -/

/-- a client; a stream of type 0x21 (RFC 9114, section 6.2.3) has begun -/
def EpDemo.grease : List Call := [.bindControl 2, .bindQpack 6 10, .read 3 [0, 4, 2, 6, 9] false, .read 7 [0x40] false]

set_option maxRecDepth 100000 in
/-- C73 is about such histories. -/
theorem C73_example : ∃ (l : Log) (ep : Ep) (o : Option (Conn.Strm Fld)), Endpoint.Hist anyPar false someSettings l ep ∧
    Endpoint.step anyPar ep (.read 7 [0x21, 1, 2] false) = .ok { ep with c := { ep.c with str := PQ.upd ep.c.str 7 o } } (.code 3) [.str 7 (.stopSending 0x0103)] := by
  rcases h1 : makeCalls anyPar grease (init false someSettings) with _ | ⟨ep, l⟩
  · have : (makeCalls anyPar grease (init false someSettings)).isSome = true := by decide +kernel
    rw [h1] at this; cases this
  have w : Spec.IsVarint 0x21 [0x40, 0x21] := by
    refine ⟨1, by decide, rfl, by omega, ?_⟩
    simp [Spec.bigEndian]
  have k1 : (makeCalls anyPar grease (init false someSettings)).map (fun r => r.2.arrived 7) = some [0x40] := by decide +kernel
  rw [h1] at k1
  injection k1 with k1
  have hh : Endpoint.Hist anyPar false someSettings l ep := by simpa using makeCalls_hist _ .init h1
  obtain ⟨o, k⟩ := C73_dropped anyPar false someSettings l ep 7 0x21 [0x21, 1, 2] [0x40, 0x21] [1, 2] false anyPar_ok someSettings_ok hh (by decide) rfl (by decide) w
    (by rw [show l.arrived 7 = [0x40] from k1]; rfl) (.inl (by decide))
  exact ⟨l, ep, o, hh, k⟩

end Props
end Nghttp3
