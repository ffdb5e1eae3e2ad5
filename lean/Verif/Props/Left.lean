import Verif.Model.PayloadLeft
import Verif.Lemmas.BidiLeft2
import Verif.Props.Ledger
import Verif.Props.Ctrl
import Verif.Lemmas.ControlLeft
import Verif.Props.Writes
/-! C77: nghttp3_conn_get_frame_payload_left. -/
namespace Nghttp3
namespace Props
open Endpoint EpDemo
open Conn (clientBidi streamUni)

/-- the bytes of a stream determine how many bytes of the payload of the frame in progress are missing -/
theorem C77_unique {bs : List UInt8} {n m : Nat} (h : Spec.PayloadLeft bs n) (h' : Spec.PayloadLeft bs m) : n = m := by
  induction h with
  | header bs h =>
    cases h' with
    | header => rfl
    | inside ty len t l part h1 h2 => exact absurd rfl (h ty len t l part h1 h2)
    | after ty payload f rest _ hf =>
      obtain ⟨t, l, h1, h2, rfl⟩ := hf
      exact absurd (by rw [List.append_assoc]) (h ty payload.length t l (payload ++ rest) h1 h2)
  | inside ty len t l part h1 h2 h3 =>
    generalize hb : t ++ l ++ part = bs at h'
    cases h' with
    | header _ h => exact absurd hb.symm (h ty len t l part h1 h2)
    | inside ty' len' t' l' part' k1 k2 k3 =>
      rw [List.append_assoc, List.append_assoc] at hb
      obtain ⟨_, _, e⟩ := Bidi.varint_eq h1 k1 hb
      obtain ⟨rfl, _, rfl⟩ := Bidi.varint_eq h2 k2 e
      rfl
    | after ty' payload f rest _ hf =>
      obtain ⟨t', l', k1, k2, rfl⟩ := hf
      simp only [List.append_assoc] at hb
      obtain ⟨_, _, e⟩ := Bidi.varint_eq h1 k1 hb
      obtain ⟨rfl, _, rfl⟩ := Bidi.varint_eq h2 k2 e
      rw [List.length_append] at h3; omega
  | after ty payload f rest n hf _ ih =>
    obtain ⟨t, l, h1, h2, rfl⟩ := hf
    generalize hb : t ++ l ++ payload ++ rest = bs at h'
    cases h' with
    | header _ h => exact absurd (by rw [← hb, List.append_assoc]) (h ty payload.length t l (payload ++ rest) h1 h2)
    | inside ty' len' t' l' part' k1 k2 k3 =>
      simp only [List.append_assoc] at hb
      obtain ⟨_, _, e⟩ := Bidi.varint_eq h1 k1 hb
      obtain ⟨rfl, _, rfl⟩ := Bidi.varint_eq h2 k2 e
      rw [List.length_append] at k3; omega
    | after ty' payload' f' rest' _ hf' h5 =>
      obtain ⟨t', l', k1, k2, rfl⟩ := hf'
      simp only [List.append_assoc] at hb
      obtain ⟨_, _, e⟩ := Bidi.varint_eq h1 k1 hb
      obtain ⟨e0, _, e⟩ := Bidi.varint_eq h2 k2 e
      obtain ⟨rfl, rfl⟩ := List.append_inj e e0
      exact ih h5

/-- C77, request streams: at any moment of any history of a connection nghttp3_conn_get_frame_payload_left tells how many bytes of the payload
of the frame in progress are missing after the bytes the library has processed.  Those are the bytes that were credited or handed to recv_data
(C62); they are all bytes of the stream unless the stream waits for the QPACK encoder stream.  The stream must not have been given up by the
library (stream_close, reset_stream) nor by the application (nghttp3_conn_shutdown_stream_read). -/
theorem C77_request_stream (P : Par) (server : Bool) (st : Settings) (log : Log) (ep : Ep) (id : Nat) (hP : ParOk P) (hst : SettingsOk st)
    (h : Hist P server st log ep) (hid : clientBidi id = true) (hk : Bidi.Ev.streamClose ∉ log.events id)
    (hr : ∀ code, Bidi.Ev.resetStream code ∉ log.events id) (hs : ∀ r ev, (Call.shutRd id, r, ev) ∉ log) :
    ∃ n : Nat, (n : Int) = log.credit id + (Bidi.dataLen (log.events id) : Nat) ∧ n ≤ (log.bytes id).length ∧
      Spec.PayloadLeft ((log.bytes id).take n) (framePayloadLeft ep id) ∧ (¬ Waiting ep id → n = (log.bytes id).length) := by
  have hch := hist_chain hP hst hid h
  have hl : Live (view ep.c ep.rx id) (log.bytes id) := by
    have := (hch.mono (S' := False) (fun _ _ g => g) (fun ⟨r, ev, g⟩ => hs r ev g)).live (bytes := []) rfl ⟨hk, hr⟩
    rwa [List.nil_append] at this
  have hc := hch.sum
  have hlen : (log.bytes id).length = log.received id := by
    rw [← pieces_received]; unfold Log.bytes; rw [List.length_flatMap]
  have h62 := C62_request_stream P server st log ep id hP hst h hid
  have h0 : held none = 0 := rfl
  rw [h0, pieces_received] at hc
  rw [credit_eq] at h62 ⊢
  rw [← hlen] at h62 hc
  unfold framePayloadLeft
  rw [if_pos hid]
  rcases hv : ep.c.str id with _ | s
  · rw [view_none (by rw [hv]; rfl)] at hl hc
    rw [show log.bytes id = [] from hl] at hc h62 ⊢
    rw [h0] at hc
    refine ⟨0, by simp only [List.length_nil] at hc; omega, Nat.le_refl _, ?_, fun _ => rfl⟩
    exact Spec.PayloadLeft.header _ fun ty len t l rest k1 k2 e => by
        have := isVarint_pos k1
        have := congrArg List.length e
        simp only [List.length_append, List.take_nil, List.length_nil] at this; omega
  · rw [view_some (by rw [hv]; rfl)] at hl hc
    obtain ⟨_, seen, e, hp⟩ := hl
    have hh : held (some (ep.rx id)) = (Bidi.buffered (ep.rx id)).length := rfl
    rw [hh] at hc
    have hsum : (log.bytes id).length = seen.length + (Bidi.buffered (ep.rx id)).length := by rw [e, List.length_append]
    refine ⟨seen.length, by omega, by omega, ?_, fun hw => ?_⟩
    · rw [e, List.take_left]; exact hp.left
    · have := h62.2 hw; omega

/-- C77: for a request stream that does not exist, and for a stream that is neither a request stream nor a unidirectional stream of the peer, the answer is 0 -/
theorem C77_other (ep : Ep) (id : Nat) (h : ep.c.str id = none ∨ (clientBidi id = false ∧ remoteUni ep id = false)) : framePayloadLeft ep id = 0 := by
  unfold framePayloadLeft
  rcases h with h | ⟨h1, h2⟩
  · rw [h]; simp
  · rw [h1, h2]; rfl

/-- C77: for a unidirectional stream of the peer that is not its control stream (its type, as it arrived, is not 0), the answer is 0 -/
theorem C77_unidirectional (P : Par) (server : Bool) (st : Settings) (log : Log) (ep : Ep) (u v : Nat) (hP : ParOk P) (hst : SettingsOk st)
    (h : Hist P server st log ep) (ht : HasType server log u v) (hv : v ≠ 0) : framePayloadLeft ep u = 0 := by
  obtain ⟨chunks, hj⟩ := hist_cj hP hst h
  obtain ⟨hu, t, bs, h1, h2⟩ := ht
  obtain ⟨ty, ⟨s, k1, k2, k3⟩, k4⟩ := typed hj hu h1 h2
  have hne : s.ty ≠ .control := by
    intro hc
    rw [k3] at hc
    subst hc
    rcases k4 with k4 | ⟨_, k4⟩
    · unfold Conn.uniType at k4
      split at k4 <;> simp_all
    · cases k4
  have hb : clientBidi u = false := by
    have := peer_uni hu
    unfold streamUni at this; unfold clientBidi
    simp only [Bool.or_eq_true, beq_iff_eq] at this
    simp only [beq_eq_false_iff_ne]; omega
  unfold framePayloadLeft
  rw [hb, k1]
  simp [hne]

/-- C77, the control stream of the peer, between frames: if complete frames have arrived on it (no PRIORITY_UPDATE value being longer than 8 bytes),
the answer is 0 -/
theorem C77_control_between (P : Par) (server : Bool) (st : Settings) (l : Log) (ep : Ep) (u : Nat) (bs : Bytes) (fs : List Spec.Control.Frame) (hP : ParOk P) (hst : SettingsOk st)
    (hcb : ∀ ev, P.cb ev = true) (h : Endpoint.Hist P server st l ep) (hc : IsControl server l u bs) (hfs : Spec.Control.EncodesAll fs bs)
    (hshort : ∀ id fld, Spec.Control.Frame.priorityUpdate id fld ∈ fs → fld.length ≤ 8) : framePayloadLeft ep u = 0 := by
  obtain ⟨chunks, hj⟩ := hist_cj hP hst h
  obtain ⟨e, hrun⟩ := hj.run
  obtain rfl := control_bytes hj hc
  have := C27_frames (Control.bare (env P)) hcb server noEnc () fs chunks hj.ne hfs hshort (by rw [hrun]; simp)
  have hl : ep.ctl.left = 0 := by
    rcases ho : Spec.Control.outcome server (Spec.Control.priorityUpdate (Control.bare (env P)).parsePri (Control.bare (env P)).onPri) [] () fs with ⟨past, x⟩ | ⟨past, x, e'⟩ <;> rw [ho] at this
    · obtain ⟨c, k1, _⟩ := this
      rw [hrun] at k1
      injection k1 with k1
      show (ep.ctl.recast e ()).left = 0
      rw [k1]
    · obtain ⟨c, k1, _⟩ := this
      rw [hrun] at k1
      cases k1
  have hb : clientBidi u = false := by
    have := peer_uni hc.1
    unfold streamUni at this; unfold clientBidi
    simp only [Bool.or_eq_true, beq_iff_eq] at this
    simp only [beq_eq_false_iff_ne]; omega
  unfold framePayloadLeft
  rw [hb, hl]
  simp only [Bool.false_eq_true, if_false]
  split_ifs
  · split <;> simp
  · rfl

/-- C77, the control stream of the peer, in the middle of a frame: if complete frames have arrived on it and then the header of a frame
and part of its payload, the answer is the number of missing bytes.  If the frame is GOAWAY, or on a server
MAX_PUSH_ID or PRIORITY_UPDATE, its identifier must not have arrived completely (see the counterexample below); of a PRIORITY_UPDATE frame up to
8 bytes of the value may have arrived, too (beyond that, see C30_fails_after_long_value). -/
theorem C77_control_inside (P : Par) (server : Bool) (st : Settings) (l : Log) (ep : Ep) (u : Nat) (bs : Bytes) (fs : List Spec.Control.Frame) (ty len : Nat) (t ln part : Bytes)
    (hP : ParOk P) (hst : SettingsOk st) (hcb : ∀ ev, P.cb ev = true) (h : Endpoint.Hist P server st l ep) (hc : IsControl server l u (bs ++ (t ++ (ln ++ part))))
    (hfs : Spec.Control.EncodesAll fs bs) (hshort : ∀ id fld, Spec.Control.Frame.priorityUpdate id fld ∈ fs → fld.length ≤ 8)
    (ht : Spec.IsVarint ty t) (hl : Spec.IsVarint len ln) (hok : Trunc part ∨ (ty = 0x0f0700 ∧ ∃ id a b, Spec.IsVarint id a ∧ part = a ++ b ∧ b.length ≤ 8) ∨ (ty ≠ 7 ∧ (server = false ∨ (ty ≠ 0x0d ∧ ty ≠ 0x0f0700)))) (hp : part.length < len) :
    framePayloadLeft ep u = len - part.length := by
  obtain ⟨chunks, hj⟩ := hist_cj hP hst h
  obtain ⟨e, hrun⟩ := hj.run
  have hfl := control_bytes hj hc
  have hleft : ep.ctl.left = len - part.length := by
    have key : Control.MidOut (len - part.length) (Control.runI (Control.bare (env P)) (Control.start server noEnc ()) chunks.flatten) ∨
        ∃ e' c, c.long = false ∧ Control.runI (Control.bare (env P)) (Control.start server noEnc ()) chunks.flatten = .fail (e', c) := by
      rw [hfl, Control.runI_append _ _ _ (Control.inv_start ..)]
      have := Control.ideal_frames (env := Control.bare (env P)) hcb server noEnc () hfs hshort
      rcases ho : Spec.Control.outcome server (Control.priOf (Control.bare (env P))) [] () fs with ⟨past, x⟩ | ⟨past, x, e'⟩ <;> rw [ho] at this
      · obtain ⟨c, k1, hv⟩ := this
        rw [k1]
        exact .inl (Control.run_mid c ht hl (by rw [hv.sv]; exact hok) hp)
      · obtain ⟨c, k1, _, _, k2⟩ := this
        rw [k1]
        exact .inr ⟨_, _, k2, rfl⟩
    rcases Control.feed_cmp (env := Control.bare (env P)) _ _ hj.ne (Control.inv_start server noEnc ()) with k | k | ⟨_, c, k1, k2⟩
    · rw [hrun] at k; cases k
    · rw [hrun] at k
      rw [← k] at key
      rcases key with key | ⟨_, _, _, key⟩
      · exact key
      · cases key
    · rw [k2] at key
      rcases key with key | ⟨_, _, k3, key⟩
      · exact absurd rfl key
      · cases key; rw [k1] at k3; cases k3
  obtain ⟨hu, tt, h1, h2⟩ := hc
  obtain ⟨ty', ⟨s, k1, k2, k3⟩, k4⟩ := typed hj hu h1 h2
  have hty : s.ty = .control := by
    rw [k3]
    rcases k4 with k4 | ⟨k4, _⟩
    · cases k4; rfl
    · omega
  have hb : clientBidi u = false := by
    have := peer_uni hu
    unfold streamUni at this; unfold clientBidi
    simp only [Bool.or_eq_true, beq_iff_eq] at this
    simp only [beq_eq_false_iff_ne]; omega
  have hr : remoteUni ep u = true := by
    unfold remoteUni
    rw [show ep.c.server = server from server_hist (hist_einv hP hst h)]
    unfold Conn.peerUni at hu
    cases server
    · simpa [Conn.serverUni] using hu
    · simpa [Conn.clientUni] using hu
  unfold framePayloadLeft
  rw [hb, hr, k1]
  simp [hty, k2, hleft]

/-- what C77 asks of the callbacks: no stream_close, no reset_stream, no nghttp3_conn_shutdown_stream_read -/
def EpDemo.keptB (id : Nat) (l : Log) : Bool :=
  ((l.events id).all fun e => match e with | .streamClose | .resetStream _ => false | _ => true) && l.all fun x => match x.1 with | .shutRd j => j != id | _ => true

def EpDemo.partOfData : List Call := [.bindControl 3, .bindQpack 7 11, .read 0 plainRequest false, .read 0 [0, 5, 97, 98] false]

set_option maxRecDepth 100000 in
/-- C77 is about such histories: part of the header of a frame; part of HEADERS; HEADERS and part of DATA; all of it -/
theorem C77_example :
    (makeCalls anyPar [.bindControl 3, .bindQpack 7 11, .read 0 (plainRequest.take 1) false] (init true someSettings)).map (fun r => framePayloadLeft r.1 0) = some 0 ∧
    (makeCalls anyPar [.bindControl 3, .bindQpack 7 11, .read 0 (plainRequest.take 4) false] (init true someSettings)).map (fun r => framePayloadLeft r.1 0) = some 6 ∧
    (makeCalls anyPar (partOfData ++ [.read 0 [99, 100, 101] true]) (init true someSettings)).map (fun r => framePayloadLeft r.1 0) = some 0 ∧
    ∃ log ep, Hist anyPar true someSettings log ep ∧ framePayloadLeft ep 0 = 3 ∧ Bidi.Ev.streamClose ∉ log.events 0 ∧
      (∀ code, Bidi.Ev.resetStream code ∉ log.events 0) ∧ (∀ r ev, (Call.shutRd 0, r, ev) ∉ log) := by
  have h2 : (makeCalls anyPar partOfData (init true someSettings)).map (fun r => (framePayloadLeft r.1 0, keptB 0 r.2)) = some (3, true) := by decide +kernel
  refine ⟨by decide +kernel, by decide +kernel, by decide +kernel, ?_⟩
  obtain ⟨⟨ep, l⟩, h, e⟩ := Option.map_eq_some_iff.1 h2
  simp only [Prod.mk.injEq] at e
  obtain ⟨e1, e2⟩ := e
  unfold keptB at e2
  rw [Bool.and_eq_true, List.all_eq_true, List.all_eq_true] at e2
  refine ⟨[] ++ l, ep, makeCalls_hist _ .init h, e1, fun g => ?_, fun c g => ?_, fun r ev g => ?_⟩
  · have := e2.1 _ g; cases this
  · have := e2.1 _ g; cases this
  · have := e2.2 _ g; simp at this

set_option maxRecDepth 100000 in
/-- on the control stream of the peer the number may be wrong: a GOAWAY frame of four bytes, of which one has arrived; the identifier is complete,
so the reader expects the header of a frame (cf. C27_goaway_trailing_bytes) and the answer is 0 although three bytes are missing; with a frame of
unknown type it is 3 -/
theorem C77_control_counterexample :
    (makeCalls anyPar [.bindControl 2, .bindQpack 6 10, .read 3 [0, 4, 0, 7, 4, 8] false] (init false someSettings)).map (fun r => (r.2.arrived 3, framePayloadLeft r.1 3)) =
      some ([0, 4, 0, 7, 4, 8], 0) ∧
    (makeCalls anyPar [.bindControl 2, .bindQpack 6 10, .read 3 [0, 4, 0, 0x21, 4, 8] false] (init false someSettings)).map (fun r => framePayloadLeft r.1 3) = some 3 ∧
    (∃ n, Spec.PayloadLeft [4, 0, 7, 4, 8] n) ∧ ∀ n, Spec.PayloadLeft [4, 0, 7, 4, 8] n → n = 3 := by
  have v : ∀ n : Nat, n < 64 → Spec.IsVarint n [UInt8.ofNat n] := by
    intro n hn
    refine ⟨0, by decide, rfl, by omega, ?_⟩
    simp [Spec.bigEndian]
    omega
  have h : Spec.PayloadLeft [4, 0, 7, 4, 8] 3 :=
    .after 4 [] [4, 0] [7, 4, 8] 3 ⟨[4], [0], v 4 (by decide), v 0 (by decide), rfl⟩ (.inside 7 4 [7] [4] [8] (v 7 (by decide)) (v 4 (by decide)) (by decide))
  exact ⟨by decide +kernel, by decide +kernel, ⟨3, h⟩, fun n k => C77_unique k h⟩

set_option maxRecDepth 100000 in
/-- C77_control_inside is about such histories: SETTINGS, and one of the four bytes of a frame of unknown type -/
theorem C77_control_example : ∃ l ep, Endpoint.Hist anyPar false someSettings l ep ∧ IsControl false l 3 ([4, 0] ++ ([0x21] ++ ([4] ++ [8]))) ∧
    Spec.Control.EncodesAll [.settings []] [4, 0] ∧ Spec.IsVarint 0x21 [0x21] ∧ Spec.IsVarint 4 [4] ∧ framePayloadLeft ep 3 = 3 := by
  have v : ∀ n : Nat, n < 64 → Spec.IsVarint n [UInt8.ofNat n] := by
    intro n hn
    refine ⟨0, by decide, rfl, by omega, ?_⟩
    simp [Spec.bigEndian]
    omega
  have h : (makeCalls anyPar [.bindControl 2, .bindQpack 6 10, .read 3 [0, 4, 0, 0x21, 4, 8] false] (init false someSettings)).map (fun r => (r.2.arrived 3, framePayloadLeft r.1 3)) =
      some ([0, 4, 0, 0x21, 4, 8], 3) := by decide +kernel
  obtain ⟨⟨ep, l⟩, k, e⟩ := Option.map_eq_some_iff.1 h
  simp only [Prod.mk.injEq] at e
  have he : Spec.Control.EncodesAll [.settings []] ([4, 0] ++ []) := .cons ⟨[], .nil, [4], [0], v 4 (by decide), v 0 (by decide), rfl⟩ .nil
  exact ⟨[] ++ l, ep, makeCalls_hist _ .init k, ⟨rfl, [0], v 0 (by decide), e.1⟩, he, v 0x21 (by decide),
    v 4 (by decide), e.2⟩

set_option maxRecDepth 100000 in
/-- and also about those: on a server SETTINGS, and the identifier and two of the three bytes of the value of a PRIORITY_UPDATE frame -/
theorem C77_priority_example : ∃ l ep, Endpoint.Hist anyPar true someSettings l ep ∧ IsControl true l 2 ([4, 0] ++ ([0x80, 0x0f, 0x07, 0] ++ ([4] ++ [0, 0x75, 0x3d]))) ∧
    Spec.IsVarint 0x0f0700 [0x80, 0x0f, 0x07, 0] ∧ Spec.IsVarint 4 [4] ∧ Spec.IsVarint 0 [0] ∧ framePayloadLeft ep 2 = 1 := by
  have v : ∀ n : Nat, n < 64 → Spec.IsVarint n [UInt8.ofNat n] := by
    intro n hn
    refine ⟨0, by decide, rfl, by omega, ?_⟩
    simp [Spec.bigEndian]
    omega
  have h : (makeCalls anyPar [.bindControl 3, .bindQpack 7 11, .read 2 [0, 4, 0, 0x80, 0x0f, 0x07, 0, 4, 0, 0x75, 0x3d] false] (init true someSettings)).map (fun r => (r.2.arrived 2, framePayloadLeft r.1 2)) =
      some ([0, 4, 0, 0x80, 0x0f, 0x07, 0, 4, 0, 0x75, 0x3d], 1) := by decide +kernel
  obtain ⟨⟨ep, l⟩, k, e⟩ := Option.map_eq_some_iff.1 h
  simp only [Prod.mk.injEq] at e
  exact ⟨[] ++ l, ep, makeCalls_hist _ .init k, ⟨rfl, [0], v 0 (by decide), e.1⟩, ⟨2, by decide, rfl, by decide, by decide⟩, v 4 (by decide), v 0 (by decide), e.2⟩

end Props
end Nghttp3
