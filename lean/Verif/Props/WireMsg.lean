import Verif.Lemmas.BidiTrunc
import Verif.Props.Bidi
/-! C52: what the bytes of a request stream mean -/
namespace Nghttp3
namespace Props
open Bidi Http Qpack

theorem env_hist (c : Cfg) (w w0 : World) (pre : List DOp) (h : hist c w (pre.map .env) = .ok w0) : w0.s = w.s ∧ w0.ev = w.ev := by
  induction pre generalizing w with
  | nil => cases h; exact ⟨rfl, rfl⟩
  | cons o pre ih =>
    rw [List.map_cons, hist_cons] at h
    unfold exec at h
    dsimp only at h
    rcases hst : (DSys.mk w.d w.oth).step o with _ | st <;> rw [hst] at h
    · cases h
    · exact ih { w with d := st.d, oth := st.sc } h

/-- what the application and the peer see of a stream whose bytes are `fs`; `r` is what the rules for messages say -/
def Means (room : Bool) (body : Bidi.Bytes) (out : WRes) : List Cb × WOut → Prop
  | (cb, .open d' _) => ∃ w, out = .ok w ∧ Shows w.ev cb body [] ∧ w.d = d' ∧ w.s.blocked = false
  | (_, .fail e) => out = .fail e
  | (cb, .reset) => ∃ w, out = .ok w ∧ Shows w.ev cb body [.stopSending 0x010e, .resetStream 0x010e] ∧ w.s.blocked = false
  | (cb, .blocked) => if room then ∃ w, out = .ok w ∧ Shows w.ev cb body [] ∧ w.s.blocked = true else out = .fail Err.QPACK_DECOMPRESSION_FAILED
  | (_, .crash) => False

theorem means_same {room : Bool} {body : Bidi.Bytes} {r r' : WRes} {p : List Cb × WOut} (h : Means room body r p) (hs : SameView r' r) : Means room body r' p := by
  have key : ∀ w cb sig, r = .ok w → Shows w.ev cb body sig → ∃ w', r' = .ok w' ∧ Shows w'.ev cb body sig ∧ w'.d = w.d ∧ w'.s.blocked = w.s.blocked := by
    intro w cb sig h1 h2
    rw [h1] at hs
    rcases r' with _ | e | w'
    · exact hs.elim
    · exact hs.elim
    · exact ⟨w', rfl, by unfold Shows; rw [hs.1]; exact h2, hs.2.1, hs.2.2.2.2.2.2.2.1⟩
  have kf : ∀ e, r = .fail e → r' = .fail e := by
    intro e h1
    rw [h1] at hs
    rcases r' with _ | e' | w'
    · exact hs.elim
    · rw [show e' = e from hs]
    · exact hs.elim
  rcases p with ⟨cb, _ | e | _ | _ | ⟨d', m'⟩⟩
  · exact h
  · exact kf _ h
  · obtain ⟨w, h1, h2, h3⟩ := h
    obtain ⟨w', g1, g2, _, g4⟩ := key w _ _ h1 h2
    exact ⟨w', g1, g2, g4.trans h3⟩
  · dsimp only [Means] at h ⊢
    cases room
    · exact kf _ h
    · rw [if_pos rfl] at h ⊢
      obtain ⟨w, h1, h2, h3⟩ := h
      obtain ⟨w', g1, g2, _, g4⟩ := key w _ _ h1 h2
      exact ⟨w', g1, g2, g4.trans h3⟩
  · obtain ⟨w, h1, h2, h3, h4⟩ := h
    obtain ⟨w', g1, g2, g3, g4⟩ := key w _ _ h1 h2
    exact ⟨w', g1, g2, g3.trans h3, g4.trans h4⟩

theorem start_at (c : Cfg) (e : Bool) : ({ Str.new c with eof := e } : Str).at (Msg.start c) = { Str.new c with eof := e } := by
  unfold Str.at Msg.start Str.new; cases c.server <;> rfl

/-- the first call for a stream -/
theorem start_call (c : Cfg) (hardMax maxBlocked : Nat) (pre : List DOp) (x : Bidi.Bytes) (fin room : Bool)
    (w0 : World) (h0 : hist c (World.start c hardMax maxBlocked) (pre.map .env) = .ok w0) :
    WSim (aAfter w0.abs x.length (aRecv c room fin (Str.new c) w0.d x)) (hist c (World.start c hardMax maxBlocked) (pre.map .env ++ oneCall x fin room)) ∧
    w0.abs.ob = [] ∧ ∀ e : Bool, Inv ({ Str.new c with eof := e }.at (Msg.start c)) w0.d := by
  obtain ⟨hs0, hev0⟩ := env_hist c _ w0 pre h0
  rw [hist_append_aux, h0]
  dsimp only
  have hr := bidi_reach c hardMax maxBlocked (pre.map .env)
  rw [h0] at hr
  have hw : WInv w0 := by
    generalize aHist c (World.start c hardMax maxBlocked).abs (pre.map .env) = a at hr
    rcases a with _ | e | a
    · exact hr.elim
    · cases (show WRes.ok w0 = .fail e from hr)
    · obtain ⟨w', h1, _, h3⟩ := hr; cases h1; exact h3
  have hs0' : w0.s = Str.new c := hs0
  have hev0' : w0.ev = [] := hev0
  have hsim := exec_sim c w0 hw (.recv x fin room)
  have hcan : w0.abs.s = Str.new c := by
    show w0.s.canon = _
    rw [hs0']; rfl
  have hab : aExec c w0.abs (.recv x fin room) = aAfter w0.abs x.length (aRecv c room fin (Str.new c) w0.d x) := by
    unfold aExec
    dsimp only
    rw [hcan]
    rfl
  rw [hab] at hsim
  refine ⟨hsim, by show obs w0.ev = []; rw [hev0']; rfl, fun e => ?_⟩
  have h1 : Inv (Str.new c) w0.d := by have := hw.str.inv; rwa [hs0'] at this
  exact inv_of h1 rfl rfl rfl (show (Msg.start c).h = (Str.new c).h from congrArg Str.h (start_at c false)) rfl

theorem one_call (c : Cfg) (hardMax maxBlocked : Nat) (pre : List DOp) (fs : List WFrame) (x : Bidi.Bytes) (fin room : Bool) (hf : IsFrames fs x)
    (w0 : World) (h0 : hist c (World.start c hardMax maxBlocked) (pre.map .env) = .ok w0) :
    Means room (wBody c w0.d (Msg.start c) fs) (hist c (World.start c hardMax maxBlocked) (pre.map .env ++ oneCall x fin room)) (wStream c w0.d (Msg.start c) fs fin) := by
  obtain ⟨hsim, hob, hinv⟩ := start_call c hardMax maxBlocked pre x fin room w0 h0
  have hat := start_at c false
  change (Str.new c).at (Msg.start c) = Str.new c at hat
  generalize hist c (World.start c hardMax maxBlocked) (pre.map .env ++ oneCall x fin room) = out at hsim ⊢
  have hrecv : CallRes room (wBody c w0.d (Msg.start c) fs) (aRecv c room fin (Str.new c) w0.d x) (wStream c w0.d (Msg.start c) fs fin) := by
    unfold aRecv
    by_cases hx : x = [] ∧ fin = false
    · rw [if_pos hx]
      have hfs : fs = [] := by
        cases fs with
        | nil => rfl
        | cons f t =>
          obtain ⟨a, b, h1, h2, _⟩ := hf
          exfalso
          rw [hx.1] at h1
          have ha : a = [] := (List.append_eq_nil_iff.1 h1.symm).1
          have hp : ∀ ty p, Spec.IsFrame ty p a → False := by
            rintro ty p ⟨t, l, h3, _, h5⟩
            have := isVarint_pos h3
            rw [ha] at h5
            have := congrArg List.length h5
            simp only [List.length_append, List.length_nil] at this
            omega
          cases f with
          | headers s => exact hp _ _ h2
          | data s => exact hp _ _ h2
          | other ty s => exact hp _ _ h2.2.2
      rw [hfs, hx.2]
      exact ⟨Str.new c, [], 0, rfl, rfl, rfl, rfl, rfl, (congrArg Str.h hat).symm, (congrArg Str.http hat).symm, rfl⟩
    · rw [if_neg hx]
      dsimp only
      rw [if_neg (by simp [Str.new]), if_neg (by simp [Str.new])]
      have h := bidi_frames c room fin (s := { Str.new c with eof := (Str.new c).eof || fin }) (hinv _) rfl rfl hf
      rw [start_at] at h
      exact h
  have key : ∀ s' d' o n, aRecv c room fin (Str.new c) w0.d x = .ok s' d' o n [] → ∃ w, out = .ok w ∧ obs w.ev = o ∧ w.d = d' ∧ w.s.blocked = s'.blocked := by
    intro s' d' o n hq
    rw [hq] at hsim
    obtain ⟨w, h1, h2, _⟩ := hsim
    refine ⟨w, h1, ?_, congrArg AWorld.d h2, ?_⟩
    · have := congrArg AWorld.ob h2
      rw [show w.abs.ob = obs w.ev from rfl] at this
      rw [this, hob]; rfl
    · rw [← (canon_flags w.s).1]; exact congrArg (fun a => a.s.blocked) h2
  have kf : ∀ e, aRecv c room fin (Str.new c) w0.d x = .fail e → out = .fail e := by
    intro e hq; rw [hq] at hsim; exact hsim
  rcases hw : wStream c w0.d (Msg.start c) fs fin with ⟨cb, _ | e | _ | _ | ⟨d', m'⟩⟩ <;> rw [hw] at hrecv
  · exact hrecv
  · exact kf _ hrecv
  · obtain ⟨s', d', o, n, g1, g2, _, g3, g4, g5⟩ := hrecv
    obtain ⟨w, k1, k2, k3, k4⟩ := key _ _ _ _ g1
    exact ⟨w, k1, by unfold Shows; rw [k2]; exact ⟨g3, g4, g5⟩, k4.trans g2⟩
  · dsimp only [CallRes, Means] at hrecv ⊢
    cases room
    · exact kf _ hrecv
    · rw [if_pos rfl] at hrecv ⊢
      obtain ⟨s', d', o, n, g1, g2, g3, g4, g5⟩ := hrecv
      obtain ⟨w, k1, k2, k3, k4⟩ := key _ _ _ _ g1
      exact ⟨w, k1, by unfold Shows; rw [k2]; exact ⟨g3, g4, g5⟩, k4.trans g2⟩
  · obtain ⟨s', o, n, g1, g2, g3, g4, g5, _⟩ := hrecv
    obtain ⟨w, k1, k2, k3, k4⟩ := key _ _ _ _ g1
    exact ⟨w, k1, by unfold Shows; rw [k2]; exact ⟨g3, g4, g5⟩, k3, k4.trans g2⟩

/-- **C52.** Whatever bytes a request stream carries as a sequence of frames, in whatever pieces they arrive, and whatever the QPACK decoder
has been used for before: the callbacks, the body, the errors and the resets are those that the rules for messages (RFC 9114 section 4)
give for the sequence of frames, with each field section decoded as a whole. -/
theorem C52_message (c : Cfg) (hardMax maxBlocked : Nat) (pre : List DOp) (fs : List WFrame) (xs : List Bidi.Bytes) (last : Bidi.Bytes) (fin room : Bool)
    (hf : IsFrames fs (xs.flatten ++ last)) (w0 : World) (h0 : hist c (World.start c hardMax maxBlocked) (pre.map .env) = .ok w0) :
    Means room (wBody c w0.d (Msg.start c) fs) (hist c (World.start c hardMax maxBlocked) (pre.map .env ++ manyCalls xs last fin room))
      (wStream c w0.d (Msg.start c) fs fin) := by
  have h1 := one_call c hardMax maxBlocked pre fs _ fin room hf w0 h0
  have h2 := C31_many_calls c hardMax maxBlocked (pre.map .env) [] xs last fin room
  rw [List.append_nil, List.append_nil] at h2
  exact means_same h1 h2

theorem wFrames_noEnd (c : Cfg) (d : Dec) (m : Msg) (fs : List WFrame) : Cb.endStream ∉ (wFrames c d m fs).1 := by
  induction fs generalizing d m with
  | nil => simp [wFrames]
  | cons f t ih =>
    unfold wFrames
    have hne := wFrame_noEnd c d m f
    rcases hw : wFrame c d m f with ⟨cb, _ | e | _ | _ | ⟨d', m'⟩⟩ <;> rw [hw] at hne <;> dsimp only
    all_goals first | exact hne | skip
    rw [List.mem_append, not_or]
    exact ⟨hne, ih d' m'⟩

/-- **C52 (no truncation).** The end of a message is reported to the application only if the bytes of the stream are a sequence of whole
frames, and these make a complete message: a message that was cut off, anywhere, is never taken for a complete one. -/
theorem C52_complete (c : Cfg) (hardMax maxBlocked : Nat) (pre : List DOp) (xs : List Bidi.Bytes) (last : Bidi.Bytes) (room : Bool)
    (w0 w : World) (h0 : hist c (World.start c hardMax maxBlocked) (pre.map .env) = .ok w0)
    (h : hist c (World.start c hardMax maxBlocked) (pre.map .env ++ manyCalls xs last true room) = .ok w) (he : Obs.endStream ∈ obs w.ev) :
    ∃ fs m', IsFrames fs (xs.flatten ++ last) ∧ (wStream c w0.d (Msg.start c) fs true).2 = .open w.d m' ∧
      Shows w.ev (wStream c w0.d (Msg.start c) fs true).1 (wBody c w0.d (Msg.start c) fs) [] := by
  have hcb : Cb.endStream ∈ (obs w.ev).filterMap Obs.cb := List.mem_filterMap.2 ⟨_, he, rfl⟩
  have h2 := C31_many_calls c hardMax maxBlocked (pre.map .env) [] xs last true room
  rw [List.append_nil, List.append_nil, h] at h2
  obtain ⟨hsim, hob, hinv⟩ := start_call c hardMax maxBlocked pre (xs.flatten ++ last) true room w0 h0
  generalize hist c (World.start c hardMax maxBlocked) (pre.map .env ++ oneCall (xs.flatten ++ last) true room) = out at hsim h2
  rcases out with _ | _ | w1
  · exact h2.elim
  · exact h2.elim
  have hfr : ∃ fs, IsFrames fs (xs.flatten ++ last) := by
    have h3 : aRecv c room true (Str.new c) w0.d (xs.flatten ++ last) = aFinish true (bRun c room ⟨{ Str.new c with eof := true }.at (Msg.start c), w0.d, [], 0⟩ (xs.flatten ++ last)) := by
      unfold aRecv
      rw [if_neg (by simp)]
      dsimp only
      rw [if_neg (by simp [Str.new]), if_neg (by simp [Str.new]), start_at]
      rfl
    rw [h3] at hsim
    rcases run_end c room (s := { Str.new c with eof := true }) rfl _ (hinv true) (o := []) (k := 0) (by simp [NoEnd]) (Nat.le_refl (xs.flatten ++ last).length) with h | h
    · exact h
    · exfalso
      generalize aFinish true (bRun c room ⟨{ Str.new c with eof := true }.at (Msg.start c), w0.d, [], 0⟩ (xs.flatten ++ last)) = r at hsim h
      rcases r with _ | e | ⟨s', d', o, n, r⟩
      · exact hsim
      · cases (show WRes.ok w1 = .fail e from hsim)
      · obtain ⟨w2, g1, g2, _⟩ := hsim
        cases g1
        have : obs w1.ev = o := by
          have := congrArg AWorld.ob g2
          rw [show w1.abs.ob = obs w1.ev from rfl] at this
          rw [this, hob]; rfl
        rw [h2.1, this] at hcb
        exact h hcb
  obtain ⟨fs, hf⟩ := hfr
  have hm := C52_message c hardMax maxBlocked pre fs xs last true room hf w0 h0
  rw [h] at hm
  have hno := wFrames_noEnd c w0.d (Msg.start c) fs
  have hne : ∀ o, (wStream c w0.d (Msg.start c) fs true).2 = o → (o = .reset ∨ o = .blocked) → Cb.endStream ∉ (wStream c w0.d (Msg.start c) fs true).1 := by
    intro o h1 h2
    unfold wStream at h1 ⊢
    rcases hw : wFrames c w0.d (Msg.start c) fs with ⟨cb, _ | e | _ | _ | ⟨d', m'⟩⟩ <;> rw [hw] at h1 hno <;> dsimp only at h1 ⊢
    all_goals first | exact hno | skip
    rw [if_pos rfl] at h1 ⊢
    dsimp only at h1 ⊢
    exfalso
    unfold onEnd at h1
    generalize transit m'.h m'.s .msgEnd = tr at h1
    rcases tr with _ | _ | _ | h' <;> dsimp only [Tr.bind, WOut.of] at h1 <;> rcases h2 with h2 | h2 <;> rw [h2] at h1 <;> cases h1
  rcases hw : wStream c w0.d (Msg.start c) fs true with ⟨cb, _ | e | _ | _ | ⟨d', m'⟩⟩ <;> rw [hw] at hm hne
  · exact hm.elim
  · cases (show WRes.ok w = .fail e from hm)
  · obtain ⟨w', g1, g2, _⟩ := hm
    cases g1
    rw [g2.1] at hcb
    exact absurd hcb (hne _ rfl (Or.inl rfl))
  · dsimp only [Means] at hm
    cases room
    · cases (show WRes.ok w = .fail _ from hm)
    · rw [if_pos rfl] at hm
      obtain ⟨w', g1, g2, _⟩ := hm
      cases g1
      rw [g2.1] at hcb
      exact absurd hcb (hne _ rfl (Or.inr rfl))
  · obtain ⟨w', g1, g2, g3, _⟩ := hm
    cases g1
    exact ⟨fs, m', hf, by rw [hw, g3], by rw [hw]; exact g2⟩

/-! ### corollaries -/

theorem wFrames_append (c : Cfg) (d : Dec) (m : Msg) (a b : List WFrame) :
    wFrames c d m (a ++ b) =
      match wFrames c d m a with
      | (cb, .open d' m') => (cb ++ (wFrames c d' m' b).1, (wFrames c d' m' b).2)
      | r => r := by
  induction a generalizing d m with
  | nil => rfl
  | cons f t ih =>
    rw [List.cons_append, wFrames, wFrames]
    rcases wFrame c d m f with ⟨cb, _ | e | _ | _ | ⟨d', m'⟩⟩ <;> dsimp only
    rw [ih]
    rcases wFrames c d' m' t with ⟨cb', _ | e | _ | _ | ⟨d2, m2⟩⟩ <;> dsimp only
    rw [List.append_assoc]

/-- **C52.** A frame of a type that must not be on a request stream is a connection error H3_FRAME_UNEXPECTED, whatever came before on the
stream without error and whatever follows. -/
theorem C52_refused_type (c : Cfg) (hardMax maxBlocked : Nat) (pre : List DOp) (fs rest : List WFrame) (ty : Nat) (p : Bidi.Bytes) (xs : List Bidi.Bytes) (last : Bidi.Bytes)
    (fin room : Bool) (hty : ty ∈ [0x02, 0x03, 0x04, 0x05, 0x06, 0x07, 0x08, 0x09, 0x0d, 0xf0700, 0xf0701])
    (hf : IsFrames (fs ++ .other ty p :: rest) (xs.flatten ++ last)) (w0 : World) (h0 : hist c (World.start c hardMax maxBlocked) (pre.map .env) = .ok w0)
    (d' : Dec) (m' : Msg) (hok : (wFrames c w0.d (Msg.start c) fs).2 = .open d' m') :
    hist c (World.start c hardMax maxBlocked) (pre.map .env ++ manyCalls xs last fin room) = .fail Err.H3_FRAME_UNEXPECTED := by
  have hm := C52_message c hardMax maxBlocked pre _ xs last fin room hf w0 h0
  have hr : ty ∈ refused := by
    simp only [List.mem_cons, List.not_mem_nil, or_false] at hty
    unfold refused
    simp only [List.mem_cons, List.not_mem_nil, or_false]
    omega
  have : ∃ cb, wStream c w0.d (Msg.start c) (fs ++ .other ty p :: rest) fin = (cb, .fail Err.H3_FRAME_UNEXPECTED) := by
    unfold wStream
    rw [wFrames_append]
    rcases hw : wFrames c w0.d (Msg.start c) fs with ⟨cb, o⟩
    rw [hw] at hok
    cases hok
    dsimp only
    unfold wFrames wFrame
    dsimp only
    rw [if_pos hr]
    exact ⟨_, rfl⟩
  obtain ⟨cb, hc⟩ := this
  rw [hc] at hm
  exact hm

theorem wFrames_unknown (c : Cfg) (d : Dec) (m : Msg) (a b : List WFrame) (ty : Nat) (p : Bidi.Bytes) (hty : ty ∉ refused) :
    wFrames c d m (a ++ .other ty p :: b) = wFrames c d m (a ++ b) ∧ wBody c d m (a ++ .other ty p :: b) = wBody c d m (a ++ b) := by
  induction a generalizing d m with
  | nil =>
    rw [List.nil_append, List.nil_append]
    rw [wFrames, wBody]
    unfold wFrame
    dsimp only
    rw [if_neg hty]
    exact ⟨rfl, rfl⟩
  | cons f t ih =>
    rw [List.cons_append, List.cons_append, wFrames, wBody, wFrames, wBody]
    rcases wFrame c d m f with ⟨cb, _ | e | _ | _ | ⟨d', m'⟩⟩ <;> dsimp only <;> try exact ⟨rfl, rfl⟩
    rw [(ih d' m').1, (ih d' m').2]
    exact ⟨rfl, rfl⟩

/-- **C52.** Frames of unknown types, anywhere between the frames of a message, change nothing that the application or the peer can see. -/
theorem C52_unknown_type (c : Cfg) (hardMax maxBlocked : Nat) (pre : List DOp) (a b : List WFrame) (ty : Nat) (p : Bidi.Bytes) (xs : List Bidi.Bytes) (last : Bidi.Bytes)
    (fin room : Bool) (hty : ty ∉ [0x00, 0x01, 0x02, 0x03, 0x04, 0x05, 0x06, 0x07, 0x08, 0x09, 0x0d, 0xf0700, 0xf0701])
    (hf : IsFrames (a ++ .other ty p :: b) (xs.flatten ++ last)) (w0 : World) (h0 : hist c (World.start c hardMax maxBlocked) (pre.map .env) = .ok w0) :
    Means room (wBody c w0.d (Msg.start c) (a ++ b)) (hist c (World.start c hardMax maxBlocked) (pre.map .env ++ manyCalls xs last fin room))
      (wStream c w0.d (Msg.start c) (a ++ b) fin) := by
  have hm := C52_message c hardMax maxBlocked pre _ xs last fin room hf w0 h0
  have hr : ty ∉ refused := by
    simp only [List.mem_cons, List.not_mem_nil, or_false] at hty
    unfold refused
    simp only [List.mem_cons, List.not_mem_nil, or_false]
    omega
  have h1 := wFrames_unknown c w0.d (Msg.start c) a b ty p hr
  unfold wStream at hm ⊢
  rw [h1.1, h1.2] at hm
  exact hm

/-- if every section can be decoded, the rules for messages apply to the decoded frames -/
theorem decoded_frames (c : Cfg) (d d' : Dec) (m : Msg) (fs : List WFrame) (frs : List Frm) (h : wDecode c d fs = some (frs, d')) :
    wFrames c d m fs = ((onFrames c.pp (c.server && c.ext) m frs).1, .of d' (onFrames c.pp (c.server && c.ext) m frs).2) := by
  revert m
  induction fs generalizing d frs with
  | nil => intro m; cases h; rfl
  | cons f t ih =>
    intro m
    have step : ∀ d1 fr frs', wDecode c d1 t = some (frs', d') → frs = fr :: frs' → (∀ m, wFrame c d m f = ((onFrame c.pp (c.server && c.ext) m fr).1, .of d1 (onFrame c.pp (c.server && c.ext) m fr).2)) →
        wFrames c d m (f :: t) = ((onFrames c.pp (c.server && c.ext) m frs).1, .of d' (onFrames c.pp (c.server && c.ext) m frs).2) := by
      intro d1 fr frs' h1 h2 h3
      rw [h2, wFrames, onFrames, h3 m]
      rcases onFrame c.pp (c.server && c.ext) m fr with ⟨cb, _ | _ | _ | _ | m'⟩ <;> dsimp only [WOut.of]
      rw [ih d1 frs' h1 m']
      rfl
    rcases f with (_ | ⟨x, sec⟩) | b | ⟨ty, p⟩
    · rw [wDecode, Option.map_eq_some_iff] at h
      obtain ⟨⟨frs', d2⟩, h1, h2⟩ := h
      cases h2
      exact step d _ _ h1 rfl fun m => rfl
    · rw [wDecode] at h
      rcases hs : d.readSection (SCtx.init c.id) (x :: sec) true with ⟨nvs, _ | _ | _ | ⟨d1, s1⟩ | _ | _⟩ <;> rw [hs] at h <;> dsimp only at h <;> try cases h
      rw [Option.map_eq_some_iff] at h
      obtain ⟨⟨frs', d2⟩, h1, h2⟩ := h
      cases h2
      refine step d1 _ _ h1 rfl fun m => ?_
      show wHeaders c d m (x :: sec) = _
      unfold wHeaders
      rw [hs]
    · rw [wDecode, Option.map_eq_some_iff] at h
      obtain ⟨⟨frs', d2⟩, h1, h2⟩ := h
      cases h2
      exact step d _ _ h1 rfl fun m => rfl
    · rw [wDecode] at h
      split_ifs at h with hr
      rw [wFrames]
      unfold wFrame
      dsimp only
      rw [if_neg hr]
      exact ih d frs h m

theorem C52_decoded (c : Cfg) (d d' : Dec) (m : Msg) (fs : List WFrame) (frs : List Frm) (h : wDecode c d fs = some (frs, d')) :
    wStream c d m fs true = ((onMessage c.pp (c.server && c.ext) m frs).1, .of d' (onMessage c.pp (c.server && c.ext) m frs).2) := by
  unfold wStream onMessage
  rw [decoded_frames c d d' m fs frs h]
  rcases onFrames c.pp (c.server && c.ext) m frs with ⟨cb, _ | _ | _ | _ | m'⟩ <;> dsimp only [WOut.of]
  rw [if_pos rfl]

/-- **C52.** A message whose sections can all be decoded: the application sees exactly what the rules for messages say about the decoded
frames. -/
theorem C52_delivered (c : Cfg) (hardMax maxBlocked : Nat) (pre : List DOp) (fs : List WFrame) (xs : List Bidi.Bytes) (last : Bidi.Bytes) (room : Bool)
    (hf : IsFrames fs (xs.flatten ++ last)) (w0 : World) (h0 : hist c (World.start c hardMax maxBlocked) (pre.map .env) = .ok w0)
    (frs : List Frm) (d' : Dec) (h : wDecode c w0.d fs = some (frs, d')) :
    Means room (wBody c w0.d (Msg.start c) fs) (hist c (World.start c hardMax maxBlocked) (pre.map .env ++ manyCalls xs last true room))
      ((onMessage c.pp (c.server && c.ext) (Msg.start c) frs).1, .of d' (onMessage c.pp (c.server && c.ext) (Msg.start c) frs).2) := by
  rw [← C52_decoded c w0.d d' (Msg.start c) fs frs h]
  exact C52_message c hardMax maxBlocked pre fs xs last true room hf w0 h0

/-! ### a concrete message -/

def server : Cfg := ⟨0, true, false, fun p _ => some p, []⟩
/-- `:method: GET`, `:scheme: https`, `:authority: a`, `:path: /` from the static table -/
def getSec : Bidi.Bytes := [0, 0, 0xd1, 0xd7, 0x50, 1, 97, 0xc1]
/-- GREASE, HEADERS, DATA, an unknown frame, DATA -/
def getFrames : List WFrame := [.other 0x21 [1, 2], .headers getSec, .data [104, 105], .other 0x40 [], .data [33]]
def getBytes : Bidi.Bytes := [0x21, 2, 1, 2, 1, 8] ++ getSec ++ [0, 2, 104, 105, 0x40, 0x40, 0, 0, 1, 33]

theorem small_varint (n : Nat) (h : n < 64) : Spec.IsVarint n [UInt8.ofNat n] := by
  have e : putVarint n = [UInt8.ofNat n] := by unfold putVarint; rw [if_pos h]
  rw [← e]; exact (C01_varint_round_trip n (by omega)).1

theorem getFrames_bytes : IsFrames getFrames getBytes := by
  have two : Spec.IsVarint 0x40 [0x40, 0x40] := ⟨1, by decide, by decide, by decide, by decide⟩
  refine ⟨[0x21, 2, 1, 2], _, rfl, ⟨by decide, by decide, [0x21], [2], small_varint 0x21 (by decide), small_varint 2 (by decide), rfl⟩, ?_⟩
  refine ⟨[1, 8] ++ getSec, _, rfl, ⟨[1], [8], small_varint 1 (by decide), small_varint 8 (by decide), rfl⟩, ?_⟩
  refine ⟨[0, 2, 104, 105], _, rfl, ⟨[0], [2], small_varint 0 (by decide), small_varint 2 (by decide), rfl⟩, ?_⟩
  refine ⟨[0x40, 0x40, 0], _, rfl, ⟨by decide, by decide, [0x40, 0x40], [0], two, small_varint 0 (by decide), rfl⟩, ?_⟩
  exact ⟨[0, 1, 33], [], rfl, ⟨[0], [1], small_varint 0 (by decide), small_varint 1 (by decide), rfl⟩, rfl⟩

/-- the request is delivered: four fields, the body `hi!` -/
theorem C52_witness :
    ((wStream server (Dec.init 0 0) (Msg.start server) getFrames true).1.map fun
      | .header f => some (f.name.length, f.value.length) | .data n => some (n, 0) | .endStream => some (0, 0) | _ => none) =
      [none, some (7, 3), some (7, 5), some (10, 1), some (5, 1), none, some (1, 0), some (1, 0), some (1, 0), some (0, 0)] ∧
    wBody server (Dec.init 0 0) (Msg.start server) getFrames = [104, 105, 33] := by decide +kernel

/-- the same in pieces of one byte -/
theorem C52_witness_bytes :
    (match hist server (World.start server 0 0) (manyCalls (getBytes.map fun b => [b]) [] true true) with
      | .ok w => (obs w.ev).filterMap Obs.body
      | _ => []) = [104, 105, 33] := by decide +kernel

/-- cut off in the middle of the last frame: an error -/
theorem C52_witness_cut :
    (match hist server (World.start server 0 0) [.recv (getBytes.take 23) true true] with
      | .fail e => some e
      | _ => none) = some Err.H3_FRAME_ERROR ∧ getBytes.length = 24 := by decide +kernel

end Props
end Nghttp3
