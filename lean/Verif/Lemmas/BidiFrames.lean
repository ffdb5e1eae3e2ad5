import Verif.Lemmas.BidiMsg
/-! A sequence of frames on a request stream. -/
namespace Nghttp3
namespace Bidi
open Http Qpack

theorem run_frame (c : Cfg) (room : Bool) {s : Str} {d : Dec} {m : Msg} (o : List Obs) (k : Nat) {f : WFrame} {bs : Bytes} (y : Bytes) (hi : Inv (s.at m) d)
    (hsc : s.sc = SCtx.init c.id) (hf : f.Is bs) :
    FrameRes c room s o k f.bodyOf y (bRun c room ⟨s.at m, d, o, k⟩ (bs ++ y)) (wFrame c d m f) := by
  cases f with
  | data b => exact run_data c room y hi hf
  | other ty p => exact run_other c room y hi hf.1 hf.2.1 hf.2.2
  | headers sec =>
    cases sec with
    | nil => exact run_empty c room y hi hf
    | cons b t => exact run_headers c room y hi hsc (by simp) hf

/-- what a sequence of frames does to a stream -/
def FramesRes (c : Cfg) (room : Bool) (s : Str) (o : List Obs) (body y : Bytes) (r : Machine.Out M Stop) : List Cb × WOut → Prop
  | (cb, .open d' m') => ∃ o' n, r = bRun c room ⟨s.at m', d', o ++ o', n⟩ y ∧ Inv (s.at m') d' ∧ o'.filterMap Obs.cb = cb ∧ o'.filterMap Obs.body = body ∧ o'.filterMap Obs.signal = []
  | (_, .fail e) => r = .fail (.err e)
  | (cb, .reset) => ∃ s' d' o' n, r = .ok ⟨s', d', o ++ o', n⟩ ∧ s'.rst = .ignRest ∧ s'.httpErr = true ∧ o'.filterMap Obs.cb = cb ∧ o'.filterMap Obs.body = body ∧
      o'.filterMap Obs.signal = [.stopSending 0x010e, .resetStream 0x010e]
  | (cb, .blocked) => if room then ∃ s' d' o' n rest, r = .stop (.blocked ⟨s', d', o ++ o', n⟩) rest ∧ s'.blocked = true ∧ o'.filterMap Obs.cb = cb ∧ o'.filterMap Obs.body = body ∧
      o'.filterMap Obs.signal = [] else r = .fail (.err Err.QPACK_DECOMPRESSION_FAILED)
  | (_, .crash) => False

theorem run_frames (c : Cfg) (room : Bool) {s : Str} {d : Dec} {m : Msg} (o : List Obs) (k : Nat) {fs : List WFrame} {x : Bytes} (y : Bytes) (hi : Inv (s.at m) d)
    (hsc : s.sc = SCtx.init c.id) (hf : IsFrames fs x) :
    FramesRes c room s o (wBody c d m fs) y (bRun c room ⟨s.at m, d, o, k⟩ (x ++ y)) (wFrames c d m fs) := by
  induction fs generalizing d m o k x with
  | nil => 
    have hf : x = [] := hf
    rw [hf]
    exact ⟨[], k, by simp, hi, rfl, rfl, rfl⟩
  | cons f fs ih =>
    obtain ⟨a, b, rfl, h1, hf'⟩ := hf
    rw [List.append_assoc]
    have h := run_frame c room o k (b ++ y) hi hsc h1
    unfold wFrames wBody
    rcases hw : wFrame c d m f with ⟨cb, _ | e | _ | _ | ⟨d', m'⟩⟩ <;> rw [hw] at h <;> dsimp only
    · exact h
    · exact h
    · obtain ⟨s', d', o', n, g⟩ := h; exact ⟨s', d', o', n, g⟩
    · exact h
    · obtain ⟨o', n, e1, hi', e2, e3, e4⟩ := h
      rw [e1]
      have h' := ih (o ++ o') (k + n) hi' hf'
      rcases hq : wFrames c d' m' fs with ⟨cb', _ | e | _ | _ | ⟨d2, m2⟩⟩ <;> rw [hq] at h' <;> dsimp only
      · exact h'
      · exact h'
      · obtain ⟨s2, d2, o2, n2, g1, g2, g3, g4, g5, g6⟩ := h'
        exact ⟨s2, d2, o' ++ o2, n2, by rw [g1, List.append_assoc], g2, g3, by rw [List.filterMap_append, e2, g4], by rw [List.filterMap_append, e3, g5],
          by rw [List.filterMap_append, e4, g6]; rfl⟩
      · dsimp only [FramesRes] at h' ⊢
        cases room
        · exact h'
        · rw [if_pos rfl] at h' ⊢
          obtain ⟨s2, d2, o2, n2, rest, g1, g3, g4, g5, g6⟩ := h'
          exact ⟨s2, d2, o' ++ o2, n2, rest, by rw [g1, List.append_assoc], g3, by rw [List.filterMap_append, e2, g4], by rw [List.filterMap_append, e3, g5],
            by rw [List.filterMap_append, e4, g6]; rfl⟩
      · obtain ⟨o2, n2, g1, g2, g4, g5, g6⟩ := h'
        exact ⟨o' ++ o2, n2, by rw [g1, List.append_assoc], g2, by rw [List.filterMap_append, e2, g4], by rw [List.filterMap_append, e3, g5],
          by rw [List.filterMap_append, e4, g6]; rfl⟩

/-- one call with all the frames of a stream -/
def CallRes (room : Bool) (body : Bytes) (r : ARes) : List Cb × WOut → Prop
  | (cb, .open d' m') => ∃ s' o n, r = .ok s' d' o n [] ∧ s'.blocked = false ∧ o.filterMap Obs.cb = cb ∧ o.filterMap Obs.body = body ∧ o.filterMap Obs.signal = [] ∧
      s'.h = m'.h ∧ s'.http = m'.s ∧ s'.rst = .frameType
  | (_, .fail e) => r = .fail e
  | (cb, .reset) => ∃ s' d' o n, r = .ok s' d' o n [] ∧ s'.blocked = false ∧ s'.rst = .ignRest ∧ o.filterMap Obs.cb = cb ∧ o.filterMap Obs.body = body ∧
      o.filterMap Obs.signal = [.stopSending 0x010e, .resetStream 0x010e]
  | (cb, .blocked) => if room then ∃ s' d' o n, r = .ok s' d' o n [] ∧ s'.blocked = true ∧ o.filterMap Obs.cb = cb ∧ o.filterMap Obs.body = body ∧
      o.filterMap Obs.signal = [] else r = .fail Err.QPACK_DECOMPRESSION_FAILED
  | (_, .crash) => False

theorem bRun_nil (c : Cfg) (room : Bool) (m : M) : bRun c room m [] = .ok m := by
  unfold bRun Machine.run
  rcases h : (8 * ([] : Bytes).length + rank m + 1) with _ | n
  · omega
  · unfold Machine.loop; rw [if_pos ⟨rfl, rfl⟩]

theorem bidi_frames (c : Cfg) (room fin : Bool) {s : Str} {d : Dec} {m : Msg} {fs : List WFrame} {x : Bytes} (hi : Inv (s.at m) d) (hb : s.blocked = false)
    (hsc : s.sc = SCtx.init c.id) (hf : IsFrames fs x) :
    CallRes room (wBody c d m fs) (aBidi c room fin (s.at m) d x) (wStream c d m fs fin) := by
  have h := run_frames c room [] 0 [] hi hsc hf
  have hfa := run_facts c room (s.at m) d [] 0 x hi hb
  rw [List.append_nil] at h
  unfold aBidi wStream
  rcases hw : wFrames c d m fs with ⟨cb, _ | e | _ | _ | ⟨d', m'⟩⟩ <;> rw [hw] at h <;> dsimp only
  · exact h
  · have h : _ = _ := h
    rw [h]; rfl
  · obtain ⟨s', d', o', n, g1, g2, g3, g4, g5, g6⟩ := h
    rw [g1] at hfa ⊢
    unfold aFinish aDone
    dsimp only at hfa ⊢
    rw [g2]
    have hbl : s'.norm.blocked = false := by
      rw [(norm_flags s').2.1]
      exact hfa.2.2
    have hr : s'.norm.rst = .ignRest := by rw [norm_rst, g2]
    cases fin
    · exact ⟨_, _, _, _, rfl, hbl, hr, g4, g5, g6⟩
    · exact ⟨_, _, _, _, rfl, hbl, hr, g4, g5, g6⟩
  · dsimp only [FramesRes, CallRes] at h ⊢
    cases room
    · simp only [Bool.false_eq_true, if_false] at h ⊢
      rw [h]; rfl
    · rw [if_pos rfl] at h ⊢
      obtain ⟨s', d', o', n, rest, g1, g3, g4, g5, g6⟩ := h
      rw [g1]
      exact ⟨_, _, _, _, rfl, by show s'.norm.blocked = true; rw [(norm_flags s').2.1]; exact g3, g4, g5, g6⟩
  · obtain ⟨o', n, g1, g2, g4, g5, g6⟩ := h
    rw [g1, bRun_nil]
    unfold aFinish aDone
    dsimp only
    have hbl : ∀ h, ({ s.at m' with h := h } : Str).norm = { s.at m' with h := h } := fun h => norm_of_ne (by simp [Str.at])
    cases fin
    · rw [if_neg (by simp), if_neg (by simp)]
      have := hbl m'.h
      exact ⟨_, _, _, rfl, by rw [show s.at m' = { s.at m' with h := m'.h } from rfl, this]; exact hb, g4, g5, g6, by rw [show s.at m' = { s.at m' with h := m'.h } from rfl, this],
        by rw [show s.at m' = { s.at m' with h := m'.h } from rfl, this]; rfl, by rw [show s.at m' = { s.at m' with h := m'.h } from rfl, this]; rfl⟩
    · rw [if_pos rfl, if_pos rfl]
      rw [if_neg (show ¬ (s.at m').rv.left ≠ 0 from fun g => g rfl)]
      unfold onEnd
      change CallRes room _ (match transit m'.h m'.s .msgEnd with
        | .crash => .crash
        | .unexpected => .fail Err.H3_FRAME_UNEXPECTED
        | .malformed => .fail Err.MALFORMED_HTTP_MESSAGING
        | .ok h => .ok { s.at m' with h := h }.norm d' ([] ++ o' ++ [.endStream]) n []) _
      have hk : HOk .frameType m'.h := g2.hok
      obtain ⟨b1, _, _, _⟩ := transit_begin (Or.inl rfl) hk m'.s
      rcases hb' : transit m'.h m'.s .msgEnd with _ | _ | _ | h
      · exact absurd hb' (b1 .msgEnd (Or.inr (Or.inr rfl)))
      · rfl
      · rfl
      · dsimp only [Tr.bind, WOut.of]
        refine ⟨_, _, _, rfl, ?_, ?_, ?_, ?_, ?_, ?_, ?_⟩
        · exact (congrArg Str.blocked (hbl h)).trans hb
        · rw [List.filterMap_append, List.nil_append, g4]; rfl
        · rw [List.filterMap_append, List.nil_append, g5]; exact List.append_nil _
        · rw [List.filterMap_append, List.nil_append, g6]; rfl
        · exact (congrArg Str.h (hbl h))
        · exact (congrArg Str.http (hbl h))
        · exact (congrArg Str.rst (hbl h))

end Bidi
end Nghttp3
