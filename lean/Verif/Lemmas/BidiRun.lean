import Verif.Lemmas.Bidi
/-! The loop of nghttp3_conn_read_bidi. -/
namespace Nghttp3
namespace Bidi
open Http Qpack

theorem ignRest_good (c : Cfg) (room : Bool) (m : M) (x : Bytes) (hi : Inv m.s m.d) (hr : m.s.rst = .ignRest) : StepGood c room m x := by
  have hst : ∀ (m : M) z, m.s.rst = .ignRest → mStep c room m z = .ret ⟨m.s, m.d, m.ev, m.n + z.length⟩ := by
    intro m z h; unfold mStep step; rw [h]; dsimp only [view]; rw [obs_nil, List.append_nil]
  unfold StepGood
  rw [hst m x hr]
  refine ⟨hi, fun y _ => ?_⟩
  rw [hst m _ hr, hst _ y (by exact hr), List.length_append, ← Nat.add_assoc]

theorem reset_inv {s : Str} {d : Dec} (hi : Inv s d) (hk : HOk .frameType s.h) : Inv s.reset d :=
  ⟨hi.ctx, hi.wf, hi.idle, rvOk_idle, hk, by simp [Str.reset]⟩

theorem ignFrame_good (c : Cfg) (room : Bool) (m : M) (x : Bytes) (hi : Inv m.s m.d) (hr : m.s.rst = .ignFrame) : StepGood c room m x := by
  obtain ⟨s, d, ev, n⟩ := m
  dsimp only at hi hr
  have hk : HOk .frameType s.h := by have := hi.hok; rw [hr] at this; exact this
  have hst : ∀ (s : Str) z ev n, s.rst = .ignFrame → mStep c room ⟨s, d, ev, n⟩ z =
      if s.left - (z.take s.left).length ≠ 0 then .ret ⟨{ s with left := s.left - (z.take s.left).length }, d, ev, n + (z.take s.left).length⟩
      else .cont ⟨s.reset, d, ev, n + (z.take s.left).length⟩ (z.drop (z.take s.left).length) false := by
    intro s z ev n h
    unfold mStep step
    dsimp only
    rw [h]
    dsimp only
    split_ifs
    · dsimp only [view]; rw [obs_nil, List.append_nil]
    · dsimp only [view]; rw [if_neg (by simp [Str.reset]), obs_nil, List.append_nil]
  unfold StepGood
  rw [hst s x ev n hr]
  by_cases h0 : s.left - (x.take s.left).length ≠ 0
  · rw [if_pos h0]
    have hxt : x.take s.left = x := List.take_of_length_le (by rw [List.length_take] at h0; omega)
    rw [hxt] at h0 ⊢
    refine ⟨⟨hi.ctx, hi.wf, hi.idle, hi.rv, hi.hok, fun g => by dsimp only at g; rw [hr] at g; cases g⟩, fun y _ => ?_⟩
    rw [hst s _ ev n hr, hst _ y _ _ (by exact hr)]
    dsimp only
    have e1 : (x ++ y).take s.left = x ++ y.take (s.left - x.length) := by rw [List.take_append, hxt]
    have e2 : s.left - (x ++ y.take (s.left - x.length)).length = s.left - x.length - (y.take (s.left - x.length)).length := by
      rw [List.length_append]; omega
    rw [e1, e2, List.length_append]
    have e3 : (x ++ y).drop (x.length + (y.take (s.left - x.length)).length) = y.drop (y.take (s.left - x.length)).length := by
      rw [List.drop_append, List.drop_eq_nil_iff.2 (by omega), List.nil_append, Nat.add_sub_cancel_left]
    rw [e3, ← Nat.add_assoc]
    rfl
  · rw [if_neg h0]
    have hle : s.left ≤ x.length := by rw [List.length_take] at h0; omega
    have hlen : (x.take s.left).length = s.left := by rw [List.length_take]; omega
    refine ⟨reset_inv hi hk, by simp, ?_, fun y => ?_⟩
    · rw [List.length_drop, hlen]
      unfold rank
      dsimp only
      rw [hr]
      simp [Str.reset]
      omega
    · rw [hst s _ ev n hr, List.take_append_of_le_length hle, if_neg h0, List.drop_append_of_le_length (by omega)]

theorem varint_good (c : Cfg) (room : Bool) (m : M) (x : Bytes) (hi : Inv m.s m.d) (hr : m.s.rst = .frameType ∨ m.s.rst = .frameLen) (hx : x ≠ [])
    : StepGood c room m x := by
  obtain ⟨s, d, ev, n⟩ := m
  dsimp only at hi hr
  have hk : HOk .frameType s.h := by have := hi.hok; rcases hr with hr | hr <;> rw [hr] at this <;> exact this
  have hrank : ∀ ev n, rank ⟨s, d, ev, n⟩ = 0 := by
    intro ev n; unfold rank; dsimp only; rcases hr with hr | hr <;> rw [hr] <;> rfl
  -- what happens when the integer is complete
  have hdone : ∀ v, (∃ e, ∀ (s0 : Str), s0 = { s with rv := s0.rv } → ∀ z k ev n, rd s0.rv z false = .done v k → mStep c room ⟨s0, d, ev, n⟩ z = .fail e) ∨
      (∃ s' b ev', Inv s' d ∧ (b = true → s'.rst = .ignFrame) ∧ ∀ (s0 : Str), s0 = { s with rv := s0.rv } → ∀ z k ev n, rd s0.rv z false = .done v k →
        mStep c room ⟨s0, d, ev, n⟩ z = .cont ⟨s', d, ev ++ ev', n + k⟩ (z.drop k) b) := by
    intro v
    rcases hr with hr | hr
    · right
      refine ⟨{ s with rv := {}, ftype := v, rst := .frameLen }, false, [], ⟨hi.ctx, hi.wf, hi.idle, rvOk_idle, hk, by simp⟩, by simp, ?_⟩
      intro s0 h0 z k ev n hd
      unfold mStep step
      have : s0.rst = .frameType := by rw [h0]; exact hr
      dsimp only
      rw [this]
      dsimp only
      rw [hd]
      dsimp only [view]
      rw [if_neg (by simp), obs_nil, h0]
    · have hstep : ∀ (s0 : Str), s0 = { s with rv := s0.rv } → ∀ z k v ev n, rd s0.rv z false = .done v k →
          mStep c room ⟨s0, d, ev, n⟩ z = view ⟨s0, d, ev, n⟩ (frameHead { s with rv := {}, left := v } d (z.drop k) k) := by
        intro s0 h0 z k v ev n hd
        have h1 : s0.rst = .frameLen := by rw [h0]; exact hr
        have h2 : { s0 with rv := {}, left := v } = { s with rv := {}, left := v } := by rw [h0]
        have h3 : ∀ s1 : Str, s1.rst = .frameLen → rd s1.rv z false = .done v k →
            step c room false s1 d z = frameHead { s1 with rv := {}, left := v } d (z.drop k) k := by
          intro s1 h3 h4
          unfold step
          simp only [h3, h4]
        unfold mStep
        dsimp only
        rw [h3 s0 h1 hd, h2]
      rcases frameHead_cases (s := { s with rv := {}, left := v }) (d := d) (by exact hr)
          ⟨hi.ctx, hi.wf, hi.idle, rvOk_idle, by show HOk s.rst s.h; exact hi.hok, fun g => by dsimp only at g; rw [hr] at g; cases g⟩ rfl with ⟨e, he⟩ | ⟨s', b, ev', h1, h2, h3, hig, _⟩
      · left
        refine ⟨.err e, fun s0 h0 z k ev n hd => ?_⟩
        rw [hstep s0 h0 z k v ev n hd, he]
        rfl
      · right
        refine ⟨s', b, obs ev', h2, h3, fun s0 h0 z k ev n hd => ?_⟩
        rw [hstep s0 h0 z k v ev n hd, h1]
        dsimp only [view]
        rw [if_neg hig]
  have hpart : ∀ (s0 : Str), s0 = { s with rv := s0.rv } → ∀ z rv ev n, rd s0.rv z false = .part rv →
      mStep c room ⟨s0, d, ev, n⟩ z = .ret ⟨{ s with rv := rv }, d, ev, n + z.length⟩ := by
    intro s0 h0 z rv ev n hd
    unfold mStep step
    dsimp only
    have h1 : s0.rst = s.rst := by rw [h0]
    rcases hr with hr | hr <;> rw [h1, hr] <;> dsimp only <;> rw [hd] <;> dsimp only [view] <;> rw [obs_nil, List.append_nil, h0]
  have hs := rd_spec s.rv x false hi.rv hx
  unfold StepGood
  rcases hd : rd s.rv x false with _ | _ | rv | ⟨v, k⟩ <;> rw [hd] at hs <;> dsimp only at hs
  · cases hs
  · obtain ⟨_, hrv, hne, hy⟩ := hs
    rw [hpart s rfl x rv ev n hd]
    refine ⟨⟨hi.ctx, hi.wf, hi.idle, hrv, hi.hok, fun g => by dsimp only at g; rcases hr with hr | hr <;> rw [hr] at g <;> cases g⟩, fun y hy0 => ?_⟩
    have h1 := hy y false hy0
    have hs2 := rd_spec rv y false hrv hy0
    rcases hd2 : rd rv y false with _ | _ | rv2 | ⟨v, k⟩ <;> rw [hd2] at h1 hs2 <;> dsimp only [Rd.shift] at h1 hs2
    · cases hs2
    · rw [hpart s rfl _ rv2 ev n h1, hpart { s with rv := rv } rfl y rv2 _ _ hd2, List.length_append, ← Nat.add_assoc]
    · rcases hdone v with ⟨e, he⟩ | ⟨s', b, ev', _, _, hc⟩
      · rw [he s rfl _ _ _ _ h1, he { s with rv := rv } rfl _ _ _ _ hd2]
      · rw [hc s rfl _ _ _ _ h1, hc { s with rv := rv } rfl _ _ _ _ hd2]
        have : (x ++ y).drop (x.length + k) = y.drop k := by
          rw [List.drop_append, List.drop_eq_nil_iff.2 (by omega), List.nil_append, Nat.add_sub_cancel_left]
        rw [this, ← Nat.add_assoc]
  · obtain ⟨hk0, hkx, hy⟩ := hs
    have hxy : ∀ y, rd s.rv (x ++ y) false = .done v k := by
      intro y; rw [← take_append_drop_left k x y hkx]; exact hy _ _
    rcases hdone v with ⟨e, he⟩ | ⟨s', b, ev', h1, h2, hc⟩
    · rw [he s rfl _ _ _ _ hd]
      intro y; rw [he s rfl _ _ _ _ (hxy y)]
    · rw [hc s rfl _ _ _ _ hd]
      refine ⟨h1, fun hb => by unfold vis; dsimp only; rw [h2 hb]; rfl, ?_, fun y => ?_⟩
      · rw [hrank, List.length_drop]
        unfold rank
        split_ifs <;> omega
      · rw [hc s rfl _ _ _ _ (hxy y), List.drop_append_of_le_length hkx]

theorem bidi_good (c : Cfg) (room : Bool) : Machine.Good (mStep c room) (fun m => Inv m.s m.d) vis rank := by
  refine ⟨fun m x hi hx => ?_⟩
  have hne : m.s.rst ≠ .ignFrame → m.s.rst ≠ .ignRest → x ≠ [] := by
    intro h1 h2; rcases hx with h | h
    · exact h
    · unfold vis at h; simp [h1, h2] at h
  have hgoal : StepGood c room m x := by
   rcases hr : m.s.rst with _ | _ | _ | _ | _ | _
   · exact varint_good c room m x hi (Or.inl hr) (hne (by rw [hr]; simp) (by rw [hr]; simp))
   · exact varint_good c room m x hi (Or.inr hr) (hne (by rw [hr]; simp) (by rw [hr]; simp))
   · exact data_good c room m x hi hr (hne (by rw [hr]; simp) (by rw [hr]; simp))
   · exact headers_good c room m x hi hr (hne (by rw [hr]; simp) (by rw [hr]; simp))
   · exact ignFrame_good c room m x hi hr
   · exact ignRest_good c room m x hi hr
  unfold StepGood at hgoal
  rcases hs : mStep c room m x with _ | _ | _ | _ | _ <;> rw [hs] at hgoal <;> exact hgoal

end Bidi
end Nghttp3
