import Verif.Lemmas.BidiStep
/-! nghttp3_conn_read_bidi, up to the way events are cut into pieces. -/
namespace Nghttp3
namespace Bidi
open Http Qpack

inductive ARes where
  | crash
  | fail (e : Int)
  | ok (s : Str) (d : Dec) (o : List Obs) (n : Nat) (rest : Bytes)

def Out.abs : Out → ARes
  | .crash => .crash
  | .fail e => .fail e
  | .ok s d ev n rest => .ok s.norm d (obs ev) n rest

def aDone (fin : Bool) (m : M) : ARes :=
  if fin then
    match m.s.rst with
    | .frameType =>
      if m.s.rv.left ≠ 0 then .fail Err.H3_GENERAL_PROTOCOL_ERROR
      else
        match transit m.s.h m.s.http .msgEnd with
        | .crash => .crash
        | .unexpected => .fail Err.H3_FRAME_UNEXPECTED
        | .malformed => .fail Err.MALFORMED_HTTP_MESSAGING
        | .ok h => .ok { m.s with h := h }.norm m.d (m.ev ++ [.endStream]) m.n []
    | .ignRest => .ok m.s.norm m.d m.ev m.n []
    | _ => .fail Err.H3_FRAME_ERROR
  else .ok m.s.norm m.d m.ev m.n []

theorem abs_almostDone (fin : Bool) (s : Str) (d : Dec) (ev : List Ev) (n : Nat) :
    (almostDone fin s d ev n).abs = aDone fin ⟨s, d, obs ev, n⟩ := by
  unfold almostDone aDone
  dsimp only
  cases fin
  · rfl
  simp only [if_true]
  generalize hr : s.rst = r
  cases r <;> dsimp only <;> try rfl
  by_cases h0 : s.rv.left ≠ 0
  · rw [if_pos h0, if_pos h0]; rfl
  · rw [if_neg h0, if_neg h0]
    rcases transit s.h s.http .msgEnd with _ | _ | _ | h' <;> dsimp only [Out.abs]
    rw [obs_append]; rfl

theorem norm_of_ne {s : Str} (h : s.rst ≠ .ignRest) : s.norm = s := by unfold Str.norm; rw [if_neg h]
theorem norm_norm (s : Str) : s.norm.norm = s.norm := by
  by_cases h : s.rst = .ignRest
  · unfold Str.norm; rw [if_pos h, if_pos (by exact h)]
  · rw [norm_of_ne h, norm_of_ne h]

theorem aDone_norm (fin : Bool) (s : Str) (d : Dec) (o : List Obs) (n : Nat) : aDone fin ⟨s.norm, d, o, n⟩ = aDone fin ⟨s, d, o, n⟩ := by
  by_cases h : s.rst = .ignRest
  · have h2 : s.norm.rst = .ignRest := by rw [norm_rst]; exact h
    unfold aDone
    dsimp only
    rw [h, h2, norm_norm]
  · rw [norm_of_ne h]

def finish (fin : Bool) : Machine.Out M Stop → ARes
  | .crash => .crash
  | .fail (.err e) => .fail e
  | .fail (.blocked _) => .fail 0
  | .stop (.err e) _ => .fail e
  | .stop (.blocked m) rest => .ok (justBlocked m.s rest).norm m.d m.ev m.n rest
  | .ok m => aDone fin m

/-- the end of the stream in the same call -/
theorem step_fin (c : Cfg) (room fin : Bool) (m : M) (x : Bytes) (hi : Inv m.s m.d) (hx : x ≠ [] ∨ m.s.rst = .ignFrame ∨ m.s.rst = .ignRest) :
    view m (step c room fin m.s m.d x) = mStep c room m x ∨
    (fin = true ∧ ∃ e s' k, step c room fin m.s m.d x = .fail e ∧ mStep c room m x = .ret ⟨s', m.d, m.ev, m.n + k⟩ ∧
      aDone true ⟨s', m.d, m.ev, m.n + k⟩ = .fail e) := by
  cases fin
  · left; rfl
  obtain ⟨s, d, ev, n⟩ := m
  dsimp only at hi hx ⊢
  have hk := hi.hok
  unfold mStep
  dsimp only
  have hrd : x ≠ [] → rd s.rv x true = rd s.rv x false ∨ (rd s.rv x true = .err ∧ ∃ rv, rd s.rv x false = .part rv ∧ rv.left ≠ 0) := by
    intro hx
    have h1 := rd_spec s.rv x true hi.rv hx
    have h2 := rd_spec s.rv x false hi.rv hx
    rcases hd : rd s.rv x false with _ | _ | rv | ⟨v, k⟩ <;> rw [hd] at h2 <;> dsimp only at h2
    · cases h2
    · rcases hd1 : rd s.rv x true with _ | _ | rv1 | ⟨v, k⟩ <;> rw [hd1] at h1 <;> dsimp only at h1
      · right; exact ⟨rfl, rv, rfl, h2.2.2.1⟩
      · cases h1.1
      · have := h1.2.2 (x.drop k) false
        rw [List.take_append_drop, hd] at this
        cases this
    · have := h2.2.2 (x.drop k) true
      rw [List.take_append_drop] at this
      left; exact this
  have hns : ∀ {r : Rst}, s.rst = r → r ≠ .ignFrame → r ≠ .ignRest → x ≠ [] := by
    intro r h h1 h2
    rcases hx with h3 | h3 | h3
    · exact h3
    · exact absurd (h.symm.trans h3) h1
    · exact absurd (h.symm.trans h3) h2
  rcases hr : s.rst with _ | _ | _ | _ | _ | _
  · rcases hrd (hns hr (by simp) (by simp)) with h | ⟨h, rv, h1, h2⟩
    · left; unfold step; rw [hr]; dsimp only; rw [h]
    · right
      refine ⟨rfl, Err.H3_GENERAL_PROTOCOL_ERROR, { s with rv := rv }, x.length, ?_, ?_, ?_⟩
      · unfold step; rw [hr]; dsimp only; rw [h]
      · unfold step; simp only [hr, h1]; dsimp only [view]; rw [obs_nil, List.append_nil]
      · unfold aDone; dsimp only; rw [hr]; simp [h2]
  · rcases hrd (hns hr (by simp) (by simp)) with h | ⟨h, rv, h1, h2⟩
    · left; unfold step; rw [hr]; dsimp only; rw [h]
    · right
      refine ⟨rfl, Err.H3_FRAME_ERROR, { s with rv := rv }, x.length, ?_, ?_, ?_⟩
      · unfold step; rw [hr]; dsimp only; rw [h]
      · unfold step; simp only [hr, h1]; dsimp only [view]; rw [obs_nil, List.append_nil]
      · unfold aDone; dsimp only; rw [hr]; simp
  · left; unfold step; rw [hr]
  · left
    have hst : ∀ fin, step c room fin s d x = headersStep c room fin s d x := by intro fin; unfold step; rw [hr]
    rw [hst, hst]
    unfold headersStep
    dsimp only
    have hsafe := onHeaders_safe c s.h hi.ctx (decide ((x.take s.left).length = s.left)) s.sc s.http (x.take s.left) hi.wf hi.idle
    have hsec : ∀ (d' : Dec) (sc : SCtx) http ev2, (d'.ctx = d.ctx ∧ SWF sc ∧ Idle sc) → ∀ l : Bool,
        view ⟨s, d, ev, n⟩ (if s.left - (x.take s.left).length ≠ 0 then
            BRes.ret { s with sc := sc, http := http, left := s.left - (x.take s.left).length } d' ev2 (x.take s.left).length
          else sectionEnd c l { s with sc := sc, http := http, left := s.left - (x.take s.left).length } d'
            (x.drop (x.take s.left).length) ev2 (x.take s.left).length) =
        view ⟨s, d, ev, n⟩ (if s.left - (x.take s.left).length ≠ 0 then
            BRes.ret { s with sc := sc, http := http, left := s.left - (x.take s.left).length } d' ev2 (x.take s.left).length
          else sectionEnd c false { s with sc := sc, http := http, left := s.left - (x.take s.left).length } d'
            (x.drop (x.take s.left).length) ev2 (x.take s.left).length) := by
      intro d' sc http ev2 hsc l
      have hinv : Inv { s with sc := sc, http := http, left := s.left - (x.take s.left).length } d' :=
        ⟨by rw [hsc.1]; exact hi.ctx, hsc.2.1, hsc.2.2, hi.rv, hi.hok, fun g => by dsimp only at g; rw [hr] at g; cases g⟩
      by_cases h0 : s.left - (x.take s.left).length ≠ 0
      · rw [if_pos h0, if_pos h0]
      · rw [if_neg h0, if_neg h0]
        obtain ⟨s', b, ev2, h1, h2, _⟩ := sectionEnd_cases c hinv (by exact hr)
        rw [h1, h1]
        dsimp only [view]
        rw [obs_append, obs_append, h2 l]
    rcases ho : onHeaders c s.h d s.sc s.http (x.take s.left) (decide ((x.take s.left).length = s.left)) with ⟨ev, _ | e | d' | ⟨d', sc, http⟩ | ⟨d', sc, http⟩ | ⟨d', sc, http, rest⟩⟩ <;> rw [ho] at hsafe <;> dsimp only at hsafe ⊢
    · exact hsec _ _ _ _ ⟨by rw [hsafe.1], hsafe.2⟩ _
    · exact hsec _ _ _ _ ⟨hsafe.1, hsafe.2.1, hsafe.2.2.1⟩ _
  · left; unfold step; rw [hr]
  · left; unfold step; rw [hr]

theorem vis_iff (m : M) : vis m = true ↔ m.s.rst = .ignFrame ∨ m.s.rst = .ignRest := by unfold vis; simp

theorem loop_abs (c : Cfg) (room fin : Bool) (f : Nat) (s : Str) (d : Dec) (x : Bytes) (b : Bool) (ev : List Ev) (n : Nat) (hi : Inv s d)
    (hb : b = true → s.rst = .ignFrame ∨ s.rst = .ignRest) (hf : 8 * x.length + rank ⟨s, d, obs ev, n⟩ < f) :
    (loop c room fin f s d x b ev n).abs = finish fin (Machine.run (mStep c room) rank ⟨s, d, obs ev, n⟩ x b) := by
  induction f generalizing s d x b ev n with
  | zero => omega
  | succ f ih =>
    rw [Machine.run_eq (bidi_good c room) (s := ⟨s, d, obs ev, n⟩) hi (fun h => (vis_iff _).2 (hb h))]
    unfold loop
    by_cases h0 : x = [] ∧ b = false
    · rw [if_pos h0, if_pos h0, abs_almostDone]; rfl
    rw [if_neg h0, if_neg h0]
    have hx : x ≠ [] ∨ s.rst = .ignFrame ∨ s.rst = .ignRest := by
      by_cases hx : x = []
      · right; apply hb; cases b <;> simp_all
      · left; exact hx
    have hgood := (bidi_good c room).step ⟨s, d, obs ev, n⟩ x hi (hx.imp id fun h => (vis_iff _).2 h)
    rcases step_fin c room fin ⟨s, d, obs ev, n⟩ x hi hx with h | ⟨hfin, e, s', k, h1, h2, h3⟩
    · dsimp only at h
      rw [← h] at hgood ⊢
      have hacc := step_acc c room fin s d x hi hx
      rcases hs : step c room fin s d x with _ | e | ⟨s', d', rest, b', ev', n'⟩ | ⟨s', d', ev', n'⟩ | ⟨s', d', rest, ev', n'⟩ <;> rw [hs] at hgood hacc <;> dsimp only at hacc ⊢
      · rfl
      · by_cases hig : s'.rst = .ignRest
        · dsimp only [view]
          rw [if_pos hig]
          show _ = aDone fin _
          rw [aDone_norm]
          have hf1 : ∃ f', f = f' + 1 := by
            rcases hx with hx | hx | hx
            · have : 0 < x.length := List.length_pos_iff.2 hx
              exact ⟨f - 1, by omega⟩
            · have : rank ⟨s, d, obs ev, n⟩ = 1 := by unfold rank; dsimp only; rw [hx]; rfl
              exact ⟨f - 1, by omega⟩
            · unfold step at hs; rw [hx] at hs; cases hs
          obtain ⟨f', rfl⟩ := hf1
          unfold loop
          by_cases h1 : rest = [] ∧ b' = false
          · rw [if_pos h1, abs_almostDone, h1.1, obs_append]; rfl
          · rw [if_neg h1]
            have : step c room fin s' d' rest = .ret s' d' [] rest.length := by unfold step; rw [hig]
            rw [this]
            dsimp only
            rw [abs_almostDone, obs_append, obs_append, obs_nil, List.append_nil]
        · dsimp only [view] at hgood ⊢
          rw [if_neg hig] at hgood ⊢
          dsimp only at hgood ⊢
          rw [← obs_append]
          apply ih _ _ _ _ _ _ hacc.1 hacc.2.1
          have e1 : rank ⟨s', d', obs (ev ++ ev'), n + n'⟩ = rank ⟨s', d', obs ev ++ obs ev', n + n'⟩ := rfl
          rw [e1]
          omega
      · dsimp only [view]
        rw [abs_almostDone, obs_append]
        rfl
      · dsimp only [view]
        dsimp only [Out.abs, finish]
        rw [obs_append]
    · subst hfin
      rw [h2]
      dsimp only at h1 h3 ⊢
      rw [h1]
      show _ = aDone true _
      rw [h3]; rfl

/-- what nghttp3_conn_read_bidi does with the bytes of one call -/
theorem loop_acc (c : Cfg) (room fin : Bool) (f : Nat) (s : Str) (d : Dec) (x : Bytes) (b : Bool) (ev : List Ev) (n : Nat) (hi : Inv s d)
    (hb : b = true → s.rst = .ignFrame ∨ s.rst = .ignRest) (hbl : s.blocked = false) :
    match loop c room fin f s d x b ev n with
    | .ok s' d' ev' n' rest => Inv s' d' ∧ n' + dataLen ev' + rest.length = n + dataLen ev + x.length ∧ deferredLen ev' = deferredLen ev ∧
        (∃ s0, Flags s s0 ∧ ((s'.blocked = false ∧ rest = [] ∧ s' = s0) ∨ (s'.blocked = true ∧ d'.ctx.next < s'.sc.ricnt ∧ s'.rst = .headers ∧ s' = justBlocked s0 rest)))
    | _ => True := by
  have hdone : ∀ (s s' : Str) (d' : Dec) ev' n', Inv s' d' → Flags s s' → s'.blocked = false →
      match almostDone fin s' d' ev' n' with
      | .ok s2 d2 ev2 n2 rest => Inv s2 d2 ∧ n2 + dataLen ev2 + rest.length = n' + dataLen ev' ∧ deferredLen ev2 = deferredLen ev' ∧ 
        (∃ s0, Flags s s0 ∧ ((s2.blocked = false ∧ rest = [] ∧ s2 = s0) ∨ (s2.blocked = true ∧ d2.ctx.next < s2.sc.ricnt ∧ s2.rst = .headers ∧ s2 = justBlocked s0 rest)))
      | _ => True := by
    intro s s' d' ev' n' hi hfl hb
    have hk := hi.hok
    unfold almostDone
    cases fin
    · exact ⟨hi, by simp, rfl, s', hfl, Or.inl ⟨hb, rfl, rfl⟩⟩
    simp only [if_true]
    rcases hr : s'.rst with _ | _ | _ | _ | _ | _ <;> dsimp only
    · by_cases h0 : s'.rv.left ≠ 0
      · rw [if_pos h0]; trivial
      · rw [if_neg h0]
        rcases ht : transit s'.h s'.http .msgEnd with _ | _ | _ | h' <;> dsimp only
        refine ⟨⟨hi.ctx, hi.wf, hi.idle, hi.rv, ?_, fun g => by cases g⟩, ?_, ?_,
          { s' with h := h', rst := .frameType }, ⟨hfl.1, hfl.2⟩, Or.inl ⟨hb, rfl, rfl⟩⟩
        · exact (transit_begin (Or.inl hr) hk s'.http).2.2.2 h' ht
        · rw [dataLen_append]; simp [dataLen, Ev.dataLen]
        · rw [deferredLen_append]; simp [deferredLen, Ev.deferredLen]
    · exact ⟨hi, by simp, rfl, s', hfl, Or.inl ⟨hb, rfl, rfl⟩⟩
  have hft : ∀ {a b c : Str}, Flags a b → Flags b c → Flags a c := by
    intro a b c h1 h2
    exact ⟨h2.1.trans h1.1, h2.2.1.trans h1.2.1, h2.2.2.1.trans h1.2.2.1, h2.2.2.2.1.trans h1.2.2.2.1, h2.2.2.2.2.trans h1.2.2.2.2⟩
  induction f generalizing s d x b ev n with
  | zero => trivial
  | succ f ih =>
    unfold loop
    by_cases h0 : x = [] ∧ b = false
    · rw [if_pos h0, h0.1]
      exact hdone s s d ev n hi ⟨rfl, rfl, rfl, rfl, rfl⟩ hbl
    rw [if_neg h0]
    have hx : x ≠ [] ∨ s.rst = .ignFrame ∨ s.rst = .ignRest := by
      by_cases hx : x = []
      · right; apply hb; cases b <;> simp_all
      · left; exact hx
    have hacc := step_acc c room fin s d x hi hx
    have hfl := step_flags c room fin s d x
    rcases hs : step c room fin s d x with _ | e | ⟨s', d', rest, b', ev', n'⟩ | ⟨s', d', ev', n'⟩ | ⟨s', d', rest, ev', n'⟩ <;> rw [hs] at hacc hfl <;> dsimp only at hacc hfl ⊢
    · obtain ⟨h1, h2, h3, h4, h5⟩ := hacc
      have := ih s' d' rest b' (ev ++ ev') (n + n') h1 h2 (h3.trans hbl)
      rcases hl : loop c room fin f s' d' rest b' (ev ++ ev') (n + n') with _ | _ | ⟨s2, d2, ev2, n2, rest2⟩ <;> rw [hl] at this <;> dsimp only at this ⊢
      obtain ⟨k1, k2, k3, s0, k4, k5⟩ := this
      rw [dataLen_append] at k2
      rw [deferredLen_append] at k3
      exact ⟨k1, by omega, by omega, s0, hft hfl k4, k5⟩
    · obtain ⟨h1, h3, h4, h5⟩ := hacc
      have := hdone s s' d' (ev ++ ev') (n + n') h1 hfl (h3.trans hbl)
      rcases hl : almostDone fin s' d' (ev ++ ev') (n + n') with _ | _ | ⟨s2, d2, ev2, n2, rest2⟩ <;> rw [hl] at this <;> dsimp only at this ⊢
      obtain ⟨k1, k2, k3, k4⟩ := this
      rw [dataLen_append] at k2
      rw [deferredLen_append] at k3
      exact ⟨k1, by omega, by omega, k4⟩
    · obtain ⟨h1, h3, h4, h5, h6, h7⟩ := hacc
      have hj : ∃ q, justBlocked s' rest = { s' with inq := q } := by
        unfold justBlocked; split_ifs
        · exact ⟨_, rfl⟩
        · exact ⟨s'.inq, rfl⟩
      obtain ⟨q, hq⟩ := hj
      refine ⟨?_, ?_, ?_, s', hfl, Or.inr ⟨?_, ?_, ?_, rfl⟩⟩
      · rw [hq]; exact ⟨h1.ctx, h1.wf, h1.idle, h1.rv, h1.hok, h1.left⟩
      · rw [dataLen_append]; omega
      · rw [deferredLen_append]; omega
      · rw [hq]; exact h3
      · rw [hq]; exact h6
      · rw [hq]; exact h7

end Bidi
end Nghttp3
