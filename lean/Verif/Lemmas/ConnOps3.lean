import Verif.Lemmas.ConnOps2
/-! Every call keeps the invariant of the connection: control frames, the streams of this endpoint, unidirectional streams, and writing. -/
namespace Nghttp3
namespace Conn
open PQ (Mem IdxOk Heap upd upd_same upd_ne)
open Outq (R Frent Ans Bytes St)

variable {E F : Type} {w v : Prop} {c : Conn E F} {id : Nat} {s0 s : Strm F}

theorem ctrlFrame_inv (h : Inv w v c) {f : Frent F} {c' : Conn E F} (e : ctrlFrame c f = .ok c') :
    Inv w v c' ∧ c'.goaways = c.goaways ∧ c'.txGoaway = c.txGoaway ∧ c'.maxBidi = c.maxBidi ∧ c'.server = c.server := by
  unfold ctrlFrame at e
  rcases hc : c.ctrl with _ | id <;> rw [hc] at e
  · cases e
  · dsimp only at e
    obtain ⟨hl, s, hs, _⟩ := h.tctrl id hc
    rw [hs] at e
    obtain rfl := R.ok.inj e
    have hk := h.sok _ _ hs
    have hb := (localUni_uni hl).2
    have hns := sched_of_uni h hs hb
    refine ⟨inv_keep h (Cand.mk' h hs rfl rfl rfl rfl (Nat.le_refl _) hk.blk rfl) (sok_uni _ _ hb hns hk.blk hk.rvo), rfl, rfl, rfl, rfl⟩

theorem queueGoaway_inv (h : Inv w v c) {g : Nat} {c' : Conn E F} (e : queueGoaway c g = .ok c') :
    Inv w v c' ∧ c'.goaways = g :: c.goaways ∧ g ≤ c.txGoaway ∧ c'.txGoaway = g ∧ c'.maxBidi = c.maxBidi := by
  unfold queueGoaway at e
  split_ifs at e with h1 h2
  obtain ⟨c1, e1, e2⟩ := bind_ok e
  obtain rfl := R.ok.inj e2
  obtain ⟨g1, g2, g3, g4, g5⟩ := ctrlFrame_inv h e1
  refine ⟨?_, by dsimp only; rw [g2], by omega, rfl, g4⟩
  refine inv_frame g1 rfl rfl rfl rfl rfl rfl rfl ?_ ?_ ?_ ⟨Int.le_refl _, g1.mb.2⟩
  · dsimp only
    rw [List.pairwise_cons]
    refine ⟨fun x hx => ?_, g1.gsort⟩
    -- the newest one is the smallest
    rcases hl : c1.goaways with _ | ⟨y, t⟩
    · rw [hl] at hx; cases hx
    · have hy := g1.ghead y t hl
      have hs := g1.gsort
      rw [hl] at hx hs
      rw [List.pairwise_cons] at hs
      rcases List.mem_cons.1 hx with rfl | hx
      · omega
      · have := hs.1 x hx; omega
  · rintro a t hh
    dsimp only at hh ⊢
    exact (List.cons.inj hh).1
  · simp

theorem submitNotice_inv (h : Inv w v c) {c' : Conn E F} {r : Ret} (e : submitNotice c = .ok (c', r)) : Inv w v c' := by
  unfold submitNotice at e
  obtain ⟨c1, e1, e2⟩ := bind_ok e
  obtain ⟨rfl, _⟩ := Prod.mk.inj (R.ok.inj e2)
  exact (queueGoaway_inv h e1).1

theorem shutdown_inv (h : Inv w v c) {c' : Conn E F} {r : Ret} (e : shutdown c = .ok (c', r)) : Inv w v c' := by
  unfold shutdown at e
  obtain ⟨c1, e1, e2⟩ := bind_ok e
  obtain ⟨rfl, _⟩ := Prod.mk.inj (R.ok.inj e2)
  have g := (queueGoaway_inv h e1).1
  exact inv_frame g rfl rfl rfl rfl rfl rfl rfl g.gsort g.ghead g.gq ⟨Int.le_refl _, g.mb.2⟩

theorem setClientPriority_inv (h : Inv w v c) {va : Bytes} {c' : Conn E F} {r : Ret} (e : setClientPriority c id va = .ok (c', r)) : Inv w v c' := by
  unfold setClientPriority at e
  split_ifs at e
  · obtain ⟨rfl, _⟩ := Prod.mk.inj (R.ok.inj e); exact h
  · rcases h0 : c.str id with _ | s0 <;> rw [h0] at e
    · obtain ⟨rfl, _⟩ := Prod.mk.inj (R.ok.inj e); exact h
    · obtain ⟨c1, e1, e2⟩ := bind_ok e
      obtain ⟨rfl, _⟩ := Prod.mk.inj (R.ok.inj e2)
      exact (ctrlFrame_inv h e1).1

theorem setMaxClientStreams_inv (h : Inv w v c) {n : Nat} {c' : Conn E F} {r : Ret} (e : setMaxClientStreams c n = .ok (c', r)) : Inv w v c' := by
  unfold setMaxClientStreams at e
  split_ifs at e
  obtain ⟨rfl, _⟩ := Prod.mk.inj (R.ok.inj e)
  exact inv_frame h rfl rfl rfl rfl rfl rfl rfl h.gsort h.ghead h.gq ⟨Int.le_refl _, h.mb.2⟩

theorem recvGoaway_inv (h : Inv w v c) {c' : Conn E F} {r : Ret} (e : recvGoaway c = .ok (c', r)) : Inv w v c' := by
  unfold recvGoaway at e
  obtain ⟨rfl, _⟩ := Prod.mk.inj (R.ok.inj e)
  exact inv_frame h rfl rfl rfl rfl rfl rfl rfl h.gsort h.ghead h.gq ⟨Int.le_refl _, h.mb.2⟩

/-! ## the streams of this endpoint -/

theorem localUni_of {sv : Bool} (h1 : (sv && !serverUni id) = false) (h2 : (!sv && !clientUni id) = false) : localUni sv id = true := by
  unfold localUni
  cases sv <;> simp at h1 h2 ⊢ <;> assumption

theorem bindControl_inv (h : Inv w v c) {c' : Conn E F} {r : Ret} (e : bindControl c id = .ok (c', r)) : Inv w v c' := by
  unfold bindControl at e
  split_ifs at e with h1 h2 h3
  · obtain ⟨rfl, _⟩ := Prod.mk.inj (R.ok.inj e); exact h
  · obtain ⟨rfl, _⟩ := Prod.mk.inj (R.ok.inj e); exact h
  · obtain ⟨o, _, e2⟩ := bind_ok e
    obtain ⟨rfl, _⟩ := Prod.mk.inj (R.ok.inj e2)
    simp only [Bool.or_eq_true, not_or, Bool.not_eq_true] at h1
    have hl : localUni c.server id = true := localUni_of h1.1.2 h1.2
    have h0 : c.str id = none := by simpa using h3
    have hb := (localUni_uni hl).2
    have g := inv_create (s := { ty := .control, out := { o with frq := o.frq ++ [.settings c.settings] } }) h h0 rfl
      (by show 3 < 8; decide) rfl (sok_uni _ _ hb rfl (ff rfl) rvOk_idle) (fun _ g => by rw [hb] at g; cases g)
    refine ⟨g.core.frame rfl rfl, g.sok, g.cnt, fun x hx => ?_, g.tqenc, g.tqdec, g.gsort, g.ghead, g.gq, g.mb, g.mbl⟩
    obtain rfl := Option.some.inj hx
    exact ⟨hl, _, upd_same _ _ _, rfl⟩

theorem bindQpack_inv (h : Inv w v c) {d : Nat} {c' : Conn E F} {r : Ret} (e : bindQpack c id d = .ok (c', r)) : Inv w v c' := by
  unfold bindQpack at e
  split_ifs at e with h1 h2 h3
  · obtain ⟨rfl, _⟩ := Prod.mk.inj (R.ok.inj e); exact h
  · obtain ⟨rfl, _⟩ := Prod.mk.inj (R.ok.inj e); exact h
  · obtain ⟨o, _, e2⟩ := bind_ok e
    dsimp only at e2
    simp only [Bool.or_eq_true, not_or, Bool.not_eq_true] at h1
    have hl : localUni c.server id = true ∧ localUni c.server d = true := by
      obtain ⟨⟨_, a⟩, b⟩ := h1
      unfold localUni
      cases hs : c.server <;> simp [hs] at a b ⊢ <;> assumption
    have h0 : c.str id = none := by simpa using h3
    have hb := (localUni_uni hl.1).2
    have g := inv_create (s := { ty := .qenc, out := o }) h h0 rfl
      (by show 3 < 8; decide) rfl (sok_uni _ _ hb rfl (ff rfl) rvOk_idle) (fun _ g => by rw [hb] at g; cases g)
    have g' : Inv w v { createStream c id { ty := .qenc, out := o } with qenc := some id } := by
      refine ⟨g.core.frame rfl rfl, g.sok, g.cnt, g.tctrl, fun x hx => ?_, g.tqdec, g.gsort, g.ghead, g.gq, g.mb, g.mbl⟩
      obtain rfl := Option.some.inj hx
      exact ⟨hl.1, _, upd_same _ _ _, rfl⟩
    split_ifs at e2 with h4
    · obtain ⟨rfl, _⟩ := Prod.mk.inj (R.ok.inj e2); exact g'
    · obtain ⟨o2, _, e4⟩ := bind_ok e2
      obtain ⟨rfl, _⟩ := Prod.mk.inj (R.ok.inj e4)
      have hb2 := (localUni_uni hl.2).2
      have g2 := inv_create (s := { ty := .qdec, out := o2 }) g' (id := d) (by simpa using h4) rfl
        (by show 3 < 8; decide) rfl (sok_uni _ _ hb2 rfl (ff rfl) rvOk_idle) (fun _ g => by rw [hb2] at g; cases g)
      refine ⟨g2.core.frame rfl rfl, g2.sok, g2.cnt, g2.tctrl, g2.tqenc, fun x hx => ?_, g2.gsort, g2.ghead, g2.gq, g2.mb, g2.mbl⟩
      obtain rfl := Option.some.inj hx
      exact ⟨hl.2, _, upd_same _ _ _, rfl⟩

/-! ## unidirectional streams of the peer -/

/-- the type of an incoming stream is set -/
theorem setUniType_ok {c1 : Conn E F} {s1 : Strm F} {v : Nat} (e : setUniType c s v = .ok (c1, s1)) :
    ∃ ty a b d, s1 = { s with ty := ty, ident := true, rv := {} } ∧ c1 = { c with ctrlOpened := a, qencOpened := b, qdecOpened := d } := by
  unfold setUniType at e
  dsimp only at e
  split_ifs at e <;> obtain ⟨rfl, rfl⟩ := Prod.mk.inj (Except.ok.inj e) <;> exact ⟨_, _, _, _, rfl, rfl⟩

theorem inv_uniSet (h : Inv w v c) (hp : localUni c.server id = false) (hb : clientBidi id = false) (h0 : c.str id = some s0) (ty : Ty) (i : Bool)
    (rv : RVInt) (hrv : RvOk rv) (x y z : Bool) :
    Inv w v ({ c with ctrlOpened := x, qencOpened := y, qdecOpened := z }.set id { s0 with ty := ty, ident := i, rv := rv }) := by
  have hk := h.sok _ _ h0
  have hns := sched_of_uni h h0 hb
  have hd : Cand w c id s0 { s0 with rv := rv } :=
    ⟨h0, rfl, rfl, rfl, rfl, h.core.uwOk' h0 rfl rfl rfl (Nat.le_refl _), hk.blk, hrv⟩
  have g : Inv w v (c.set id { s0 with rv := rv }) := inv_keep h hd (sok_uni _ _ hb hns hk.blk hrv)
  have gc : Core w (c.set id { s0 with ty := ty, ident := i, rv := rv }) := by
    have := g.core.set (s := { s0 with ty := ty, ident := i, rv := rv }) (set_str _ _ _) rfl rfl rfl
      (g.core.uwOk' (set_str _ _ _) rfl rfl rfl (Nat.le_refl _))
    rw [set_set] at this
    exact this
  have hsome : ∀ x, (upd c.str id (some { s0 with ty := ty, ident := i, rv := rv }) x).isSome = (c.str x).isSome := by
    intro x
    by_cases e : x = id
    · rw [e, upd_same, h0]; rfl
    · rw [upd_ne _ _ e]
  have hp' : ∀ {x : Nat} {t : Ty}, localUni c.server x = true → (∃ s, c.str x = some s ∧ s.ty = t) →
      ∃ s, upd c.str id (some { s0 with ty := ty, ident := i, rv := rv }) x = some s ∧ s.ty = t := by
    rintro x t hl ⟨s, g1, g2⟩
    have e : x ≠ id := by rintro rfl; rw [hp] at hl; cases hl
    exact ⟨s, by rw [upd_ne _ _ e]; exact g1, g2⟩
  refine ⟨gc.frame rfl rfl, fun x s hx => ?_, ?_, fun x hx => ?_, fun x hx => ?_, fun x hx => ?_, h.gsort, h.ghead, h.gq, h.mb, fun hv x h1 h2 => ?_⟩
  · by_cases e : x = id
    · subst e; rw [set_str] at hx; cases hx; exact sok_uni _ _ hb hns hk.blk hrv
    · rw [set_ne _ _ _ _ e] at hx; exact h.sok x s hx
  · obtain ⟨l, h1, h2, h3⟩ := h.cnt
    refine ⟨l, h1, fun x => ?_, h3⟩
    rw [h2, ← hsome]; exact Iff.rfl
  · exact ⟨(h.tctrl x hx).1, hp' (h.tctrl x hx).1 (h.tctrl x hx).2⟩
  · exact ⟨(h.tqenc x hx).1, hp' (h.tqenc x hx).1 (h.tqenc x hx).2⟩
  · exact ⟨(h.tqdec x hx).1, hp' (h.tqdec x hx).1 (h.tqdec x hx).2⟩
  · refine h.mbl hv x h1 ?_
    rw [← hsome]; exact h2

theorem readUni_inv (h : Inv w v c) {src : Bytes} {fin : Bool} {c' : Conn E F} {r : Ret} (e : readUni c id src fin = .ok (c', r)) : Inv w v c' := by
  unfold readUni at e
  by_cases h1 : ((c.server && !clientUni id) || (!c.server && !serverUni id)) = true
  · rw [if_pos h1] at e; cases e
  rw [if_neg h1] at e
  have hp : localUni c.server id = false ∧ clientBidi id = false := by
    unfold localUni
    unfold clientUni serverUni at h1 ⊢
    unfold clientBidi
    cases hs : c.server <;> simp [hs] at h1 ⊢ <;> omega
  rcases h0 : c.str id with _ | s0 <;> rw [h0] at e
  · cases e
  · dsimp only at e
    have hk := h.sok _ _ h0
    by_cases h2 : (src.isEmpty && !fin) = true
    · rw [if_pos h2] at e; obtain ⟨rfl, _⟩ := Prod.mk.inj (R.ok.inj e); exact h
    rw [if_neg h2] at e
    by_cases h3 : s0.ident = true
    · rw [if_pos h3] at e; obtain ⟨rfl, _⟩ := Prod.mk.inj (R.ok.inj e); exact h
    rw [if_neg h3] at e
    by_cases h4 : src.isEmpty = true
    · rw [if_pos h4] at e
      split_ifs at e
      · obtain ⟨rfl, _⟩ := Prod.mk.inj (R.ok.inj e); exact h
      · obtain ⟨c1, e1, e2⟩ := bind_ok e
        obtain ⟨rfl, _⟩ := Prod.mk.inj (R.ok.inj e2)
        exact inv_delete h h0 (sched_of_uni h h0 hp.2) (fun g => by rw [hp.1] at g; cases g) e1
    · rw [if_neg h4] at e
      have hne : src ≠ [] := by rintro rfl; simp at h4
      have hrd := rd_spec s0.rv src fin hk.rvo hne
      rcases hr : rd s0.rv src fin with _ | _ | rv | ⟨v, n⟩ <;> rw [hr] at e hrd
      · cases e
      · obtain ⟨rfl, _⟩ := Prod.mk.inj (R.ok.inj e); exact h
      · obtain ⟨rfl, _⟩ := Prod.mk.inj (R.ok.inj e)
        exact inv_uniSet h hp.1 hp.2 h0 s0.ty s0.ident rv hrd.2.1 c.ctrlOpened c.qencOpened c.qdecOpened
      · dsimp only at e
        rcases ht : setUniType c s0 v with er | ⟨c1, s1⟩ <;> rw [ht] at e
        · obtain ⟨rfl, _⟩ := Prod.mk.inj (R.ok.inj e); exact h
        · obtain ⟨ty, a, b, d, rfl, rfl⟩ := setUniType_ok ht
          dsimp only at e
          split_ifs at e
          · obtain ⟨rfl, _⟩ := Prod.mk.inj (R.ok.inj e)
            exact inv_uniSet h hp.1 hp.2 h0 ty true {} rvOk_idle a b d
          · rcases hdl : deliverUni ty (src.drop n) fin with er | rr | rr | rr <;> rw [hdl] at e <;>
              obtain ⟨rfl, _⟩ := Prod.mk.inj (R.ok.inj e)
            · exact h
            · exact inv_uniSet h hp.1 hp.2 h0 ty true {} rvOk_idle a b d
            · exact inv_uniSet h hp.1 hp.2 h0 ty true {} rvOk_idle a b d
            · exact inv_uniSet h hp.1 hp.2 h0 ty true {} rvOk_idle a b d

end Conn
end Nghttp3
