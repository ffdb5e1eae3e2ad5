import Verif.Lemmas.ConnLife
/-! Calls do not change the type of a unidirectional stream, except reading from it. -/
namespace Nghttp3
namespace Conn
open PQ (upd upd_same upd_ne)
open Outq (R Frent Ans Bytes St)

variable {E F : Type} {w v : Prop} {c c' : Conn E F} {id : Nat} {s0 s : Strm F} {encode : Encode E F}

/-- the type of the stream is known, and it is one of those that have to stay open -/
def Crit (id : Nat) (s : Strm F) : Prop := streamUni id = true ∧ s.ident = true ∧ s.ty ≠ .unknown

/-- streams keep their type; those that are new have none yet; critical streams stay -/
structure IdOk (c c' : Conn E F) : Prop where
  bwd : ∀ x s', c'.str x = some s' → s'.ident = false ∨ ∃ s0, c.str x = some s0 ∧ s0.ident = s'.ident ∧ s0.ty = s'.ty
  fwd : ∀ x s0, c.str x = some s0 → Crit x s0 → ∃ s', c'.str x = some s' ∧ s0.ident = s'.ident ∧ s0.ty = s'.ty

theorem IdOk.refl : IdOk c c := ⟨fun _ s' h => .inr ⟨s', h, rfl, rfl⟩, fun _ s' h _ => ⟨s', h, rfl, rfl⟩⟩

theorem IdOk.congr {c1 : Conn E F} (h : IdOk c c1) (e : c'.str = c1.str) : IdOk c c' := ⟨by rw [e]; exact h.bwd, by rw [e]; exact h.fwd⟩

theorem IdOk.trans {c1 : Conn E F} (h1 : IdOk c c1) (h2 : IdOk c1 c') : IdOk c c' := by
  constructor
  · intro x s' g
    rcases h2.bwd x s' g with k | ⟨s1, k1, k2, k3⟩
    · exact .inl k
    · rcases h1.bwd x s1 k1 with m | ⟨s0, m1, m2, m3⟩
      · exact .inl (k2 ▸ m)
      · exact .inr ⟨s0, m1, m2.trans k2, m3.trans k3⟩
  · intro x s0 g hc
    obtain ⟨s1, k1, k2, k3⟩ := h1.fwd x s0 g hc
    obtain ⟨s2, m1, m2, m3⟩ := h2.fwd x s1 k1 ⟨hc.1, k2 ▸ hc.2.1, k3 ▸ hc.2.2⟩
    exact ⟨s2, m1, k2.trans m2, k3.trans m3⟩

theorem id_one (h : One c id s c') (h0 : c.str id = some s0) (h1 : s.ident = s0.ident) (h2 : s.ty = s0.ty) : IdOk c c' := by
  obtain ⟨sd, cy, uw, k⟩ := h.own
  constructor
  · intro x s' g
    by_cases hx : x = id
    · subst hx
      rw [k] at g; cases g
      exact .inr ⟨s0, h0, h1.symm, h2.symm⟩
    · rw [h.fr hx] at g
      exact .inr ⟨s', g, rfl, rfl⟩
  · intro x s1 g _
    by_cases hx : x = id
    · subst hx
      rw [h0] at g; cases g
      exact ⟨_, k, h1.symm, h2.symm⟩
    · exact ⟨s1, by rw [h.fr hx]; exact g, rfl, rfl⟩

theorem id_eff {P : Nat → Prop} (h : OutEff P c c') : IdOk c c' := by
  constructor
  · intro x s' g
    obtain ⟨s, k1, k2, _⟩ := h.back g
    exact .inr ⟨s, k1, by rw [k2], by rw [k2]⟩
  · intro x s g _
    obtain ⟨o, k, _⟩ := h.str x s g
    exact ⟨_, k, rfl, rfl⟩

theorem id_delete (e : deleteStream c id s = .ok c') (h0 : ∀ s0, c.str id = some s0 → ¬ Crit id s0) : IdOk c c' := by
  constructor
  · intro x s' g
    rw [delete_str e] at g
    by_cases hx : x = id
    · subst hx; rw [upd_same] at g; cases g
    · rw [upd_ne _ _ hx] at g; exact .inr ⟨s', g, rfl, rfl⟩
  · intro x s0 g hc
    by_cases hx : x = id
    · subst hx; exact absurd hc (h0 _ g)
    · exact ⟨s0, by rw [delete_str e, upd_ne _ _ hx]; exact g, rfl, rfl⟩

theorem id_new (e : c'.str = upd c.str id (some s)) (h1 : s.ident = false) (h0 : c.str id = none) : IdOk c c' := by
  constructor
  · intro x s' g
    rw [e] at g
    by_cases hx : x = id
    · subst hx; rw [upd_same] at g; cases g; exact .inl h1
    · rw [upd_ne _ _ hx] at g; exact .inr ⟨s', g, rfl, rfl⟩
  · intro x s0 g hc
    by_cases hx : x = id
    · subst hx; rw [h0] at g; cases g
    · exact ⟨s0, by rw [e, upd_ne _ _ hx]; exact g, rfl, rfl⟩

theorem step_ident (h : Inv w v c) {o : Op F} {r : Ret} (ho : OpOk o) (hu : ∀ id src fin, o ≠ .uni id src fin) (e : step encode c o = .ok (c', r)) : IdOk c c' := by
  have same : ∀ {c1 : Conn E F} {r1 : Ret}, (R.ok (c1, r1) : R (Conn E F × Ret)) = .ok (c', r) → IdOk c c1 → IdOk c c' := by
    intro c1 r1 g1 g2
    obtain ⟨rfl, _⟩ := Prod.mk.inj (R.ok.inj g1); exact g2
  cases o with
  | bindControl id =>
    change bindControl c id = _ at e
    unfold bindControl at e
    split_ifs at e with h1 h2 h3
    · exact same e .refl
    · exact same e .refl
    · obtain ⟨o, _, e2⟩ := bind_ok e
      exact same e2 (id_new rfl rfl (by simpa using h3))
  | bindQpack a d =>
    change bindQpack c a d = _ at e
    unfold bindQpack at e
    split_ifs at e with h1 h2 h3
    · exact same e .refl
    · exact same e .refl
    · obtain ⟨o, _, e2⟩ := bind_ok e
      dsimp only at e2
      have k1 : IdOk c ({ createStream c a { ty := .qenc, out := o } with qenc := some a } : Conn E F) := id_new rfl rfl (by simpa using h3)
      split_ifs at e2 with h4
      · exact same e2 k1
      · obtain ⟨o2, _, e4⟩ := bind_ok e2
        exact same e4 (k1.trans (id_new rfl rfl (by simpa using h4)))
  | submitRequest id nva dr =>
    change submitRequest c id nva dr = _ at e
    unfold submitRequest at e
    split_ifs at e with g1
    · exact same e .refl
    · split at e
      · exact same e .refl
      · rename_i h0
        obtain ⟨c1, e1, e2⟩ := bind_ok e
        have hs : (createStream c id {}).str id = some {} := upd_same _ _ _
        exact same e2 ((id_new (s := {}) (id := id) rfl rfl h0 : IdOk c (createStream c id {})).trans (id_one (one_submit e1).choose_spec hs rfl rfl))
  | submitInfo id nva =>
    change submitInfo c id nva = _ at e
    unfold submitInfo at e
    split_ifs at e
    split at e
    · exact same e .refl
    · rename_i h0
      obtain ⟨c1, e1, e2⟩ := bind_ok e
      exact same e2 (id_one (one_submit e1).choose_spec h0 rfl rfl)
  | submitResponse id nva dr =>
    change submitResponse c id nva dr = _ at e
    unfold submitResponse at e
    by_cases hc : (!c.server || c.qenc.isNone) = true
    · rw [if_pos hc] at e; cases e
    rw [if_neg hc] at e
    split at e
    · exact same e .refl
    · rename_i h0
      obtain ⟨c1, e1, e2⟩ := bind_ok e
      exact same e2 (id_one (one_submit e1).choose_spec h0 rfl rfl)
  | submitTrailers id nva =>
    change submitTrailers c id nva = _ at e
    unfold submitTrailers at e
    split_ifs at e
    split at e
    · exact same e .refl
    · rename_i h0
      split_ifs at e
      · exact same e .refl
      · obtain ⟨c1, e1, e2⟩ := bind_ok e
        exact same e2 (id_one (one_submit e1).choose_spec h0 rfl rfl)
  | writev k db as =>
    obtain ⟨_, rr, hr, hc⟩ := writevStream_inv h e
    rcases hc with ⟨i, f, v, g1, g2, g3⟩ | ⟨_, rfl, _⟩ | ⟨_, c3, he, h3, e3, _⟩
    · exact id_eff g3
    · exact .refl
    · obtain ⟨_, rr', _, _, _, k5, k6⟩ := writeRequest_inv h3 e3
      rcases hn : nextTx c3 with _ | id
      · rw [k5 hn]; exact id_eff he
      · obtain ⟨c1, s1, _, k8, k9, k10⟩ := k6 id hn
        have h9 := he.trans k9
        rcases k10 with ⟨_, rfl⟩ | ⟨_, sch, rfl⟩
        · exact id_eff h9
        · exact (id_eff h9).trans (id_one (s := { s1 with sched := false }) ⟨sch, false, s1.cycle, s1.uwrite, rfl⟩ k8 rfl rfl)
  | addWrite id n =>
    change addWriteOffset c id n = _ at e
    unfold addWriteOffset at e
    split at e
    · exact same e .refl
    · rename_i h0
      obtain ⟨o, _, e2⟩ := bind_ok e
      dsimp only at e2
      split_ifs at e2
      · exact same e2 (id_one one_set h0 rfl rfl)
      · obtain ⟨c1, e3, e4⟩ := bind_ok e2
        exact same e4 (id_one (one_unschedule e3) h0 rfl rfl)
      · exact same e2 (id_one one_set h0 rfl rfl)
      · obtain ⟨c1, e3, e4⟩ := bind_ok e2
        exact same e4 (id_one (one_schedule e3) h0 rfl rfl)
  | addAck id n =>
    change addAckOffset c id n = _ at e
    unfold addAckOffset at e
    split at e
    · exact same e .refl
    · rename_i h0
      obtain ⟨o, _, e2⟩ := bind_ok e
      exact same e2 (id_one one_set h0 rfl rfl)
  | updAck id off =>
    change updateAckOffset c id off = _ at e
    unfold updateAckOffset at e
    split at e
    · exact same e .refl
    · rename_i h0
      split at e
      · exact same e .refl
      · obtain ⟨o, _, e2⟩ := bind_ok e
        exact same e2 (id_one one_set h0 rfl rfl)
  | block id =>
    change blockStream c id = _ at e
    unfold blockStream at e
    split at e
    · exact same e .refl
    · rename_i h0
      dsimp only at e
      split_ifs at e
      · obtain ⟨c1, e3, e4⟩ := bind_ok e
        exact same e4 (id_one (one_unschedule e3) h0 rfl rfl)
      · exact same e (id_one one_set h0 rfl rfl)
  | unblock id =>
    change unblockStream c id = _ at e
    unfold unblockStream at e
    split at e
    · exact same e .refl
    · rename_i h0
      dsimp only at e
      split_ifs at e
      · obtain ⟨c1, e3, e4⟩ := bind_ok e
        exact same e4 (id_one (one_ensure e3) h0 rfl rfl)
      · exact same e (id_one one_set h0 rfl rfl)
  | shutWr id =>
    change shutdownWrite c id = _ at e
    unfold shutdownWrite at e
    split at e
    · exact same e .refl
    · rename_i h0
      dsimp only at e
      split_ifs at e
      · obtain ⟨c1, e3, e4⟩ := bind_ok e
        exact same e4 (id_one (one_unschedule e3) h0 rfl rfl)
      · exact same e (id_one one_set h0 rfl rfl)
  | resume id =>
    change resumeStream c id = _ at e
    unfold resumeStream at e
    split at e
    · exact same e .refl
    · rename_i h0
      dsimp only at e
      split_ifs at e
      · obtain ⟨c1, e3, e4⟩ := bind_ok e
        exact same e4 (id_one (one_ensure e3) h0 rfl rfl)
      · exact same e (id_one one_set h0 rfl rfl)
  | shutRd id =>
    change shutdownRead c id = _ at e
    unfold shutdownRead at e
    split_ifs at e
    · exact same e .refl
    · split at e
      · exact same e .refl
      · rename_i h0
        exact same e (id_one one_set h0 rfl rfl)
  | close id =>
    change closeStream c id = _ at e
    unfold closeStream at e
    split at e
    · exact same e .refl
    · rename_i s0 h0
      split_ifs at e with hcr
      · exact same e .refl
      · obtain ⟨c1, e3, e4⟩ := bind_ok e
        have hc1 := one_unschedule e3
        dsimp only at e4
        split_ifs at e4
        · obtain ⟨c2, e5, e6⟩ := bind_ok e4
          refine same e6 ((id_one hc1 h0 rfl rfl).trans (id_delete e5 fun s1 g1 hk => ?_))
          obtain ⟨sd, cy, uw, hk1⟩ := hc1.own
          rw [hk1] at g1; cases g1
          obtain ⟨a1, _, a3⟩ := hk
          exact hcr (by simp [a1]; exact a3)
        · obtain ⟨_, _, _, _, rfl⟩ := hc1
          refine same e4 (id_one (s := { s0 with sched := false, closed := true }) ⟨_, false, _, _, set_set _ _ _ _⟩ h0 rfl rfl)
  | notice =>
    change submitNotice c = _ at e
    unfold submitNotice queueGoaway at e
    obtain ⟨c1, e1, e2⟩ := bind_ok e
    by_cases hn : c.ctrl.isNone = true
    · rw [if_pos hn] at e1; cases e1
    rw [if_neg hn] at e1
    by_cases hg : c.txGoaway < (if c.server then 2 ^ 62 - 4 else 2 ^ 62 - 1)
    · rw [if_pos hg] at e1; cases e1
    rw [if_neg hg] at e1
    obtain ⟨c2, e3, e4⟩ := bind_ok e1
    obtain rfl := R.ok.inj e4
    unfold ctrlFrame at e3
    split at e3
    · cases e3
    · rename_i id _
      split at e3
      · cases e3
      · rename_i s1 h0
        obtain rfl := R.ok.inj e3
        have := id_one (one_set (c := c) (id := id) (s := { s1 with out := { s1.out with frq := s1.out.frq ++ [.goaway (if c.server then 2 ^ 62 - 4 else 2 ^ 62 - 1)] } })) h0 rfl rfl
        exact same e2 (this.congr rfl)
  | shutdown =>
    change shutdown c = _ at e
    unfold shutdown queueGoaway at e
    obtain ⟨c1, e1, e2⟩ := bind_ok e
    by_cases hn : c.ctrl.isNone = true
    · rw [if_pos hn] at e1; cases e1
    rw [if_neg hn] at e1
    by_cases hg : c.txGoaway < (if c.server then min (2 ^ 62 - 4) (c.maxBidi + 4).toNat else 0)
    · rw [if_pos hg] at e1; cases e1
    rw [if_neg hg] at e1
    obtain ⟨c2, e3, e4⟩ := bind_ok e1
    obtain rfl := R.ok.inj e4
    unfold ctrlFrame at e3
    split at e3
    · cases e3
    · rename_i id _
      split at e3
      · cases e3
      · rename_i s1 h0
        obtain rfl := R.ok.inj e3
        have := id_one (one_set (c := c) (id := id) (s := { s1 with out := { s1.out with frq := s1.out.frq ++ [.goaway (if c.server then min (2 ^ 62 - 4) (c.maxBidi + 4).toNat else 0)] } })) h0 rfl rfl
        exact same e2 (this.congr rfl)
  | setServerPri id pri =>
    change setServerPriority c id pri = _ at e
    unfold setServerPriority at e
    split_ifs at e
    · exact same e .refl
    · split at e
      · exact same e .refl
      · rename_i h0
        obtain ⟨c1, e1, e2⟩ := bind_ok e
        exact same e2 (id_one (one_update e1) h0 rfl rfl)
  | setClientPri id va =>
    change setClientPriority c id va = _ at e
    unfold setClientPriority at e
    split_ifs at e
    · exact same e .refl
    · split at e
      · exact same e .refl
      · obtain ⟨c1, e1, e2⟩ := bind_ok e
        unfold ctrlFrame at e1
        split at e1
        · cases e1
        · split at e1
          · cases e1
          · rename_i h0
            obtain rfl := R.ok.inj e1
            exact same e2 (id_one one_set h0 rfl rfl)
  | setMaxClient n =>
    change setMaxClientStreams c n = _ at e
    unfold setMaxClientStreams at e
    split_ifs at e with h1
    exact same e (IdOk.refl.congr rfl)
  | «open» id empty =>
    change openStream c id empty = _ at e
    unfold openStream at e
    by_cases h1 : decide (id ≥ 2 ^ 62) = true
    · rw [if_pos h1] at e; cases e
    rw [if_neg h1] at e
    split at e
    · split_ifs at e
      exact same e .refl
    · rename_i h0
      by_cases h2 : c.server = true
      · rw [if_pos h2] at e
        by_cases h3 : clientBidi id = true
        · rw [if_pos h3] at e
          split at e
          · cases e
          · exact same e (id_new rfl rfl h0)
        · rw [if_neg h3] at e
          split_ifs at e
          · exact same e .refl
          · exact same e .refl
          · exact same e (id_new rfl rfl h0)
      · rw [if_neg h2] at e
        split_ifs at e with h3
        · exact same e .refl
        · exact same e (id_new rfl rfl h0)
        · exact same e .refl
  | uni id src fin => exact absurd rfl (hu id src fin)
  | priUpd id pri =>
    change onPriorityUpdate c id pri = _ at e
    unfold onPriorityUpdate at e
    by_cases h1 : (!c.server) = true
    · rw [if_pos h1] at e; cases e
    rw [if_neg h1] at e
    by_cases h2 : (!clientBidi id || decide (ordStreamId id > c.maxClient)) = true
    · rw [if_pos h2] at e; exact same e .refl
    rw [if_neg h2] at e
    split at e
    · rename_i h0
      by_cases h3 : rejects c id = true
      · rw [if_pos h3] at e; exact same e .refl
      rw [if_neg h3] at e
      split at e
      · cases e
      · exact same e .refl
      · exact same e (id_new rfl rfl h0)
    · rename_i h0
      split_ifs at e
      · exact same e .refl
      · obtain ⟨c1, e1, e2⟩ := bind_ok e
        exact same e2 (id_one (one_update e1) h0 rfl rfl)
  | hdrPri id pri =>
    change onHeaderPriority c id pri = _ at e
    unfold onHeaderPriority at e
    split at e
    · cases e
    · rename_i h0
      split_ifs at e
      · obtain ⟨c1, e1, e2⟩ := bind_ok e
        exact same e2 (id_one (one_update e1) h0 rfl rfl)
      · exact same e .refl
  | qpackBlock id =>
    change qpackBlock c id = _ at e
    unfold qpackBlock at e
    split at e
    · cases e
    · rename_i h0
      split_ifs at e
      exact same e (id_one one_set h0 rfl rfl)
  | qpackUnblock id pri again =>
    change qpackUnblock c id pri again = _ at e
    unfold qpackUnblock at e
    split at e
    · cases e
    · rename_i s0 h0
      by_cases hb : s0.qblocked = false
      · rw [if_pos hb] at e; cases e
      rw [if_neg hb] at e
      dsimp only at e
      obtain ⟨⟨c1, r1⟩, e1, e2⟩ := bind_ok e
      have hq : ∃ s1 : Strm F, (s1.ident = s0.ident ∧ s1.ty = s0.ty) ∧ One c id s1 c1 := by
        cases pri with
        | none => obtain ⟨rfl, _⟩ := Prod.mk.inj (R.ok.inj e1); exact ⟨{ s0 with qblocked := false }, ⟨rfl, rfl⟩, one_set⟩
        | some p =>
          change onHeaderPriority _ id p = _ at e1
          unfold onHeaderPriority at e1
          rw [set_str] at e1
          dsimp only at e1
          by_cases hc : ((c.set id { s0 with qblocked := false }).server && !s0.priUpd && !s0.srvPri) = true
          · rw [if_pos hc] at e1
            obtain ⟨c2, e3, e4⟩ := bind_ok e1
            obtain ⟨rfl, _⟩ := Prod.mk.inj (R.ok.inj e4)
            obtain ⟨a, b, d, f, rfl⟩ := one_update e3
            exact ⟨{ s0 with qblocked := false, pri := p }, ⟨rfl, rfl⟩, ⟨a, b, d, f, set_set { c with sched := a } id _ _⟩⟩
          · rw [if_neg hc] at e1
            obtain ⟨rfl, _⟩ := Prod.mk.inj (R.ok.inj e1); exact ⟨{ s0 with qblocked := false }, ⟨rfl, rfl⟩, one_set⟩
      obtain ⟨s1, hcl, h1⟩ := hq
      obtain ⟨sd, cy, uw, h2⟩ := h1.own
      dsimp only at e2
      rw [h2] at e2
      dsimp only at e2
      by_cases ha : again = true
      · rw [if_pos ha] at e2
        obtain ⟨a, b, d, f, rfl⟩ := h1
        refine same e2 (id_one (s := { s1 with qblocked := true, sched := sd, cycle := cy, uwrite := uw }) ⟨a, sd, cy, uw, ?_⟩ h0 hcl.1 hcl.2)
        exact set_set { c with sched := a } id _ _
      rw [if_neg ha] at e2
      by_cases hc : s1.closed = true
      · rw [if_pos hc] at e2
        obtain ⟨c2, e3, e4⟩ := bind_ok e2
        exact same e4 ((id_one h1 h0 hcl.1 hcl.2).trans (id_delete e3 fun s1 _ hk => by
          have h9 := ho.1; have h8 := hk.1; unfold clientBidi at h9; unfold streamUni at h8; simp at h9 h8; omega))
      · rw [if_neg hc] at e2
        exact same e2 (id_one h1 h0 hcl.1 hcl.2)
  | recvGoaway =>
    exact same e (IdOk.refl.congr rfl)

end Conn
end Nghttp3
