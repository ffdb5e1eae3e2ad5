import Verif.Lemmas.ConnUni
/-! Calls do not change how much of the type of a unidirectional stream has arrived, except reading from it; and such a stream goes away only
when it is closed. -/
namespace Nghttp3
namespace Conn
open PQ (upd upd_same upd_ne)
open Outq (R Frent Ans Bytes St)

variable {E F : Type} {w v : Prop} {c c' : Conn E F} {id : Nat} {s0 s : Strm F} {encode : Encode E F} {D : Nat → Prop}

/-- the stream that a call removes -/
def Goes (o : Op F) (r : Ret) (x : Nat) : Prop := o = .close x ∧ r = .code 0

/-- what is known about the type of a unidirectional stream -/
def Alike (s0 s' : Strm F) : Prop := s0.ident = s'.ident ∧ s0.ty = s'.ty ∧ s0.rv = s'.rv ∧ s0.qblocked = s'.qblocked

/-- unidirectional streams keep their type and what has arrived of it; those that are new have nothing; none goes away but those of `D` -/
structure Part (D : Nat → Prop) (c c' : Conn E F) : Prop where
  bwd : ∀ x s', streamUni x = true → c'.str x = some s' → (s'.ident = false ∧ s'.rv = {} ∧ s'.qblocked = false ∧ (c.str x = none ∨ D x)) ∨
    ∃ s0, c.str x = some s0 ∧ Alike s0 s'
  fwd : ∀ x, streamUni x = true → (c.str x).isSome = true → ¬ D x → (c'.str x).isSome = true

theorem Alike.refl {s : Strm F} : Alike s s := ⟨rfl, rfl, rfl, rfl⟩

theorem Part.refl : Part D c c := ⟨fun _ s' _ h => .inr ⟨s', h, .refl⟩, fun _ _ h _ => h⟩

theorem Part.congr {c1 : Conn E F} (h : Part D c c1) (e : c'.str = c1.str) : Part D c c' := ⟨by rw [e]; exact h.bwd, by rw [e]; exact h.fwd⟩

theorem Part.trans {c1 : Conn E F} (h1 : Part D c c1) (h2 : Part D c1 c') : Part D c c' := by
  constructor
  · intro x s' u g
    rcases h2.bwd x s' u g with ⟨k, k', kq, k2⟩ | ⟨s1, k1, k2, k3, k4, k5⟩
    · refine .inl ⟨k, k', kq, ?_⟩
      by_cases hd : D x
      · exact .inr hd
      · refine .inl ?_
        rcases k2 with k2 | k2
        · by_contra h0
          have := h1.fwd x u (by cases hc : c.str x with | none => exact absurd hc h0 | some _ => rfl) hd
          rw [k2] at this; cases this
        · exact absurd k2 hd
    · rcases h1.bwd x s1 u k1 with ⟨m, m', mq, m2⟩ | ⟨s0, m1, m2, m3, m4, m5⟩
      · exact .inl ⟨k2 ▸ m, k4 ▸ m', k5 ▸ mq, m2⟩
      · exact .inr ⟨s0, m1, m2.trans k2, m3.trans k3, m4.trans k4, m5.trans k5⟩
  · intro x u g hd
    exact h2.fwd x u (h1.fwd x u g hd) hd

theorem part_one (h : One c id s c') (h0 : c.str id = some s0) (h1 : streamUni id = true → Alike s0 s) : Part D c c' := by
  obtain ⟨sd, cy, uw, k⟩ := h.own
  constructor
  · intro x s' u g
    by_cases hx : x = id
    · subst hx
      rw [k] at g; cases g
      exact .inr ⟨s0, h0, h1 u⟩
    · rw [h.fr hx] at g
      exact .inr ⟨s', g, .refl⟩
  · intro x _ g _
    by_cases hx : x = id
    · subst hx
      rw [k]; rfl
    · rw [h.fr hx]; exact g

theorem part_eff {P : Nat → Prop} (h : OutEff P c c') : Part D c c' := by
  constructor
  · intro x s' _ g
    obtain ⟨s, k1, k2, _⟩ := h.back g
    exact .inr ⟨s, k1, by rw [k2]; exact ⟨rfl, rfl, rfl, rfl⟩⟩
  · intro x _ g _
    obtain ⟨s, g⟩ := Option.isSome_iff_exists.1 g
    obtain ⟨o, k, _⟩ := h.str x s g
    rw [k]; rfl

theorem part_delete (e : deleteStream c id s = .ok c') (h0 : streamUni id = true → D id) : Part D c c' := by
  constructor
  · intro x s' _ g
    rw [delete_str e] at g
    by_cases hx : x = id
    · subst hx; rw [upd_same] at g; cases g
    · rw [upd_ne _ _ hx] at g; exact .inr ⟨s', g, .refl⟩
  · intro x u g hd
    by_cases hx : x = id
    · subst hx; exact absurd (h0 u) hd
    · rw [delete_str e, upd_ne _ _ hx]; exact g

theorem part_new (e : c'.str = upd c.str id (some s)) (h1 : s.ident = false) (h2 : s.rv = {}) (h3 : s.qblocked = false) (h0 : c.str id = none) :
    Part D c c' := by
  constructor
  · intro x s' _ g
    rw [e] at g
    by_cases hx : x = id
    · subst hx; rw [upd_same] at g; cases g; exact .inl ⟨h1, h2, h3, .inl h0⟩
    · rw [upd_ne _ _ hx] at g; exact .inr ⟨s', g, .refl⟩
  · intro x _ g _
    by_cases hx : x = id
    · subst hx; rw [h0] at g; cases g
    · rw [e, upd_ne _ _ hx]; exact g

theorem bidi_uni {x : Nat} (h : clientBidi x = true) (u : streamUni x = true) : False := by
  unfold clientBidi at h; unfold streamUni at u; simp at h u; omega

theorem step_part (h : Inv w v c) {o : Op F} {r : Ret} (ho : OpOk o) (hu : ∀ id src fin, o ≠ .uni id src fin)
    (hq : ∀ id, o = .qpackBlock id → clientBidi id = true) (e : step encode c o = .ok (c', r)) : Part (Goes o r) c c' := by
  have same : ∀ {c1 : Conn E F} {r1 : Ret}, (R.ok (c1, r1) : R (Conn E F × Ret)) = .ok (c', r) → Part (Goes o r) c c1 → Part (Goes o r) c c' := by
    intro c1 r1 g1 g2
    obtain ⟨rfl, _⟩ := Prod.mk.inj (R.ok.inj g1); exact g2
  cases o with
  | bindControl id =>
    change bindControl c id = _ at e
    unfold bindControl at e
    split_ifs at e with h1 h2 h3
    · exact same e .refl
    · exact same e .refl
    · obtain ⟨o, _, e2⟩ := bind_ok e
      exact same e2 (part_new rfl rfl rfl rfl (by simpa using h3))
  | bindQpack a d =>
    change bindQpack c a d = _ at e
    unfold bindQpack at e
    split_ifs at e with h1 h2 h3
    · exact same e .refl
    · exact same e .refl
    · obtain ⟨o, _, e2⟩ := bind_ok e
      dsimp only at e2
      have k1 : Part (Goes (.bindQpack a d : Op F) r) c ({ createStream c a { ty := .qenc, out := o } with qenc := some a } : Conn E F) := part_new rfl rfl rfl rfl (by simpa using h3)
      split_ifs at e2 with h4
      · exact same e2 k1
      · obtain ⟨o2, _, e4⟩ := bind_ok e2
        exact same e4 (k1.trans (part_new rfl rfl rfl rfl (by simpa using h4)))
  | submitRequest id nva dr =>
    change submitRequest c id nva dr = _ at e
    unfold submitRequest at e
    split_ifs at e with g1
    · exact same e .refl
    · split at e
      · exact same e .refl
      · rename_i h0
        obtain ⟨c1, e1, e2⟩ := bind_ok e
        have hs : (createStream c id {}).str id = some {} := upd_same _ _ _
        exact same e2 ((part_new (s := {}) (id := id) rfl rfl rfl rfl h0 : Part (Goes _ r) c (createStream c id {})).trans (part_one (one_submit e1).choose_spec hs fun _ => ⟨rfl, rfl, rfl, rfl⟩))
  | submitInfo id nva =>
    change submitInfo c id nva = _ at e
    unfold submitInfo at e
    split_ifs at e
    split at e
    · exact same e .refl
    · rename_i h0
      obtain ⟨c1, e1, e2⟩ := bind_ok e
      exact same e2 (part_one (one_submit e1).choose_spec h0 fun _ => ⟨rfl, rfl, rfl, rfl⟩)
  | submitResponse id nva dr =>
    change submitResponse c id nva dr = _ at e
    unfold submitResponse at e
    by_cases hc : (!c.server || c.qenc.isNone) = true
    · rw [if_pos hc] at e; cases e
    rw [if_neg hc] at e
    split at e
    · exact same e .refl
    · rename_i h0
      obtain ⟨c1, e1, e2⟩ := bind_ok e
      exact same e2 (part_one (one_submit e1).choose_spec h0 fun _ => ⟨rfl, rfl, rfl, rfl⟩)
  | submitTrailers id nva =>
    change submitTrailers c id nva = _ at e
    unfold submitTrailers at e
    split_ifs at e
    split at e
    · exact same e .refl
    · rename_i h0
      split_ifs at e
      · exact same e .refl
      · obtain ⟨c1, e1, e2⟩ := bind_ok e
        exact same e2 (part_one (one_submit e1).choose_spec h0 fun _ => ⟨rfl, rfl, rfl, rfl⟩)
  | writev k db as =>
    obtain ⟨_, rr, hr, hc⟩ := writevStream_inv h e
    rcases hc with ⟨i, f, v, g1, g2, g3⟩ | ⟨_, rfl, _⟩ | ⟨_, c3, he, h3, e3, _⟩
    · exact part_eff g3
    · exact .refl
    · obtain ⟨_, rr', _, _, _, k5, k6⟩ := writeRequest_inv h3 e3
      rcases hn : nextTx c3 with _ | id
      · rw [k5 hn]; exact part_eff he
      · obtain ⟨c1, s1, _, k8, k9, k10⟩ := k6 id hn
        have h9 := he.trans k9
        rcases k10 with ⟨_, rfl⟩ | ⟨_, sch, rfl⟩
        · exact part_eff h9
        · exact (part_eff h9).trans (part_one (s := { s1 with sched := false }) ⟨sch, false, s1.cycle, s1.uwrite, rfl⟩ k8 fun _ => ⟨rfl, rfl, rfl, rfl⟩)
  | addWrite id n =>
    change addWriteOffset c id n = _ at e
    unfold addWriteOffset at e
    split at e
    · exact same e .refl
    · rename_i h0
      obtain ⟨o, _, e2⟩ := bind_ok e
      dsimp only at e2
      split_ifs at e2
      · exact same e2 (part_one one_set h0 fun _ => ⟨rfl, rfl, rfl, rfl⟩)
      · obtain ⟨c1, e3, e4⟩ := bind_ok e2
        exact same e4 (part_one (one_unschedule e3) h0 fun _ => ⟨rfl, rfl, rfl, rfl⟩)
      · exact same e2 (part_one one_set h0 fun _ => ⟨rfl, rfl, rfl, rfl⟩)
      · obtain ⟨c1, e3, e4⟩ := bind_ok e2
        exact same e4 (part_one (one_schedule e3) h0 fun _ => ⟨rfl, rfl, rfl, rfl⟩)
  | addAck id n =>
    change addAckOffset c id n = _ at e
    unfold addAckOffset at e
    split at e
    · exact same e .refl
    · rename_i h0
      obtain ⟨o, _, e2⟩ := bind_ok e
      exact same e2 (part_one one_set h0 fun _ => ⟨rfl, rfl, rfl, rfl⟩)
  | updAck id off =>
    change updateAckOffset c id off = _ at e
    unfold updateAckOffset at e
    split at e
    · exact same e .refl
    · rename_i h0
      split at e
      · exact same e .refl
      · obtain ⟨o, _, e2⟩ := bind_ok e
        exact same e2 (part_one one_set h0 fun _ => ⟨rfl, rfl, rfl, rfl⟩)
  | block id =>
    change blockStream c id = _ at e
    unfold blockStream at e
    split at e
    · exact same e .refl
    · rename_i h0
      dsimp only at e
      split_ifs at e
      · obtain ⟨c1, e3, e4⟩ := bind_ok e
        exact same e4 (part_one (one_unschedule e3) h0 fun _ => ⟨rfl, rfl, rfl, rfl⟩)
      · exact same e (part_one one_set h0 fun _ => ⟨rfl, rfl, rfl, rfl⟩)
  | unblock id =>
    change unblockStream c id = _ at e
    unfold unblockStream at e
    split at e
    · exact same e .refl
    · rename_i h0
      dsimp only at e
      split_ifs at e
      · obtain ⟨c1, e3, e4⟩ := bind_ok e
        exact same e4 (part_one (one_ensure e3) h0 fun _ => ⟨rfl, rfl, rfl, rfl⟩)
      · exact same e (part_one one_set h0 fun _ => ⟨rfl, rfl, rfl, rfl⟩)
  | shutWr id =>
    change shutdownWrite c id = _ at e
    unfold shutdownWrite at e
    split at e
    · exact same e .refl
    · rename_i h0
      dsimp only at e
      split_ifs at e
      · obtain ⟨c1, e3, e4⟩ := bind_ok e
        exact same e4 (part_one (one_unschedule e3) h0 fun _ => ⟨rfl, rfl, rfl, rfl⟩)
      · exact same e (part_one one_set h0 fun _ => ⟨rfl, rfl, rfl, rfl⟩)
  | resume id =>
    change resumeStream c id = _ at e
    unfold resumeStream at e
    split at e
    · exact same e .refl
    · rename_i h0
      dsimp only at e
      split_ifs at e
      · obtain ⟨c1, e3, e4⟩ := bind_ok e
        exact same e4 (part_one (one_ensure e3) h0 fun _ => ⟨rfl, rfl, rfl, rfl⟩)
      · exact same e (part_one one_set h0 fun _ => ⟨rfl, rfl, rfl, rfl⟩)
  | shutRd id =>
    change shutdownRead c id = _ at e
    unfold shutdownRead at e
    split_ifs at e
    · exact same e .refl
    · split at e
      · exact same e .refl
      · rename_i h0
        exact same e (part_one one_set h0 fun _ => ⟨rfl, rfl, rfl, rfl⟩)
  | close id =>
    change closeStream c id = _ at e
    unfold closeStream at e
    split at e
    · exact same e .refl
    · rename_i s0 h0
      split_ifs at e with hcr
      · exact same e .refl
      · obtain ⟨c1, e3, e4⟩ := bind_ok e
        have hc1 := one_unschedule e3
        dsimp only at e4
        split_ifs at e4
        · obtain ⟨c2, e5, e6⟩ := bind_ok e4
          refine same e6 ((part_one hc1 h0 fun _ => ⟨rfl, rfl, rfl, rfl⟩).trans (part_delete e5 fun _ => ⟨rfl, ?_⟩))
          exact (Prod.mk.inj (R.ok.inj e6)).2.symm
        · obtain ⟨_, _, _, _, rfl⟩ := hc1
          refine same e4 (part_one (s := { s0 with sched := false, closed := true }) ⟨_, false, _, _, set_set _ _ _ _⟩ h0 fun _ => ⟨rfl, rfl, rfl, rfl⟩)
  | notice =>
    change submitNotice c = _ at e
    unfold submitNotice queueGoaway at e
    obtain ⟨c1, e1, e2⟩ := bind_ok e
    by_cases hn : c.ctrl.isNone = true
    · rw [if_pos hn] at e1; cases e1
    rw [if_neg hn] at e1
    by_cases hg : c.txGoaway < (if c.server then 2 ^ 62 - 4 else 2 ^ 62 - 1)
    · rw [if_pos hg] at e1; cases e1
    rw [if_neg hg] at e1
    obtain ⟨c2, e3, e4⟩ := bind_ok e1
    obtain rfl := R.ok.inj e4
    unfold ctrlFrame at e3
    split at e3
    · cases e3
    · rename_i id _
      split at e3
      · cases e3
      · rename_i s1 h0
        obtain rfl := R.ok.inj e3
        have := part_one (D := Goes (.notice : Op F) r) (one_set (c := c) (id := id) (s := { s1 with out := { s1.out with frq := s1.out.frq ++ [.goaway (if c.server then 2 ^ 62 - 4 else 2 ^ 62 - 1)] } })) h0 fun _ => ⟨rfl, rfl, rfl, rfl⟩
        exact same e2 (this.congr rfl)
  | shutdown =>
    change shutdown c = _ at e
    unfold shutdown queueGoaway at e
    obtain ⟨c1, e1, e2⟩ := bind_ok e
    by_cases hn : c.ctrl.isNone = true
    · rw [if_pos hn] at e1; cases e1
    rw [if_neg hn] at e1
    by_cases hg : c.txGoaway < (if c.server then min (2 ^ 62 - 4) (c.maxBidi + 4).toNat else 0)
    · rw [if_pos hg] at e1; cases e1
    rw [if_neg hg] at e1
    obtain ⟨c2, e3, e4⟩ := bind_ok e1
    obtain rfl := R.ok.inj e4
    unfold ctrlFrame at e3
    split at e3
    · cases e3
    · rename_i id _
      split at e3
      · cases e3
      · rename_i s1 h0
        obtain rfl := R.ok.inj e3
        have := part_one (D := Goes (.shutdown : Op F) r) (one_set (c := c) (id := id) (s := { s1 with out := { s1.out with frq := s1.out.frq ++ [.goaway (if c.server then min (2 ^ 62 - 4) (c.maxBidi + 4).toNat else 0)] } })) h0 fun _ => ⟨rfl, rfl, rfl, rfl⟩
        exact same e2 (this.congr rfl)
  | setServerPri id pri =>
    change setServerPriority c id pri = _ at e
    unfold setServerPriority at e
    split_ifs at e
    · exact same e .refl
    · split at e
      · exact same e .refl
      · rename_i h0
        obtain ⟨c1, e1, e2⟩ := bind_ok e
        exact same e2 (part_one (one_update e1) h0 fun _ => ⟨rfl, rfl, rfl, rfl⟩)
  | setClientPri id va =>
    change setClientPriority c id va = _ at e
    unfold setClientPriority at e
    split_ifs at e
    · exact same e .refl
    · split at e
      · exact same e .refl
      · obtain ⟨c1, e1, e2⟩ := bind_ok e
        unfold ctrlFrame at e1
        split at e1
        · cases e1
        · split at e1
          · cases e1
          · rename_i h0
            obtain rfl := R.ok.inj e1
            exact same e2 (part_one one_set h0 fun _ => ⟨rfl, rfl, rfl, rfl⟩)
  | setMaxClient n =>
    change setMaxClientStreams c n = _ at e
    unfold setMaxClientStreams at e
    split_ifs at e with h1
    exact same e (Part.refl.congr rfl)
  | «open» id empty =>
    change openStream c id empty = _ at e
    unfold openStream at e
    by_cases h1 : decide (id ≥ 2 ^ 62) = true
    · rw [if_pos h1] at e; cases e
    rw [if_neg h1] at e
    split at e
    · split_ifs at e
      exact same e .refl
    · rename_i h0
      by_cases h2 : c.server = true
      · rw [if_pos h2] at e
        by_cases h3 : clientBidi id = true
        · rw [if_pos h3] at e
          split at e
          · cases e
          · exact same e (part_new rfl rfl rfl rfl h0)
        · rw [if_neg h3] at e
          split_ifs at e
          · exact same e .refl
          · exact same e .refl
          · exact same e (part_new rfl rfl rfl rfl h0)
      · rw [if_neg h2] at e
        split_ifs at e with h3
        · exact same e .refl
        · exact same e (part_new rfl rfl rfl rfl h0)
        · exact same e .refl
  | uni id src fin => exact absurd rfl (hu id src fin)
  | priUpd id pri =>
    change onPriorityUpdate c id pri = _ at e
    unfold onPriorityUpdate at e
    by_cases h1 : (!c.server) = true
    · rw [if_pos h1] at e; cases e
    rw [if_neg h1] at e
    by_cases h2 : (!clientBidi id || decide (ordStreamId id > c.maxClient)) = true
    · rw [if_pos h2] at e; exact same e .refl
    rw [if_neg h2] at e
    split at e
    · rename_i h0
      by_cases h3 : rejects c id = true
      · rw [if_pos h3] at e; exact same e .refl
      rw [if_neg h3] at e
      split at e
      · cases e
      · exact same e .refl
      · exact same e (part_new rfl rfl rfl rfl h0)
    · rename_i h0
      split_ifs at e
      · exact same e .refl
      · obtain ⟨c1, e1, e2⟩ := bind_ok e
        exact same e2 (part_one (one_update e1) h0 fun _ => ⟨rfl, rfl, rfl, rfl⟩)
  | hdrPri id pri =>
    change onHeaderPriority c id pri = _ at e
    unfold onHeaderPriority at e
    split at e
    · cases e
    · rename_i h0
      split_ifs at e
      · obtain ⟨c1, e1, e2⟩ := bind_ok e
        exact same e2 (part_one (one_update e1) h0 fun _ => ⟨rfl, rfl, rfl, rfl⟩)
      · exact same e .refl
  | qpackBlock id =>
    have nu : streamUni id = true → False := fun u => bidi_uni (hq id rfl) u
    change qpackBlock c id = _ at e
    unfold qpackBlock at e
    split at e
    · cases e
    · rename_i h0
      split_ifs at e
      exact same e (part_one one_set h0 fun u => (nu u).elim)
  | qpackUnblock id pri again =>
    have nu : streamUni id = true → False := fun u => bidi_uni ho.1 u
    change qpackUnblock c id pri again = _ at e
    unfold qpackUnblock at e
    split at e
    · cases e
    · rename_i s0 h0
      by_cases hb : s0.qblocked = false
      · rw [if_pos hb] at e; cases e
      rw [if_neg hb] at e
      dsimp only at e
      obtain ⟨⟨c1, r1⟩, e1, e2⟩ := bind_ok e
      have hq : ∃ s1 : Strm F, (s1.ident = s0.ident ∧ s1.ty = s0.ty ∧ s1.rv = s0.rv) ∧ One c id s1 c1 := by
        cases pri with
        | none => obtain ⟨rfl, _⟩ := Prod.mk.inj (R.ok.inj e1); exact ⟨{ s0 with qblocked := false }, ⟨rfl, rfl, rfl⟩, one_set⟩
        | some p =>
          change onHeaderPriority _ id p = _ at e1
          unfold onHeaderPriority at e1
          rw [set_str] at e1
          dsimp only at e1
          by_cases hc : ((c.set id { s0 with qblocked := false }).server && !s0.priUpd && !s0.srvPri) = true
          · rw [if_pos hc] at e1
            obtain ⟨c2, e3, e4⟩ := bind_ok e1
            obtain ⟨rfl, _⟩ := Prod.mk.inj (R.ok.inj e4)
            obtain ⟨a, b, d, f, rfl⟩ := one_update e3
            exact ⟨{ s0 with qblocked := false, pri := p }, ⟨rfl, rfl, rfl⟩, ⟨a, b, d, f, set_set { c with sched := a } id _ _⟩⟩
          · rw [if_neg hc] at e1
            obtain ⟨rfl, _⟩ := Prod.mk.inj (R.ok.inj e1); exact ⟨{ s0 with qblocked := false }, ⟨rfl, rfl, rfl⟩, one_set⟩
      obtain ⟨s1, hcl, h1⟩ := hq
      obtain ⟨sd, cy, uw, h2⟩ := h1.own
      dsimp only at e2
      rw [h2] at e2
      dsimp only at e2
      by_cases ha : again = true
      · rw [if_pos ha] at e2
        obtain ⟨a, b, d, f, rfl⟩ := h1
        refine same e2 (part_one (s := { s1 with qblocked := true, sched := sd, cycle := cy, uwrite := uw }) ⟨a, sd, cy, uw, ?_⟩ h0 fun u => (nu u).elim)
        exact set_set { c with sched := a } id _ _
      rw [if_neg ha] at e2
      by_cases hc : s1.closed = true
      · rw [if_pos hc] at e2
        obtain ⟨c2, e3, e4⟩ := bind_ok e2
        exact same e4 ((part_one h1 h0 fun u => (nu u).elim).trans (part_delete e3 fun u => (nu u).elim))
      · rw [if_neg hc] at e2
        exact same e2 (part_one h1 h0 fun u => (nu u).elim)
  | recvGoaway =>
    exact same e (Part.refl.congr rfl)

end Conn
end Nghttp3
