import Verif.Lemmas.ConnPri
import Verif.Lemmas.ConnConst
/-! Which request streams exist: how calls create and remove them. -/
namespace Nghttp3
namespace Conn
open PQ (upd upd_same upd_ne)
open Outq (R Frent Ans Bytes St)

variable {E F : Type} {w v : Prop} {c c' : Conn E F} {id : Nat} {s0 s : Strm F} {encode : Encode E F}

/-- how one call changes the set of request streams, and the calls of stream_close -/
inductive LifeStep (c c' : Conn E F) : Op F → Prop where
  | same (o : Op F) (h1 : ∀ x, clientBidi x = true → (c'.str x).isSome = (c.str x).isSome) (h2 : c'.closes = c.closes) : LifeStep c c' o
  | made (o : Op F) (x : Nat) (ho : (∃ n d, o = .submitRequest x n d) ∨ (∃ b, o = .«open» x b) ∨ ∃ p, o = .priUpd x p) (hx : clientBidi x = true)
      (h0 : c.str x = none) (h0' : (c'.str x).isSome = true)
      (h1 : ∀ y, y ≠ x → clientBidi y = true → (c'.str y).isSome = (c.str y).isSome) (h2 : c'.closes = c.closes) : LifeStep c c' o
  | gone (o : Op F) (x : Nat) (s0 : Strm F) (ho : o = .close x ∨ (s0.closed = true ∧ ∃ p, o = .qpackUnblock x p false)) (hx : clientBidi x = true)
      (h0 : c.str x = some s0) (h0' : c'.str x = none)
      (h1 : ∀ y, y ≠ x → clientBidi y = true → (c'.str y).isSome = (c.str y).isSome) (h2 : c'.closes = x :: c.closes) : LifeStep c c' o

theorem LifeStep.refl (o : Op F) : LifeStep c c o := .same o (fun _ _ => rfl) rfl

theorem life_one {o : Op F} (h : One c id s c') (h0 : c.str id = some s0) : LifeStep c c' o := by
  obtain ⟨a, b, d, e, rfl⟩ := h
  refine .same _ (fun x _ => ?_) rfl
  by_cases hx : x = id
  · subst hx; rw [set_str, h0]; rfl
  · rw [set_ne _ _ _ _ hx]

theorem life_uni {o : Op F} (h1 : ∀ x, clientBidi x = true → c'.str x = c.str x) (h2 : c'.closes = c.closes) : LifeStep c c' o :=
  .same _ (fun x hx => by rw [h1 x hx]) h2

theorem life_eff {P : Nat → Prop} {o : Op F} (h : OutEff P c c') : LifeStep c c' o := by
  refine .same _ (fun x _ => ?_) ?_
  · rcases hx : c.str x with _ | s
    · rw [h.none x hx]
    · obtain ⟨o, g, _⟩ := h.str x s hx; rw [g]; rfl
  · obtain ⟨e, st, rfl⟩ := h.eq; rfl

theorem life_create {o : Op F} {c1 : Conn E F} (ho : (∃ n d, o = .submitRequest id n d) ∨ (∃ b, o = .«open» id b) ∨ ∃ p, o = .priUpd id p)
    (hb : clientBidi id = true) (h0 : c.str id = none)
    (h1 : ∀ y, c1.str y = c.str y) (h2 : c1.closes = c.closes) (h : ∃ o, One (createStream c1 id s0) id o c') : LifeStep c c' o := by
  obtain ⟨_, a, b, d, e, rfl⟩ := h
  refine .made o id ho hb h0 (by rw [set_str]; rfl) (fun y hy _ => ?_) h2
  rw [set_ne _ _ _ _ hy]
  show (upd c1.str id (some s0) y).isSome = _
  rw [upd_ne _ _ hy, h1]

theorem life_delete {o : Op F} {c1 : Conn E F} {s1 : Strm F} (ho : o = .close id ∨ (s0.closed = true ∧ ∃ p, o = .qpackUnblock id p false)) (h0 : c.str id = some s0) (hb : clientBidi id = true)
    (h1 : ∀ y, y ≠ id → clientBidi y = true → (c1.str y).isSome = (c.str y).isSome) (h2 : c1.closes = c.closes)
    (e : deleteStream c1 id s1 = .ok c') : LifeStep c c' o := by
  have hs := delete_str e
  refine .gone o id s0 ho hb h0 (by rw [hs, upd_same]) (fun y hy hyb => by rw [hs, upd_ne _ _ hy, h1 y hy hyb]) ?_
  unfold deleteStream at e
  by_cases g1 : (c1.server && clientBidi id && c1.num == 0) = true
  · rw [if_pos g1] at e; cases e
  rw [if_neg g1] at e
  by_cases g2 : s1.sched = true
  · rw [if_pos g2] at e; cases e
  rw [if_neg g2] at e
  obtain rfl := R.ok.inj e
  show (if clientBidi id = true then id :: c1.closes else c1.closes) = _
  rw [if_pos hb, h2]

theorem step_life (h : Inv w v c) {o : Op F} {r : Ret} (h1 : OpOk o) (e : step encode c o = .ok (c', r)) : LifeStep c c' o := by
  have same : ∀ {c1 : Conn E F} {r1 : Ret} {o : Op F}, (R.ok (c1, r1) : R (Conn E F × Ret)) = .ok (c', r) → LifeStep c c1 o → LifeStep c c' o := by
    intro c1 r1 o g1 g2
    obtain ⟨rfl, _⟩ := Prod.mk.inj (R.ok.inj g1); exact g2
  cases o with
  | bindControl id =>
    refine life_uni (fun x hx => fr_bindControl e hx) ?_
    change bindControl c id = _ at e
    unfold bindControl at e
    split_ifs at e with h1 h2 h3
    · obtain ⟨rfl, _⟩ := Prod.mk.inj (R.ok.inj e); rfl
    · obtain ⟨rfl, _⟩ := Prod.mk.inj (R.ok.inj e); rfl
    · obtain ⟨o, _, e2⟩ := bind_ok e
      obtain ⟨rfl, _⟩ := Prod.mk.inj (R.ok.inj e2); rfl
  | bindQpack a d =>
    refine life_uni (fun x hx => fr_bindQpack e hx) ?_
    change bindQpack c a d = _ at e
    unfold bindQpack at e
    split_ifs at e with h1 h2 h3
    · obtain ⟨rfl, _⟩ := Prod.mk.inj (R.ok.inj e); rfl
    · obtain ⟨rfl, _⟩ := Prod.mk.inj (R.ok.inj e); rfl
    · obtain ⟨o, _, e2⟩ := bind_ok e
      dsimp only at e2
      split_ifs at e2
      · obtain ⟨rfl, _⟩ := Prod.mk.inj (R.ok.inj e2); rfl
      · obtain ⟨o2, _, e4⟩ := bind_ok e2
        obtain ⟨rfl, _⟩ := Prod.mk.inj (R.ok.inj e4); rfl
  | submitRequest id nva dr =>
    change submitRequest c id nva dr = _ at e
    unfold submitRequest at e
    split_ifs at e with g1
    · exact same e (.refl _)
    · split at e
      · exact same e (.refl _)
      · rename_i h0
        obtain ⟨c1, e1, e2⟩ := bind_ok e
        obtain ⟨_, ho⟩ := one_submit e1
        have hb : clientBidi id = true := by revert g1; cases clientBidi id <;> simp
        exact same e2 (life_create (Or.inl ⟨_, _, rfl⟩) hb h0 (fun _ => rfl) rfl ⟨_, ho⟩)
  | submitInfo id nva =>
    change submitInfo c id nva = _ at e
    unfold submitInfo at e
    split_ifs at e
    split at e
    · exact same e (.refl _)
    · rename_i h0
      obtain ⟨c1, e1, e2⟩ := bind_ok e
      exact same e2 (life_one (one_submit e1).choose_spec h0)
  | submitResponse id nva dr =>
    change submitResponse c id nva dr = _ at e
    unfold submitResponse at e
    by_cases hc : (!c.server || c.qenc.isNone) = true
    · rw [if_pos hc] at e; cases e
    rw [if_neg hc] at e
    split at e
    · exact same e (.refl _)
    · rename_i h0
      obtain ⟨c1, e1, e2⟩ := bind_ok e
      exact same e2 (life_one (one_submit e1).choose_spec h0)
  | submitTrailers id nva =>
    change submitTrailers c id nva = _ at e
    unfold submitTrailers at e
    split_ifs at e
    split at e
    · exact same e (.refl _)
    · rename_i h0
      split_ifs at e
      · exact same e (.refl _)
      · obtain ⟨c1, e1, e2⟩ := bind_ok e
        exact same e2 (life_one (one_submit e1).choose_spec h0)
  | writev k db as =>
    obtain ⟨_, rr, hr, hc⟩ := writevStream_inv h e
    rcases hc with ⟨i, f, v, g1, g2, g3⟩ | ⟨_, rfl, _⟩ | ⟨_, c3, he, h3, e3, _⟩
    · exact life_eff g3
    · exact .refl _
    · obtain ⟨_, rr', _, _, _, k5, k6⟩ := writeRequest_inv h3 e3
      rcases hn : nextTx c3 with _ | id
      · rw [k5 hn]; exact life_eff he
      · obtain ⟨c1, s1, _, k8, k9, k10⟩ := k6 id hn
        have h9 := he.trans k9
        rcases k10 with ⟨_, rfl⟩ | ⟨_, sch, rfl⟩
        · exact life_eff h9
        · refine .same _ (fun x hx => ?_) ?_
          · have : (({ c1 with sched := sch }.set id { s1 with sched := false } : Conn E F).str x).isSome = (c1.str x).isSome := by
              by_cases hxi : x = id
              · subst hxi; rw [set_str, k8]; rfl
              · rw [set_ne _ _ _ _ hxi]
            rw [this]
            rcases hc : c.str x with _ | s
            · rw [h9.none x hc]
            · obtain ⟨o, g, _⟩ := h9.str x s hc; rw [g]; rfl
          · obtain ⟨e, st, rfl⟩ := h9.eq; rfl
  | addWrite id n =>
    change addWriteOffset c id n = _ at e
    unfold addWriteOffset at e
    split at e
    · exact same e (.refl _)
    · rename_i h0
      obtain ⟨o, _, e2⟩ := bind_ok e
      dsimp only at e2
      split_ifs at e2
      · exact same e2 (life_one one_set h0)
      · obtain ⟨c1, e3, e4⟩ := bind_ok e2
        exact same e4 (life_one (one_unschedule e3) h0)
      · exact same e2 (life_one one_set h0)
      · obtain ⟨c1, e3, e4⟩ := bind_ok e2
        exact same e4 (life_one (one_schedule e3) h0)
  | addAck id n =>
    change addAckOffset c id n = _ at e
    unfold addAckOffset at e
    split at e
    · exact same e (.refl _)
    · rename_i h0
      obtain ⟨o, _, e2⟩ := bind_ok e
      exact same e2 (life_one one_set h0)
  | updAck id off =>
    change updateAckOffset c id off = _ at e
    unfold updateAckOffset at e
    split at e
    · exact same e (.refl _)
    · rename_i h0
      split at e
      · exact same e (.refl _)
      · obtain ⟨o, _, e2⟩ := bind_ok e
        exact same e2 (life_one one_set h0)
  | block id =>
    change blockStream c id = _ at e
    unfold blockStream at e
    split at e
    · exact same e (.refl _)
    · rename_i h0
      dsimp only at e
      split_ifs at e
      · obtain ⟨c1, e3, e4⟩ := bind_ok e
        exact same e4 (life_one (one_unschedule e3) h0)
      · exact same e (life_one one_set h0)
  | unblock id =>
    change unblockStream c id = _ at e
    unfold unblockStream at e
    split at e
    · exact same e (.refl _)
    · rename_i h0
      dsimp only at e
      split_ifs at e
      · obtain ⟨c1, e3, e4⟩ := bind_ok e
        exact same e4 (life_one (one_ensure e3) h0)
      · exact same e (life_one one_set h0)
  | shutWr id =>
    change shutdownWrite c id = _ at e
    unfold shutdownWrite at e
    split at e
    · exact same e (.refl _)
    · rename_i h0
      dsimp only at e
      split_ifs at e
      · obtain ⟨c1, e3, e4⟩ := bind_ok e
        exact same e4 (life_one (one_unschedule e3) h0)
      · exact same e (life_one one_set h0)
  | resume id =>
    change resumeStream c id = _ at e
    unfold resumeStream at e
    split at e
    · exact same e (.refl _)
    · rename_i h0
      dsimp only at e
      split_ifs at e
      · obtain ⟨c1, e3, e4⟩ := bind_ok e
        exact same e4 (life_one (one_ensure e3) h0)
      · exact same e (life_one one_set h0)
  | shutRd id =>
    change shutdownRead c id = _ at e
    unfold shutdownRead at e
    split_ifs at e
    · exact same e (.refl _)
    · split at e
      · exact same e (.refl _)
      · rename_i h0
        exact same e (life_one one_set h0)
  | close id =>
    change closeStream c id = _ at e
    unfold closeStream at e
    split at e
    · exact same e (.refl _)
    · rename_i s0 h0
      split_ifs at e
      · exact same e (.refl _)
      · obtain ⟨c1, e3, e4⟩ := bind_ok e
        have hc1 := one_unschedule e3
        dsimp only at e4
        split_ifs at e4
        · obtain ⟨c2, e5, e6⟩ := bind_ok e4
          by_cases hb : clientBidi id = true
          · refine same e6 (life_delete (c := c) (Or.inl rfl) h0 hb (fun y hy _ => by rw [hc1.fr hy]) ?_ e5)
            obtain ⟨_, _, _, _, rfl⟩ := hc1; rfl
          · refine same e6 (.same _ (fun x hx => ?_) ?_)
            · have hne : x ≠ id := by rintro rfl; exact hb hx
              rw [delete_str e5, upd_ne _ _ hne, hc1.fr hne]
            · unfold deleteStream at e5
              rw [if_neg (by simp [hb]), if_neg (by simp)] at e5
              obtain rfl := R.ok.inj e5
              show (if clientBidi id = true then _ else c1.closes) = _
              rw [if_neg hb]
              obtain ⟨_, _, _, _, rfl⟩ := hc1; rfl
        · obtain ⟨_, _, _, _, rfl⟩ := hc1
          refine same e4 (.same _ (fun x _ => ?_) rfl)
          by_cases hx : x = id
          · subst hx; rw [set_str, h0]; rfl
          · rw [set_ne _ _ _ _ hx, set_ne _ _ _ _ hx]
  | notice =>
    change submitNotice c = _ at e
    unfold submitNotice queueGoaway at e
    obtain ⟨c1, e1, e2⟩ := bind_ok e
    by_cases hn : c.ctrl.isNone = true
    · rw [if_pos hn] at e1; cases e1
    rw [if_neg hn] at e1
    by_cases hg : c.txGoaway < (if c.server then 2 ^ 62 - 4 else 2 ^ 62 - 1)
    · rw [if_pos hg] at e1; cases e1
    rw [if_neg hg] at e1
    obtain ⟨c2, e3, e4⟩ := bind_ok e1
    obtain rfl := R.ok.inj e4
    unfold ctrlFrame at e3
    split at e3
    · cases e3
    · rename_i id _
      split at e3
      · cases e3
      · rename_i h0
        obtain rfl := R.ok.inj e3
        refine same e2 (.same _ (fun x _ => ?_) rfl)
        change ((Conn.set c id _).str x).isSome = _
        by_cases hx : x = id
        · subst hx; rw [set_str, h0]; rfl
        · rw [set_ne _ _ _ _ hx]
  | shutdown =>
    change shutdown c = _ at e
    unfold shutdown queueGoaway at e
    obtain ⟨c1, e1, e2⟩ := bind_ok e
    by_cases hn : c.ctrl.isNone = true
    · rw [if_pos hn] at e1; cases e1
    rw [if_neg hn] at e1
    by_cases hg : c.txGoaway < (if c.server then min (2 ^ 62 - 4) (c.maxBidi + 4).toNat else 0)
    · rw [if_pos hg] at e1; cases e1
    rw [if_neg hg] at e1
    obtain ⟨c2, e3, e4⟩ := bind_ok e1
    obtain rfl := R.ok.inj e4
    unfold ctrlFrame at e3
    split at e3
    · cases e3
    · rename_i id _
      split at e3
      · cases e3
      · rename_i h0
        obtain rfl := R.ok.inj e3
        refine same e2 (.same _ (fun x _ => ?_) rfl)
        change ((Conn.set c id _).str x).isSome = _
        by_cases hx : x = id
        · subst hx; rw [set_str, h0]; rfl
        · rw [set_ne _ _ _ _ hx]
  | setServerPri id pri =>
    change setServerPriority c id pri = _ at e
    unfold setServerPriority at e
    split_ifs at e
    · exact same e (.refl _)
    · split at e
      · exact same e (.refl _)
      · rename_i h0
        obtain ⟨c1, e1, e2⟩ := bind_ok e
        exact same e2 (life_one (one_update e1) h0)
  | setClientPri id va =>
    change setClientPriority c id va = _ at e
    unfold setClientPriority at e
    split_ifs at e
    · exact same e (.refl _)
    · split at e
      · exact same e (.refl _)
      · obtain ⟨c1, e1, e2⟩ := bind_ok e
        unfold ctrlFrame at e1
        split at e1
        · cases e1
        · split at e1
          · cases e1
          · rename_i h0
            obtain rfl := R.ok.inj e1
            exact same e2 (life_one one_set h0)
  | setMaxClient n =>
    change setMaxClientStreams c n = _ at e
    unfold setMaxClientStreams at e
    split_ifs at e with h1
    exact same e (.same _ (fun _ _ => rfl) rfl)
  | «open» id empty =>
    change openStream c id empty = _ at e
    unfold openStream at e
    by_cases h1 : decide (id ≥ 2 ^ 62) = true
    · rw [if_pos h1] at e; cases e
    rw [if_neg h1] at e
    split at e
    · split_ifs at e
      exact same e (.refl _)
    · rename_i h0
      have cu : clientBidi id = false → LifeStep c (createStream c id {}) (Op.«open» id empty : Op F) := by
        intro hb
        refine life_uni (fun x hx => ?_) rfl
        have : x ≠ id := by rintro rfl; rw [hx] at hb; cases hb
        exact upd_ne _ _ this
      by_cases h2 : c.server = true
      · rw [if_pos h2] at e
        by_cases h3 : clientBidi id = true
        · rw [if_pos h3] at e
          split at e
          · cases e
          · obtain ⟨rfl, _⟩ := Prod.mk.inj (R.ok.inj e)
            refine .made _ id (Or.inr (Or.inl ⟨_, rfl⟩)) h3 h0 ?_ (fun y hy _ => ?_) rfl
            · show (upd c.str id _ id).isSome = true
              rw [upd_same]; rfl
            · show (upd c.str id _ y).isSome = _
              rw [upd_ne _ _ hy]
        · rw [if_neg h3] at e
          split_ifs at e
          · exact same e (.refl _)
          · exact same e (.refl _)
          · exact same e (cu (by simpa using h3))
      · rw [if_neg h2] at e
        split_ifs at e with h3
        · exact same e (.refl _)
        · refine same e (cu ?_)
          unfold serverUni at h3
          unfold clientBidi
          simp at h3 ⊢; omega
        · exact same e (.refl _)
  | uni id src fin =>
    change readUni c id src fin = _ at e
    unfold readUni at e
    by_cases h1 : ((c.server && !clientUni id) || (!c.server && !serverUni id)) = true
    · rw [if_pos h1] at e; cases e
    rw [if_neg h1] at e
    have hb : clientBidi id = false := by
      unfold clientUni serverUni at h1
      unfold clientBidi
      cases hs : c.server <;> simp [hs] at h1 ⊢ <;> omega
    have ne : ∀ {x}, clientBidi x = true → x ≠ id := by rintro x hx rfl; rw [hx] at hb; cases hb
    rcases h0 : c.str id with _ | s0 <;> rw [h0] at e
    · cases e
    · dsimp only at e
      by_cases h2 : (src.isEmpty && !fin) = true
      · rw [if_pos h2] at e; exact same e (.refl _)
      rw [if_neg h2] at e
      by_cases h3 : s0.ident = true
      · rw [if_pos h3] at e; exact same e (.refl _)
      rw [if_neg h3] at e
      by_cases h4 : src.isEmpty = true
      · rw [if_pos h4] at e
        split_ifs at e
        · exact same e (.refl _)
        · obtain ⟨c1, e1, e2⟩ := bind_ok e
          refine same e2 (life_uni (fun x hx => ?_) ?_)
          · rw [delete_str e1, upd_ne _ _ (ne hx)]
          · unfold deleteStream at e1
            rw [if_neg (by simp [hb])] at e1
            by_cases hsc : s0.sched = true
            · rw [if_pos hsc] at e1; cases e1
            rw [if_neg hsc] at e1
            obtain rfl := R.ok.inj e1
            show (if clientBidi id = true then _ else c.closes) = _
            rw [if_neg (by rw [hb]; decide)]
      · rw [if_neg h4] at e
        have su : ∀ (a b d : Bool) (s : Strm F), LifeStep c ({ c with ctrlOpened := a, qencOpened := b, qdecOpened := d }.set id s) (Op.uni id src fin : Op F) :=
          fun a b d s => life_uni (fun x hx => set_ne _ _ _ _ (ne hx)) rfl
        rcases hr : rd s0.rv src fin with _ | _ | rv | ⟨v, n⟩ <;> rw [hr] at e
        · cases e
        · exact same e (.refl _)
        · exact same e (su c.ctrlOpened c.qencOpened c.qdecOpened _)
        · dsimp only at e
          rcases ht : setUniType c s0 v with er | ⟨c1, s1⟩ <;> rw [ht] at e
          · exact same e (.refl _)
          · obtain ⟨ty, a, b, d, rfl, rfl⟩ := setUniType_ok ht
            dsimp only at e
            split_ifs at e
            · exact same e (su a b d _)
            · rcases hdl : deliverUni ty (src.drop n) fin with er | rr | rr | rr <;> rw [hdl] at e
              · exact same e (.refl _)
              · exact same e (su a b d _)
              · exact same e (su a b d _)
              · exact same e (su a b d _)
  | priUpd id pri =>
    change onPriorityUpdate c id pri = _ at e
    unfold onPriorityUpdate at e
    by_cases h1 : (!c.server) = true
    · rw [if_pos h1] at e; cases e
    rw [if_neg h1] at e
    by_cases h2 : (!clientBidi id || decide (ordStreamId id > c.maxClient)) = true
    · rw [if_pos h2] at e; exact same e (.refl _)
    rw [if_neg h2] at e
    split at e
    · rename_i h0
      by_cases h3 : rejects c id = true
      · rw [if_pos h3] at e; exact same e (.refl _)
      rw [if_neg h3] at e
      split at e
      · cases e
      · exact same e (.refl _)
      · obtain ⟨rfl, _⟩ := Prod.mk.inj (R.ok.inj e)
        refine .made _ id (Or.inr (Or.inr ⟨_, rfl⟩)) (by simp at h2; exact h2.1) h0 ?_ (fun y hy _ => ?_) rfl
        · show (upd c.str id _ id).isSome = true
          rw [upd_same]; rfl
        · show (upd c.str id _ y).isSome = _
          rw [upd_ne _ _ hy]
    · rename_i h0
      split_ifs at e
      · exact same e (.refl _)
      · obtain ⟨c1, e1, e2⟩ := bind_ok e
        exact same e2 (life_one (one_update e1) h0)
  | hdrPri id pri =>
    change onHeaderPriority c id pri = _ at e
    unfold onHeaderPriority at e
    split at e
    · cases e
    · rename_i h0
      split_ifs at e
      · obtain ⟨c1, e1, e2⟩ := bind_ok e
        exact same e2 (life_one (one_update e1) h0)
      · exact same e (.refl _)
  | qpackBlock id =>
    change qpackBlock c id = _ at e
    unfold qpackBlock at e
    split at e
    · cases e
    · rename_i h0
      split_ifs at e
      exact same e (life_one one_set h0)
  | qpackUnblock id pri again =>
    have hOk : clientBidi id = true ∧ _ := h1
    clear h1
    change qpackUnblock c id pri again = _ at e
    unfold qpackUnblock at e
    split at e
    · cases e
    · rename_i s0 h0
      by_cases hb : s0.qblocked = false
      · rw [if_pos hb] at e; cases e
      rw [if_neg hb] at e
      dsimp only at e
      obtain ⟨⟨c1, r1⟩, e1, e2⟩ := bind_ok e
      have hq : ∃ s1 : Strm F, s1.closed = s0.closed ∧ One c id s1 c1 := by
        cases pri with
        | none => obtain ⟨rfl, _⟩ := Prod.mk.inj (R.ok.inj e1); exact ⟨{ s0 with qblocked := false }, rfl, one_set⟩
        | some p =>
          change onHeaderPriority _ id p = _ at e1
          unfold onHeaderPriority at e1
          rw [set_str] at e1
          dsimp only at e1
          by_cases hc : ((c.set id { s0 with qblocked := false }).server && !s0.priUpd && !s0.srvPri) = true
          · rw [if_pos hc] at e1
            obtain ⟨c2, e3, e4⟩ := bind_ok e1
            obtain ⟨rfl, _⟩ := Prod.mk.inj (R.ok.inj e4)
            obtain ⟨a, b, d, f, rfl⟩ := one_update e3
            exact ⟨{ s0 with qblocked := false, pri := p }, rfl, ⟨a, b, d, f, set_set { c with sched := a } id _ _⟩⟩
          · rw [if_neg hc] at e1
            obtain ⟨rfl, _⟩ := Prod.mk.inj (R.ok.inj e1); exact ⟨{ s0 with qblocked := false }, rfl, one_set⟩
      obtain ⟨s1, hcl, h1⟩ := hq
      obtain ⟨sd, cy, uw, h2⟩ := h1.own
      dsimp only at e2
      rw [h2] at e2
      dsimp only at e2
      by_cases ha : again = true
      · rw [if_pos ha] at e2
        obtain ⟨a, b, d, f, rfl⟩ := h1
        refine same e2 (life_one (s := { s1 with qblocked := true, sched := sd, cycle := cy, uwrite := uw }) ⟨a, sd, cy, uw, ?_⟩ h0)
        exact set_set { c with sched := a } id _ _
      rw [if_neg ha] at e2
      by_cases hc : s1.closed = true
      · rw [if_pos hc] at e2
        obtain ⟨c2, e3, e4⟩ := bind_ok e2
        have ha' : again = false := by simpa using ha
        subst ha'
        refine same e4 (life_delete (c := c) (Or.inr ⟨by rw [← hcl]; exact hc, _, rfl⟩) h0 hOk.1 (fun y hy _ => by rw [h1.fr hy]) ?_ e3)
        obtain ⟨_, _, _, _, rfl⟩ := h1; rfl
      · rw [if_neg hc] at e2
        exact same e2 (life_one h1 h0)
  | recvGoaway =>
    obtain ⟨rfl, _⟩ := Prod.mk.inj (R.ok.inj e)
    exact .same _ (fun _ _ => rfl) rfl

end Conn
end Nghttp3
