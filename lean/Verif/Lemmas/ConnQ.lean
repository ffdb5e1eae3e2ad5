import Verif.Lemmas.ConnFlags
/-! What each call does to the flags that a stream has while the QPACK decoder waits for table entries. -/
namespace Nghttp3
namespace Conn
open PQ (upd upd_same upd_ne)
open Outq (R Frent Ans Bytes St)

variable {E F : Type} {w v : Prop} {c c' : Conn E F} {id : Nat} {s0 s : Strm F} {encode : Encode E F}

/-- the flags of the stream are as before -/
def SameB (_ : Nat) (s s' : Strm F) : Prop :=
  s'.qblocked = s.qblocked ∧ s'.shutWr = s.shutWr ∧ s'.closed = s.closed ∧ s'.out.readBlocked = s.out.readBlocked

/-- what the call does to the flags of a stream that there is before and after the call -/
def TrB (o : Op F) (x : Nat) (s s' : Strm F) : Prop :=
  match o with
  | .block y => if y = x then s'.qblocked = s.qblocked ∧ s'.shutWr = s.shutWr ∧ s'.closed = s.closed ∧ s'.out.readBlocked = s.out.readBlocked else SameB x s s'
  | .unblock y => if y = x then s'.qblocked = s.qblocked ∧ s'.shutWr = s.shutWr ∧ s'.closed = s.closed ∧ s'.out.readBlocked = s.out.readBlocked else SameB x s s'
  | .shutWr y => if y = x then s'.qblocked = s.qblocked ∧ s'.shutWr = true ∧ s'.closed = s.closed ∧ s'.out.readBlocked = s.out.readBlocked else SameB x s s'
  | .close y => if y = x then clientBidi x = true → s'.qblocked = s.qblocked ∧ s'.shutWr = s.shutWr ∧ s'.closed = true ∧ s'.out.readBlocked = s.out.readBlocked else SameB x s s'
  | .resume y => if y = x then s'.qblocked = s.qblocked ∧ s'.shutWr = s.shutWr ∧ s'.closed = s.closed ∧ s'.out.readBlocked = false else SameB x s s'
  | .qpackBlock y => if y = x then s.qblocked = false ∧ s'.qblocked = true ∧ s'.closed = s.closed else SameB x s s'
  | .qpackUnblock y _ again => if y = x then s.qblocked = true ∧ s'.qblocked = again ∧ s'.closed = s.closed ∧ (again = false → s'.closed = false) else SameB x s s'
  | .writev _ _ _ => s'.qblocked = s.qblocked ∧ s'.shutWr = s.shutWr ∧ s'.closed = s.closed ∧ (clientBidi x = true → s.out.readBlocked = true → s'.out.readBlocked = true)
  | _ => SameB x s s'

/-- a new stream has none of the flags, other streams are as `T` says -/
def BlOk (T : Nat → Strm F → Strm F → Prop) (c c' : Conn E F) : Prop :=
  ∀ x s', c'.str x = some s' →
    (c.str x = none ∧ s'.qblocked = false ∧ s'.shutWr = false ∧ s'.closed = false ∧ s'.out.readBlocked = false) ∨ ∃ s0, c.str x = some s0 ∧ T x s0 s'

theorem SameB.refl {x : Nat} : SameB x s s := ⟨rfl, rfl, rfl, rfl⟩

theorem BlOk.refl : BlOk SameB c c := fun _ s' h => .inr ⟨s', h, .refl⟩

theorem BlOk.congr {T : Nat → Strm F → Strm F → Prop} {c1 : Conn E F} (h : BlOk T c c1) (e : c'.str = c1.str) : BlOk T c c' := by
  unfold BlOk; rw [e]; exact h

theorem BlOk.trans {c1 : Conn E F} (h1 : BlOk SameB c c1) (hg : Grow c c1) (h2 : BlOk SameB c1 c') : BlOk SameB c c' := by
  intro x s' g
  rcases h2 x s' g with ⟨k0, k⟩ | ⟨s1, k1, k2, k3, k4, k5⟩
  · exact .inl ⟨hg x k0, k⟩
  · rcases h1 x s1 k1 with ⟨m0, m1, m2, m3, m4⟩ | ⟨s0, m1, m2, m3, m4, m5⟩
    · exact .inl ⟨m0, k2.trans m1, k3.trans m2, k4.trans m3, k5.trans m4⟩
    · exact .inr ⟨s0, m1, k2.trans m2, k3.trans m3, k4.trans m4, k5.trans m5⟩

theorem bl_one' {T : Nat → Strm F → Strm F → Prop} (h : One c id s c') (h0 : c.str id = some s0)
    (h1 : ∀ sd cy uw, T id s0 { s with sched := sd, cycle := cy, uwrite := uw }) (h2 : ∀ x t, x ≠ id → T x t t) : BlOk T c c' := by
  obtain ⟨sd, cy, uw, k⟩ := h.own
  intro x s' g
  by_cases hx : x = id
  · subst hx
    rw [k] at g; cases g
    exact .inr ⟨s0, h0, h1 _ _ _⟩
  · rw [h.fr hx] at g
    exact .inr ⟨s', g, h2 _ _ hx⟩

theorem bl_one (h : One c id s c') (h0 : c.str id = some s0) (h1 : SameB id s0 s) : BlOk SameB c c' :=
  bl_one' h h0 (fun _ _ _ => h1) fun _ _ _ => .refl

theorem bl_delete (e : deleteStream c id s = .ok c') : BlOk SameB c c' := by
  intro x s' g
  rw [delete_str e] at g
  by_cases hx : x = id
  · subst hx; rw [upd_same] at g; cases g
  · rw [upd_ne _ _ hx] at g; exact .inr ⟨s', g, .refl⟩

theorem bl_new (e : c'.str = upd c.str id (some s)) (h1 : s.qblocked = false ∧ s.shutWr = false ∧ s.closed = false ∧ s.out.readBlocked = false)
    (h0 : c.str id = none) : BlOk SameB c c' := by
  intro x s' g
  rw [e] at g
  by_cases hx : x = id
  · subst hx; rw [upd_same] at g; cases g; exact .inl ⟨h0, h1⟩
  · rw [upd_ne _ _ hx] at g; exact .inr ⟨s', g, .refl⟩

theorem bl_submit {nva : F} {dr : Bool} (e : submitHeadersData c id s nva dr = .ok c') (h0 : c.str id = some s0) (h1 : SameB id s0 s) :
    BlOk SameB c c' := by
  obtain ⟨o, h2, h3⟩ := one_submit' e
  exact bl_one h3 h0 ⟨h1.1, h1.2.1, h1.2.2.1, h2.trans h1.2.2.2⟩

theorem bsame_setEnd {x : Nat} (b : Bool) : SameB x s (setEnd s b) := ⟨rfl, rfl, rfl, (setEnd_keep s.out b).2.1⟩

/-- what writing to a stream does -/
theorem bl_eff {P : Nat → Prop} {k : Nat} {db : Bytes} {as : List Ans} (h : OutEff P c c')
    (hr : ∀ x s, clientBidi x = true → c.str x = some s → s.out.readBlocked = true → ∀ s', c'.str x = some s' → s'.out.readBlocked = true) :
    BlOk (TrB (.writev k db as : Op F)) c c' := by
  intro x s' g
  obtain ⟨s, k1, k2, _⟩ := h.back g
  exact .inr ⟨s, k1, by rw [k2], by rw [k2], by rw [k2], fun hx hb => hr x s hx k1 hb s' g⟩

theorem bl_none {T : Nat → Strm F → Strm F → Prop} (h0 : c.str id = none) (h2 : ∀ x t, x ≠ id → T x t t) : BlOk T c c := by
  intro x s' g
  by_cases hx : x = id
  · subst hx; rw [h0] at g; cases g
  · exact .inr ⟨s', g, h2 x s' hx⟩

theorem step_bl (h : Inv w v c) {o : Op F} {r : Ret} (e : step encode c o = .ok (c', r)) : BlOk (TrB o) c c' := by
  have same : ∀ {c1 : Conn E F} {r1 : Ret}, (R.ok (c1, r1) : R (Conn E F × Ret)) = .ok (c', r) → ∀ {T : Nat → Strm F → Strm F → Prop}, BlOk T c c1 → BlOk T c c' := by
    intro c1 r1 g1 T g2
    obtain ⟨rfl, _⟩ := Prod.mk.inj (R.ok.inj g1); exact g2
  cases o with
  | bindControl id =>
    change BlOk SameB c c'
    change bindControl c id = _ at e
    unfold bindControl at e
    split_ifs at e with h1 h2 h3
    · exact same e .refl
    · exact same e .refl
    · obtain ⟨o, e1, e2⟩ := bind_ok e
      have hr := writeStreamType_rb e1
      exact same e2 (bl_new rfl ⟨rfl, rfl, rfl, hr⟩ (by simpa using h3))
  | bindQpack a d =>
    change BlOk SameB c c'
    change bindQpack c a d = _ at e
    unfold bindQpack at e
    split_ifs at e with h1 h2 h3
    · exact same e .refl
    · exact same e .refl
    · obtain ⟨o, e1, e2⟩ := bind_ok e
      dsimp only at e2
      have hr := writeStreamType_rb e1
      have k1 : BlOk SameB c ({ createStream c a { ty := .qenc, out := o } with qenc := some a } : Conn E F) := bl_new rfl ⟨rfl, rfl, rfl, hr⟩ (by simpa using h3)
      split_ifs at e2 with h4
      · exact same e2 k1
      · obtain ⟨o2, e3, e4⟩ := bind_ok e2
        exact same e4 (k1.trans (grow_new rfl) (bl_new rfl ⟨rfl, rfl, rfl, writeStreamType_rb e3⟩ (by simpa using h4)))
  | submitRequest id nva dr =>
    change BlOk SameB c c'
    change submitRequest c id nva dr = _ at e
    unfold submitRequest at e
    split_ifs at e with g1
    · exact same e .refl
    · split at e
      · exact same e .refl
      · rename_i h0
        obtain ⟨c1, e1, e2⟩ := bind_ok e
        have hs : (createStream c id {}).str id = some {} := upd_same _ _ _
        exact same e2 ((bl_new (s := {}) (id := id) rfl ⟨rfl, rfl, rfl, rfl⟩ h0 : BlOk SameB c (createStream c id {})).trans (grow_new rfl) (bl_submit e1 hs (bsame_setEnd _)))
  | submitInfo id nva =>
    change BlOk SameB c c'
    change submitInfo c id nva = _ at e
    unfold submitInfo at e
    split_ifs at e
    split at e
    · exact same e .refl
    · rename_i h0
      obtain ⟨c1, e1, e2⟩ := bind_ok e
      exact same e2 (bl_submit e1 h0 (by first | exact .refl | exact bsame_setEnd _))
  | submitResponse id nva dr =>
    change BlOk SameB c c'
    change submitResponse c id nva dr = _ at e
    unfold submitResponse at e
    by_cases hc : (!c.server || c.qenc.isNone) = true
    · rw [if_pos hc] at e; cases e
    rw [if_neg hc] at e
    split at e
    · exact same e .refl
    · rename_i h0
      obtain ⟨c1, e1, e2⟩ := bind_ok e
      exact same e2 (bl_submit e1 h0 (by first | exact .refl | exact bsame_setEnd _))
  | submitTrailers id nva =>
    change BlOk SameB c c'
    change submitTrailers c id nva = _ at e
    unfold submitTrailers at e
    split_ifs at e
    split at e
    · exact same e .refl
    · rename_i h0
      split_ifs at e
      · exact same e .refl
      · obtain ⟨c1, e1, e2⟩ := bind_ok e
        exact same e2 (bl_submit e1 h0 (by first | exact .refl | exact bsame_setEnd _))
  | writev k db as =>
    obtain ⟨_, rr, hr, hc⟩ := writevStream_inv h e
    have nocrit : ∀ {c1 : Conn E F}, OutEff (isCritical c) c c1 → ∀ x, clientBidi x = true → c1.str x = c.str x := by
      intro c1 he x hx
      rcases hy : c.str x with _ | sy
      · exact he.none x hy
      · obtain ⟨o, k1, k2⟩ := he.str x sy hy
        rw [k1, k2 fun g => by rw [(isCritical_uni h g).1] at hx; cases hx]
    rcases hc with ⟨i, f, v, g1, g2, g3⟩ | ⟨_, rfl, _⟩ | ⟨_, c3, he, h3, e3, _⟩
    · exact bl_eff g3 fun x s hx g hb s' g' => by rw [nocrit g3 x hx, g] at g'; cases g'; exact hb
    · exact fun x s' g => .inr ⟨s', g, rfl, rfl, rfl, fun _ g => g⟩
    · obtain ⟨_, rr', _, _, _, k5, k6⟩ := writeRequest_inv h3 e3
      rcases hn : nextTx c3 with _ | id
      · rw [k5 hn]; exact bl_eff he fun x s hx g hb s' g' => by rw [nocrit he x hx, g] at g'; cases g'; exact hb
      · obtain ⟨c1, s1, k7, k8, k9, k10⟩ := k6 id hn
        have h9 := he.trans k9
        have hrb : ∀ x s, clientBidi x = true → c.str x = some s → s.out.readBlocked = true → ∀ s', c1.str x = some s' → s'.out.readBlocked = true := by
          intro x s hx g hb s' g'
          have g3 : c3.str x = some s := by rw [nocrit he x hx]; exact g
          by_cases hi : x = id
          · subst hi
            rw [fill_rb k7 g3 hb, g3] at g'; cases g'; exact hb
          · obtain ⟨o, m1, m2⟩ := k9.str x s g3
            rw [m1] at g'; cases g'
            dsimp only
            rw [m2 fun hk => hk.elim hi fun hq => ?_]
            · exact hb
            · have : isCritical c3 x := Or.inr (Or.inr hq)
              rw [(isCritical_uni h3 this).1] at hx; cases hx
        have hA : BlOk (TrB (.writev k db as : Op F)) c c1 := bl_eff h9 hrb
        rcases k10 with ⟨_, rfl⟩ | ⟨_, sch, rfl⟩
        · exact hA
        · intro x s' g
          by_cases hi : x = id
          · subst hi
            rw [set_str] at g; cases g
            rcases hA x s1 k8 with k | ⟨s0, k1, k2⟩
            · exact .inl k
            · exact .inr ⟨s0, k1, k2⟩
          · rw [set_ne _ _ _ _ hi] at g
            exact hA x s' g
  | addWrite id n =>
    change BlOk SameB c c'
    change addWriteOffset c id n = _ at e
    unfold addWriteOffset at e
    split at e
    · exact same e .refl
    · rename_i h0
      obtain ⟨o, eo, e2⟩ := bind_ok e
      dsimp only at e2
      split_ifs at e2
      · exact same e2 (bl_one one_set h0 ⟨rfl, rfl, rfl, (Outq.addOutqOffset_keep eo).2.1⟩)
      · obtain ⟨c1, e3, e4⟩ := bind_ok e2
        exact same e4 (bl_one (one_unschedule e3) h0 ⟨rfl, rfl, rfl, (Outq.addOutqOffset_keep eo).2.1⟩)
      · exact same e2 (bl_one one_set h0 ⟨rfl, rfl, rfl, (Outq.addOutqOffset_keep eo).2.1⟩)
      · obtain ⟨c1, e3, e4⟩ := bind_ok e2
        exact same e4 (bl_one (one_schedule e3) h0 ⟨rfl, rfl, rfl, (Outq.addOutqOffset_keep eo).2.1⟩)
  | addAck id n =>
    change BlOk SameB c c'
    change addAckOffset c id n = _ at e
    unfold addAckOffset at e
    split at e
    · exact same e .refl
    · rename_i h0
      obtain ⟨o, eo, e2⟩ := bind_ok e
      exact same e2 (bl_one one_set h0 ⟨rfl, rfl, rfl, (Outq.updateAckOffset_keep eo).2.1⟩)
  | updAck id off =>
    change BlOk SameB c c'
    change updateAckOffset c id off = _ at e
    unfold updateAckOffset at e
    split at e
    · exact same e .refl
    · rename_i h0
      split at e
      · exact same e .refl
      · rename_i hq
        obtain ⟨o, eo, e2⟩ := bind_ok e
        unfold Outq.connUpdateAckOffset at hq
        split_ifs at hq
        obtain rfl := Option.some.inj hq
        exact same e2 (bl_one one_set h0 ⟨rfl, rfl, rfl, (Outq.updateAckOffset_keep eo).2.1⟩)
  | block id =>
    change blockStream c id = _ at e
    unfold blockStream at e
    split at e
    · rename_i h0
      exact same e (bl_none h0 fun _ _ hx => by unfold TrB; dsimp only; rw [if_neg (Ne.symm hx)]; exact .refl)
    · rename_i h0
      dsimp only at e
      split_ifs at e
      · obtain ⟨c1, e3, e4⟩ := bind_ok e
        exact same e4 (bl_one' (one_unschedule e3) h0 (fun _ _ _ => by unfold TrB; dsimp only; rw [if_pos rfl]; exact ⟨rfl, rfl, rfl, rfl⟩) (fun _ _ hx => by unfold TrB; dsimp only; rw [if_neg (Ne.symm hx)]; exact .refl))
      · exact same e (bl_one' one_set h0 (fun _ _ _ => by unfold TrB; dsimp only; rw [if_pos rfl]; exact ⟨rfl, rfl, rfl, rfl⟩) (fun _ _ hx => by unfold TrB; dsimp only; rw [if_neg (Ne.symm hx)]; exact .refl))
  | unblock id =>
    change unblockStream c id = _ at e
    unfold unblockStream at e
    split at e
    · rename_i h0
      exact same e (bl_none h0 fun _ _ hx => by unfold TrB; dsimp only; rw [if_neg (Ne.symm hx)]; exact .refl)
    · rename_i h0
      dsimp only at e
      split_ifs at e
      · obtain ⟨c1, e3, e4⟩ := bind_ok e
        exact same e4 (bl_one' (one_ensure e3) h0 (fun _ _ _ => by unfold TrB; dsimp only; rw [if_pos rfl]; exact ⟨rfl, rfl, rfl, rfl⟩) (fun _ _ hx => by unfold TrB; dsimp only; rw [if_neg (Ne.symm hx)]; exact .refl))
      · exact same e (bl_one' one_set h0 (fun _ _ _ => by unfold TrB; dsimp only; rw [if_pos rfl]; exact ⟨rfl, rfl, rfl, rfl⟩) (fun _ _ hx => by unfold TrB; dsimp only; rw [if_neg (Ne.symm hx)]; exact .refl))
  | shutWr id =>
    change shutdownWrite c id = _ at e
    unfold shutdownWrite at e
    split at e
    · rename_i h0
      exact same e (bl_none h0 fun _ _ hx => by unfold TrB; dsimp only; rw [if_neg (Ne.symm hx)]; exact .refl)
    · rename_i h0
      dsimp only at e
      split_ifs at e
      · obtain ⟨c1, e3, e4⟩ := bind_ok e
        exact same e4 (bl_one' (one_unschedule e3) h0 (fun _ _ _ => by unfold TrB; dsimp only; rw [if_pos rfl]; exact ⟨rfl, rfl, rfl, rfl⟩) (fun _ _ hx => by unfold TrB; dsimp only; rw [if_neg (Ne.symm hx)]; exact .refl))
      · exact same e (bl_one' one_set h0 (fun _ _ _ => by unfold TrB; dsimp only; rw [if_pos rfl]; exact ⟨rfl, rfl, rfl, rfl⟩) (fun _ _ hx => by unfold TrB; dsimp only; rw [if_neg (Ne.symm hx)]; exact .refl))
  | resume id =>
    change resumeStream c id = _ at e
    unfold resumeStream at e
    split at e
    · rename_i h0
      exact same e (bl_none h0 fun _ _ hx => by unfold TrB; dsimp only; rw [if_neg (Ne.symm hx)]; exact .refl)
    · rename_i h0
      dsimp only at e
      split_ifs at e
      · obtain ⟨c1, e3, e4⟩ := bind_ok e
        exact same e4 (bl_one' (one_ensure e3) h0 (fun _ _ _ => by unfold TrB; dsimp only; rw [if_pos rfl]; exact ⟨rfl, rfl, rfl, rfl⟩) (fun _ _ hx => by unfold TrB; dsimp only; rw [if_neg (Ne.symm hx)]; exact .refl))
      · exact same e (bl_one' one_set h0 (fun _ _ _ => by unfold TrB; dsimp only; rw [if_pos rfl]; exact ⟨rfl, rfl, rfl, rfl⟩) (fun _ _ hx => by unfold TrB; dsimp only; rw [if_neg (Ne.symm hx)]; exact .refl))
  | shutRd id =>
    change BlOk SameB c c'
    change shutdownRead c id = _ at e
    unfold shutdownRead at e
    split_ifs at e
    · exact same e .refl
    · split at e
      · exact same e .refl
      · rename_i h0
        exact same e (bl_one one_set h0 ⟨rfl, rfl, rfl, rfl⟩)
  | close id =>
    change closeStream c id = _ at e
    have hne : ∀ (x : Nat) (t : Strm F), x ≠ id → TrB (.close id : Op F) x t t := fun _ _ hx => by unfold TrB; dsimp only; rw [if_neg (Ne.symm hx)]; exact .refl
    unfold closeStream at e
    split at e
    · rename_i h0
      exact same e (bl_none h0 hne)
    · rename_i s0 h0
      split_ifs at e with hcr
      · refine same e fun x s' g => ?_
        by_cases hx : x = id
        · subst hx
          refine .inr ⟨s', g, ?_⟩
          unfold TrB; dsimp only; rw [if_pos rfl]
          intro hb
          simp only [Bool.and_eq_true] at hcr
          have h9 := hcr.1; unfold clientBidi at hb; unfold streamUni at h9; simp at h9 hb; omega
        · exact .inr ⟨s', g, hne _ _ hx⟩
      · obtain ⟨c1, e3, e4⟩ := bind_ok e
        have hc1 := one_unschedule e3
        dsimp only at e4
        split_ifs at e4
        · obtain ⟨c2, e5, e6⟩ := bind_ok e4
          refine same e6 fun x s' g => ?_
          rw [delete_str e5] at g
          by_cases hx : x = id
          · subst hx; rw [upd_same] at g; cases g
          · rw [upd_ne _ _ hx, hc1.fr hx] at g; exact .inr ⟨s', g, hne _ _ hx⟩
        · obtain ⟨_, _, _, _, rfl⟩ := hc1
          refine same e4 (bl_one' (s := { s0 with sched := false, closed := true }) ⟨_, false, _, _, set_set _ _ _ _⟩ h0 (fun _ _ _ => ?_) hne)
          unfold TrB; dsimp only; rw [if_pos rfl]
          exact fun _ => ⟨rfl, rfl, rfl, rfl⟩
  | notice =>
    change BlOk SameB c c'
    change submitNotice c = _ at e
    unfold submitNotice queueGoaway at e
    obtain ⟨c1, e1, e2⟩ := bind_ok e
    by_cases hn : c.ctrl.isNone = true
    · rw [if_pos hn] at e1; cases e1
    rw [if_neg hn] at e1
    by_cases hg : c.txGoaway < (if c.server then 2 ^ 62 - 4 else 2 ^ 62 - 1)
    · rw [if_pos hg] at e1; cases e1
    rw [if_neg hg] at e1
    obtain ⟨c2, e3, e4⟩ := bind_ok e1
    obtain rfl := R.ok.inj e4
    unfold ctrlFrame at e3
    split at e3
    · cases e3
    · rename_i id _
      split at e3
      · cases e3
      · rename_i s1 h0
        obtain rfl := R.ok.inj e3
        have := bl_one (one_set (c := c) (id := id) (s := { s1 with out := { s1.out with frq := s1.out.frq ++ [.goaway (if c.server then 2 ^ 62 - 4 else 2 ^ 62 - 1)] } })) h0 ⟨rfl, rfl, rfl, rfl⟩
        exact same e2 (this.congr rfl)
  | shutdown =>
    change BlOk SameB c c'
    change shutdown c = _ at e
    unfold shutdown queueGoaway at e
    obtain ⟨c1, e1, e2⟩ := bind_ok e
    by_cases hn : c.ctrl.isNone = true
    · rw [if_pos hn] at e1; cases e1
    rw [if_neg hn] at e1
    by_cases hg : c.txGoaway < (if c.server then min (2 ^ 62 - 4) (c.maxBidi + 4).toNat else 0)
    · rw [if_pos hg] at e1; cases e1
    rw [if_neg hg] at e1
    obtain ⟨c2, e3, e4⟩ := bind_ok e1
    obtain rfl := R.ok.inj e4
    unfold ctrlFrame at e3
    split at e3
    · cases e3
    · rename_i id _
      split at e3
      · cases e3
      · rename_i s1 h0
        obtain rfl := R.ok.inj e3
        have := bl_one (one_set (c := c) (id := id) (s := { s1 with out := { s1.out with frq := s1.out.frq ++ [.goaway (if c.server then min (2 ^ 62 - 4) (c.maxBidi + 4).toNat else 0)] } })) h0 ⟨rfl, rfl, rfl, rfl⟩
        exact same e2 (this.congr rfl)
  | setServerPri id pri =>
    change BlOk SameB c c'
    change setServerPriority c id pri = _ at e
    unfold setServerPriority at e
    split_ifs at e
    · exact same e .refl
    · split at e
      · exact same e .refl
      · rename_i h0
        obtain ⟨c1, e1, e2⟩ := bind_ok e
        exact same e2 (bl_one (one_update e1) h0 ⟨rfl, rfl, rfl, rfl⟩)
  | setClientPri id va =>
    change BlOk SameB c c'
    change setClientPriority c id va = _ at e
    unfold setClientPriority at e
    split_ifs at e
    · exact same e .refl
    · split at e
      · exact same e .refl
      · obtain ⟨c1, e1, e2⟩ := bind_ok e
        unfold ctrlFrame at e1
        split at e1
        · cases e1
        · split at e1
          · cases e1
          · rename_i h0
            obtain rfl := R.ok.inj e1
            exact same e2 (bl_one one_set h0 ⟨rfl, rfl, rfl, rfl⟩)
  | setMaxClient n =>
    change BlOk SameB c c'
    change setMaxClientStreams c n = _ at e
    unfold setMaxClientStreams at e
    split_ifs at e with h1
    exact same e (BlOk.congr .refl rfl)
  | «open» id empty =>
    change BlOk SameB c c'
    change openStream c id empty = _ at e
    unfold openStream at e
    by_cases h1 : decide (id ≥ 2 ^ 62) = true
    · rw [if_pos h1] at e; cases e
    rw [if_neg h1] at e
    split at e
    · split_ifs at e
      exact same e .refl
    · rename_i h0
      by_cases h2 : c.server = true
      · rw [if_pos h2] at e
        by_cases h3 : clientBidi id = true
        · rw [if_pos h3] at e
          split at e
          · cases e
          · exact same e (bl_new rfl ⟨rfl, rfl, rfl, rfl⟩ h0)
        · rw [if_neg h3] at e
          split_ifs at e
          · exact same e .refl
          · exact same e .refl
          · exact same e (bl_new rfl ⟨rfl, rfl, rfl, rfl⟩ h0)
      · rw [if_neg h2] at e
        split_ifs at e with h3
        · exact same e .refl
        · exact same e (bl_new rfl ⟨rfl, rfl, rfl, rfl⟩ h0)
        · exact same e .refl
  | uni id src fin =>
    change BlOk SameB c c'
    change readUni c id src fin = _ at e
    unfold readUni at e
    by_cases h1 : ((c.server && !clientUni id) || (!c.server && !serverUni id)) = true
    · rw [if_pos h1] at e; cases e
    rw [if_neg h1] at e
    split at e
    · cases e
    · rename_i s0 h0
      by_cases h2 : (src.isEmpty && !fin) = true
      · rw [if_pos h2] at e; exact same e .refl
      rw [if_neg h2] at e
      by_cases h3 : s0.ident = true
      · rw [if_pos h3] at e; exact same e .refl
      rw [if_neg h3] at e
      by_cases h4 : src.isEmpty = true
      · rw [if_pos h4] at e
        split_ifs at e
        · exact same e .refl
        · obtain ⟨c1, e1, e2⟩ := bind_ok e
          exact same e2 (bl_delete e1)
      rw [if_neg h4] at e
      split at e
      · cases e
      · exact same e .refl
      · exact same e (bl_one one_set h0 ⟨rfl, rfl, rfl, rfl⟩)
      · rename_i vv n _
        have su : ∀ {c1 : Conn E F} {s1 : Strm F}, setUniType c s0 vv = .ok (c1, s1) → BlOk SameB c (c1.set id s1) := by
          intro c1 s1 g
          have : ∃ a b d ty, c1 = { c with ctrlOpened := a, qencOpened := b, qdecOpened := d } ∧ s1 = { s0 with ty := ty, ident := true, rv := {} } := by
            unfold setUniType at g
            dsimp only at g
            split_ifs at g
            all_goals (obtain ⟨rfl, rfl⟩ := Prod.mk.inj (Except.ok.inj g); exact ⟨_, _, _, _, rfl, rfl⟩)
          obtain ⟨a, b, d, ty, rfl, rfl⟩ := this
          have := bl_one (one_set (c := c) (id := id) (s := { s0 with ty := ty, ident := true, rv := {} })) h0 ⟨rfl, rfl, rfl, rfl⟩
          exact this.congr rfl
        split at e
        · exact same e .refl
        · rename_i c1 s1 g
          split_ifs at e
          · exact same e (su g)
          · split at e
            · exact same e .refl
            · exact same e (su g)
  | priUpd id pri =>
    change BlOk SameB c c'
    change onPriorityUpdate c id pri = _ at e
    unfold onPriorityUpdate at e
    by_cases h1 : (!c.server) = true
    · rw [if_pos h1] at e; cases e
    rw [if_neg h1] at e
    by_cases h2 : (!clientBidi id || decide (ordStreamId id > c.maxClient)) = true
    · rw [if_pos h2] at e; exact same e .refl
    rw [if_neg h2] at e
    split at e
    · rename_i h0
      by_cases h3 : rejects c id = true
      · rw [if_pos h3] at e; exact same e .refl
      rw [if_neg h3] at e
      split at e
      · cases e
      · exact same e .refl
      · exact same e (bl_new rfl ⟨rfl, rfl, rfl, rfl⟩ h0)
    · rename_i h0
      split_ifs at e
      · exact same e .refl
      · obtain ⟨c1, e1, e2⟩ := bind_ok e
        exact same e2 (bl_one (one_update e1) h0 ⟨rfl, rfl, rfl, rfl⟩)
  | hdrPri id pri =>
    change BlOk SameB c c'
    change onHeaderPriority c id pri = _ at e
    unfold onHeaderPriority at e
    split at e
    · cases e
    · rename_i h0
      split_ifs at e
      · obtain ⟨c1, e1, e2⟩ := bind_ok e
        exact same e2 (bl_one (one_update e1) h0 ⟨rfl, rfl, rfl, rfl⟩)
      · exact same e .refl
  | qpackBlock id =>
    change qpackBlock c id = _ at e
    unfold qpackBlock at e
    split at e
    · cases e
    · rename_i h0
      split_ifs at e with hb
      exact same e (bl_one' one_set h0 (fun _ _ _ => by unfold TrB; dsimp only; rw [if_pos rfl]; exact ⟨by simpa using hb, rfl, rfl⟩) (fun _ _ hx => by unfold TrB; dsimp only; rw [if_neg (Ne.symm hx)]; exact .refl))
  | qpackUnblock id pri again =>
    change qpackUnblock c id pri again = _ at e
    have hne : ∀ (x : Nat) (t : Strm F), x ≠ id → TrB (.qpackUnblock id pri again : Op F) x t t := fun _ _ hx => by unfold TrB; dsimp only; rw [if_neg (Ne.symm hx)]; exact .refl
    unfold qpackUnblock at e
    split at e
    · cases e
    · rename_i s0 h0
      by_cases hb : s0.qblocked = false
      · rw [if_pos hb] at e; cases e
      rw [if_neg hb] at e
      dsimp only at e
      obtain ⟨⟨c1, r1⟩, e1, e2⟩ := bind_ok e
      have hq : ∃ s1 : Strm F, (s1.qblocked = false ∧ s1.closed = s0.closed) ∧ One c id s1 c1 := by
        cases pri with
        | none => obtain ⟨rfl, _⟩ := Prod.mk.inj (R.ok.inj e1); exact ⟨{ s0 with qblocked := false }, ⟨rfl, rfl⟩, one_set⟩
        | some p =>
          change onHeaderPriority _ id p = _ at e1
          unfold onHeaderPriority at e1
          rw [set_str] at e1
          dsimp only at e1
          by_cases hc : ((c.set id { s0 with qblocked := false }).server && !s0.priUpd && !s0.srvPri) = true
          · rw [if_pos hc] at e1
            obtain ⟨c2, e3, e4⟩ := bind_ok e1
            obtain ⟨rfl, _⟩ := Prod.mk.inj (R.ok.inj e4)
            obtain ⟨a, b, d, f, rfl⟩ := one_update e3
            exact ⟨{ s0 with qblocked := false, pri := p }, ⟨rfl, rfl⟩, ⟨a, b, d, f, set_set { c with sched := a } id _ _⟩⟩
          · rw [if_neg hc] at e1
            obtain ⟨rfl, _⟩ := Prod.mk.inj (R.ok.inj e1); exact ⟨{ s0 with qblocked := false }, ⟨rfl, rfl⟩, one_set⟩
      obtain ⟨s1, hcl, h1⟩ := hq
      obtain ⟨sd, cy, uw, h2⟩ := h1.own
      dsimp only at e2
      rw [h2] at e2
      dsimp only at e2
      have hb1 : s0.qblocked = true := by simpa using hb
      by_cases ha : again = true
      · rw [if_pos ha] at e2
        obtain ⟨a, b, d, f, rfl⟩ := h1
        refine same e2 (bl_one' (s := { s1 with qblocked := true, sched := sd, cycle := cy, uwrite := uw }) ⟨a, sd, cy, uw, ?_⟩ h0
          (fun _ _ _ => by unfold TrB; dsimp only; rw [if_pos rfl]; exact ⟨hb1, ha.symm, hcl.2, fun g => by rw [ha] at g; cases g⟩) hne)
        exact set_set { c with sched := a } id _ _
      rw [if_neg ha] at e2
      by_cases hc : s1.closed = true
      · rw [if_pos hc] at e2
        obtain ⟨c2, e3, e4⟩ := bind_ok e2
        refine same e4 fun x s' g => ?_
        rw [delete_str e3] at g
        by_cases hx : x = id
        · subst hx; rw [upd_same] at g; cases g
        · rw [upd_ne _ _ hx, h1.fr hx] at g; exact .inr ⟨s', g, hne _ _ hx⟩
      · rw [if_neg hc] at e2
        exact same e2 (bl_one' h1 h0 (fun _ _ _ => by
          unfold TrB; dsimp only; rw [if_pos rfl]
          exact ⟨hb1, by rw [hcl.1]; simpa using Eq.symm (by simpa using ha), hcl.2, fun _ => by simpa using hc⟩) hne)
  | recvGoaway =>
    change BlOk SameB c c'
    exact same e (BlOk.congr .refl rfl)

end Conn
end Nghttp3
