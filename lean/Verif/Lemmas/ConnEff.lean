import Verif.Lemmas.ConnShape
/-! The effect of every call on the named stream and on the others. -/
namespace Nghttp3
namespace Conn
open PQ (Mem IdxOk Heap upd upd_same upd_ne)
open Outq (R Frent Ans Bytes St)

variable {E F : Type} {w v : Prop} {c c' : Conn E F} {id : Nat} {s0 s : Strm F} {encode : Encode E F}

theorem walk_refl {x : Nat} {p : Bool} : Walk w c x 0 c p := walk_same rfl

theorem same3_refl (s : Strm F) : Same3 s s := ⟨rfl, rfl, rfl⟩

theorem delete_str {c' : Conn E F} (e : deleteStream c id s = .ok c') : c'.str = upd c.str id none := by
  unfold deleteStream at e
  split_ifs at e
  all_goals (obtain rfl := R.ok.inj e; rfl)

theorem eff_submitRequest (h : Inv w v c) {nva : F} {dr : Bool} {r : Ret} (e : submitRequest c id nva dr = .ok (c', r)) :
    Walk w c id 0 c' false ∧ ∀ x, x ≠ id → c'.str x = c.str x := by
  unfold submitRequest at e
  split_ifs at e with h1 h2
  · obtain ⟨rfl, _⟩ := Prod.mk.inj (R.ok.inj e); exact ⟨walk_refl, fun _ _ => rfl⟩
  · rcases h0 : c.str id with _ | s0 <;> rw [h0] at e
    · obtain ⟨c1, e1, e2⟩ := bind_ok e
      obtain ⟨rfl, _⟩ := Prod.mk.inj (R.ok.inj e2)
      simp only [Bool.or_eq_true, not_or, Bool.not_eq_true', Bool.not_eq_false] at h1
      have hid : clientBidi id = true := h1.2
      have hsv : c.server = false := by simpa using h1.1.1.1
      have hcr : Inv w v (createStream c id ({} : Strm F)) :=
        inv_create h h0 rfl (by show 3 < 8; decide) rfl (sok_idle _ _ rfl rfl rfl rfl) (fun g => by rw [hsv] at g; cases g)
      have hst : (createStream c id ({} : Strm F)).str id = some {} := upd_same _ _ _
      have hne : ∀ x, x ≠ id → (createStream c id ({} : Strm F)).str x = c.str x := fun x hx => upd_ne _ _ hx
      obtain ⟨o, h2⟩ := one_submit e1
      refine ⟨walk_create h0 ?_, fun x hx => (h2.fr hx).trans (hne x hx)⟩
      unfold submitHeadersData at e1
      dsimp only at e1
      generalize (Frent.headers nva :: if dr = true then [Frent.data] else []) = l at e1
      split at e1
      · refine ev_join hcr.core hid hne hst rfl ?_ ?_ ?_ (fun s1 g1 => by rw [h0] at g1; cases g1) e1
        · rfl
        · rfl
        · exact fun _ _ => (by show 0 < WLIM; decide)
      · obtain rfl := R.ok.inj e1
        rw [set_str]; exact .out _ rfl
    · obtain ⟨rfl, _⟩ := Prod.mk.inj (R.ok.inj e); exact ⟨walk_refl, fun _ _ => rfl⟩

theorem eff_submitInfo (h : Inv w v c) (hid : clientBidi id = true) {nva : F} {r : Ret} (e : submitInfo c id nva = .ok (c', r)) :
    Walk w c id 0 c' false ∧ ∀ x, x ≠ id → c'.str x = c.str x := by
  unfold submitInfo at e
  split_ifs at e
  rcases h0 : c.str id with _ | s0 <;> rw [h0] at e
  · obtain ⟨rfl, _⟩ := Prod.mk.inj (R.ok.inj e); exact ⟨walk_refl, fun _ _ => rfl⟩
  · obtain ⟨c1, e1, e2⟩ := bind_ok e
    obtain ⟨rfl, _⟩ := Prod.mk.inj (R.ok.inj e2)
    obtain ⟨o, h2⟩ := one_submit e1
    exact ⟨walk_submit h (pre_self h h0) hid rfl (same3_refl _) e1, fun x hx => h2.fr hx⟩

theorem pre_end (h : Inv w v c) (h0 : c.str id = some s0) (b : Bool) : Pre w c id s0 (setEnd s0 b) := Pre.mk' h h0 rfl rfl rfl (Nat.le_refl _)

theorem eff_submitResponse (h : Inv w v c) (hid : clientBidi id = true) {nva : F} {dr : Bool} {r : Ret} (e : submitResponse c id nva dr = .ok (c', r)) :
    Walk w c id 0 c' false ∧ ∀ x, x ≠ id → c'.str x = c.str x := by
  unfold submitResponse at e
  split_ifs at e
  rcases h0 : c.str id with _ | s0 <;> rw [h0] at e
  · obtain ⟨rfl, _⟩ := Prod.mk.inj (R.ok.inj e); exact ⟨walk_refl, fun _ _ => rfl⟩
  · obtain ⟨c1, e1, e2⟩ := bind_ok e
    obtain ⟨rfl, _⟩ := Prod.mk.inj (R.ok.inj e2)
    obtain ⟨o, h2⟩ := one_submit e1
    exact ⟨walk_submit h (pre_end h h0 _) hid rfl ⟨rfl, rfl, rfl⟩ e1, fun x hx => h2.fr hx⟩

theorem eff_submitTrailers (h : Inv w v c) (hid : clientBidi id = true) {nva : F} {r : Ret} (e : submitTrailers c id nva = .ok (c', r)) :
    Walk w c id 0 c' false ∧ ∀ x, x ≠ id → c'.str x = c.str x := by
  unfold submitTrailers at e
  split_ifs at e
  rcases h0 : c.str id with _ | s0 <;> rw [h0] at e
  · obtain ⟨rfl, _⟩ := Prod.mk.inj (R.ok.inj e); exact ⟨walk_refl, fun _ _ => rfl⟩
  · dsimp only at e
    split_ifs at e
    · obtain ⟨rfl, _⟩ := Prod.mk.inj (R.ok.inj e); exact ⟨walk_refl, fun _ _ => rfl⟩
    · obtain ⟨c1, e1, e2⟩ := bind_ok e
      obtain ⟨rfl, _⟩ := Prod.mk.inj (R.ok.inj e2)
      obtain ⟨o, h2⟩ := one_submit e1
      exact ⟨walk_submit h (pre_end h h0 _) hid rfl ⟨rfl, rfl, rfl⟩ e1, fun x hx => h2.fr hx⟩

theorem eff_block (hid : clientBidi id = true) {r : Ret} (e : blockStream c id = .ok (c', r)) :
    Walk w c id 0 c' false := by
  unfold blockStream at e
  rcases h0 : c.str id with _ | s0 <;> rw [h0] at e
  · obtain ⟨rfl, _⟩ := Prod.mk.inj (R.ok.inj e); exact walk_refl
  · dsimp only at e
    rw [if_pos hid] at e
    obtain ⟨c1, e1, e2⟩ := bind_ok e
    obtain ⟨rfl, _⟩ := Prod.mk.inj (R.ok.inj e2)
    exact walk_one (ev_unsched e1) h0 (one_unschedule e1) ⟨rfl, rfl, rfl⟩

theorem fr_block {r : Ret} (e : blockStream c id = .ok (c', r)) {x : Nat} (hx : x ≠ id) : c'.str x = c.str x := by
  unfold blockStream at e
  rcases h0 : c.str id with _ | s0 <;> rw [h0] at e
  · obtain ⟨rfl, _⟩ := Prod.mk.inj (R.ok.inj e); rfl
  · dsimp only at e
    split_ifs at e
    · obtain ⟨c1, e1, e2⟩ := bind_ok e
      obtain ⟨rfl, _⟩ := Prod.mk.inj (R.ok.inj e2)
      exact (one_unschedule e1).fr hx
    · obtain ⟨rfl, _⟩ := Prod.mk.inj (R.ok.inj e); exact set_ne _ _ _ _ hx

theorem eff_shutWr (hid : clientBidi id = true) {r : Ret} (e : shutdownWrite c id = .ok (c', r)) :
    Walk w c id 0 c' false := by
  unfold shutdownWrite at e
  rcases h0 : c.str id with _ | s0 <;> rw [h0] at e
  · obtain ⟨rfl, _⟩ := Prod.mk.inj (R.ok.inj e); exact walk_refl
  · dsimp only at e
    rw [if_pos hid] at e
    obtain ⟨c1, e1, e2⟩ := bind_ok e
    obtain ⟨rfl, _⟩ := Prod.mk.inj (R.ok.inj e2)
    exact walk_one (ev_unsched e1) h0 (one_unschedule e1) ⟨rfl, rfl, rfl⟩

theorem fr_shutWr {r : Ret} (e : shutdownWrite c id = .ok (c', r)) {x : Nat} (hx : x ≠ id) : c'.str x = c.str x := by
  unfold shutdownWrite at e
  rcases h0 : c.str id with _ | s0 <;> rw [h0] at e
  · obtain ⟨rfl, _⟩ := Prod.mk.inj (R.ok.inj e); rfl
  · dsimp only at e
    split_ifs at e
    · obtain ⟨c1, e1, e2⟩ := bind_ok e
      obtain ⟨rfl, _⟩ := Prod.mk.inj (R.ok.inj e2)
      exact (one_unschedule e1).fr hx
    · obtain ⟨rfl, _⟩ := Prod.mk.inj (R.ok.inj e); exact set_ne _ _ _ _ hx

theorem eff_unblock (h : Inv w v c) (hid : clientBidi id = true) {r : Ret} (e : unblockStream c id = .ok (c', r)) :
    Walk w c id 0 c' false := by
  unfold unblockStream at e
  rcases h0 : c.str id with _ | s0 <;> rw [h0] at e
  · obtain ⟨rfl, _⟩ := Prod.mk.inj (R.ok.inj e); exact walk_refl
  · dsimp only at e
    split_ifs at e
    · obtain ⟨c1, e1, e2⟩ := bind_ok e
      obtain ⟨rfl, _⟩ := Prod.mk.inj (R.ok.inj e2)
      exact walk_one (ev_ensure (s0 := s0) (s := { s0 with fc := false }) h (Pre.mk' h h0 rfl rfl rfl (Nat.le_refl _)) hid rfl e1) h0 (one_ensure e1) ⟨rfl, rfl, rfl⟩
    · obtain ⟨rfl, _⟩ := Prod.mk.inj (R.ok.inj e)
      exact walk_one (ev_set h0 rfl rfl rfl rfl) h0 one_set ⟨rfl, rfl, rfl⟩

theorem fr_unblock {r : Ret} (e : unblockStream c id = .ok (c', r)) {x : Nat} (hx : x ≠ id) : c'.str x = c.str x := by
  unfold unblockStream at e
  rcases h0 : c.str id with _ | s0 <;> rw [h0] at e
  · obtain ⟨rfl, _⟩ := Prod.mk.inj (R.ok.inj e); rfl
  · dsimp only at e
    split_ifs at e
    · obtain ⟨c1, e1, e2⟩ := bind_ok e
      obtain ⟨rfl, _⟩ := Prod.mk.inj (R.ok.inj e2)
      exact (one_ensure e1).fr hx
    · obtain ⟨rfl, _⟩ := Prod.mk.inj (R.ok.inj e); exact set_ne _ _ _ _ hx

theorem eff_resume (h : Inv w v c) (hid : clientBidi id = true) {r : Ret} (e : resumeStream c id = .ok (c', r)) :
    Walk w c id 0 c' false := by
  unfold resumeStream at e
  rcases h0 : c.str id with _ | s0 <;> rw [h0] at e
  · obtain ⟨rfl, _⟩ := Prod.mk.inj (R.ok.inj e); exact walk_refl
  · dsimp only at e
    split_ifs at e
    · obtain ⟨c1, e1, e2⟩ := bind_ok e
      obtain ⟨rfl, _⟩ := Prod.mk.inj (R.ok.inj e2)
      exact walk_one (ev_ensure (s0 := s0) (s := { s0 with out := { s0.out with readBlocked := false } }) h (Pre.mk' h h0 rfl rfl rfl (Nat.le_refl _)) hid rfl e1) h0 (one_ensure e1) ⟨rfl, rfl, rfl⟩
    · obtain ⟨rfl, _⟩ := Prod.mk.inj (R.ok.inj e)
      exact walk_one (ev_set h0 rfl rfl rfl rfl) h0 one_set ⟨rfl, rfl, rfl⟩

theorem fr_resume {r : Ret} (e : resumeStream c id = .ok (c', r)) {x : Nat} (hx : x ≠ id) : c'.str x = c.str x := by
  unfold resumeStream at e
  rcases h0 : c.str id with _ | s0 <;> rw [h0] at e
  · obtain ⟨rfl, _⟩ := Prod.mk.inj (R.ok.inj e); rfl
  · dsimp only at e
    split_ifs at e
    · obtain ⟨c1, e1, e2⟩ := bind_ok e
      obtain ⟨rfl, _⟩ := Prod.mk.inj (R.ok.inj e2)
      exact (one_ensure e1).fr hx
    · obtain ⟨rfl, _⟩ := Prod.mk.inj (R.ok.inj e); exact set_ne _ _ _ _ hx

theorem eff_addWrite (h : Inv w v c) {n : Nat} (hw : w → WriteOk c id n) (hid : clientBidi id = true) {r : Ret}
    (e : addWriteOffset c id n = .ok (c', r)) : Walk w c id n c' false := by
  unfold addWriteOffset at e
  rcases h0 : c.str id with _ | s0 <;> rw [h0] at e
  · obtain ⟨rfl, _⟩ := Prod.mk.inj (R.ok.inj e); exact walk_gone h0
  · obtain ⟨o, eo, e1⟩ := bind_ok e
    dsimp only at e1
    have hd : Pre w c id s0 { s0 with out := o, uwrite := s0.uwrite + n } := by
      refine ⟨h0, rfl, rfl, rfl, fun hh => ⟨fun hb => (hw hh s0 h0 hb).1, fun g1 g2 => ?_⟩⟩
      by_cases hn : 0 < n
      · exact (hw hh s0 h0 ((h.sok _ _ h0).need g1).1).2 g1 hn
      · exact (h.core.uwOk h0 hh).2 g1 (by dsimp only at g2; omega)
    rw [if_neg (by rw [hid]; decide)] at e1
    split_ifs at e1 with hr hl
    · obtain ⟨c1, e2, e3⟩ := bind_ok e1
      obtain ⟨rfl, _⟩ := Prod.mk.inj (R.ok.inj e3)
      exact walk_one (ev_unsched e2) h0 (one_unschedule e2) ⟨rfl, rfl, rfl⟩
    · obtain ⟨rfl, _⟩ := Prod.mk.inj (R.ok.inj e1)
      exact walk_one (ev_set h0 rfl rfl rfl rfl) h0 one_set ⟨rfl, rfl, rfl⟩
    · obtain ⟨c1, e2, e3⟩ := bind_ok e1
      obtain ⟨rfl, _⟩ := Prod.mk.inj (R.ok.inj e3)
      exact walk_one (ev_sched h hd hid rfl e2) h0 (one_schedule e2) ⟨rfl, rfl, rfl⟩

theorem fr_addWrite {n : Nat} {r : Ret} (e : addWriteOffset c id n = .ok (c', r)) {x : Nat} (hx : x ≠ id) : c'.str x = c.str x := by
  unfold addWriteOffset at e
  rcases h0 : c.str id with _ | s0 <;> rw [h0] at e
  · obtain ⟨rfl, _⟩ := Prod.mk.inj (R.ok.inj e); rfl
  · obtain ⟨o, eo, e1⟩ := bind_ok e
    dsimp only at e1
    split_ifs at e1
    · obtain ⟨rfl, _⟩ := Prod.mk.inj (R.ok.inj e1); exact set_ne _ _ _ _ hx
    · obtain ⟨c1, e2, e3⟩ := bind_ok e1
      obtain ⟨rfl, _⟩ := Prod.mk.inj (R.ok.inj e3)
      exact (one_unschedule e2).fr hx
    · obtain ⟨rfl, _⟩ := Prod.mk.inj (R.ok.inj e1); exact set_ne _ _ _ _ hx
    · obtain ⟨c1, e2, e3⟩ := bind_ok e1
      obtain ⟨rfl, _⟩ := Prod.mk.inj (R.ok.inj e3)
      exact (one_schedule e2).fr hx

/-- calls that change only what the scheduler does not see -/
theorem walk_plain {x : Nat} {p : Bool} (h0 : c.str x = some s0) (h1 : s.sched = s0.sched) (h2 : s.cycle = s0.cycle) (h4 : s.uwrite = s0.uwrite)
    (h3 : Same3 s s0) : Walk w c x 0 (c.set x s) p :=
  walk_one (ev_set h0 h1 h2 h3.1 h4) h0 one_set h3

theorem eff_addAck {n : Nat} {r : Ret} (e : addAckOffset c id n = .ok (c', r)) : Walk w c id 0 c' false ∧ ∀ x, x ≠ id → c'.str x = c.str x := by
  unfold addAckOffset at e
  rcases h0 : c.str id with _ | s0 <;> rw [h0] at e
  · obtain ⟨rfl, _⟩ := Prod.mk.inj (R.ok.inj e); exact ⟨walk_refl, fun _ _ => rfl⟩
  · obtain ⟨o, eo, e1⟩ := bind_ok e
    obtain ⟨rfl, _⟩ := Prod.mk.inj (R.ok.inj e1)
    exact ⟨walk_plain h0 rfl rfl rfl ⟨rfl, rfl, rfl⟩, fun x hx => set_ne _ _ _ _ hx⟩

theorem eff_updAck {n : Nat} {r : Ret} (e : updateAckOffset c id n = .ok (c', r)) : Walk w c id 0 c' false ∧ ∀ x, x ≠ id → c'.str x = c.str x := by
  unfold updateAckOffset at e
  rcases h0 : c.str id with _ | s0 <;> rw [h0] at e
  · obtain ⟨rfl, _⟩ := Prod.mk.inj (R.ok.inj e); exact ⟨walk_refl, fun _ _ => rfl⟩
  · dsimp only at e
    split at e
    · obtain ⟨rfl, _⟩ := Prod.mk.inj (R.ok.inj e); exact ⟨walk_refl, fun _ _ => rfl⟩
    · obtain ⟨o, eo, e1⟩ := bind_ok e
      obtain ⟨rfl, _⟩ := Prod.mk.inj (R.ok.inj e1)
      exact ⟨walk_plain h0 rfl rfl rfl ⟨rfl, rfl, rfl⟩, fun x hx => set_ne _ _ _ _ hx⟩

theorem eff_shutRd {r : Ret} (e : shutdownRead c id = .ok (c', r)) : Walk w c id 0 c' false ∧ ∀ x, x ≠ id → c'.str x = c.str x := by
  unfold shutdownRead at e
  split_ifs at e
  · obtain ⟨rfl, _⟩ := Prod.mk.inj (R.ok.inj e); exact ⟨walk_refl, fun _ _ => rfl⟩
  · rcases h0 : c.str id with _ | s0 <;> rw [h0] at e
    · obtain ⟨rfl, _⟩ := Prod.mk.inj (R.ok.inj e); exact ⟨walk_refl, fun _ _ => rfl⟩
    · obtain ⟨rfl, _⟩ := Prod.mk.inj (R.ok.inj e)
      exact ⟨walk_plain h0 rfl rfl rfl ⟨rfl, rfl, rfl⟩, fun x hx => set_ne _ _ _ _ hx⟩

theorem eff_qpackBlock {r : Ret} (e : qpackBlock c id = .ok (c', r)) : Walk w c id 0 c' false ∧ ∀ x, x ≠ id → c'.str x = c.str x := by
  unfold qpackBlock at e
  rcases h0 : c.str id with _ | s0 <;> rw [h0] at e
  · cases e
  · dsimp only at e
    split_ifs at e
    obtain ⟨rfl, _⟩ := Prod.mk.inj (R.ok.inj e)
    exact ⟨walk_plain h0 rfl rfl rfl ⟨rfl, rfl, rfl⟩, fun x hx => set_ne _ _ _ _ hx⟩

theorem eff_close {r : Ret} (e : closeStream c id = .ok (c', r)) : Walk w c id 0 c' false ∧ ∀ x, x ≠ id → c'.str x = c.str x := by
  unfold closeStream at e
  rcases h0 : c.str id with _ | s0 <;> rw [h0] at e
  · obtain ⟨rfl, _⟩ := Prod.mk.inj (R.ok.inj e); exact ⟨walk_refl, fun _ _ => rfl⟩
  · dsimp only at e
    by_cases hu : (streamUni id && s0.ty != .unknown) = true
    · rw [if_pos hu] at e
      obtain ⟨rfl, _⟩ := Prod.mk.inj (R.ok.inj e); exact ⟨walk_refl, fun _ _ => rfl⟩
    rw [if_neg hu] at e
    obtain ⟨c1, e1, e2⟩ := bind_ok e
    have h1 := one_unschedule e1
    split_ifs at e2
    · obtain ⟨c2, e3, e4⟩ := bind_ok e2
      obtain ⟨rfl, _⟩ := Prod.mk.inj (R.ok.inj e4)
      have h2 := delete_str e3
      exact ⟨walk_gone (by rw [h2, upd_same]), fun x hx => by rw [h2, upd_ne _ _ hx]; exact h1.fr hx⟩
    · obtain ⟨rfl, _⟩ := Prod.mk.inj (R.ok.inj e2)
      refine ⟨⟨by rw [set_str]; exact .out _ rfl, fun _ a b ha hb => ?_⟩, fun x hx => (set_ne _ _ _ _ hx).trans (h1.fr hx)⟩
      rw [h0] at ha; cases ha
      rw [set_str] at hb; cases hb
      exact ⟨rfl, rfl, rfl⟩

theorem eff_open {b : Bool} {r : Ret} (e : openStream c id b = .ok (c', r)) : Walk w c id 0 c' false ∧ ∀ x, x ≠ id → c'.str x = c.str x := by
  have hcr : ∀ (g : List Range) (m : Int), c.str id = none → Walk w c id 0 (createStream { c with gaps := g, maxBidi := m } id {}) false ∧
      ∀ x, x ≠ id → (createStream { c with gaps := g, maxBidi := m } id ({} : Strm F)).str x = c.str x := by
    intro g m h0
    refine ⟨walk_create h0 ?_, fun x hx => upd_ne _ _ hx⟩
    show Ev w c id 0 (upd c.str id (some {}) id)
    rw [upd_same]; exact .out _ rfl
  unfold openStream at e
  by_cases h1 : decide (id ≥ 2 ^ 62) = true
  · rw [if_pos h1] at e; cases e
  rw [if_neg h1] at e
  rcases h0 : c.str id with _ | s0 <;> rw [h0] at e
  · dsimp only at e
    by_cases h2 : c.server = true
    · rw [if_pos h2] at e
      by_cases h3 : clientBidi id = true
      · rw [if_pos h3] at e
        split at e
        · cases e
        · obtain ⟨rfl, _⟩ := Prod.mk.inj (R.ok.inj e)
          exact hcr _ _ h0
      · rw [if_neg h3] at e
        split_ifs at e
        · obtain ⟨rfl, _⟩ := Prod.mk.inj (R.ok.inj e); exact ⟨walk_refl, fun _ _ => rfl⟩
        · obtain ⟨rfl, _⟩ := Prod.mk.inj (R.ok.inj e); exact ⟨walk_refl, fun _ _ => rfl⟩
        · obtain ⟨rfl, _⟩ := Prod.mk.inj (R.ok.inj e)
          exact hcr c.gaps c.maxBidi h0
    · rw [if_neg h2] at e
      split_ifs at e
      · obtain ⟨rfl, _⟩ := Prod.mk.inj (R.ok.inj e); exact ⟨walk_refl, fun _ _ => rfl⟩
      · obtain ⟨rfl, _⟩ := Prod.mk.inj (R.ok.inj e)
        exact hcr c.gaps c.maxBidi h0
      · obtain ⟨rfl, _⟩ := Prod.mk.inj (R.ok.inj e); exact ⟨walk_refl, fun _ _ => rfl⟩
  · dsimp only at e
    split_ifs at e
    all_goals (obtain ⟨rfl, _⟩ := Prod.mk.inj (R.ok.inj e); exact ⟨walk_refl, fun _ _ => rfl⟩)

theorem eff_setServerPri (h : Inv w v c) {pri : Http.Pri} {r : Ret} (e : setServerPriority c id pri = .ok (c', r)) :
    Walk w c id 0 c' true ∧ ∀ x, x ≠ id → c'.str x = c.str x := by
  unfold setServerPriority at e
  split_ifs at e with h1 h2
  · obtain ⟨rfl, _⟩ := Prod.mk.inj (R.ok.inj e); exact ⟨walk_refl, fun _ _ => rfl⟩
  · rcases h0 : c.str id with _ | s0 <;> rw [h0] at e
    · obtain ⟨rfl, _⟩ := Prod.mk.inj (R.ok.inj e); exact ⟨walk_refl, fun _ _ => rfl⟩
    · obtain ⟨c1, e1, e2⟩ := bind_ok e
      obtain ⟨rfl, _⟩ := Prod.mk.inj (R.ok.inj e2)
      have h1' : pri.urgency < 8 := by
        by_contra hne
        refine h1 ?_
        have : decide (pri.urgency ≥ URGENCY_LEVELS) = true := decide_eq_true (by unfold URGENCY_LEVELS; omega)
        rw [this]; simp
      exact ⟨walk_update (s0 := s0) (s := { s0 with srvPri := true }) h (Pre.mk' h h0 rfl rfl rfl (Nat.le_refl _)) rfl (pri := pri) h1' e1,
        fun x hx => (one_update e1).fr hx⟩

theorem fr_hdr {pri : Http.Pri} {r : Ret} (e : onHeaderPriority c id pri = .ok (c', r)) {x : Nat} (hx : x ≠ id) : c'.str x = c.str x := by
  unfold onHeaderPriority at e
  rcases h0 : c.str id with _ | s0 <;> rw [h0] at e
  · cases e
  · dsimp only at e
    split_ifs at e
    · obtain ⟨c1, e1, e2⟩ := bind_ok e
      obtain ⟨rfl, _⟩ := Prod.mk.inj (R.ok.inj e2)
      exact (one_update e1).fr hx
    · obtain ⟨rfl, _⟩ := Prod.mk.inj (R.ok.inj e); rfl

theorem fr_unblockq {pri : Option Http.Pri} {again : Bool} {r : Ret} (e : qpackUnblock c id pri again = .ok (c', r)) {x : Nat} (hx : x ≠ id) :
    c'.str x = c.str x := by
  unfold qpackUnblock at e
  rcases h0 : c.str id with _ | s0 <;> rw [h0] at e
  · cases e
  · dsimp only at e
    by_cases hb : s0.qblocked = false
    · rw [if_pos hb] at e; cases e
    rw [if_neg hb] at e
    obtain ⟨⟨c1, r1⟩, e1, e2⟩ := bind_ok e
    have key : c1.str x = c.str x := by
      cases pri with
      | none =>
        obtain ⟨rfl, _⟩ := Prod.mk.inj (R.ok.inj e1)
        exact set_ne _ _ _ _ hx
      | some p => exact (fr_hdr e1 hx).trans (set_ne _ _ _ _ hx)
    dsimp only at e2
    rcases h1 : c1.str id with _ | s1 <;> rw [h1] at e2
    · cases e2
    · dsimp only at e2
      split_ifs at e2
      · obtain ⟨rfl, _⟩ := Prod.mk.inj (R.ok.inj e2)
        exact (set_ne _ _ _ _ hx).trans key
      · obtain ⟨c2, e3, e4⟩ := bind_ok e2
        obtain ⟨rfl, _⟩ := Prod.mk.inj (R.ok.inj e4)
        rw [delete_str e3, upd_ne _ _ hx]; exact key
      · obtain ⟨rfl, _⟩ := Prod.mk.inj (R.ok.inj e2)
        exact key

theorem eff_priUpd (h : Inv w v c) {pri : Http.Pri} (hp : pri.urgency < 8) {r : Ret} (e : onPriorityUpdate c id pri = .ok (c', r)) :
    Walk w c id 0 c' true ∧ ∀ x, x ≠ id → c'.str x = c.str x := by
  unfold onPriorityUpdate at e
  by_cases h1 : (!c.server) = true
  · rw [if_pos h1] at e; cases e
  rw [if_neg h1] at e
  by_cases h2 : (!clientBidi id || decide (ordStreamId id > c.maxClient)) = true
  · rw [if_pos h2] at e
    obtain ⟨rfl, _⟩ := Prod.mk.inj (R.ok.inj e); exact ⟨walk_refl, fun _ _ => rfl⟩
  · rw [if_neg h2] at e
    rcases h0 : c.str id with _ | s0 <;> rw [h0] at e
    · dsimp only at e
      by_cases h3 : rejects c id = true
      · rw [if_pos h3] at e
        obtain ⟨rfl, _⟩ := Prod.mk.inj (R.ok.inj e); exact ⟨walk_refl, fun _ _ => rfl⟩
      rw [if_neg h3] at e
      split at e
      · cases e
      · obtain ⟨rfl, _⟩ := Prod.mk.inj (R.ok.inj e); exact ⟨walk_refl, fun _ _ => rfl⟩
      · obtain ⟨rfl, _⟩ := Prod.mk.inj (R.ok.inj e)
        refine ⟨walk_create h0 ?_, fun x hx => upd_ne _ _ hx⟩
        show Ev w c id 0 (upd c.str id (some { pri := pri, priUpd := true }) id)
        rw [upd_same]; exact .out _ rfl
    · dsimp only at e
      split_ifs at e
      · obtain ⟨rfl, _⟩ := Prod.mk.inj (R.ok.inj e); exact ⟨walk_refl, fun _ _ => rfl⟩
      · obtain ⟨c1, e1, e2⟩ := bind_ok e
        obtain ⟨rfl, _⟩ := Prod.mk.inj (R.ok.inj e2)
        exact ⟨walk_update (s0 := s0) (s := { s0 with priUpd := true }) h (Pre.mk' h h0 rfl rfl rfl (Nat.le_refl _)) rfl hp e1,
          fun x hx => (one_update e1).fr hx⟩

/-- the calls that touch only streams that are not request streams -/
theorem fr_ctrl (h : Inv w v c) {f : Frent F} (e : ctrlFrame c f = .ok c') {x : Nat} (hx : clientBidi x = true) : c'.str x = c.str x := by
  unfold ctrlFrame at e
  split at e
  · cases e
  · rename_i id hc
    split at e
    · cases e
    · obtain rfl := R.ok.inj e
      refine set_ne _ _ _ _ ?_
      rintro rfl
      rw [(localUni_uni (h.tctrl _ hc).1).2] at hx; cases hx

theorem fr_goaway (h : Inv w v c) {g : Nat} (e : queueGoaway c g = .ok c') {x : Nat} (hx : clientBidi x = true) : c'.str x = c.str x := by
  unfold queueGoaway at e
  split_ifs at e
  obtain ⟨c1, e1, e2⟩ := bind_ok e
  obtain rfl := R.ok.inj e2
  exact fr_ctrl h e1 hx

theorem uni_ne {x : Nat} (hx : clientBidi x = true) (hi : streamUni id = true) : x ≠ id := by
  rintro rfl
  unfold clientBidi at hx
  unfold streamUni at hi
  simp at hx hi
  omega

theorem fr_bindControl {r : Ret} (e : bindControl c id = .ok (c', r)) {x : Nat} (hx : clientBidi x = true) : c'.str x = c.str x := by
  unfold bindControl at e
  split_ifs at e with h1
  · obtain ⟨rfl, _⟩ := Prod.mk.inj (R.ok.inj e); rfl
  · obtain ⟨rfl, _⟩ := Prod.mk.inj (R.ok.inj e); rfl
  · obtain ⟨o, eo, e1⟩ := bind_ok e
    obtain ⟨rfl, _⟩ := Prod.mk.inj (R.ok.inj e1)
    refine upd_ne _ _ ?_
    simp only [Bool.or_eq_true, not_or] at h1
    exact uni_ne hx (localUni_uni (localUni_of (by simpa using h1.1.2) (by simpa using h1.2))).1

theorem fr_bindQpack {d : Nat} {r : Ret} (e : bindQpack c id d = .ok (c', r)) {x : Nat} (hx : clientBidi x = true) : c'.str x = c.str x := by
  unfold bindQpack at e
  by_cases h1 : (decide (id ≥ 2 ^ 62) || decide (d ≥ 2 ^ 62) || (c.server && (!serverUni id || !serverUni d)) || (!c.server && (!clientUni id || !clientUni d))) = true
  · rw [if_pos h1] at e; cases e
  rw [if_neg h1] at e
  simp only [Bool.or_eq_true, not_or] at h1
  have hi : streamUni id = true ∧ streamUni d = true := by
    obtain ⟨⟨_, h2⟩, h3⟩ := h1
    unfold serverUni clientUni at *
    unfold streamUni
    cases hs : c.server <;> rw [hs] at h2 h3 <;> simp at h2 h3 ⊢ <;> omega
  split_ifs at e
  · obtain ⟨rfl, _⟩ := Prod.mk.inj (R.ok.inj e); rfl
  · obtain ⟨rfl, _⟩ := Prod.mk.inj (R.ok.inj e); rfl
  · obtain ⟨oe, eo, e1⟩ := bind_ok e
    dsimp only at e1
    have k : ∀ (s : Strm F), (createStream c id s).str x = c.str x := fun s => upd_ne _ _ (uni_ne hx hi.1)
    split_ifs at e1
    · obtain ⟨rfl, _⟩ := Prod.mk.inj (R.ok.inj e1); exact k _
    · obtain ⟨od, eo, e2⟩ := bind_ok e1
      obtain ⟨rfl, _⟩ := Prod.mk.inj (R.ok.inj e2)
      exact (upd_ne _ _ (uni_ne hx hi.2)).trans (k _)

theorem fr_uni {src : Bytes} {fin : Bool} {r : Ret} (e : readUni c id src fin = .ok (c', r)) {x : Nat} (hx : clientBidi x = true) : c'.str x = c.str x := by
  unfold readUni at e
  by_cases h1 : ((c.server && !clientUni id) || (!c.server && !serverUni id)) = true
  · rw [if_pos h1] at e; cases e
  rw [if_neg h1] at e
  have hi : streamUni id = true := by
    unfold clientUni serverUni at h1
    unfold streamUni
    cases hs : c.server <;> rw [hs] at h1 <;> simp at h1 ⊢ <;> omega
  have hne := uni_ne hx hi
  split at e
  · cases e
  · rename_i s hs
    by_cases h2 : (src.isEmpty && !fin) = true
    · rw [if_pos h2] at e
      obtain ⟨rfl, _⟩ := Prod.mk.inj (R.ok.inj e); rfl
    rw [if_neg h2] at e
    by_cases h3 : s.ident = true
    · rw [if_pos h3] at e
      obtain ⟨rfl, _⟩ := Prod.mk.inj (R.ok.inj e); rfl
    rw [if_neg h3] at e
    by_cases h4 : src.isEmpty = true
    · rw [if_pos h4] at e
      split_ifs at e
      · obtain ⟨rfl, _⟩ := Prod.mk.inj (R.ok.inj e); rfl
      · obtain ⟨c2, e3, e4⟩ := bind_ok e
        obtain ⟨rfl, _⟩ := Prod.mk.inj (R.ok.inj e4)
        rw [delete_str e3, upd_ne _ _ hne]
    rw [if_neg h4] at e
    split at e
    · cases e
    · obtain ⟨rfl, _⟩ := Prod.mk.inj (R.ok.inj e); rfl
    · obtain ⟨rfl, _⟩ := Prod.mk.inj (R.ok.inj e); exact set_ne _ _ _ _ hne
    · split at e
      · obtain ⟨rfl, _⟩ := Prod.mk.inj (R.ok.inj e); rfl
      · rename_i c1 s1 hst
        obtain ⟨_, _, _, _, rfl, rfl⟩ := setUniType_ok hst
        split at e
        · obtain ⟨rfl, _⟩ := Prod.mk.inj (R.ok.inj e); exact set_ne _ _ _ _ hne
        · split at e
          · obtain ⟨rfl, _⟩ := Prod.mk.inj (R.ok.inj e); rfl
          · obtain ⟨rfl, _⟩ := Prod.mk.inj (R.ok.inj e); exact set_ne _ _ _ _ hne

/-- the effect of a call on a request stream that it names -/
theorem step_named (h : Inv w v c) {o : Op F} {r : Ret} (h1 : OpOk o) (h2 : w → FairWrite c o) {x : Nat} (hx : clientBidi x = true)
    (hn : names o x = true) (e : step encode c o = .ok (c', r)) : Walk w c x (bytesOf o) c' (priOp o) := by
  have bi : ∀ {id : Nat}, (id == x) = true → id = x := fun g => by simpa using g
  have nu : ∀ {id : Nat}, streamUni id = true → (id == x) = true → False := fun g1 g2 => uni_ne hx g1 (bi g2).symm
  cases o with
  | bindControl id => exact walk_same (fr_bindControl e hx)
  | bindQpack e' d => exact walk_same (fr_bindQpack e hx)
  | submitRequest id nva dr => obtain rfl := bi hn; exact (eff_submitRequest h e).1
  | submitInfo id nva => obtain rfl := bi hn; exact (eff_submitInfo h hx e).1
  | submitResponse id nva dr => obtain rfl := bi hn; exact (eff_submitResponse h hx e).1
  | submitTrailers id nva => obtain rfl := bi hn; exact (eff_submitTrailers h hx e).1
  | writev k db as => cases hn
  | addWrite id n => obtain rfl := bi hn; exact eff_addWrite h h2 hx e
  | addAck id n => obtain rfl := bi hn; exact (eff_addAck e).1
  | updAck id off => obtain rfl := bi hn; exact (eff_updAck e).1
  | block id => obtain rfl := bi hn; exact eff_block hx e
  | unblock id => obtain rfl := bi hn; exact eff_unblock h hx e
  | shutWr id => obtain rfl := bi hn; exact eff_shutWr hx e
  | resume id => obtain rfl := bi hn; exact eff_resume h hx e
  | shutRd id => obtain rfl := bi hn; exact (eff_shutRd e).1
  | close id => obtain rfl := bi hn; exact (eff_close e).1
  | notice => cases hn
  | shutdown => cases hn
  | setServerPri id pri => obtain rfl := bi hn; exact (eff_setServerPri h e).1
  | setClientPri id va =>
    refine walk_same ?_
    change setClientPriority c id va = _ at e
    unfold setClientPriority at e
    split_ifs at e
    · obtain ⟨rfl, _⟩ := Prod.mk.inj (R.ok.inj e); rfl
    · split at e
      · obtain ⟨rfl, _⟩ := Prod.mk.inj (R.ok.inj e); rfl
      · obtain ⟨c1, e1, e2⟩ := bind_ok e
        obtain ⟨rfl, _⟩ := Prod.mk.inj (R.ok.inj e2)
        exact fr_ctrl h e1 hx
  | setMaxClient n => cases hn
  | «open» id empty => obtain rfl := bi hn; exact (eff_open e).1
  | uni id src fin => exact walk_same (fr_uni e hx)
  | priUpd id pri => obtain rfl := bi hn; exact (eff_priUpd h h1 e).1
  | hdrPri id pri => obtain rfl := bi hn; exact walk_hdr h h1 e
  | qpackBlock id => obtain rfl := bi hn; exact (eff_qpackBlock e).1
  | qpackUnblock id pri again => obtain rfl := bi hn; exact walk_unblockq h h1.2 e
  | recvGoaway => cases hn

/-- the effect of nghttp3_conn_writev_stream on request streams -/
theorem writev_other (h : Inv w v c) {k : Nat} {db : Bytes} {as : List Ans} {r : Ret} (e : writevStream encode c k db as = .ok (c', r)) {x : Nat}
    (hx : clientBidi x = true) : c'.str x = c.str x ∨ (nextTx c = some x ∧ ∃ s0 o sd, c.str x = some s0 ∧
      c'.str x = some { s0 with out := o, sched := sd } ∧ (sd = s0.sched ∨ sd = false)) := by
  have nc : ¬ isCritical c x := fun g => by rw [(isCritical_uni h g).1] at hx; cases hx
  have keep : ∀ {c1 : Conn E F} {P : Nat → Prop}, OutEff P c c1 → ¬ P x → c1.str x = c.str x := by
    intro c1 P g hn
    rcases h0 : c.str x with _ | s
    · exact g.none x h0
    · obtain ⟨o, g1, g2⟩ := g.str x s h0
      rw [g1, g2 hn]
  obtain ⟨_, rr, rfl, hc⟩ := writevStream_inv h e
  rcases hc with ⟨i, f, v, _, _, he⟩ | ⟨_, rfl, _⟩ | ⟨_, c3, he, h3, e3, _⟩
  · exact Or.inl (keep he nc)
  · exact Or.inl rfl
  · obtain ⟨_, rr', _, _, _, g5, g6⟩ := writeRequest_inv h3 e3
    have hk := keep he nc
    have hn := nextTx_eff he
    rcases hnx : nextTx c3 with _ | id
    · rw [g5 hnx]; exact Or.inl hk
    · obtain ⟨c1, s1, _, k2, k3, k4⟩ := g6 id hnx
      have hq : c3.qenc ≠ some x := fun g => nc (Or.inr (Or.inr (by rw [← he.ctrl.2.1]; exact g)))
      by_cases hid : x = id
      · subst hid
        obtain ⟨s0, m1, m2, _⟩ := k3.back k2
        right
        rw [hk] at m1
        refine ⟨by rw [← hn]; exact hnx, s0, s1.out, ?_⟩
        rcases k4 with ⟨_, rfl⟩ | ⟨_, sch, rfl⟩
        · exact ⟨s0.sched, m1, by rw [k2, m2], Or.inl rfl⟩
        · exact ⟨false, m1, by rw [set_str, m2], Or.inr rfl⟩
      · left
        have k5 : c1.str x = c3.str x := by
          rcases h0 : c3.str x with _ | s
          · exact k3.none x h0
          · obtain ⟨o, g1, g2⟩ := k3.str x s h0
            rw [g1, g2 (by rintro (g | g); exacts [hid g, hq g])]
        rcases k4 with ⟨_, rfl⟩ | ⟨_, sch, rfl⟩
        · rw [k5, hk]
        · rw [set_ne _ _ _ _ hid]; exact k5.trans hk

/-- request streams that the call does not name stay as they are, except for the one that nghttp3_conn_writev_stream takes data from -/
theorem step_other (h : Inv w v c) {o : Op F} {r : Ret} (h1 : OpOk o) {x : Nat} (hx : clientBidi x = true)
    (hn : names o x = false) (e : step encode c o = .ok (c', r)) : c'.str x = c.str x ∨ ((∃ k db as, o = .writev k db as) ∧ nextTx c = some x ∧
      ∃ s0 o sd, c.str x = some s0 ∧ c'.str x = some { s0 with out := o, sched := sd } ∧ (sd = s0.sched ∨ sd = false)) := by
  have bi : ∀ {id : Nat}, (id == x) = false → x ≠ id := fun g g2 => by subst g2; simp at g
  cases o with
  | bindControl id => exact Or.inl (fr_bindControl e hx)
  | bindQpack e' d => exact Or.inl (fr_bindQpack e hx)
  | submitRequest id nva dr => exact Or.inl ((eff_submitRequest h e).2 x (bi hn))
  | submitInfo id nva => exact Or.inl ((eff_submitInfo h h1 e).2 x (bi hn))
  | submitResponse id nva dr => exact Or.inl ((eff_submitResponse h h1 e).2 x (bi hn))
  | submitTrailers id nva => exact Or.inl ((eff_submitTrailers h h1 e).2 x (bi hn))
  | writev k db as =>
    rcases writev_other h e hx with g | g
    · exact Or.inl g
    · exact Or.inr ⟨⟨k, db, as, rfl⟩, g⟩
  | addWrite id n => exact Or.inl (fr_addWrite e (bi hn))
  | addAck id n => exact Or.inl ((eff_addAck (w := True) e).2 x (bi hn))
  | updAck id off => exact Or.inl ((eff_updAck (w := True) e).2 x (bi hn))
  | block id => exact Or.inl (fr_block e (bi hn))
  | unblock id => exact Or.inl (fr_unblock e (bi hn))
  | shutWr id => exact Or.inl (fr_shutWr e (bi hn))
  | resume id => exact Or.inl (fr_resume e (bi hn))
  | shutRd id => exact Or.inl ((eff_shutRd (w := True) e).2 x (bi hn))
  | close id => exact Or.inl ((eff_close (w := True) e).2 x (bi hn))
  | notice =>
    obtain ⟨c1, e1, e2⟩ := bind_ok e
    obtain ⟨rfl, _⟩ := Prod.mk.inj (R.ok.inj e2)
    exact Or.inl (fr_goaway h e1 hx)
  | shutdown =>
    obtain ⟨c1, e1, e2⟩ := bind_ok e
    obtain ⟨rfl, _⟩ := Prod.mk.inj (R.ok.inj e2)
    exact Or.inl (fr_goaway h e1 hx)
  | setServerPri id pri => exact Or.inl ((eff_setServerPri h e).2 x (bi hn))
  | setClientPri id va =>
    left
    change setClientPriority c id va = _ at e
    unfold setClientPriority at e
    split_ifs at e
    · obtain ⟨rfl, _⟩ := Prod.mk.inj (R.ok.inj e); rfl
    · split at e
      · obtain ⟨rfl, _⟩ := Prod.mk.inj (R.ok.inj e); rfl
      · obtain ⟨c1, e1, e2⟩ := bind_ok e
        obtain ⟨rfl, _⟩ := Prod.mk.inj (R.ok.inj e2)
        exact fr_ctrl h e1 hx
  | setMaxClient n =>
    change setMaxClientStreams c n = _ at e
    unfold setMaxClientStreams at e
    split_ifs at e
    obtain ⟨rfl, _⟩ := Prod.mk.inj (R.ok.inj e); exact Or.inl rfl
  | «open» id empty => exact Or.inl ((eff_open (w := True) e).2 x (bi hn))
  | uni id src fin => exact Or.inl (fr_uni e hx)
  | priUpd id pri => exact Or.inl ((eff_priUpd h h1 e).2 x (bi hn))
  | hdrPri id pri => exact Or.inl (fr_hdr e (bi hn))
  | qpackBlock id => exact Or.inl ((eff_qpackBlock (w := True) e).2 x (bi hn))
  | qpackUnblock id pri again => exact Or.inl (fr_unblockq e (bi hn))
  | recvGoaway => obtain ⟨rfl, _⟩ := Prod.mk.inj (R.ok.inj e); exact Or.inl rfl

end Conn
end Nghttp3
