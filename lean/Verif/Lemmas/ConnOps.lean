import Verif.Lemmas.ConnStep
/-! Every call keeps the invariant of the connection: the calls that change one stream. -/
namespace Nghttp3
namespace Conn
open PQ (Mem IdxOk Heap upd upd_same upd_ne)
open Outq (R Frent Ans Bytes St)

variable {E F : Type} {w v : Prop} {c : Conn E F} {id : Nat} {s0 s : Strm F}

theorem ff {b : Bool} {P : Prop} (h : b = false) (g : b = true) : P := by rw [h] at g; cases g

/-- `s` is what has become of `s0`, before it is scheduled or not -/
structure Cand (w : Prop) (c : Conn E F) (id : Nat) (s0 s : Strm F) : Prop where
  h0 : c.str id = some s0
  sched : s.sched = s0.sched
  pri : s.pri = s0.pri
  cycle : s.cycle = s0.cycle
  ty : s.ty = s0.ty
  uw : UwOk w c id s
  blk : s.closed = true → s.qblocked = true
  rvo : RvOk s.rv

theorem inv_sched (h : Inv w v c) (hd : Cand w c id s0 s) (hid : clientBidi id = true) (hr : requireSchedule s = true) (hv : v → s.closed = false) :
    ∃ sch cy, scheduleStream c id s = .ok ({ c with sched := sch }.set id { s with sched := true, cycle := cy, uwrite := 0 }) ∧
      Inv w v ({ c with sched := sch }.set id { s with sched := true, cycle := cy, uwrite := 0 }) := by
  obtain ⟨sch, cy, e, hc⟩ := core_schedule h.core hid hd.h0 hd.sched hd.pri hd.cycle hd.uw
  exact ⟨sch, cy, e, inv_upd h hd.h0 hc ⟨fun _ => ⟨hid, hr⟩, fun _ _ _ => rfl, hd.blk, fun _ => (by show 0 < 800; decide), hd.rvo, fun g => ff (hv g)⟩ hd.ty⟩

theorem inv_unsched (h : Inv w v c) (hd : Cand w c id s0 s) (hn : clientBidi id = true → s.closed = false → sendable s = false) :
    ∃ sch, unscheduleStream c id s = .ok ({ c with sched := sch }.set id { s with sched := false }) ∧
      Inv w v ({ c with sched := sch }.set id { s with sched := false }) := by
  obtain ⟨sch, e, hc⟩ := core_unschedule h.core hd.h0 hd.sched hd.pri hd.cycle (fun hw => (hd.uw hw).1)
  refine ⟨sch, e, inv_upd h hd.h0 hc ⟨ff rfl, fun g1 g2 g3 => ?_, hd.blk, ff rfl, hd.rvo, fun _ _ => rfl⟩ hd.ty⟩
  have g3' : sendable s = true := g3
  rw [hn g1 g2] at g3'; cases g3'

/-- nothing is done to the scheduler -/
theorem inv_keep (h : Inv w v c) (hd : Cand w c id s0 s) (hs : SOk v id s) : Inv w v (c.set id s) :=
  inv_set h hd.h0 (h.core.set hd.h0 hd.sched hd.pri hd.cycle hd.uw) hs hd.ty

theorem not_sendable (h : requireSchedule s = false) : sendable s = false := by
  cases hs : sendable s with
  | false => rfl
  | true => rw [sendable_req hs] at h; cases h

/-- schedule if needed; `hm`: the need was not smaller before -/
theorem inv_resched (h : Inv w v c) (hd : Cand w c id s0 s) (hid : clientBidi id = true)
    (hv : v → s.closed = false) (hm : requireSchedule s0 = true → requireSchedule s = true) {c' : Conn E F}
    (e : (if requireSchedule s then scheduleStream c id s else .ok (c.set id s)) = .ok c') : Inv w v c' := by
  by_cases hr : requireSchedule s = true
  · rw [if_pos hr] at e
    obtain ⟨sch, cy, e1, g⟩ := inv_sched h hd hid hr hv
    rw [e1] at e
    obtain rfl := R.ok.inj e
    exact g
  · rw [if_neg hr] at e
    obtain rfl := R.ok.inj e
    have hr' : requireSchedule s = false := by simpa using hr
    have hns : s.sched = false := by
      cases g : s.sched with
      | false => rfl
      | true =>
        rw [hd.sched] at g
        exact absurd (hm ((h.sok _ _ hd.h0).need g).2) hr
    refine inv_keep h hd ⟨fun g => ?_, fun _ _ g => ?_, hd.blk, fun g => ?_, hd.rvo, fun _ _ => hns⟩
    · rw [hns] at g; cases g
    · rw [not_sendable hr'] at g; cases g
    · rw [hns] at g; cases g

theorem inv_ensure (h : Inv w v c) (hd : Cand w c id s0 s) (hv : v → s.closed = false) (hm : requireSchedule s0 = true → requireSchedule s = true)
    (hus : s.uwrite ≤ s0.uwrite)
    (hcl : clientBidi id = true ∨ s.sched = false) {c' : Conn E F}
    (e : (if clientBidi id && requireSchedule s then ensureScheduled c id s else .ok (c.set id s)) = .ok c') : Inv w v c' := by
  by_cases hr : (clientBidi id && requireSchedule s) = true
  · rw [if_pos hr] at e
    simp only [Bool.and_eq_true] at hr
    unfold ensureScheduled at e
    by_cases hs : s.sched = true
    · rw [if_pos hs] at e
      obtain rfl := R.ok.inj e
      refine inv_keep h hd ⟨fun _ => hr, fun _ _ _ => hs, hd.blk, fun _ => ?_, hd.rvo, fun g => ff (hv g)⟩
      have := (h.sok _ _ hd.h0).small (by rw [← hd.sched]; exact hs)
      omega
    · rw [if_neg hs] at e
      obtain ⟨sch, cy, e1, g⟩ := inv_sched h hd hr.1 hr.2 hv
      rw [e1] at e
      obtain rfl := R.ok.inj e
      exact g
  · rw [if_neg hr] at e
    obtain rfl := R.ok.inj e
    have hns : s.sched = false := by
      rcases hcl with hcl | hcl
      · rw [hcl, Bool.true_and] at hr
        cases g : s.sched with
        | false => rfl
        | true =>
          rw [hd.sched] at g
          exact absurd (hm ((h.sok _ _ hd.h0).need g).2) hr
      · exact hcl
    refine inv_keep h hd ⟨fun g => ?_, fun g1 _ g => ?_, hd.blk, fun g => ?_, hd.rvo, fun _ _ => hns⟩
    · rw [hns] at g; cases g
    · rw [g1, Bool.true_and] at hr
      exact absurd (sendable_req g) hr
    · rw [hns] at g; cases g

theorem sched_of_uni (h : Inv w v c) (h0 : c.str id = some s0) (hb : clientBidi id = false) : s0.sched = false := by
  cases g : s0.sched with
  | false => rfl
  | true => have := ((h.sok _ _ h0).need g).1; rw [hb] at this; cases this

/-- fields other than those of the scheduler -/
theorem Cand.mk' (h : Inv w v c) (h0 : c.str id = some s0) (h1 : s.sched = s0.sched) (h2 : s.pri = s0.pri) (h3 : s.cycle = s0.cycle)
    (h4 : s.ty = s0.ty) (h5 : s.uwrite ≤ s0.uwrite) (h6 : s.closed = true → s.qblocked = true) (h7 : s.rv = s0.rv) : Cand w c id s0 s :=
  ⟨h0, h1, h2, h3, h4, h.core.uwOk' h0 h1 h2 h3 h5, h6, by rw [h7]; exact (h.sok _ _ h0).rvo⟩

/-- changes that the scheduler does not see -/
theorem sok_same (h : SOk v id s0) (h1 : s.sched = s0.sched) (h2 : requireSchedule s = requireSchedule s0) (h3 : sendable s = sendable s0)
    (h4 : s.closed = s0.closed) (h5 : s.closed = true → s.qblocked = true) (h6 : s.uwrite = s0.uwrite) (h7 : s.rv = s0.rv) : SOk v id s :=
  ⟨by rw [h1, h2]; exact h.need, by rw [h1, h3, h4]; exact h.live, h5, by rw [h1, h6]; exact h.small, by rw [h7]; exact h.rvo, by rw [h1, h4]; exact h.cl⟩

/-! ## submission -/

theorem req_append (s0 : Strm F) (o : St F) (l : List (Frent F)) (h1 : o.frq = s0.out.frq) (h2 : o.readBlocked = s0.out.readBlocked)
    (h3 : Outq.writeDone o = Outq.writeDone s0.out) (h : requireSchedule s0 = true) :
    requireSchedule { s0 with out := { o with frq := o.frq ++ l } } = true := by
  unfold requireSchedule at h ⊢
  dsimp only
  have h4 : Outq.writeDone { o with frq := o.frq ++ l } = Outq.writeDone s0.out := h3
  rw [h4, h1, h2]
  cases hf : s0.out.frq with
  | nil => rw [hf] at h; simp at h ⊢; simp [h]
  | cons a t => rw [hf] at h; simpa using h

theorem submit_inv (h : Inv w v c) (hv : v → Open c id) (h0 : c.str id = some s0) (hid : clientBidi id = true) (o : St F) (h1 : o.frq = s0.out.frq)
    (h2 : o.readBlocked = s0.out.readBlocked) (h3 : Outq.writeDone o = Outq.writeDone s0.out) (nva : F) (dr : Bool) {c' : Conn E F}
    (e : submitHeadersData c id { s0 with out := o } nva dr = .ok c') : Inv w v c' := by
  unfold submitHeadersData at e
  dsimp only at e
  refine inv_resched (s0 := s0) h ?_ hid ?_ (fun g => ?_) e
  · exact Cand.mk' h h0 rfl rfl rfl rfl (Nat.le_refl _) (h.sok _ _ h0).blk rfl
  · exact fun g => hv g s0 h0
  · exact req_append s0 o _ h1 h2 h3 g

theorem setEnd_out (s : Strm F) (b : Bool) : setEnd s b = { s with out := Outq.setEnd s.out b } := rfl

theorem setEnd_keep (o : St F) (b : Bool) : (Outq.setEnd o b).frq = o.frq ∧ (Outq.setEnd o b).readBlocked = o.readBlocked ∧
    Outq.writeDone (Outq.setEnd o b) = Outq.writeDone o := by
  unfold Outq.setEnd
  cases b <;> exact ⟨rfl, rfl, rfl⟩

theorem submitInfo_inv (h : Inv w v c) (hv : v → Open c id) (hid : clientBidi id = true) {nva : F} {c' : Conn E F} {r : Ret} (e : submitInfo c id nva = .ok (c', r)) :
    Inv w v c' := by
  unfold submitInfo at e
  split_ifs at e
  rcases h0 : c.str id with _ | s0 <;> rw [h0] at e
  · obtain ⟨rfl, _⟩ := Prod.mk.inj (R.ok.inj e); exact h
  · obtain ⟨c1, e1, e2⟩ := bind_ok e
    obtain ⟨rfl, _⟩ := Prod.mk.inj (R.ok.inj e2)
    exact submit_inv h hv h0 hid s0.out rfl rfl rfl nva false e1

theorem submitResponse_inv (h : Inv w v c) (hv : v → Open c id) (hid : clientBidi id = true) {nva : F} {dr : Bool} {c' : Conn E F} {r : Ret}
    (e : submitResponse c id nva dr = .ok (c', r)) : Inv w v c' := by
  unfold submitResponse at e
  split_ifs at e
  rcases h0 : c.str id with _ | s0 <;> rw [h0] at e
  · obtain ⟨rfl, _⟩ := Prod.mk.inj (R.ok.inj e); exact h
  · obtain ⟨c1, e1, e2⟩ := bind_ok e
    obtain ⟨rfl, _⟩ := Prod.mk.inj (R.ok.inj e2)
    obtain ⟨g1, g2, g3⟩ := setEnd_keep s0.out (!dr)
    exact submit_inv h hv h0 hid (Outq.setEnd s0.out (!dr)) g1 g2 g3 nva dr e1

theorem submitTrailers_inv (h : Inv w v c) (hv : v → Open c id) (hid : clientBidi id = true) {nva : F} {c' : Conn E F} {r : Ret}
    (e : submitTrailers c id nva = .ok (c', r)) : Inv w v c' := by
  unfold submitTrailers at e
  split_ifs at e
  rcases h0 : c.str id with _ | s0 <;> rw [h0] at e
  · obtain ⟨rfl, _⟩ := Prod.mk.inj (R.ok.inj e); exact h
  · dsimp only at e
    split_ifs at e
    · obtain ⟨rfl, _⟩ := Prod.mk.inj (R.ok.inj e); exact h
    · obtain ⟨c1, e1, e2⟩ := bind_ok e
      obtain ⟨rfl, _⟩ := Prod.mk.inj (R.ok.inj e2)
      obtain ⟨g1, g2, g3⟩ := setEnd_keep s0.out true
      exact submit_inv h hv h0 hid (Outq.setEnd s0.out true) g1 g2 g3 nva false e1

/-- an idle stream -/
theorem sok_idle (id : Nat) (s : Strm F) (h1 : s.sched = false) (h2 : sendable s = false) (h3 : s.closed = false) (h4 : s.rv = {}) : SOk v id s :=
  ⟨ff h1, fun _ _ => ff h2, ff h3, ff h1, by rw [h4]; exact rvOk_idle, fun _ _ => h1⟩

theorem sok_uni (id : Nat) (s : Strm F) (hb : clientBidi id = false) (h1 : s.sched = false) (h3 : s.closed = true → s.qblocked = true)
    (h4 : RvOk s.rv) : SOk v id s :=
  ⟨ff h1, ff hb, h3, ff h1, h4, fun _ _ => h1⟩

theorem submitRequest_inv (h : Inv w v c) {nva : F} {dr : Bool} {c' : Conn E F} {r : Ret} (e : submitRequest c id nva dr = .ok (c', r)) :
    Inv w v c' := by
  unfold submitRequest at e
  split_ifs at e with h1 h2
  · obtain ⟨rfl, _⟩ := Prod.mk.inj (R.ok.inj e); exact h
  · rcases h0 : c.str id with _ | s0 <;> rw [h0] at e
    · obtain ⟨c1, e1, e2⟩ := bind_ok e
      obtain ⟨rfl, _⟩ := Prod.mk.inj (R.ok.inj e2)
      simp only [Bool.or_eq_true, not_or, Bool.not_eq_true', Bool.not_eq_false] at h1
      have hid : clientBidi id = true := h1.2
      have hsv : c.server = false := by simpa using h1.1.1.1
      have hcr : Inv w v (createStream c id ({} : Strm F)) :=
        inv_create h h0 rfl (by show 3 < 8; decide) rfl (sok_idle _ _ rfl rfl rfl rfl) (fun g => by rw [hsv] at g; cases g)
      obtain ⟨g1, g2, g3⟩ := setEnd_keep ({} : St F) (!dr)
      exact submit_inv hcr (fun _ s hs => by
        have : upd c.str id (some ({} : Strm F)) id = some s := hs
        rw [upd_same] at this; cases this; rfl) (s0 := {}) (upd_same _ _ _) hid (Outq.setEnd {} (!dr)) g1 g2 g3 nva dr e1
    · obtain ⟨rfl, _⟩ := Prod.mk.inj (R.ok.inj e); exact h

/-! ## blocking and unblocking -/

theorem blockStream_inv (h : Inv w v c) {c' : Conn E F} {r : Ret} (e : blockStream c id = .ok (c', r)) : Inv w v c' := by
  unfold blockStream at e
  rcases h0 : c.str id with _ | s0 <;> rw [h0] at e
  · obtain ⟨rfl, _⟩ := Prod.mk.inj (R.ok.inj e); exact h
  · dsimp only at e
    have hd : Cand w c id s0 { s0 with fc := true, uwrite := 0 } :=
      Cand.mk' h h0 rfl rfl rfl rfl (Nat.zero_le _) (h.sok _ _ h0).blk rfl
    split_ifs at e with hb
    · obtain ⟨c1, e1, e2⟩ := bind_ok e
      obtain ⟨rfl, _⟩ := Prod.mk.inj (R.ok.inj e2)
      obtain ⟨sch, g1, g2⟩ := inv_unsched h hd (fun _ _ => by simp [sendable])
      rw [g1] at e1
      obtain rfl := R.ok.inj e1
      exact g2
    · obtain ⟨rfl, _⟩ := Prod.mk.inj (R.ok.inj e)
      have hb' : clientBidi id = false := by simpa using hb
      exact inv_keep h hd (sok_uni _ _ hb' (hd.sched.trans (sched_of_uni h h0 hb')) (h.sok _ _ h0).blk (h.sok _ _ h0).rvo)

theorem shutdownWrite_inv (h : Inv w v c) {c' : Conn E F} {r : Ret} (e : shutdownWrite c id = .ok (c', r)) : Inv w v c' := by
  unfold shutdownWrite at e
  rcases h0 : c.str id with _ | s0 <;> rw [h0] at e
  · obtain ⟨rfl, _⟩ := Prod.mk.inj (R.ok.inj e); exact h
  · dsimp only at e
    have hd : Cand w c id s0 { s0 with shutWr := true, uwrite := 0 } :=
      Cand.mk' h h0 rfl rfl rfl rfl (Nat.zero_le _) (h.sok _ _ h0).blk rfl
    split_ifs at e with hb
    · obtain ⟨c1, e1, e2⟩ := bind_ok e
      obtain ⟨rfl, _⟩ := Prod.mk.inj (R.ok.inj e2)
      obtain ⟨sch, g1, g2⟩ := inv_unsched h hd (fun _ _ => by simp [sendable])
      rw [g1] at e1
      obtain rfl := R.ok.inj e1
      exact g2
    · obtain ⟨rfl, _⟩ := Prod.mk.inj (R.ok.inj e)
      have hb' : clientBidi id = false := by simpa using hb
      exact inv_keep h hd (sok_uni _ _ hb' (hd.sched.trans (sched_of_uni h h0 hb')) (h.sok _ _ h0).blk (h.sok _ _ h0).rvo)

theorem bidi_or (h : Inv w v c) (h0 : c.str id = some s0) : clientBidi id = true ∨ s0.sched = false := by
  cases hb : clientBidi id with
  | true => exact Or.inl rfl
  | false => exact Or.inr (sched_of_uni h h0 hb)

theorem unblockStream_inv (h : Inv w v c) (hv : v → Open c id) {c' : Conn E F} {r : Ret} (e : unblockStream c id = .ok (c', r)) : Inv w v c' := by
  unfold unblockStream at e
  rcases h0 : c.str id with _ | s0 <;> rw [h0] at e
  · obtain ⟨rfl, _⟩ := Prod.mk.inj (R.ok.inj e); exact h
  · dsimp only at e
    have hd : Cand w c id s0 { s0 with fc := false } := Cand.mk' h h0 rfl rfl rfl rfl (Nat.le_refl _) (h.sok _ _ h0).blk rfl
    have e' : ((if clientBidi id && requireSchedule { s0 with fc := false } then ensureScheduled c id { s0 with fc := false }
        else .ok (c.set id { s0 with fc := false })) : R (Conn E F)) = .ok c' := by
      split_ifs at e ⊢
      · obtain ⟨c1, e1, e2⟩ := bind_ok e
        obtain ⟨rfl, _⟩ := Prod.mk.inj (R.ok.inj e2)
        exact e1
      · obtain ⟨rfl, _⟩ := Prod.mk.inj (R.ok.inj e); rfl
    refine inv_ensure h hd (fun g => hv g s0 h0) (fun g => ?_) (Nat.le_refl _) ((bidi_or h h0).imp_right fun g => g) e'
    unfold requireSchedule at g ⊢
    dsimp only
    revert g
    cases s0.fc <;> cases s0.shutWr <;> cases Outq.writeDone s0.out <;> simp

theorem resumeStream_inv (h : Inv w v c) (hv : v → Open c id) {c' : Conn E F} {r : Ret} (e : resumeStream c id = .ok (c', r)) : Inv w v c' := by
  unfold resumeStream at e
  rcases h0 : c.str id with _ | s0 <;> rw [h0] at e
  · obtain ⟨rfl, _⟩ := Prod.mk.inj (R.ok.inj e); exact h
  · dsimp only at e
    have hd : Cand w c id s0 { s0 with out := { s0.out with readBlocked := false } } :=
      Cand.mk' h h0 rfl rfl rfl rfl (Nat.le_refl _) (h.sok _ _ h0).blk rfl
    have e' : ((if clientBidi id && requireSchedule { s0 with out := { s0.out with readBlocked := false } } then
          ensureScheduled c id { s0 with out := { s0.out with readBlocked := false } }
        else .ok (c.set id { s0 with out := { s0.out with readBlocked := false } })) : R (Conn E F)) = .ok c' := by
      split_ifs at e ⊢
      · obtain ⟨c1, e1, e2⟩ := bind_ok e
        obtain ⟨rfl, _⟩ := Prod.mk.inj (R.ok.inj e2)
        exact e1
      · obtain ⟨rfl, _⟩ := Prod.mk.inj (R.ok.inj e); rfl
    refine inv_ensure h hd (fun g => hv g s0 h0) (fun g => ?_) (Nat.le_refl _) ((bidi_or h h0).imp_right fun g => g) e'
    unfold requireSchedule at g ⊢
    have hw : Outq.writeDone { s0.out with readBlocked := false } = Outq.writeDone s0.out := rfl
    rw [hw]
    revert g
    cases s0.out.readBlocked <;> simp
    intro h1 h2 h3
    exact Or.inl ⟨⟨h1, h2⟩, h3⟩

/-! ## written and acknowledged bytes -/

theorem addWriteOffset_inv (h : Inv w v c) (hv : v → Open c id) {n : Nat} (hw : w → WriteOk c id n) {c' : Conn E F} {r : Ret}
    (e : addWriteOffset c id n = .ok (c', r)) : Inv w v c' := by
  unfold addWriteOffset at e
  rcases h0 : c.str id with _ | s0 <;> rw [h0] at e
  · obtain ⟨rfl, _⟩ := Prod.mk.inj (R.ok.inj e); exact h
  · obtain ⟨o, eo, e1⟩ := bind_ok e
    obtain ⟨k1, k2, k3, k4⟩ := Outq.addOutqOffset_keep eo
    dsimp only at e1
    have hd : Cand w c id s0 { s0 with out := o, uwrite := s0.uwrite + n } := by
      refine ⟨h0, rfl, rfl, rfl, rfl, fun hh => ⟨fun hb => (hw hh s0 h0 hb).1, fun g1 g2 => ?_⟩, (h.sok _ _ h0).blk, (h.sok _ _ h0).rvo⟩
      by_cases hn : 0 < n
      · exact (hw hh s0 h0 ((h.sok _ _ h0).need g1).1).2 g1 hn
      · exact (h.core.uwOk h0 hh).2 g1 (by dsimp only at g2; omega)
    split_ifs at e1 with hb hr hl
    · obtain ⟨rfl, _⟩ := Prod.mk.inj (R.ok.inj e1)
      have hb' : clientBidi id = false := by simpa using hb
      exact inv_keep h hd (sok_uni _ _ hb' (hd.sched.trans (sched_of_uni h h0 hb')) (h.sok _ _ h0).blk (h.sok _ _ h0).rvo)
    · obtain ⟨c1, e2, e3⟩ := bind_ok e1
      obtain ⟨rfl, _⟩ := Prod.mk.inj (R.ok.inj e3)
      obtain ⟨sch, g1, g2⟩ := inv_unsched h hd (fun _ _ => not_sendable (by simpa using hr))
      rw [g1] at e2
      obtain rfl := R.ok.inj e2
      exact g2
    · obtain ⟨rfl, _⟩ := Prod.mk.inj (R.ok.inj e1)
      have hb' : clientBidi id = true := by simpa using hb
      have hr' : requireSchedule { s0 with out := o, uwrite := s0.uwrite + n } = true := by simpa using hr
      refine inv_keep h hd ⟨fun _ => ⟨hb', hr'⟩, fun _ g2 g3 => ?_, (h.sok _ _ h0).blk, fun _ => hl, (h.sok _ _ h0).rvo, fun g => ff (hv g s0 h0)⟩
      refine (h.sok _ _ h0).live hb' g2 ?_
      unfold sendable at g3 ⊢
      dsimp only at g3
      rw [k1, k2] at g3
      revert g3 k4
      cases s0.fc <;> cases s0.shutWr <;> cases Outq.writeDone s0.out <;> cases Outq.writeDone o <;> simp
    · obtain ⟨c1, e2, e3⟩ := bind_ok e1
      obtain ⟨rfl, _⟩ := Prod.mk.inj (R.ok.inj e3)
      obtain ⟨sch, cy, g1, g2⟩ := inv_sched h hd (by simpa using hb) (by simpa using hr) (fun g => hv g s0 h0)
      rw [g1] at e2
      obtain rfl := R.ok.inj e2
      exact g2

theorem ack_keep (h : Inv w v c) (h0 : c.str id = some s0) {o : St F} {off : Nat} {l : List Int}
    (e : Outq.updateAckOffset s0.out off = .ok (o, l)) : Inv w v (c.set id { s0 with out := o }) := by
  obtain ⟨k1, k2, k3, k4⟩ := Outq.updateAckOffset_keep e
  refine inv_keep h (Cand.mk' h h0 rfl rfl rfl rfl (Nat.le_refl _) (h.sok _ _ h0).blk rfl) (sok_same (h.sok _ _ h0) rfl ?_ ?_ rfl (h.sok _ _ h0).blk rfl rfl)
  · unfold requireSchedule; dsimp only; rw [k1, k2, k4]
  · unfold sendable; dsimp only; rw [k1, k2, k4]

theorem addAckOffset_inv (h : Inv w v c) {n : Nat} {c' : Conn E F} {r : Ret} (e : addAckOffset c id n = .ok (c', r)) : Inv w v c' := by
  unfold addAckOffset at e
  rcases h0 : c.str id with _ | s0 <;> rw [h0] at e
  · obtain ⟨rfl, _⟩ := Prod.mk.inj (R.ok.inj e); exact h
  · obtain ⟨o, eo, e1⟩ := bind_ok e
    obtain ⟨rfl, _⟩ := Prod.mk.inj (R.ok.inj e1)
    exact ack_keep h h0 eo

theorem updateAckOffset_inv (h : Inv w v c) {n : Nat} {c' : Conn E F} {r : Ret} (e : updateAckOffset c id n = .ok (c', r)) : Inv w v c' := by
  unfold updateAckOffset at e
  rcases h0 : c.str id with _ | s0 <;> rw [h0] at e
  · obtain ⟨rfl, _⟩ := Prod.mk.inj (R.ok.inj e); exact h
  · dsimp only at e
    unfold Outq.connUpdateAckOffset at e
    split_ifs at e
    · obtain ⟨rfl, _⟩ := Prod.mk.inj (R.ok.inj e); exact h
    · obtain ⟨o, eo, e1⟩ := bind_ok e
      obtain ⟨rfl, _⟩ := Prod.mk.inj (R.ok.inj e1)
      exact ack_keep h h0 eo

end Conn
end Nghttp3
