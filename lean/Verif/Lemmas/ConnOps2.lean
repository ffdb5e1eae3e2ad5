import Verif.Lemmas.ConnOps
/-! Every call keeps the invariant of the connection: priorities, creation and destruction of streams, GOAWAY. -/
namespace Nghttp3
namespace Conn
open PQ (Mem IdxOk Heap upd upd_same upd_ne)
open Outq (R Frent Ans Bytes St)

variable {E F : Type} {w v : Prop} {c : Conn E F} {id : Nat} {s0 s : Strm F}

/-! ## priority -/

theorem updatePriority_core (h : Inv w v c) (h0 : c.str id = some s0) (h1 : s.sched = s0.sched) (h2 : s.pri = s0.pri) (h3 : s.cycle = s0.cycle)
    (h4 : s.uwrite ≤ s0.uwrite) (hr : requireSchedule s = requireSchedule s0)
    (hs : sendable s = sendable s0) (hcl : s.closed = s0.closed) {pri : Http.Pri} (hp : pri.urgency < 8) {c' : Conn E F}
    (e : updatePriority c id s pri = .ok c') : ∃ sch sd cy uw,
      c' = { c with sched := sch }.set id { s with pri := pri, sched := sd, cycle := cy, uwrite := uw } ∧ Core w c' ∧ clientBidi id = true ∧
      ((pri = s0.pri ∧ sd = s0.sched) ∨ sd = requireSchedule s) ∧
      (sd = true → requireSchedule s = true) ∧ (s.closed = false → sendable s = true → sd = true) ∧ (sd = true → uw < 800) := by
  have hid : clientBidi id = true := by
    by_contra hne
    unfold updatePriority at e
    rw [if_pos (by simpa using hne)] at e
    cases e
  obtain ⟨sch, s', e1, hc, sd, cy, uw, rfl, hsd⟩ := core_updatePriority h.core h0 h1 h2 h3 (h.core.uwOk' h0 h1 h2 h3 h4) hid pri hp
  rw [e1] at e
  obtain rfl := R.ok.inj e
  have hk := h.sok _ _ h0
  refine ⟨sch, sd, cy, uw, rfl, hc, hid, hsd, fun g => ?_, fun g2 g3 => ?_, fun g => ?_⟩
  · rcases hsd with ⟨_, g2⟩ | g2
    · rw [hr]; exact (hk.need (by rw [← g2]; exact g)).2
    · rw [← g2]; exact g
  · rcases hsd with ⟨_, g4⟩ | g4
    · rw [g4]
      refine hk.live hid ?_ (by rw [← hs]; exact g3)
      rw [← hcl]; exact g2
    · rw [g4]; exact sendable_req g3
  · -- a scheduled stream either was not touched or was scheduled again
    unfold updatePriority at e1
    rw [if_neg (by rw [hid]; decide)] at e1
    by_cases he : s.pri = pri
    · rw [if_pos he] at e1
      have g2 := congrArg (fun c => c.str id) (R.ok.inj e1)
      have g3 : (c.set id s).str id = some s := set_str _ _ _
      simp only [set_str] at g2
      have g4 := Option.some.inj g2
      have g5 : s.uwrite = uw := congrArg (·.uwrite) g4
      have g6 : s.sched = sd := congrArg (·.sched) g4
      have := hk.small (by rw [← h1, g6]; exact g)
      omega
    · rw [if_neg he] at e1
      obtain ⟨c1, e2, e3⟩ := bind_ok e1
      dsimp only at e3
      split_ifs at e3 with hq
      · unfold scheduleStream at e3
        split_ifs at e3
        dsimp only at e3
        rcases ht : tnodeSchedule (c1.sched pri.urgency) (upd c1.cyc id s.cycle) id false pri.inc s.uwrite with _ | ⟨pq, cy'⟩ <;> rw [ht] at e3
        · cases e3
        · have g2 := congrArg (fun c => c.str id) (R.ok.inj e3)
          simp only [set_str] at g2
          have : 0 = uw := congrArg (·.uwrite) (Option.some.inj g2)
          omega
      · have g2 := congrArg (fun c => c.str id) (R.ok.inj e3)
        simp only [set_str] at g2
        have : false = sd := congrArg (·.sched) (Option.some.inj g2)
        rw [← this] at g; cases g

theorem updatePriority_inv (h : Inv w v c) (hv : v → s.closed = false) (hd : Cand w c id s0 s) (hu : s.uwrite ≤ s0.uwrite) (hr : requireSchedule s = requireSchedule s0)
    (hs : sendable s = sendable s0) (hcl : s.closed = s0.closed) {pri : Http.Pri} (hp : pri.urgency < 8) {c' : Conn E F}
    (e : updatePriority c id s pri = .ok c') : Inv w v c' ∧ ∃ sch sd cy uw, c' = { c with sched := sch }.set id { s with pri := pri, sched := sd, cycle := cy, uwrite := uw } ∧
      ((pri = s0.pri ∧ sd = s0.sched) ∨ sd = requireSchedule s) := by
  obtain ⟨sch, sd, cy, uw, rfl, hc, hid, hsd, g1, g2, g3⟩ := updatePriority_core h hd.h0 hd.sched hd.pri hd.cycle hu hr hs hcl hp e
  exact ⟨inv_upd h hd.h0 hc ⟨fun g => ⟨hid, g1 g⟩, fun _ => g2, hd.blk, g3, hd.rvo, fun g => ff (hv g)⟩ hd.ty, sch, sd, cy, uw, rfl, hsd⟩

theorem setServerPriority_inv (h : Inv w v c) (hv : v → Open c id) {pri : Http.Pri} {c' : Conn E F} {r : Ret} (e : setServerPriority c id pri = .ok (c', r)) :
    Inv w v c' := by
  unfold setServerPriority at e
  split_ifs at e with h1 h2
  · obtain ⟨rfl, _⟩ := Prod.mk.inj (R.ok.inj e); exact h
  · rcases h0 : c.str id with _ | s0 <;> rw [h0] at e
    · obtain ⟨rfl, _⟩ := Prod.mk.inj (R.ok.inj e); exact h
    · obtain ⟨c1, e1, e2⟩ := bind_ok e
      obtain ⟨rfl, _⟩ := Prod.mk.inj (R.ok.inj e2)
      have h1' : pri.urgency < 8 := by
        by_contra hne
        refine h1 ?_
        have : decide (pri.urgency ≥ URGENCY_LEVELS) = true := decide_eq_true (by unfold URGENCY_LEVELS; omega)
        rw [this]; simp
      exact (updatePriority_inv (s0 := s0) (s := { s0 with srvPri := true }) h (fun g => hv g s0 h0) (Cand.mk' h h0 rfl rfl rfl rfl (Nat.le_refl _) (h.sok _ _ h0).blk rfl) (Nat.le_refl _) rfl rfl rfl (pri := pri) h1' e1).1

theorem onHeaderPriority_inv (h : Inv w v c) (hv : v → Open c id) {pri : Http.Pri} (hp : pri.urgency < 8) {c' : Conn E F} {r : Ret}
    (e : onHeaderPriority c id pri = .ok (c', r)) :
    Inv w v c' ∧ (∀ s0, c.str id = some s0 → ∃ s, c'.str id = some s ∧ s.ty = s0.ty ∧ s.closed = s0.closed ∧ s.qblocked = s0.qblocked ∧
      (s0.closed = true → s.sched = s0.sched ∨ requireSchedule s = true)) := by
  unfold onHeaderPriority at e
  rcases h0 : c.str id with _ | s0 <;> rw [h0] at e
  · cases e
  · dsimp only at e
    split_ifs at e
    · obtain ⟨c1, e1, e2⟩ := bind_ok e
      obtain ⟨rfl, _⟩ := Prod.mk.inj (R.ok.inj e2)
      obtain ⟨g1, sch, sd, cy, uw, rfl, g2⟩ := updatePriority_inv (s0 := s0) (s := s0) h (fun g => hv g s0 h0)
        (Cand.mk' h h0 rfl rfl rfl rfl (Nat.le_refl _) (h.sok _ _ h0).blk rfl) (Nat.le_refl _) rfl rfl rfl hp e1
      refine ⟨g1, ?_⟩
      rintro _ ⟨rfl⟩
      refine ⟨_, set_str _ _ _, rfl, rfl, rfl, fun _ => ?_⟩
      rcases g2 with ⟨_, g2⟩ | g2
      · exact Or.inl g2
      · cases hq : requireSchedule s0 with
        | true => exact Or.inr hq
        | false =>
          left
          show sd = s0.sched
          rw [g2, hq]
          cases hsd : s0.sched with
          | false => rfl
          | true => have := ((h.sok _ _ h0).need hsd).2; rw [hq] at this; cases this
    · obtain ⟨rfl, _⟩ := Prod.mk.inj (R.ok.inj e)
      refine ⟨h, ?_⟩
      rintro _ ⟨rfl⟩
      exact ⟨s0, h0, rfl, rfl, rfl, fun _ => Or.inl rfl⟩

/-- a new request stream is registered -/
theorem inv_open (h : Inv w v c) (g : List Range) (hb : clientBidi id = true) : Inv w v { c with gaps := g, maxBidi := max c.maxBidi id } := by
  refine inv_frame h rfl rfl rfl rfl rfl rfl rfl h.gsort h.ghead h.gq ?_
  dsimp only
  have := h.mb.2
  unfold clientBidi at hb
  simp only [beq_iff_eq] at hb
  omega

theorem onPriorityUpdate_inv (h : Inv w v c) (hv : v → Open c id) {pri : Http.Pri} (hp : pri.urgency < 8) {c' : Conn E F} {r : Ret}
    (e : onPriorityUpdate c id pri = .ok (c', r)) : Inv w v c' := by
  unfold onPriorityUpdate at e
  by_cases h1 : (!c.server) = true
  · rw [if_pos h1] at e; cases e
  rw [if_neg h1] at e
  by_cases h2 : (!clientBidi id || decide (ordStreamId id > c.maxClient)) = true
  · rw [if_pos h2] at e
    obtain ⟨rfl, _⟩ := Prod.mk.inj (R.ok.inj e); exact h
  · rw [if_neg h2] at e
    simp only [Bool.or_eq_true, not_or, Bool.not_eq_true', Bool.not_eq_false] at h2
    rcases h0 : c.str id with _ | s0 <;> rw [h0] at e
    · dsimp only at e
      by_cases hrj : rejects c id = true
      · rw [if_pos hrj] at e
        obtain ⟨rfl, _⟩ := Prod.mk.inj (R.ok.inj e); exact h
      · rw [if_neg hrj] at e
        rcases hg : connBidiIdtrOpen c.gaps id with ⟨_ | _ | _, g⟩ <;> rw [hg] at e
        · obtain ⟨rfl, _⟩ := Prod.mk.inj (R.ok.inj e)
          refine inv_create (inv_open (id := id) h g h2.1) h0 rfl hp rfl (sok_idle _ _ rfl rfl rfl rfl) (fun _ _ => ?_)
          dsimp only; omega
        · obtain ⟨rfl, _⟩ := Prod.mk.inj (R.ok.inj e); exact h
        · cases e
    · dsimp only at e
      split_ifs at e
      · obtain ⟨rfl, _⟩ := Prod.mk.inj (R.ok.inj e); exact h
      · obtain ⟨c1, e1, e2⟩ := bind_ok e
        obtain ⟨rfl, _⟩ := Prod.mk.inj (R.ok.inj e2)
        exact (updatePriority_inv (s0 := s0) (s := { s0 with priUpd := true }) h (fun g => hv g s0 h0) (Cand.mk' h h0 rfl rfl rfl rfl (Nat.le_refl _) (h.sok _ _ h0).blk rfl) (Nat.le_refl _) rfl rfl rfl hp e1).1

theorem openStream_inv (h : Inv w v c) {b : Bool} {c' : Conn E F} {r : Ret} (e : openStream c id b = .ok (c', r)) : Inv w v c' := by
  unfold openStream at e
  by_cases h1 : decide (id ≥ 2 ^ 62) = true
  · rw [if_pos h1] at e; cases e
  rw [if_neg h1] at e
  rcases h0 : c.str id with _ | s0 <;> rw [h0] at e
  · dsimp only at e
    split_ifs at e with hs hb hu hm hu2 hm2
    · rcases hg : connBidiIdtrOpen c.gaps id with ⟨_ | _ | _, g⟩ <;> rw [hg] at e
      · obtain ⟨rfl, _⟩ := Prod.mk.inj (R.ok.inj e)
        refine inv_create (inv_open (id := id) h g hb) h0 rfl (by show 3 < 8; decide) rfl (sok_idle _ _ rfl rfl rfl rfl) (fun _ _ => ?_)
        dsimp only; omega
      · obtain ⟨rfl, _⟩ := Prod.mk.inj (R.ok.inj e)
        refine inv_create (inv_open (id := id) h g hb) h0 rfl (by show 3 < 8; decide) rfl (sok_idle _ _ rfl rfl rfl rfl) (fun _ _ => ?_)
        dsimp only; omega
      · cases e
    · obtain ⟨rfl, _⟩ := Prod.mk.inj (R.ok.inj e); exact h
    · obtain ⟨rfl, _⟩ := Prod.mk.inj (R.ok.inj e); exact h
    · obtain ⟨rfl, _⟩ := Prod.mk.inj (R.ok.inj e)
      exact inv_create h h0 rfl (by show 3 < 8; decide) rfl (sok_idle _ _ rfl rfl rfl rfl) (fun _ g => absurd g hb)
    · obtain ⟨rfl, _⟩ := Prod.mk.inj (R.ok.inj e); exact h
    · obtain ⟨rfl, _⟩ := Prod.mk.inj (R.ok.inj e)
      exact inv_create h h0 rfl (by show 3 < 8; decide) rfl (sok_idle _ _ rfl rfl rfl rfl) (fun g _ => absurd g hs)
    · obtain ⟨rfl, _⟩ := Prod.mk.inj (R.ok.inj e); exact h
  · dsimp only at e
    split_ifs at e
    obtain ⟨rfl, _⟩ := Prod.mk.inj (R.ok.inj e); exact h

/-! ## the end of a stream -/

theorem closeStream_inv (h : Inv w v c) {c' : Conn E F} {r : Ret} (e : closeStream c id = .ok (c', r)) : Inv w v c' := by
  unfold closeStream at e
  rcases h0 : c.str id with _ | s0 <;> rw [h0] at e
  · obtain ⟨rfl, _⟩ := Prod.mk.inj (R.ok.inj e); exact h
  · dsimp only at e
    by_cases h1 : (streamUni id && s0.ty != .unknown) = true
    · rw [if_pos h1] at e
      obtain ⟨rfl, _⟩ := Prod.mk.inj (R.ok.inj e); exact h
    · rw [if_neg h1] at e
      obtain ⟨c1, e1, e2⟩ := bind_ok e
      have hk := h.sok _ _ h0
      have hd : Cand w c id s0 s0 := Cand.mk' h h0 rfl rfl rfl rfl (Nat.le_refl _) hk.blk rfl
      obtain ⟨sch, g1, hcore⟩ := core_unschedule h.core h0 rfl rfl rfl (fun hw => (hd.uw hw).1)
      rw [g1] at e1
      obtain rfl := R.ok.inj e1
      split_ifs at e2 with h2
      · obtain ⟨c2, e3, e4⟩ := bind_ok e2
        obtain ⟨rfl, _⟩ := Prod.mk.inj (R.ok.inj e4)
        -- the stream could send; for the invariant it is taken as closed and blocked until it is gone
        have hmid : Inv w v ({ c with sched := sch }.set id { s0 with sched := false, closed := true, qblocked := true }) := by
          have hcore2 : Core w ({ c with sched := sch }.set id { s0 with sched := false, closed := true, qblocked := true }) := by
            have := hcore.set (s := { s0 with sched := false, closed := true, qblocked := true }) (set_str _ _ _) rfl rfl rfl
              (fun hw => ⟨(hd.uw hw).1, ff rfl⟩)
            rw [set_set] at this
            exact this
          exact inv_upd h h0 hcore2 ⟨ff rfl, fun _ (g : true = false) => Bool.noConfusion g, fun _ => rfl, ff rfl, hk.rvo, fun _ _ => rfl⟩ rfl
        have hdel : deleteStream ({ c with sched := sch }.set id { s0 with sched := false, closed := true, qblocked := true }) id
            { s0 with sched := false } = .ok c2 := by
          rw [← e3]
          unfold deleteStream Conn.set
          dsimp only
          have hu : ∀ a b : Option (Strm F), upd (upd c.str id a) id none = upd (upd c.str id b) id none := by
            intro a b
            funext x
            unfold upd
            split_ifs <;> rfl
          rw [hu (some { s0 with sched := false, closed := true, qblocked := true }) (some { s0 with sched := false })]
        refine inv_delete hmid (set_str _ _ _) rfl (fun g => ?_) hdel
        have gu := (localUni_uni g).1
        rw [gu, Bool.true_and] at h1
        simpa using h1
      · obtain ⟨rfl, _⟩ := Prod.mk.inj (R.ok.inj e2)
        have hcore2 := hcore.set (s := { s0 with sched := false, closed := true }) (set_str _ _ _) rfl rfl rfl (fun hw => ⟨(hd.uw hw).1, ff rfl⟩)
        rw [set_set] at hcore2
        rw [set_set]
        exact inv_upd h h0 hcore2 ⟨ff rfl, fun _ (g : true = false) => Bool.noConfusion g, fun _ => (by simpa using h2), ff rfl, hk.rvo, fun _ _ => rfl⟩ rfl

theorem shutdownRead_inv (h : Inv w v c) {c' : Conn E F} {r : Ret} (e : shutdownRead c id = .ok (c', r)) : Inv w v c' := by
  unfold shutdownRead at e
  split_ifs at e
  · obtain ⟨rfl, _⟩ := Prod.mk.inj (R.ok.inj e); exact h
  · rcases h0 : c.str id with _ | s0 <;> rw [h0] at e
    · obtain ⟨rfl, _⟩ := Prod.mk.inj (R.ok.inj e); exact h
    · obtain ⟨rfl, _⟩ := Prod.mk.inj (R.ok.inj e)
      have hk := h.sok _ _ h0
      exact inv_keep h (Cand.mk' h h0 rfl rfl rfl rfl (Nat.le_refl _) hk.blk rfl) (sok_same hk rfl rfl rfl rfl hk.blk rfl rfl)

theorem qpackBlock_inv (h : Inv w v c) {c' : Conn E F} {r : Ret} (e : qpackBlock c id = .ok (c', r)) : Inv w v c' := by
  unfold qpackBlock at e
  rcases h0 : c.str id with _ | s0 <;> rw [h0] at e
  · cases e
  · dsimp only at e
    split_ifs at e
    obtain ⟨rfl, _⟩ := Prod.mk.inj (R.ok.inj e)
    have hk := h.sok _ _ h0
    exact inv_keep h (Cand.mk' h h0 rfl rfl rfl rfl (Nat.le_refl _) (fun _ => rfl) rfl) (sok_same hk rfl rfl rfl rfl (fun _ => rfl) rfl rfl)

theorem updatePriority_over (c : Conn E F) (id : Nat) (a s : Strm F) (pri : Http.Pri) :
    updatePriority (c.set id a) id s pri = updatePriority c id s pri := by
  have hu : ∀ (c : Conn E F) (a : Strm F) (x : UInt64), upd (c.set id a).cyc id x = upd c.cyc id x := by
    intro c a x
    rw [cyc_set]
    funext y
    unfold upd
    split_ifs <;> rfl
  have hset : ∀ (sc : Nat → PQ Nat) (a b : Strm F), ({ c.set id a with sched := sc }).set id b = { c with sched := sc }.set id b :=
    fun sc a b => set_set { c with sched := sc } id a b
  have h1 : unscheduleStream (c.set id a) id s = unscheduleStream c id s := by
    unfold unscheduleStream
    rw [hu, set_set]
    simp only [hset]
    rfl
  unfold updatePriority
  rw [h1, set_set]

/-- the release of a stream: the flag is set to its old value while the priority is handled -/
theorem qpackUnblock_inv (h : Inv w v c) {pri : Option Http.Pri} (hp : ∀ p, pri = some p → p.urgency < 8) {again : Bool} {c' : Conn E F} {r : Ret}
    (hid : clientBidi id = true) (hv : v → pri ≠ none → Open c id)
    (e : qpackUnblock c id pri again = .ok (c', r)) : Inv w v c' := by
  unfold qpackUnblock at e
  rcases h0 : c.str id with _ | s0 <;> rw [h0] at e
  · cases e
  · dsimp only at e
    have hk := h.sok _ _ h0
    by_cases hb : s0.qblocked = false
    · rw [if_pos hb] at e; cases e
    rw [if_neg hb] at e
    obtain ⟨⟨c1, r1⟩, e1, e2⟩ := bind_ok e
    -- the state after the priority has been handled, with the stream still marked as blocked
    have key : ∃ sch s1, c1 = { c with sched := sch }.set id { s1 with qblocked := false } ∧ s1.closed = s0.closed ∧ s1.ty = s0.ty ∧
        s1.qblocked = true ∧ Inv w v ({ c with sched := sch }.set id s1) := by
      have hq : s0.qblocked = true := by simpa using hb
      have trivial' : ∃ sch s1, c.set id { s0 with qblocked := false } = { c with sched := sch }.set id { s1 with qblocked := false } ∧
          s1.closed = s0.closed ∧ s1.ty = s0.ty ∧ s1.qblocked = true ∧ Inv w v ({ c with sched := sch }.set id s1) := by
        refine ⟨c.sched, s0, rfl, rfl, rfl, hq, ?_⟩
        exact inv_keep h (Cand.mk' h h0 rfl rfl rfl rfl (Nat.le_refl _) hk.blk rfl) hk
      cases pri with
      | none =>
        obtain ⟨rfl, _⟩ := Prod.mk.inj (R.ok.inj e1)
        exact trivial'
      | some p =>
        dsimp only at e1
        unfold onHeaderPriority at e1
        rw [set_str] at e1
        dsimp only at e1
        by_cases hcond : ((c.set id { s0 with qblocked := false }).server && !s0.priUpd && !s0.srvPri) = true
        · rw [if_pos hcond] at e1
          obtain ⟨c2, e3, e4⟩ := bind_ok e1
          obtain ⟨rfl, _⟩ := Prod.mk.inj (R.ok.inj e4)
          rw [updatePriority_over] at e3
          obtain ⟨sch, sd, cy, uw, rfl, hc, _, hsd, g1, g2, g3⟩ := updatePriority_core (s := { s0 with qblocked := false }) h h0 rfl rfl rfl
            (Nat.le_refl _) rfl rfl rfl (hp p rfl) e3
          refine ⟨sch, { s0 with pri := p, sched := sd, cycle := cy, uwrite := uw }, rfl, rfl, rfl, hq, ?_⟩
          have hc2 := hc.set (s := { s0 with pri := p, sched := sd, cycle := cy, uwrite := uw }) (set_str _ _ _) rfl rfl rfl
            (hc.uwOk' (set_str _ _ _) rfl rfl rfl (Nat.le_refl _))
          rw [set_set] at hc2
          exact inv_upd h h0 hc2 ⟨fun g => ⟨hid, g1 g⟩, fun _ => g2, hk.blk, g3, hk.rvo, fun g => ff (hv g (by simp) s0 h0)⟩ rfl
        · rw [if_neg hcond] at e1
          obtain ⟨rfl, _⟩ := Prod.mk.inj (R.ok.inj e1)
          exact trivial'
    obtain ⟨sch, s1, rfl, k1, k2, k3, k4⟩ := key
    dsimp only at e2
    rw [set_str] at e2
    dsimp only at e2
    have hk1 := k4.sok _ _ (set_str _ _ _)
    split_ifs at e2 with ha hc
    · obtain ⟨rfl, _⟩ := Prod.mk.inj (R.ok.inj e2)
      rw [set_set]
      have : { { s1 with qblocked := false } with qblocked := true } = s1 := by cases s1; simp_all
      rw [this]; exact k4
    · obtain ⟨c2, e3, e4⟩ := bind_ok e2
      obtain ⟨rfl, _⟩ := Prod.mk.inj (R.ok.inj e4)
      have hns : s1.sched = false := by
        cases g : s1.sched with
        | false => rfl
        | true =>
          unfold deleteStream at e3
          by_cases x : (({ c with sched := sch }.set id { s1 with qblocked := false }).server && clientBidi id &&
              ({ c with sched := sch }.set id { s1 with qblocked := false }).num == 0) = true
          · rw [if_pos x] at e3; cases e3
          · rw [if_neg x, if_pos g] at e3; cases e3
      have hdel : deleteStream ({ c with sched := sch }.set id s1) id { s1 with qblocked := false } = .ok c2 := by
        rw [← e3]
        unfold deleteStream Conn.set
        dsimp only
        have hu : ∀ a b : Option (Strm F), upd (upd c.str id a) id none = upd (upd c.str id b) id none := by
          intro a b
          funext x
          unfold upd
          split_ifs <;> rfl
        rw [hu (some s1) (some { s1 with qblocked := false })]
      refine inv_delete k4 (set_str _ _ _) hns (fun g => ?_) hdel
      rw [(localUni_uni g).2] at hid; cases hid
    · obtain ⟨rfl, _⟩ := Prod.mk.inj (R.ok.inj e2)
      have := inv_same k4 (s' := { s1 with qblocked := false }) (set_str _ _ _) rfl rfl rfl (Nat.le_refl _)
        (sok_same hk1 rfl rfl rfl rfl (fun g => absurd g hc) rfl rfl) rfl
      rw [set_set] at this
      exact this

end Conn
end Nghttp3
