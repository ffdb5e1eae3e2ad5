import Verif.Lemmas.ConnRun
/-! What a call does to the streams: those that it does not name stay as they are; most calls leave priorities alone. -/
namespace Nghttp3
namespace Conn
open PQ (Mem IdxOk Heap upd upd_same upd_ne)
open Outq (R Frent Ans Bytes St)

variable {E F : Type} {w v : Prop} {c c' : Conn E F} {id : Nat} {s0 s : Strm F} {encode : Encode E F}

/-- the new state is the old one with a changed stream and scheduler -/
def One (c : Conn E F) (id : Nat) (s : Strm F) (c' : Conn E F) : Prop :=
  ∃ sch sd cy uw, c' = { c with sched := sch }.set id { s with sched := sd, cycle := cy, uwrite := uw }

theorem one_set : One c id s (c.set id s) := ⟨c.sched, s.sched, s.cycle, s.uwrite, rfl⟩

theorem one_schedule (e : scheduleStream c id s = .ok c') : One c id s c' := by
  unfold scheduleStream at e
  split_ifs at e
  split at e
  · cases e
  · obtain rfl := R.ok.inj e
    exact ⟨_, _, _, _, rfl⟩

theorem one_ensure (e : ensureScheduled c id s = .ok c') : One c id s c' := by
  unfold ensureScheduled at e
  split_ifs at e
  · obtain rfl := R.ok.inj e; exact one_set
  · exact one_schedule e

theorem one_unschedule (e : unscheduleStream c id s = .ok c') : One c id s c' := by
  unfold unscheduleStream at e
  split_ifs at e
  · obtain rfl := R.ok.inj e; exact one_set
  · split at e
    · cases e
    · obtain rfl := R.ok.inj e
      exact ⟨_, false, s.cycle, s.uwrite, rfl⟩

theorem one_trans {c1 : Conn E F} {sd : Bool} {p : Http.Pri} (h1 : One c id s c1) (h2 : One c1 id { s with sched := sd, pri := p } c') :
    One c id { s with pri := p } c' := by
  obtain ⟨a, b, d, e, rfl⟩ := h1
  obtain ⟨a', b', d', e', rfl⟩ := h2
  refine ⟨a', b', d', e', ?_⟩
  exact set_set { c with sched := a' } id _ _

theorem one_update {pri : Http.Pri} (e : updatePriority c id s pri = .ok c') : One c id { s with pri := pri } c' := by
  unfold updatePriority at e
  split_ifs at e with h1 h2
  · obtain rfl := R.ok.inj e; rw [← h2]; exact one_set
  · obtain ⟨c1, e1, e2⟩ := bind_ok e
    dsimp only at e2
    refine one_trans (one_unschedule e1) (sd := false) ?_
    split_ifs at e2
    · exact one_schedule e2
    · obtain rfl := R.ok.inj e2; exact one_set

theorem One.fr (h : One c id s c') {x : Nat} (hx : x ≠ id) : c'.str x = c.str x := by
  obtain ⟨_, _, _, _, rfl⟩ := h
  exact set_ne _ _ _ _ hx

theorem One.own (h : One c id s c') : ∃ sd cy uw, c'.str id = some { s with sched := sd, cycle := cy, uwrite := uw } := by
  obtain ⟨_, sd, cy, uw, rfl⟩ := h
  exact ⟨sd, cy, uw, set_str _ _ _⟩

theorem one_submit {nva : F} {dr : Bool} (e : submitHeadersData c id s nva dr = .ok c') : ∃ o, One c id { s with out := o } c' := by
  unfold submitHeadersData at e
  dsimp only at e
  generalize (Frent.headers nva :: if dr = true then [Frent.data] else []) = l at e
  split at e
  · exact ⟨_, one_schedule e⟩
  · obtain rfl := R.ok.inj e; exact ⟨_, one_set⟩

/-- the stream is in the queue of the urgency level -/
def lev (c : Conn E F) (u t : Nat) : Prop := ∃ st, c.str t = some st ∧ st.sched = true ∧ st.pri.urgency = u

/-- the new stream takes its place in its level -/
def JoinAt (c : Conn E F) (x : Nat) (s : Strm F) : Prop :=
  (∃ t, t ≠ x ∧ lev c s.pri.urgency t) → ∃ y p, y ≠ x ∧ lev c s.pri.urgency y ∧ s.cycle = c.cyc y + p ∧ p.toNat ≤ 2 ^ 24 ∧
    ∀ t, t ≠ x → lev c s.pri.urgency t → (c.cyc t - c.cyc y).toNat ≤ 2 ^ 24

/-- what may happen to the place of a named stream in the scheduler, when `n` bytes of it are reported as written -/
inductive Ev (w : Prop) (c : Conn E F) (x n : Nat) : Option (Strm F) → Prop where
  | gone : Ev w c x n none
  | out (s : Strm F) (h1 : s.sched = false) : Ev w c x n (some s)
  | same (s0 s : Strm F) (h0 : c.str x = some s0) (h1 : s.sched = s0.sched) (h2 : s.cycle = s0.cycle) (h3 : s.pri = s0.pri)
      (h4 : s.uwrite = s0.uwrite + n) : Ev w c x n (some s)
  | resch (s0 s : Strm F) (h0 : c.str x = some s0) (h1 : s0.sched = true) (h2 : s.sched = true) (h3 : s.pri = s0.pri) (h4 : s.uwrite = 0)
      (h5 : 0 < s0.uwrite + n) (h6 : s.cycle = if s0.pri.inc = false ∨ (c.sched s0.pri.urgency).len = 1 then s0.cycle
        else s0.cycle + penalty (s0.uwrite + n)) : Ev w c x n (some s)
  | join (s : Strm F) (h1 : s.sched = true) (h2 : s.uwrite = 0) (h3 : w → JoinAt c x s)
      (h4 : s.pri.inc = false → s.cycle = 0 ∨ ∃ y, y ≠ x ∧ lev c s.pri.urgency y ∧ s.cycle = c.cyc y)
      (h5 : ∀ s0, c.str x = some s0 → s0.sched = true → s0.pri ≠ s.pri) : Ev w c x n (some s)

theorem Ev.congr {x n : Nat} {s s' : Strm F} (h : Ev w c x n (some s)) (h1 : s'.sched = s.sched) (h2 : s'.cycle = s.cycle) (h3 : s'.pri = s.pri)
    (h4 : s'.uwrite = s.uwrite) : Ev w c x n (some s') := by
  cases h with
  | out _ k1 => exact .out _ (h1.trans k1)
  | same s0 _ k0 k1 k2 k3 k4 => exact .same s0 _ k0 (h1.trans k1) (h2.trans k2) (h3.trans k3) (h4.trans k4)
  | resch s0 _ k0 k1 k2 k3 k4 k5 k6 => exact .resch s0 _ k0 k1 (h1.trans k2) (h3.trans k3) (h4.trans k4) k5 (h2.trans k6)
  | join _ k1 k2 k3 k4 k5 =>
    exact .join _ (h1.trans k1) (h4.trans k2) (fun hw => by unfold JoinAt; rw [h3, h2]; exact k3 hw) (by rw [h3, h2]; exact k4) (by rw [h3]; exact k5)

theorem ev_refl {x : Nat} (h : c'.str x = c.str x) : Ev w c x 0 (c'.str x) := by
  rw [h]
  cases h0 : c.str x with
  | none => exact .gone
  | some s => exact .same s s h0 rfl rfl rfl rfl

theorem ev_join {c1 : Conn E F} {x n : Nat} {s1 : Strm F} (hc : Core w c1) (hid : clientBidi x = true) (hs : ∀ y, y ≠ x → c1.str y = c.str y)
    (h0 : c1.str x = some s1)
    (h1 : s1.sched = false) (k1 : s.sched = false) (k2 : s.pri = s1.pri) (k4 : w → clientBidi x = true → s.uwrite < WLIM)
    (k5 : ∀ s0, c.str x = some s0 → s0.sched = true → s0.pri ≠ s.pri) (e : scheduleStream c1 x s = .ok c') : Ev w c x n (c'.str x) := by
  have hu : s.pri.urgency < 8 := by rw [k2]; exact hc.reg.urg _ _ h0
  have hnx : ∀ u, ¬ Mem (c1.sched u) x := by
    intro u hm
    obtain ⟨s', g1, g2, _⟩ := (hc.reg.mem u x).1 hm
    rw [h0] at g1; cases g1; rw [h1] at g2; cases g2
  have hlev : ∀ u t, t ≠ x → (lev c u t ↔ Mem (c1.sched u) t) := by
    intro u t ht
    rw [hc.reg.mem, hs t ht]; exact Iff.rfl
  have hcyc : ∀ t, t ≠ x → c1.cyc t = c.cyc t := fun t ht => by unfold Conn.cyc; rw [hs t ht]
  unfold scheduleStream at e
  rw [if_neg (by unfold URGENCY_LEVELS; omega)] at e
  unfold tnodeSchedule at e
  rw [k1, if_pos rfl] at e
  dsimp only at e
  obtain rfl := R.ok.inj e
  rw [set_str]
  by_cases hl : (c1.sched s.pri.urgency).len = 0
  · have hno : ∀ t, ¬ Mem (c1.sched s.pri.urgency) t := by rintro t ⟨i, hi, _⟩; omega
    have hf : firstCycle (c1.sched s.pri.urgency) (upd c1.cyc x s.cycle) = 0 := by unfold firstCycle PQ.top; rw [if_pos hl]
    refine .join _ rfl rfl (fun _ => ?_) (fun hi => Or.inl ?_) k5
    · rintro ⟨t, ht, hm⟩
      exact absurd ((hlev _ t ht).1 hm) (hno t)
    · change s.pri.inc = false at hi
      show firstCycle _ _ + (if _ then _ else _) = (0 : UInt64)
      rw [hf, if_pos (Or.inr hi)]; rfl
  · have hm0 : Mem (c1.sched s.pri.urgency) ((c1.sched s.pri.urgency).q 0) := ⟨0, by omega, rfl⟩
    have hyx : (c1.sched s.pri.urgency).q 0 ≠ x := fun g => hnx _ (by rw [g] at hm0; exact hm0)
    have hf : firstCycle (c1.sched s.pri.urgency) (upd c1.cyc x s.cycle) = c.cyc ((c1.sched s.pri.urgency).q 0) := by
      unfold firstCycle PQ.top; rw [if_neg hl]; dsimp only; rw [upd_ne _ _ hyx, hcyc _ hyx]
    refine .join _ rfl rfl (fun hw _ => ?_) (fun hi => Or.inr ⟨(c1.sched s.pri.urgency).q 0, hyx, (hlev _ _ hyx).2 hm0, ?_⟩) k5
    · refine ⟨(c1.sched s.pri.urgency).q 0, if s.uwrite = 0 ∨ s.pri.inc = false then 0 else penalty s.uwrite, hyx, (hlev _ _ hyx).2 hm0, ?_, ?_,
        fun t ht hm => ?_⟩
      · show firstCycle _ _ + _ = _
        rw [hf]
      · split_ifs
        · decide
        · exact (penalty_le _ (k4 hw hid)).2
      · have := (hc.lv hw s.pri.urgency).norm.1.win t ((hlev _ t ht).1 hm)
        unfold key at this
        rw [hcyc t ht, hcyc _ hyx] at this
        exact this
    · change s.pri.inc = false at hi
      show firstCycle _ _ + (if _ then _ else _) = _
      rw [hf, if_pos (Or.inr hi)]
      exact UInt64.add_zero _

/-- `s` is in the same place of the scheduler as `s0` -/
structure Pre (w : Prop) (c : Conn E F) (id : Nat) (s0 s : Strm F) : Prop where
  h0 : c.str id = some s0
  sched : s.sched = s0.sched
  pri : s.pri = s0.pri
  cycle : s.cycle = s0.cycle
  uw : UwOk w c id s

theorem Pre.mk' (h : Inv w v c) (h0 : c.str id = some s0) (h1 : s.sched = s0.sched) (h2 : s.pri = s0.pri) (h3 : s.cycle = s0.cycle)
    (h5 : s.uwrite ≤ s0.uwrite) : Pre w c id s0 s := ⟨h0, h1, h2, h3, h.core.uwOk' h0 h1 h2 h3 h5⟩

theorem ev_sched {x n : Nat} (h : Inv w v c) (hd : Pre w c x s0 s) (hid : clientBidi x = true) (hn : s.uwrite = s0.uwrite + n)
    (e : scheduleStream c x s = .ok c') : Ev w c x n (c'.str x) := by
  cases hs : s0.sched with
  | false =>
    exact ev_join h.core hid (fun _ _ => rfl) hd.h0 hs (hd.sched.trans hs) hd.pri (fun hw => (hd.uw hw).1)
      (fun s1 g1 g2 => by rw [hd.h0] at g1; cases g1; rw [hs] at g2; cases g2) e
  | true =>
    have hu : s.pri.urgency < 8 := by rw [hd.pri]; exact h.core.reg.urg _ _ hd.h0
    have ec : upd c.cyc x s.cycle = c.cyc := by rw [hd.cycle, ← cyc_of hd.h0, upd_self]
    unfold scheduleStream at e
    rw [if_neg (by unfold URGENCY_LEVELS; omega)] at e
    unfold tnodeSchedule at e
    have hss : s.sched = true := hd.sched.trans hs
    rw [if_neg (by rw [hss]; decide), ec, hd.pri, hn, cyc_of hd.h0] at e
    by_cases h0 : s0.uwrite + n > 0
    · rw [if_pos h0] at e
      by_cases hi : s0.pri.inc = false ∨ (c.sched s0.pri.urgency).len = 1
      · rw [if_pos hi] at e
        obtain rfl := R.ok.inj e
        rw [set_str]
        refine .resch s0 _ hd.h0 hs rfl rfl rfl h0 ?_
        rw [if_pos hi]
      · rw [if_neg hi] at e
        dsimp only at e
        split at e
        · cases e
        · rename_i heq
          obtain rfl := R.ok.inj e
          rw [set_str]
          refine .resch s0 _ hd.h0 hs rfl rfl rfl h0 ?_
          rw [if_neg hi]
          revert heq
          split
          · intro heq; cases heq
          · intro heq
            exact (Prod.mk.inj (Option.some.inj heq)).2.symm
    · rw [if_neg h0] at e
      obtain rfl := R.ok.inj e
      rw [set_str]
      exact .same s0 _ hd.h0 hs.symm rfl rfl (by show 0 = _; omega)

theorem ev_set {x n : Nat} (h0 : c.str x = some s0) (h1 : s.sched = s0.sched) (h2 : s.cycle = s0.cycle) (h3 : s.pri = s0.pri)
    (h4 : s.uwrite = s0.uwrite + n) : Ev w c x n ((c.set x s).str x) := by
  rw [set_str]; exact .same s0 _ h0 h1 h2 h3 h4

theorem ev_unsched {x n : Nat} (e : unscheduleStream c x s = .ok c') : Ev w c x n (c'.str x) := by
  unfold unscheduleStream at e
  split_ifs at e with h1 h2
  · obtain rfl := R.ok.inj e; rw [set_str]; exact .out _ h2
  · split at e
    · cases e
    · obtain rfl := R.ok.inj e
      rw [set_str]; exact .out _ rfl

theorem ev_ensure {x : Nat} (h : Inv w v c) (hd : Pre w c x s0 s) (hid : clientBidi x = true) (hn : s.uwrite = s0.uwrite)
    (e : ensureScheduled c x s = .ok c') : Ev w c x 0 (c'.str x) := by
  unfold ensureScheduled at e
  split_ifs at e
  · obtain rfl := R.ok.inj e
    exact ev_set hd.h0 hd.sched hd.cycle hd.pri hn
  · exact ev_sched h hd hid hn e

theorem schedule_over (c : Conn E F) (id : Nat) (a s : Strm F) : scheduleStream (c.set id a) id s = scheduleStream c id s := by
  unfold scheduleStream
  have hu : upd (c.set id a).cyc id s.cycle = upd c.cyc id s.cycle := by
    rw [cyc_set]; funext y; unfold upd; split_ifs <;> rfl
  have hset : ∀ (sc : Nat → PQ Nat) (a b : Strm F), ({ c.set id a with sched := sc }).set id b = { c with sched := sc }.set id b :=
    fun sc a b => set_set { c with sched := sc } id a b
  rw [hu]
  simp only [hset]
  rfl

theorem ev_update {x : Nat} (h : Inv w v c) (hd : Pre w c x s0 s) (hn : s.uwrite = s0.uwrite) {pri : Http.Pri} (hp : pri.urgency < 8)
    (e : updatePriority c x s pri = .ok c') : Ev w c x 0 (c'.str x) := by
  unfold updatePriority at e
  split_ifs at e with h1 h2
  · obtain rfl := R.ok.inj e
    exact ev_set hd.h0 hd.sched hd.cycle hd.pri hn
  · have hid : clientBidi x = true := by simpa using h1
    obtain ⟨c1, e1, e2⟩ := bind_ok e
    obtain ⟨sch, g1, hc⟩ := core_unschedule h.core hd.h0 hd.sched hd.pri hd.cycle (fun hw => (hd.uw hw).1)
    rw [g1] at e1
    obtain rfl := R.ok.inj e1
    dsimp only at e2
    split_ifs at e2
    · have hc2 := hc.setPri (s := { s with sched := false, pri := pri }) (set_str _ _ _) rfl rfl hp (fun hw => (hd.uw hw).1)
      rw [set_set] at hc2
      rw [schedule_over, ← schedule_over { c with sched := sch } x { s with sched := false, pri := pri }] at e2
      exact ev_join hc2 hid (fun y hy => set_ne _ _ _ _ hy) (set_str _ _ _) rfl rfl rfl (fun hw => (hd.uw hw).1)
        (fun s1 g1 _ => by rw [hd.h0] at g1; cases g1; rw [← hd.pri]; exact h2) e2
    · obtain rfl := R.ok.inj e2
      rw [set_str]; exact .out _ rfl

/-- the priority and what is known about its origin -/
def Same3 (s s0 : Strm F) : Prop := s.pri = s0.pri ∧ s.srvPri = s0.srvPri ∧ s.priUpd = s0.priUpd

/-- the effect on a named stream; `p`: the call may change the priority -/
def Walk (w : Prop) (c : Conn E F) (x n : Nat) (c' : Conn E F) (p : Bool) : Prop :=
  Ev w c x n (c'.str x) ∧ (p = false → ∀ s0 s', c.str x = some s0 → c'.str x = some s' → Same3 s' s0)

theorem walk_same {p : Bool} {x : Nat} (h : c'.str x = c.str x) : Walk w c x 0 c' p :=
  ⟨ev_refl h, fun _ s0 s' h0 h1 => by rw [h, h0] at h1; cases h1; exact ⟨rfl, rfl, rfl⟩⟩

theorem walk_one {x n : Nat} {p : Bool} (h1 : Ev w c x n (c'.str x)) (h0 : c.str x = some s0) (h : One c x s c') (hs : Same3 s s0) : Walk w c x n c' p := by
  refine ⟨h1, fun _ s1 s' g0 g1 => ?_⟩
  rw [h0] at g0; cases g0
  obtain ⟨_, _, _, hh⟩ := h.own
  rw [g1] at hh
  obtain rfl := Option.some.inj hh
  exact hs

theorem walk_gone {x n : Nat} {p : Bool} (h : c'.str x = none) : Walk w c x n c' p :=
  ⟨by rw [h]; exact .gone, fun _ _ _ _ g => by rw [h] at g; cases g⟩

theorem walk_create {x n : Nat} {p : Bool} (h0 : c.str x = none) (h : Ev w c x n (c'.str x)) : Walk w c x n c' p :=
  ⟨h, fun _ _ _ g _ => by rw [h0] at g; cases g⟩

theorem walk_submit {x : Nat} {p : Bool} (h : Inv w v c) (hd : Pre w c x s0 s) (hid : clientBidi x = true) (hn : s.uwrite = s0.uwrite) (hs : Same3 s s0)
    {nva : F} {dr : Bool} (e : submitHeadersData c x s nva dr = .ok c') : Walk w c x 0 c' p := by
  unfold submitHeadersData at e
  dsimp only at e
  generalize (Frent.headers nva :: if dr = true then [Frent.data] else []) = l at e
  have hd' : Pre w c x s0 { s with out := { s.out with frq := s.out.frq ++ l } } := ⟨hd.h0, hd.sched, hd.pri, hd.cycle, hd.uw⟩
  split at e
  · exact walk_one (ev_sched (s0 := s0) h hd' hid hn e) hd.h0 (one_schedule e) hs
  · obtain rfl := R.ok.inj e
    exact walk_one (ev_set hd.h0 hd.sched hd.cycle hd.pri hn) hd.h0 one_set hs

/-- calls that may change the priority of the stream that they name -/
def priOp : Op F → Bool
  | .setServerPri _ _ => true
  | .priUpd _ _ => true
  | .hdrPri _ _ => true
  | .qpackUnblock _ _ _ => true
  | _ => false

/-- bytes that the call reports as written -/
def bytesOf : Op F → Nat
  | .addWrite _ n => n
  | _ => 0

theorem pre_self (h : Inv w v c) (h0 : c.str id = some s0) : Pre w c id s0 s0 := Pre.mk' h h0 rfl rfl rfl (Nat.le_refl _)

theorem walk_update {x : Nat} (h : Inv w v c) (hd : Pre w c x s0 s) (hn : s.uwrite = s0.uwrite) {pri : Http.Pri} (hp : pri.urgency < 8)
    (e : updatePriority c x s pri = .ok c') : Walk w c x 0 c' true :=
  ⟨ev_update h hd hn hp e, fun g => by cases g⟩

theorem walk_hdr {x : Nat} (h : Inv w v c) {pri : Http.Pri} (hp : pri.urgency < 8) {r : Ret}
    (e : onHeaderPriority c x pri = .ok (c', r)) : Walk w c x 0 c' true := by
  unfold onHeaderPriority at e
  rcases h0 : c.str x with _ | s0 <;> rw [h0] at e
  · cases e
  · dsimp only at e
    split_ifs at e
    · obtain ⟨c1, e1, e2⟩ := bind_ok e
      obtain ⟨rfl, _⟩ := Prod.mk.inj (R.ok.inj e2)
      exact walk_update h (pre_self h h0) rfl hp e1
    · obtain ⟨rfl, _⟩ := Prod.mk.inj (R.ok.inj e)
      exact walk_same rfl

theorem walk_unblockq {x : Nat} (h : Inv w v c) {pri : Option Http.Pri} (hp : ∀ p, pri = some p → p.urgency < 8) {again : Bool} {r : Ret}
    (e : qpackUnblock c x pri again = .ok (c', r)) : Walk w c x 0 c' true := by
  unfold qpackUnblock at e
  rcases h0 : c.str x with _ | s0 <;> rw [h0] at e
  · cases e
  · dsimp only at e
    by_cases hb : s0.qblocked = false
    · rw [if_pos hb] at e; cases e
    rw [if_neg hb] at e
    obtain ⟨⟨c1, r1⟩, e1, e2⟩ := bind_ok e
    have key : Ev w c x 0 (c1.str x) := by
      cases pri with
      | none =>
        obtain ⟨rfl, _⟩ := Prod.mk.inj (R.ok.inj e1)
        exact ev_set h0 rfl rfl rfl rfl
      | some p =>
        dsimp only at e1
        unfold onHeaderPriority at e1
        rw [set_str] at e1
        dsimp only at e1
        split_ifs at e1
        · obtain ⟨c2, e3, e4⟩ := bind_ok e1
          obtain ⟨rfl, _⟩ := Prod.mk.inj (R.ok.inj e4)
          rw [updatePriority_over] at e3
          exact ev_update (s0 := s0) (s := { s0 with qblocked := false }) h (Pre.mk' h h0 rfl rfl rfl (Nat.le_refl _)) rfl (hp p rfl) e3
        · obtain ⟨rfl, _⟩ := Prod.mk.inj (R.ok.inj e1)
          exact ev_set h0 rfl rfl rfl rfl
    refine ⟨?_, fun g => by cases g⟩
    dsimp only at e2
    rcases h1 : c1.str x with _ | s1 <;> rw [h1] at e2
    · cases e2
    · rw [h1] at key
      dsimp only at e2
      split_ifs at e2
      · obtain ⟨rfl, _⟩ := Prod.mk.inj (R.ok.inj e2)
        rw [set_str]
        exact key.congr rfl rfl rfl rfl
      · obtain ⟨c2, e3, e4⟩ := bind_ok e2
        obtain ⟨rfl, _⟩ := Prod.mk.inj (R.ok.inj e4)
        unfold deleteStream at e3
        split_ifs at e3
        all_goals
          obtain rfl := R.ok.inj e3
          show Ev w c x 0 (upd c1.str x none x)
          rw [upd_same]; exact .gone
      · obtain ⟨rfl, _⟩ := Prod.mk.inj (R.ok.inj e2)
        rw [h1]; exact key

end Conn
end Nghttp3
