import Verif.Lemmas.Level
/-! Invariants of the connection: the scheduler holds exactly the streams that are marked as scheduled. -/
namespace Nghttp3
namespace Conn
open PQ (Mem IdxOk Heap upd upd_same upd_ne)
open Outq (R Frent Ans Bytes St)

variable {E F : Type}

theorem bind_ok {α β : Type} {r : R α} {f : α → R β} {b : β} (h : r.bind f = .ok b) : ∃ a, r = .ok a ∧ f a = .ok b := by
  cases r with
  | ok a => exact ⟨a, rfl, h⟩
  | crash => cases h
  | overflow => cases h
  | callbackFailure => cases h

/-- the queues hold the scheduled streams -/
structure Reg (c : Conn E F) : Prop where
  idx : ∀ u, IdxOk (c.sched u)
  mem : ∀ u x, Mem (c.sched u) x ↔ ∃ s, c.str x = some s ∧ s.sched = true ∧ s.pri.urgency = u
  urg : ∀ x s, c.str x = some s → s.pri.urgency < 8

theorem Reg.at {c : Conn E F} (h : Reg c) {id : Nat} {s : Strm F} (hs : c.str id = some s) :
    s.sched = true ↔ Mem (c.sched s.pri.urgency) id := by
  rw [h.mem]
  constructor
  · intro h1; exact ⟨s, hs, h1, rfl⟩
  · rintro ⟨s', h1, h2, _⟩; rw [hs] at h1; cases h1; exact h2

/-- change of one stream that leaves the scheduler alone -/
theorem Reg.set {c : Conn E F} (h : Reg c) {id : Nat} {s0 s : Strm F} (h0 : c.str id = some s0) (h1 : s.sched = s0.sched) (h2 : s.pri = s0.pri) :
    Reg (c.set id s) := by
  refine ⟨h.idx, fun u x => ?_, fun x s' hx => ?_⟩
  · show Mem (c.sched u) x ↔ ∃ s', upd c.str id (some s) x = some s' ∧ _
    rw [h.mem]
    by_cases e : x = id
    · subst e
      rw [upd_same]
      constructor
      · rintro ⟨s', g1, g2, g3⟩
        rw [h0] at g1; cases g1
        exact ⟨s, rfl, h1.trans g2, by rw [h2]; exact g3⟩
      · rintro ⟨s', g1, g2, g3⟩
        cases g1
        exact ⟨s0, h0, by rw [← h1]; exact g2, by rw [← h2]; exact g3⟩
    · rw [upd_ne _ _ e]
  · change upd c.str id (some s) x = some s' at hx
    by_cases e : x = id
    · subst e
      rw [upd_same] at hx; cases hx
      rw [h2]; exact h.urg _ _ h0
    · rw [upd_ne _ _ e] at hx; exact h.urg _ _ hx

/-- the scheduler changes one level and one stream -/
theorem reg_level {c : Conn E F} (h : Reg c) {id : Nat} {s0 s : Strm F} (h0 : c.str id = some s0) (hp : s.pri = s0.pri)
    {pq : PQ Nat} (hi : IdxOk pq)
    (hm : ∀ y, Mem pq y ↔ (y = id ∧ s.sched = true) ∨ (y ≠ id ∧ Mem (c.sched s.pri.urgency) y)) :
    Reg ({ c with sched := upd c.sched s.pri.urgency pq }.set id s) := by
  have hmem := h.mem
  refine ⟨fun u => ?_, fun u x => ?_, fun x s' hx => ?_⟩
  · show IdxOk (upd c.sched s.pri.urgency pq u)
    by_cases e : u = s.pri.urgency
    · subst e; rw [upd_same]; exact hi
    · rw [upd_ne _ _ e]; exact h.idx u
  · show Mem (upd c.sched s.pri.urgency pq u) x ↔ ∃ s', upd c.str id (some s) x = some s' ∧ _
    by_cases e : x = id
    · subst e
      rw [upd_same]
      by_cases eu : u = s.pri.urgency
      · subst eu
        rw [upd_same, hm]
        constructor
        · rintro (⟨_, g⟩ | ⟨g, _⟩)
          · exact ⟨s, rfl, g, rfl⟩
          · exact absurd rfl g
        · rintro ⟨s', g1, g2, _⟩
          cases g1
          exact Or.inl ⟨rfl, g2⟩
      · rw [upd_ne _ _ eu, hmem]
        constructor
        · rintro ⟨s', g1, g2, g3⟩
          rw [h0] at g1; cases g1
          rw [hp] at eu; exact absurd g3.symm eu
        · rintro ⟨s', g1, g2, g3⟩
          cases g1
          exact absurd g3.symm eu
    · rw [upd_ne _ _ e]
      by_cases eu : u = s.pri.urgency
      · subst eu
        rw [upd_same, hm, ← hmem]
        constructor
        · rintro (⟨g, _⟩ | ⟨_, g⟩)
          · exact absurd g e
          · exact g
        · intro g; exact Or.inr ⟨e, g⟩
      · rw [upd_ne _ _ eu, hmem]
  · change upd c.str id (some s) x = some s' at hx
    by_cases e : x = id
    · subst e
      rw [upd_same] at hx; cases hx
      rw [hp]; exact h.urg _ _ h0
    · rw [upd_ne _ _ e] at hx; exact h.urg _ _ hx

/-- scheduling never fails, and marks the stream -/
theorem schedule_spec {c : Conn E F} (h : Reg c) {id : Nat} {s0 s : Strm F} (h0 : c.str id = some s0) (h1 : s.sched = s0.sched)
    (h2 : s.pri = s0.pri) : ∃ pq cy, tnodeSchedule (c.sched s.pri.urgency) (upd c.cyc id s.cycle) id s.sched s.pri.inc s.uwrite = some (pq, cy) ∧
      scheduleStream c id s = .ok ({ c with sched := upd c.sched s.pri.urgency pq }.set id { s with sched := true, cycle := cy, uwrite := 0 }) ∧
      Reg ({ c with sched := upd c.sched s.pri.urgency pq }.set id { s with sched := true, cycle := cy, uwrite := 0 }) ∧
      ∀ y, Mem pq y ↔ y = id ∨ Mem (c.sched s.pri.urgency) y := by
  have hu : ¬ s.pri.urgency ≥ URGENCY_LEVELS := by
    have := h.urg _ _ h0
    rw [← h2] at this
    unfold URGENCY_LEVELS; omega
  have hs : s.sched = true ↔ Mem (c.sched s.pri.urgency) id := by rw [h1, h2]; exact h.at h0
  obtain ⟨pq, cy, e, g1, g2⟩ := schedule_mem (h.idx s.pri.urgency) (cyc := upd c.cyc id s.cycle) hs s.pri.inc s.uwrite
  refine ⟨pq, cy, e, ?_, ?_, g2⟩
  · unfold scheduleStream
    rw [if_neg hu, e]
  · refine reg_level h h0 (s := { s with sched := true, cycle := cy, uwrite := 0 }) h2 g1 fun y => ?_
    rw [g2]
    constructor
    · rintro (g | g)
      · exact Or.inl ⟨g, rfl⟩
      · by_cases e : y = id
        · exact Or.inl ⟨e, rfl⟩
        · exact Or.inr ⟨e, g⟩
    · rintro (⟨g, _⟩ | ⟨_, g⟩)
      · exact Or.inl g
      · exact Or.inr g

theorem unschedule_spec {c : Conn E F} (h : Reg c) {id : Nat} {s0 s : Strm F} (h0 : c.str id = some s0) (h1 : s.sched = s0.sched)
    (h2 : s.pri = s0.pri) : ∃ sch, unscheduleStream c id s = .ok ({ c with sched := sch }.set id { s with sched := false }) ∧
      Reg ({ c with sched := sch }.set id { s with sched := false }) ∧
      (s.sched = false → sch = c.sched) ∧
      (s.sched = true → ∃ pq, sch = upd c.sched s.pri.urgency pq ∧
        (c.sched s.pri.urgency).remove (cycleLess (upd c.cyc id s.cycle)) id = some pq ∧
        ∀ y, Mem pq y ↔ Mem (c.sched s.pri.urgency) y ∧ y ≠ id) := by
  have hu : ¬ s.pri.urgency ≥ URGENCY_LEVELS := by
    have := h.urg _ _ h0
    rw [← h2] at this
    unfold URGENCY_LEVELS; omega
  unfold unscheduleStream
  rw [if_neg hu]
  by_cases hf : s.sched = false
  · rw [if_pos hf]
    have e : { s with sched := false } = s := by cases s; simp_all
    rw [e]
    exact ⟨c.sched, rfl, h.set h0 h1 h2, fun _ => rfl, fun g => by rw [hf] at g; cases g⟩
  · rw [if_neg hf]
    have hs : Mem (c.sched s.pri.urgency) id := by rw [h2]; exact (h.at h0).1 (by rw [← h1]; simpa using hf)
    obtain ⟨pq, e, g1, g2, g3⟩ := PQ.remove_same (cycleLess (upd c.cyc id s.cycle)) (h.idx s.pri.urgency) hs
    rw [e]
    refine ⟨_, rfl, ?_, fun g => absurd g hf, fun _ => ⟨pq, rfl, rfl, g3⟩⟩
    refine reg_level h h0 (s := { s with sched := false }) h2 g1 fun y => ?_
    rw [g3]
    constructor
    · rintro ⟨g, e⟩; exact Or.inr ⟨e, g⟩
    · rintro (⟨_, g⟩ | ⟨e, g⟩)
      · cases g
      · exact ⟨g, e⟩

/-- setting twice -/
theorem set_set (c : Conn E F) (id : Nat) (s s' : Strm F) : (c.set id s).set id s' = c.set id s' := by
  have e : upd (upd c.str id (some s)) id (some s') = upd c.str id (some s') := by
    funext x
    unfold upd
    split_ifs <;> rfl
  unfold Conn.set
  dsimp only
  rw [e]

theorem set_str (c : Conn E F) (id : Nat) (s : Strm F) : (c.set id s).str id = some s := upd_same _ _ _

theorem set_ne (c : Conn E F) (id x : Nat) (s : Strm F) (h : x ≠ id) : (c.set id s).str x = c.str x := upd_ne _ _ h

/-- a stream that is not there is created -/
theorem Reg.create {c : Conn E F} (h : Reg c) {id : Nat} {s : Strm F} (h0 : c.str id = none) (h1 : s.sched = false) (h2 : s.pri.urgency < 8) :
    Reg (createStream c id s) := by
  refine ⟨h.idx, fun u x => ?_, fun x s' hx => ?_⟩
  · show Mem (c.sched u) x ↔ ∃ s', upd c.str id (some s) x = some s' ∧ _
    rw [h.mem]
    by_cases e : x = id
    · subst e
      rw [upd_same, h0]
      constructor
      · rintro ⟨s', g1, _⟩; cases g1
      · rintro ⟨s', g1, g2, _⟩; cases g1; rw [h1] at g2; cases g2
    · rw [upd_ne _ _ e]
  · change upd c.str id (some s) x = some s' at hx
    by_cases e : x = id
    · subst e; rw [upd_same] at hx; cases hx; exact h2
    · rw [upd_ne _ _ e] at hx; exact h.urg _ _ hx

/-- other fields do not matter -/
theorem Reg.frame {c c' : Conn E F} (h : Reg c) (h1 : c'.str = c.str) (h2 : c'.sched = c.sched) : Reg c' :=
  ⟨by rw [h2]; exact h.idx, by rw [h1, h2]; exact h.mem, by rw [h1]; exact h.urg⟩

theorem Reg.delete {c c' : Conn E F} (h : Reg c) {id : Nat} {s : Strm F} (h0 : c.str id = some s) (h1 : s.sched = false)
    (e1 : c'.str = upd c.str id none) (e2 : c'.sched = c.sched) : Reg c' := by
  refine ⟨by rw [e2]; exact h.idx, fun u x => ?_, fun x s' hx => ?_⟩
  · rw [e1, e2, h.mem]
    by_cases e : x = id
    · subst e
      rw [upd_same, h0]
      constructor
      · rintro ⟨s', g1, g2, _⟩; cases g1; rw [h1] at g2; cases g2
      · rintro ⟨s', g1, _⟩; cases g1
    · rw [upd_ne _ _ e]
  · rw [e1] at hx
    by_cases e : x = id
    · subst e; rw [upd_same] at hx; cases hx
    · rw [upd_ne _ _ e] at hx; exact h.urg _ _ hx

end Conn
end Nghttp3
