import Verif.Lemmas.ConnInv
import Verif.Spec.Conn
/-! The invariant of the connection, and the functions that change the scheduler. -/
namespace Nghttp3
namespace Conn
open PQ (Mem IdxOk Heap upd upd_same upd_ne)
open Outq (R Frent Ans Bytes St)

variable {E F : Type}

/-- unscheduled_nwrite -/
def Conn.uw (c : Conn E F) (id : Nat) : Nat :=
  match c.str id with
  | some s => s.uwrite
  | none => 0

theorem cyc_of {c : Conn E F} {id : Nat} {s : Strm F} (h : c.str id = some s) : c.cyc id = s.cycle := by unfold Conn.cyc; rw [h]
theorem uw_of {c : Conn E F} {id : Nat} {s : Strm F} (h : c.str id = some s) : c.uw id = s.uwrite := by unfold Conn.uw; rw [h]

theorem cyc_set (c : Conn E F) (id : Nat) (s : Strm F) : (c.set id s).cyc = upd c.cyc id s.cycle := by
  funext x
  by_cases e : x = id
  · subst e; rw [upd_same]; exact cyc_of (set_str _ _ _)
  · rw [upd_ne _ _ e]
    unfold Conn.cyc
    rw [set_ne _ _ _ _ e]

theorem uw_set (c : Conn E F) (id : Nat) (s : Strm F) : (c.set id s).uw = upd c.uw id s.uwrite := by
  funext x
  by_cases e : x = id
  · subst e; rw [upd_same]; exact uw_of (set_str _ _ _)
  · rw [upd_ne _ _ e]
    unfold Conn.uw
    rw [set_ne _ _ _ _ e]

theorem upd_self {β γ : Type} [DecidableEq β] (f : β → γ) (a : β) : upd f a (f a) = f := by
  funext x
  by_cases e : x = a
  · rw [e, upd_same]
  · rw [upd_ne _ _ e]

/-- the scheduler is in order (`w`: also the cycles) -/
structure Core (w : Prop) (c : Conn E F) : Prop where
  reg : Reg c
  lv : w → ∀ u, LvU (c.sched u) c.cyc c.uw
  uwb : w → ∀ id s, c.str id = some s → clientBidi id = true → s.uwrite < WLIM

/-- the unaccounted bytes of a stream are few, and none unless it has the smallest cycle or is not scheduled -/
def UwOk (w : Prop) (c : Conn E F) (id : Nat) (s : Strm F) : Prop :=
  w → (clientBidi id = true → s.uwrite < WLIM) ∧ (s.sched = true → 0 < s.uwrite → s.cycle = c.firstCyc s.pri.urgency)

theorem Core.uwOk {w : Prop} {c : Conn E F} (h : Core w c) {id : Nat} {s : Strm F} (h0 : c.str id = some s) : UwOk w c id s := by
  intro hw
  refine ⟨h.uwb hw id s h0, fun h1 h2 => ?_⟩
  have := (h.lv hw s.pri.urgency).norm.2 id ((h.reg.at h0).1 h1) (by rw [uw_of h0]; exact h2)
  rw [cyc_of h0] at this
  exact this

theorem Core.uwOk' {w : Prop} {c : Conn E F} (h : Core w c) {id : Nat} {s0 s : Strm F} (h0 : c.str id = some s0) (h1 : s.sched = s0.sched)
    (h2 : s.pri = s0.pri) (h3 : s.cycle = s0.cycle) (h4 : s.uwrite ≤ s0.uwrite) : UwOk w c id s := by
  intro hw
  obtain ⟨a, b⟩ := h.uwOk h0 hw
  refine ⟨fun hb => by have := a hb; omega, fun g1 g2 => ?_⟩
  rw [h3, h2]
  exact b (by rw [← h1]; exact g1) (by omega)

theorem Core.set {w : Prop} {c : Conn E F} (h : Core w c) {id : Nat} {s0 s : Strm F} (h0 : c.str id = some s0) (h1 : s.sched = s0.sched)
    (h2 : s.pri = s0.pri) (h3 : s.cycle = s0.cycle) (h4 : UwOk w c id s) : Core w (c.set id s) := by
  refine ⟨h.reg.set h0 h1 h2, fun hw u => ?_, fun hw x s' hx hb => ?_⟩
  · have e : upd c.cyc id s.cycle = c.cyc := by rw [h3, ← cyc_of h0, upd_self]
    rw [cyc_set, uw_set, e]
    refine (h.lv hw u).congr (fun _ _ => rfl) fun x hx hu => ?_
    by_cases e : x = id
    · subst e
      rw [upd_same] at hu
      have hm : Mem (c.sched u) x := hx
      obtain ⟨s', g1, g2, g3⟩ := (h.reg.mem u x).1 hm
      rw [h0] at g1; cases g1
      right
      have := (h4 hw).2 (by rw [h1]; exact g2) hu
      rw [h2, g3, h3, ← cyc_of h0] at this
      exact this
    · rw [upd_ne _ _ e] at hu; exact Or.inl hu
  · by_cases e : x = id
    · subst e; rw [set_str] at hx; cases hx; exact (h4 hw).1 hb
    · rw [set_ne _ _ _ _ e] at hx; exact h.uwb hw x s' hx hb

theorem core_schedule {w : Prop} {c : Conn E F} (h : Core w c) {id : Nat} (hid : clientBidi id = true) {s0 s : Strm F} (h0 : c.str id = some s0) (h1 : s.sched = s0.sched)
    (h2 : s.pri = s0.pri) (h3 : s.cycle = s0.cycle) (h4 : UwOk w c id s) : ∃ sch cy,
      scheduleStream c id s = .ok ({ c with sched := sch }.set id { s with sched := true, cycle := cy, uwrite := 0 }) ∧
      Core w ({ c with sched := sch }.set id { s with sched := true, cycle := cy, uwrite := 0 }) := by
  obtain ⟨pq, cy, e, e2, hr, hm⟩ := schedule_spec h.reg h0 h1 h2
  refine ⟨_, cy, e2, hr, fun hw u => ?_, fun hw x s' hx hb => ?_⟩
  · have ec : upd c.cyc id s.cycle = c.cyc := by rw [h3, ← cyc_of h0, upd_self]
    rw [ec] at e
    rw [cyc_set, uw_set]
    show LvU (upd c.sched s.pri.urgency pq u) (upd c.cyc id cy) (upd c.uw id 0)
    by_cases eu : u = s.pri.urgency
    · subst eu
      rw [upd_same]
      refine (h.lv hw s.pri.urgency).schedule (by rw [h1, h2]; exact h.reg.at h0) _ _ ((h4 hw).1 hid) (fun g1 g2 => ?_) e (upd_same _ _ _)
        fun y hy => upd_ne _ _ hy
      rw [cyc_of h0, ← h3]
      exact (h4 hw).2 g1 g2
    · rw [upd_ne _ _ eu]
      have hne : ∀ x, Mem (c.sched u) x → x ≠ id := by
        rintro x hx rfl
        obtain ⟨s', g1, g2, g3⟩ := (h.reg.mem u x).1 hx
        rw [h0] at g1; cases g1
        rw [h2] at eu; exact eu g3.symm
      refine (h.lv hw u).congr (fun x hx => upd_ne _ _ (hne x hx)) fun x hx hu => Or.inl ?_
      rw [upd_ne _ _ (hne x hx)] at hu; exact hu
  · by_cases e : x = id
    · subst e; rw [set_str] at hx; cases hx; show 0 < WLIM; decide
    · rw [set_ne _ _ _ _ e] at hx; exact h.uwb hw x s' hx hb

theorem core_unschedule {w : Prop} {c : Conn E F} (h : Core w c) {id : Nat} {s0 s : Strm F} (h0 : c.str id = some s0) (h1 : s.sched = s0.sched)
    (h2 : s.pri = s0.pri) (h3 : s.cycle = s0.cycle) (h4 : w → clientBidi id = true → s.uwrite < WLIM) : ∃ sch,
      unscheduleStream c id s = .ok ({ c with sched := sch }.set id { s with sched := false }) ∧
      Core w ({ c with sched := sch }.set id { s with sched := false }) := by
  obtain ⟨sch, e, hr, g1, g2⟩ := unschedule_spec h.reg h0 h1 h2
  refine ⟨sch, e, hr, fun hw u => ?_, fun hw x s' hx hb => ?_⟩
  · have ec : upd c.cyc id s.cycle = c.cyc := by rw [h3, ← cyc_of h0, upd_self]
    rw [cyc_set, uw_set]
    show LvU (sch u) (upd c.cyc id s.cycle) (upd c.uw id s.uwrite)
    rw [ec]
    have hnot : ∀ x, Mem (sch u) x → x ≠ id := by
      rintro x hx rfl
      obtain ⟨s', k1, k2, _⟩ := (hr.mem u x).1 hx
      rw [set_str] at k1; cases k1; cases k2
    have key : LvU (sch u) c.cyc c.uw := by
      by_cases hf : s.sched = false
      · rw [g1 hf]; exact h.lv hw u
      · obtain ⟨pq, k1, k2, k3⟩ := g2 (by simpa using hf)
        rw [k1]
        by_cases eu : u = s.pri.urgency
        · subst eu
          rw [upd_same]
          rw [ec] at k2
          refine (h.lv hw s.pri.urgency).remove ?_ k2
          rw [h2]
          exact (h.reg.at h0).1 (by rw [← h1]; simpa using hf)
        · rw [upd_ne _ _ eu]; exact h.lv hw u
    refine key.congr (fun _ _ => rfl) fun x hx hu => Or.inl ?_
    rw [upd_ne _ _ (hnot x hx)] at hu; exact hu
  · by_cases e : x = id
    · subst e; rw [set_str] at hx; cases hx; exact h4 hw hb
    · rw [set_ne _ _ _ _ e] at hx; exact h.uwb hw x s' hx hb

/-- other fields do not matter -/
theorem Core.frame {w : Prop} {c c' : Conn E F} (h : Core w c) (h1 : c'.str = c.str) (h2 : c'.sched = c.sched) : Core w c' := by
  have e1 : c'.cyc = c.cyc := by funext x; unfold Conn.cyc; rw [h1]
  have e2 : c'.uw = c.uw := by funext x; unfold Conn.uw; rw [h1]
  exact ⟨h.reg.frame h1 h2, by rw [e1, e2, h2]; exact h.lv, by rw [h1]; exact h.uwb⟩

theorem Core.create {w : Prop} {c : Conn E F} (h : Core w c) {id : Nat} {s : Strm F} (h0 : c.str id = none) (h1 : s.sched = false)
    (h2 : s.pri.urgency < 8) (h3 : s.uwrite = 0) : Core w (createStream c id s) := by
  have hne : ∀ u x, Mem (c.sched u) x → x ≠ id := by
    rintro u x hx rfl
    obtain ⟨s', g1, _⟩ := (h.reg.mem u x).1 hx
    rw [h0] at g1; cases g1
  refine ⟨h.reg.create h0 h1 h2, fun hw u => ?_, fun hw x s' hx hb => ?_⟩
  · have e1 : (createStream c id s).cyc = upd c.cyc id s.cycle := cyc_set c id s
    have e2 : (createStream c id s).uw = upd c.uw id s.uwrite := uw_set c id s
    rw [e1, e2]
    refine (h.lv hw u).congr (fun x hx => upd_ne _ _ (hne u x hx)) fun x hx hu => Or.inl ?_
    rw [upd_ne _ _ (hne u x hx)] at hu; exact hu
  · change upd c.str id (some s) x = some s' at hx
    by_cases e : x = id
    · subst e; rw [upd_same] at hx; cases hx; rw [h3]; decide
    · rw [upd_ne _ _ e] at hx; exact h.uwb hw x s' hx hb

theorem Core.delete {w : Prop} {c c' : Conn E F} (h : Core w c) {id : Nat} {s : Strm F} (h0 : c.str id = some s) (h1 : s.sched = false)
    (e1 : c'.str = upd c.str id none) (e2 : c'.sched = c.sched) : Core w c' := by
  have hne : ∀ u x, Mem (c.sched u) x → x ≠ id := by
    rintro u x hx rfl
    obtain ⟨s', g1, g2, _⟩ := (h.reg.mem u x).1 hx
    rw [h0] at g1; cases g1; rw [h1] at g2; cases g2
  refine ⟨h.reg.delete h0 h1 e1 e2, fun hw u => ?_, fun hw x s' hx hb => ?_⟩
  · rw [e2]
    have k : ∀ x, Mem (c.sched u) x → c'.str x = c.str x := fun x hx => by rw [e1, upd_ne _ _ (hne u x hx)]
    refine (h.lv hw u).congr (fun x hx => by unfold Conn.cyc; rw [k x hx]) fun x hx hu => Or.inl ?_
    unfold Conn.uw at hu ⊢
    rw [k x hx] at hu; exact hu
  · rw [e1] at hx
    by_cases e : x = id
    · subst e; rw [upd_same] at hx; cases hx
    · rw [upd_ne _ _ e] at hx; exact h.uwb hw x s' hx hb

/-- the priority of a stream that is not scheduled changes -/
theorem Core.setPri {w : Prop} {c : Conn E F} (h : Core w c) {id : Nat} {s0 s : Strm F} (h0 : c.str id = some s0) (h1 : s0.sched = false)
    (h2 : s.sched = false) (h3 : s.pri.urgency < 8) (h4 : w → clientBidi id = true → s.uwrite < WLIM) : Core w (c.set id s) := by
  have hd := h.delete (c' := { c with str := upd c.str id none }) h0 h1 rfl rfl
  have hs : (c.set id s).str = upd (upd c.str id none) id (some s) := by
    show upd c.str id (some s) = _
    funext x; unfold upd; split_ifs <;> rfl
  have hne : ∀ u x, Mem (c.sched u) x → x ≠ id := by
    rintro u x hx rfl
    obtain ⟨s', g1, g2, _⟩ := (h.reg.mem u x).1 hx
    rw [h0] at g1; cases g1; rw [h1] at g2; cases g2
  refine ⟨?_, fun hw u => ?_, fun hw x s' hx hb => ?_⟩
  · refine ⟨h.reg.idx, fun u x => ?_, fun x s' hx => ?_⟩
    · show Mem (c.sched u) x ↔ ∃ s', upd c.str id (some s) x = some s' ∧ _
      rw [h.reg.mem]
      by_cases e : x = id
      · subst e
        rw [upd_same, h0]
        constructor
        · rintro ⟨s', g1, g2, _⟩; cases g1; rw [h1] at g2; cases g2
        · rintro ⟨s', g1, g2, _⟩; cases g1; rw [h2] at g2; cases g2
      · rw [upd_ne _ _ e]
    · change upd c.str id (some s) x = some s' at hx
      by_cases e : x = id
      · subst e; rw [upd_same] at hx; cases hx; exact h3
      · rw [upd_ne _ _ e] at hx; exact h.reg.urg _ _ hx
  · rw [cyc_set, uw_set]
    refine (h.lv hw u).congr (fun x hx => upd_ne _ _ (hne u x hx)) fun x hx hu => Or.inl ?_
    rw [upd_ne _ _ (hne u x hx)] at hu; exact hu
  · by_cases e : x = id
    · subst e; rw [set_str] at hx; cases hx; exact h4 hw hb
    · rw [set_ne _ _ _ _ e] at hx; exact h.uwb hw x s' hx hb

/-- conn_update_stream_priority -/
theorem core_updatePriority {w : Prop} {c : Conn E F} (h : Core w c) {id : Nat} {s0 s : Strm F} (h0 : c.str id = some s0) (h1 : s.sched = s0.sched)
    (h2 : s.pri = s0.pri) (h3 : s.cycle = s0.cycle) (h4 : UwOk w c id s) (hid : clientBidi id = true) (pri : Http.Pri) (hp : pri.urgency < 8) :
    ∃ sch s', updatePriority c id s pri = .ok ({ c with sched := sch }.set id s') ∧ Core w ({ c with sched := sch }.set id s') ∧
      (∃ sd cy uw, s' = { s with pri := pri, sched := sd, cycle := cy, uwrite := uw } ∧
        ((pri = s0.pri ∧ sd = s0.sched) ∨ sd = requireSchedule s)) := by
  unfold updatePriority
  rw [if_neg (by rw [hid]; decide)]
  by_cases he : s.pri = pri
  · rw [if_pos he]
    refine ⟨c.sched, s, rfl, h.set h0 h1 h2 h3 h4, s.sched, s.cycle, s.uwrite, ?_, Or.inl ⟨by rw [← he, h2], h1⟩⟩
    rw [← he]
  · rw [if_neg he]
    obtain ⟨sch, e, hc⟩ := core_unschedule h h0 h1 h2 h3 (fun hw => (h4 hw).1)
    rw [e]
    show ∃ sch' s', (if requireSchedule { s with sched := false, pri := pri } = true then _ else _) = _ ∧ _
    have hrs : requireSchedule { s with sched := false, pri := pri } = requireSchedule s := rfl
    have hc2 := hc.setPri (s := { s with sched := false, pri := pri }) (set_str _ _ _) rfl rfl hp (fun hw => (h4 hw).1)
    rw [set_set] at hc2
    by_cases hreq : requireSchedule s = true
    · rw [hrs, if_pos hreq]
      -- scheduling does not look at the entry of the stream in the map
      have key : scheduleStream ({ c with sched := sch }.set id { s with sched := false }) id { s with sched := false, pri := pri } =
          scheduleStream ({ c with sched := sch }.set id { s with sched := false, pri := pri }) id { s with sched := false, pri := pri } := by
        unfold scheduleStream
        rw [cyc_set, cyc_set]
        have eset : ∀ (sc : Nat → PQ Nat) (a b : Strm F),
            ({ ({ c with sched := sch }.set id a : Conn E F) with sched := sc }).set id b = { c with sched := sc }.set id b := by
          intro sc a b
          exact set_set { c with sched := sc } id a b
        simp only [eset]
        rfl
      rw [key]
      obtain ⟨sch2, cy, e2, hc3⟩ := core_schedule hc2 hid (set_str _ _ _) (s := { s with sched := false, pri := pri }) rfl rfl rfl
        (fun hw => ⟨(h4 hw).1, fun g => by cases g⟩)
      rw [e2]
      have eset : ({ ({ c with sched := sch }.set id { s with sched := false, pri := pri } : Conn E F) with sched := sch2 }).set id
          { s with sched := true, pri := pri, cycle := cy, uwrite := 0 } = { c with sched := sch2 }.set id { s with sched := true, pri := pri, cycle := cy, uwrite := 0 } :=
        set_set { c with sched := sch2 } id _ _
      refine ⟨sch2, { s with sched := true, pri := pri, cycle := cy, uwrite := 0 }, ?_, ?_, true, cy, 0, rfl, Or.inr hreq.symm⟩
      · exact congrArg R.ok eset
      · rw [← eset]; exact hc3
    · rw [hrs, if_neg hreq]
      refine ⟨sch, { s with sched := false, pri := pri }, ?_, hc2, false, s.cycle, s.uwrite, rfl, Or.inr ?_⟩
      · exact congrArg R.ok (set_set { c with sched := sch } id _ _)
      · cases hr : requireSchedule s with
        | true => exact absurd hr hreq
        | false => rfl

end Conn
end Nghttp3
