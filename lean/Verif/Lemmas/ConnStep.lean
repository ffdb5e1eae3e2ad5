import Verif.Lemmas.ConnOut
import Verif.Lemmas.Rd
import Verif.Spec.Conn
/-! The invariant of the connection. -/
namespace Nghttp3
namespace Conn
open PQ (Mem IdxOk Heap upd upd_same upd_ne)
open Outq (R Frent Ans Bytes St)

variable {E F : Type}

theorem sendable_req {s : Strm F} (h : sendable s = true) : requireSchedule s = true := by
  unfold sendable at h; unfold requireSchedule
  revert h
  cases s.fc <;> cases s.shutWr <;> cases Outq.writeDone s.out <;> cases s.out.frq.isEmpty <;> cases s.out.readBlocked <;> decide

/-- the facts about one stream -/
structure SOk (v : Prop) (id : Nat) (s : Strm F) : Prop where
  need : s.sched = true → clientBidi id = true ∧ requireSchedule s = true
  live : clientBidi id = true → s.closed = false → sendable s = true → s.sched = true
  blk : s.closed = true → s.qblocked = true
  small : s.sched = true → s.uwrite < 800
  rvo : RvOk s.rv
  cl : v → s.closed = true → s.sched = false

/-- identifiers of unidirectional streams of this endpoint -/
def localUni (server : Bool) (id : Nat) : Bool := if server then serverUni id else clientUni id

theorem localUni_uni {server : Bool} {id : Nat} (h : localUni server id = true) : streamUni id = true ∧ clientBidi id = false := by
  unfold localUni serverUni clientUni at h
  unfold streamUni clientBidi
  cases server <;> simp at h ⊢ <;> omega

/-- the invariant (`w`: the writes that were reported are fair; `v`: closed streams were left alone) -/
structure Inv (w v : Prop) (c : Conn E F) : Prop where
  core : Core w c
  sok : ∀ id s, c.str id = some s → SOk v id s
  cnt : ∃ l : List Nat, l.Nodup ∧ (∀ x, x ∈ l ↔ clientBidi x = true ∧ (c.str x).isSome) ∧ c.num = if c.server then l.length else 0
  tctrl : ∀ id, c.ctrl = some id → localUni c.server id = true ∧ ∃ s, c.str id = some s ∧ s.ty = .control
  tqenc : ∀ id, c.qenc = some id → localUni c.server id = true ∧ ∃ s, c.str id = some s ∧ s.ty = .qenc
  tqdec : ∀ id, c.qdec = some id → localUni c.server id = true ∧ ∃ s, c.str id = some s ∧ s.ty = .qdec
  gsort : c.goaways.Pairwise (· ≤ ·)
  ghead : ∀ g t, c.goaways = g :: t → c.txGoaway = g
  gq : c.goawayQueued = true ↔ c.goaways ≠ []
  mb : -4 ≤ c.maxBidi ∧ c.maxBidi % 4 = 0
  mbl : c.server = true → ∀ id, clientBidi id = true → (c.str id).isSome → (id : Int) ≤ c.maxBidi

theorem Inv.withEnc {w v : Prop} {c : Conn E F} (h : Inv w v c) (e : E) : Inv w v { c with enc := e } :=
  ⟨⟨⟨h.core.reg.idx, h.core.reg.mem, h.core.reg.urg⟩, h.core.lv, h.core.uwb⟩, h.sok, h.cnt, h.tctrl, h.tqenc, h.tqdec, h.gsort, h.ghead, h.gq, h.mb, h.mbl⟩

/-- the part of the invariant that does not concern the scheduler: one stream changes -/
theorem inv_upd {w v : Prop} {c : Conn E F} (h : Inv w v c) {id : Nat} {s0 s' : Strm F} {sch : Nat → PQ Nat} (h0 : c.str id = some s0)
    (hc : Core w ({ c with sched := sch }.set id s')) (hs : SOk v id s') (ht : s'.ty = s0.ty) : Inv w v ({ c with sched := sch }.set id s') := by
  have hsome : ∀ x, (upd c.str id (some s') x).isSome = (c.str x).isSome := by
    intro x
    by_cases e : x = id
    · rw [e, upd_same, h0]; rfl
    · rw [upd_ne _ _ e]
  have hp : ∀ {x : Nat} {t : Ty}, (∃ s, c.str x = some s ∧ s.ty = t) → ∃ s, upd c.str id (some s') x = some s ∧ s.ty = t := by
    rintro x t ⟨s, g1, g2⟩
    by_cases e : x = id
    · subst e; rw [h0] at g1; cases g1; exact ⟨s', upd_same _ _ _, ht.trans g2⟩
    · exact ⟨s, by rw [upd_ne _ _ e]; exact g1, g2⟩
  refine ⟨hc, fun x s hx => ?_, ?_, fun x hx => ?_, fun x hx => ?_, fun x hx => ?_, h.gsort, h.ghead, h.gq, h.mb, fun hv x h1 h2 => ?_⟩
  · by_cases e : x = id
    · subst e; rw [set_str] at hx; cases hx; exact hs
    · rw [set_ne _ _ _ _ e] at hx; exact h.sok x s hx
  · obtain ⟨l, h1, h2, h3⟩ := h.cnt
    refine ⟨l, h1, fun x => ?_, h3⟩
    rw [h2, ← hsome]; exact Iff.rfl
  · exact ⟨(h.tctrl x hx).1, hp (h.tctrl x hx).2⟩
  · exact ⟨(h.tqenc x hx).1, hp (h.tqenc x hx).2⟩
  · exact ⟨(h.tqdec x hx).1, hp (h.tqdec x hx).2⟩
  · refine h.mbl hv x h1 ?_
    rw [← hsome]; exact h2

theorem inv_set {w v : Prop} {c : Conn E F} (h : Inv w v c) {id : Nat} {s0 s' : Strm F} (h0 : c.str id = some s0)
    (hc : Core w (c.set id s')) (hs : SOk v id s') (ht : s'.ty = s0.ty) : Inv w v (c.set id s') :=
  inv_upd (sch := c.sched) h h0 hc hs ht

/-- fields that the scheduler does not look at -/
theorem inv_same {w v : Prop} {c : Conn E F} (h : Inv w v c) {id : Nat} {s0 s' : Strm F} (h0 : c.str id = some s0) (h1 : s'.sched = s0.sched)
    (h2 : s'.pri = s0.pri) (h3 : s'.cycle = s0.cycle) (h4 : s'.uwrite ≤ s0.uwrite) (hs : SOk v id s') (ht : s'.ty = s0.ty) : Inv w v (c.set id s') :=
  inv_set h h0 (h.core.set h0 h1 h2 h3 (h.core.uwOk' h0 h1 h2 h3 h4)) hs ht

/-- a stream is created -/
theorem inv_create {w v : Prop} {c : Conn E F} (h : Inv w v c) {id : Nat} {s : Strm F} (h0 : c.str id = none) (h1 : s.sched = false)
    (h2 : s.pri.urgency < 8) (h3 : s.uwrite = 0) (hs : SOk v id s) (hm : c.server = true → clientBidi id = true → (id : Int) ≤ c.maxBidi) :
    Inv w v (createStream c id s) := by
  have hp : ∀ {x : Nat} {t : Ty}, (∃ s, c.str x = some s ∧ s.ty = t) → ∃ s', upd c.str id (some s) x = some s' ∧ s'.ty = t := by
    rintro x t ⟨s', g1, g2⟩
    have e : x ≠ id := by rintro rfl; rw [h0] at g1; cases g1
    exact ⟨s', by rw [upd_ne _ _ e]; exact g1, g2⟩
  refine ⟨h.core.create h0 h1 h2 h3, fun x s' hx => ?_, ?_, fun x hx => ?_, fun x hx => ?_, fun x hx => ?_, h.gsort, h.ghead, h.gq, h.mb,
    fun hv x g1 g2 => ?_⟩
  · change upd c.str id (some s) x = some s' at hx
    by_cases e : x = id
    · subst e; rw [upd_same] at hx; cases hx; exact hs
    · rw [upd_ne _ _ e] at hx; exact h.sok x s' hx
  · obtain ⟨l, g1, g2, g3⟩ := h.cnt
    have hstr : (createStream c id s).str = upd c.str id (some s) := rfl
    by_cases hb : clientBidi id = true
    · refine ⟨id :: l, List.nodup_cons.2 ⟨fun hm => ?_, g1⟩, fun x => ?_, ?_⟩
      · have := ((g2 id).1 hm).2
        rw [h0] at this; cases this
      · rw [hstr, List.mem_cons, g2]
        by_cases e : x = id
        · subst e; rw [upd_same]; simp [hb]
        · rw [upd_ne _ _ e]; simp [e]
      · show (if c.server && clientBidi id then c.num + 1 else c.num) = if c.server then _ else 0
        rw [g3, hb]
        cases c.server <;> simp
    · refine ⟨l, g1, fun x => ?_, ?_⟩
      · rw [hstr, g2]
        by_cases e : x = id
        · subst e; simp [hb]
        · rw [upd_ne _ _ e]
      · show (if c.server && clientBidi id then c.num + 1 else c.num) = if c.server then _ else 0
        rw [g3]
        simp [hb]
  · exact ⟨(h.tctrl x hx).1, hp (h.tctrl x hx).2⟩
  · exact ⟨(h.tqenc x hx).1, hp (h.tqenc x hx).2⟩
  · exact ⟨(h.tqdec x hx).1, hp (h.tqdec x hx).2⟩
  · change (upd c.str id (some s) x).isSome = true at g2
    by_cases e : x = id
    · subst e; exact hm hv g1
    · rw [upd_ne _ _ e] at g2; exact h.mbl hv x g1 g2

/-- a stream is destroyed; it is not one of the critical streams of this endpoint -/
theorem inv_delete {w v : Prop} {c c' : Conn E F} (h : Inv w v c) {id : Nat} {s0 s : Strm F} (h0 : c.str id = some s0)
    (hs0 : s0.sched = false)
    (hne : localUni c.server id = true → s0.ty = .unknown)
    (e : deleteStream c id s = .ok c') : Inv w v c' := by
  have hp : ∀ {x : Nat} {t : Ty}, t ≠ .unknown → localUni c.server x = true → (∃ s, c.str x = some s ∧ s.ty = t) →
      ∃ s', upd c.str id none x = some s' ∧ s'.ty = t := by
    rintro x t ht hl ⟨s', g1, g2⟩
    have e : x ≠ id := by
      rintro rfl
      rw [h0] at g1; cases g1
      rw [hne hl] at g2; exact ht g2.symm
    exact ⟨s', by rw [upd_ne _ _ e]; exact g1, g2⟩
  unfold deleteStream at e
  by_cases e1 : (c.server && clientBidi id && c.num == 0) = true
  · rw [if_pos e1] at e; cases e
  rw [if_neg e1] at e
  by_cases e2 : s.sched = true
  · rw [if_pos e2] at e; cases e
  rw [if_neg e2] at e
  obtain rfl := R.ok.inj e
  refine ⟨h.core.delete h0 hs0 rfl rfl, fun x s' hx => ?_, ?_, fun x hx => ?_, fun x hx => ?_, fun x hx => ?_, h.gsort, h.ghead, h.gq, h.mb,
    fun hv x g1 g2 => ?_⟩
  · change upd c.str id none x = some s' at hx
    by_cases e : x = id
    · subst e; rw [upd_same] at hx; cases hx
    · rw [upd_ne _ _ e] at hx; exact h.sok x s' hx
  · obtain ⟨l, g1, g2, g3⟩ := h.cnt
    by_cases hb : clientBidi id = true
    · have hm : id ∈ l := (g2 id).2 ⟨hb, by rw [h0]; rfl⟩
      refine ⟨l.erase id, g1.erase id, fun x => ?_, ?_⟩
      · show x ∈ l.erase id ↔ clientBidi x = true ∧ (upd c.str id none x).isSome
        rw [g1.mem_erase_iff, g2]
        by_cases e : x = id
        · subst e; rw [upd_same]; simp
        · rw [upd_ne _ _ e]; simp [e]
      · show (if c.server && clientBidi id then c.num - 1 else c.num) = if c.server then _ else 0
        rw [g3, hb, List.length_erase_of_mem hm]
        cases c.server <;> simp
    · refine ⟨l, g1, fun x => ?_, ?_⟩
      · show x ∈ l ↔ clientBidi x = true ∧ (upd c.str id none x).isSome
        rw [g2]
        by_cases e : x = id
        · subst e; simp [hb]
        · rw [upd_ne _ _ e]
      · show (if c.server && clientBidi id then c.num - 1 else c.num) = if c.server then _ else 0
        rw [g3]
        simp [hb]
  · exact ⟨(h.tctrl x hx).1, hp (by decide) (h.tctrl x hx).1 (h.tctrl x hx).2⟩
  · exact ⟨(h.tqenc x hx).1, hp (by decide) (h.tqenc x hx).1 (h.tqenc x hx).2⟩
  · exact ⟨(h.tqdec x hx).1, hp (by decide) (h.tqdec x hx).1 (h.tqdec x hx).2⟩
  · change (upd c.str id none x).isSome = true at g2
    by_cases e : x = id
    · subst e; rw [upd_same] at g2; cases g2
    · rw [upd_ne _ _ e] at g2; exact h.mbl hv x g1 g2

/-- other fields -/
theorem inv_frame {w v : Prop} {c c' : Conn E F} (h : Inv w v c) (h1 : c'.str = c.str) (h2 : c'.sched = c.sched) (h3 : c'.num = c.num)
    (h4 : c'.server = c.server) (h5 : c'.ctrl = c.ctrl) (h6 : c'.qenc = c.qenc) (h7 : c'.qdec = c.qdec)
    (g1 : c'.goaways.Pairwise (· ≤ ·)) (g2 : ∀ g t, c'.goaways = g :: t → c'.txGoaway = g) (g3 : c'.goawayQueued = true ↔ c'.goaways ≠ [])
    (g4 : c.maxBidi ≤ c'.maxBidi ∧ c'.maxBidi % 4 = 0) : Inv w v c' := by
  refine ⟨h.core.frame h1 h2, ?_, ?_, ?_, ?_, ?_, g1, g2, g3, ⟨by have := h.mb.1; omega, g4.2⟩, ?_⟩
  · rw [h1]; exact h.sok
  · rw [h1, h3, h4]; exact h.cnt
  · rw [h1, h4, h5]; exact h.tctrl
  · rw [h1, h4, h6]; exact h.tqenc
  · rw [h1, h4, h7]; exact h.tqdec
  · rw [h1, h4]
    intro a b d e
    have := h.mbl a b d e
    omega

end Conn
end Nghttp3
