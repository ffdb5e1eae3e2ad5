import Verif.Model.Conn
import Verif.Lemmas.PqMem
/-! One urgency level of the scheduler: as long as the cycles of its streams lie in a window of 2^24, the comparison of the queue is a total
order there, so that the first stream of the queue has the smallest cycle. -/
namespace Nghttp3
namespace Conn
open PQ (Mem IdxOk Heap upd upd_same upd_ne entries)

/-- distance of the cycle from `base` -/
def key (base : UInt64) (cyc : Nat → UInt64) (x : Nat) : Nat := (cyc x - base).toNat

def keyLess (base : UInt64) (cyc : Nat → UInt64) (a b : Nat) : Bool :=
  decide (key base cyc a < key base cyc b ∨ key base cyc a = key base cyc b ∧ a < b)

theorem keyLess_sw (base : UInt64) (cyc : Nat → UInt64) : StrictWeak (keyLess base cyc) := by
  constructor
  · intro a b h
    simp only [keyLess, decide_eq_true_eq, decide_eq_false_iff_not] at *
    omega
  · intro a b c h1 h2
    simp only [keyLess, decide_eq_false_iff_not] at *
    omega

theorem gap_nat : MAX_CYCLE_GAP.toNat = 2 ^ 24 := by decide

theorem sub_toNat (a b : UInt64) : (a - b).toNat = (2 ^ 64 - b.toNat + a.toNat) % 2 ^ 64 := UInt64.toNat_sub a b

theorem key_eq (base : UInt64) (cyc : Nat → UInt64) (a b : Nat) : cyc a = cyc b ↔ key base cyc a = key base cyc b := by
  unfold key
  have h1 := (cyc a).toNat_lt
  have h2 := (cyc b).toNat_lt
  have h3 := base.toNat_lt
  rw [sub_toNat, sub_toNat, ← UInt64.toNat_inj]
  omega

theorem key_diff (base : UInt64) (cyc : Nat → UInt64) (a b : Nat) (h : key base cyc a ≤ key base cyc b) :
    (cyc b - cyc a).toNat = key base cyc b - key base cyc a := by
  unfold key at *
  have h1 := (cyc a).toNat_lt
  have h2 := (cyc b).toNat_lt
  have h3 := base.toNat_lt
  rw [sub_toNat] at h ⊢
  rw [sub_toNat, sub_toNat] at *
  omega

/-- in the window the comparison of the code is the order of the distances -/
theorem cycleLess_eq (base : UInt64) (cyc : Nat → UInt64) (a b : Nat) (ha : key base cyc a ≤ 2 ^ 24) (hb : key base cyc b ≤ 2 ^ 24) :
    cycleLess cyc a b = keyLess base cyc a b := by
  unfold cycleLess keyLess
  by_cases he : cyc a = cyc b
  · rw [if_pos he]
    have := (key_eq base cyc a b).1 he
    simp [this]
  · rw [if_neg he]
    have hne : key base cyc a ≠ key base cyc b := fun h => he ((key_eq base cyc a b).2 h)
    apply decide_eq_decide.2
    rw [UInt64.le_iff_toNat_le, gap_nat]
    constructor
    · intro h
      left
      rcases Nat.lt_or_gt_of_ne hne with h1 | h1
      · exact h1
      · exfalso
        have h2 := key_diff base cyc b a (by omega)
        have h3 : (cyc b - cyc a).toNat = 2 ^ 64 - (cyc a - cyc b).toNat := by
          have h1' := (cyc a).toNat_lt
          have h2' := (cyc b).toNat_lt
          rw [sub_toNat] at h2
          rw [sub_toNat, sub_toNat]
          omega
        omega
    · intro h
      have : key base cyc a ≤ key base cyc b := by omega
      rw [key_diff base cyc a b this]
      omega

/-- the level is in order, seen from `base` -/
structure BaseOk (base : UInt64) (pq : PQ Nat) (cyc : Nat → UInt64) : Prop where
  idx : IdxOk pq
  heap : Heap (keyLess base cyc) pq
  win : ∀ x, Mem pq x → key base cyc x ≤ 2 ^ 24

/-- the level is in order -/
structure Lv (pq : PQ Nat) (cyc : Nat → UInt64) : Prop where
  idx : IdxOk pq
  heap : Heap (cycleLess cyc) pq
  win : ∀ x, Mem pq x → key (cyc (pq.q 0)) cyc x ≤ 2 ^ 24

theorem BaseOk.agree {base : UInt64} {pq : PQ Nat} {cyc : Nat → UInt64} (h : BaseOk base pq cyc) :
    ∀ a b, Mem pq a → Mem pq b → cycleLess cyc a b = keyLess base cyc a b :=
  fun a b ha hb => cycleLess_eq base cyc a b (h.win a ha) (h.win b hb)

/-- the first entry has the smallest distance -/
theorem BaseOk.top_min {base : UInt64} {pq : PQ Nat} {cyc : Nat → UInt64} (h : BaseOk base pq cyc) (x : Nat) (hx : Mem pq x) :
    key base cyc (pq.q 0) ≤ key base cyc x ∧ (key base cyc (pq.q 0) = key base cyc x → pq.q 0 ≤ x) := by
  obtain ⟨i, hi, rfl⟩ := hx
  have := PQ.heap_top_min (keyLess_sw base cyc) h.heap i hi
  simp only [keyLess, decide_eq_false_iff_not] at this
  omega

theorem BaseOk.lv {base : UInt64} {pq : PQ Nat} {cyc : Nat → UInt64} (h : BaseOk base pq cyc) : Lv pq cyc := by
  refine ⟨h.idx, PQ.heap_congr (fun a b ha hb => (h.agree a b ha hb).symm) h.heap, fun x hx => ?_⟩
  have h1 := (h.top_min x hx).1
  have h2 := h.win x hx
  show (cyc x - cyc (pq.q 0)).toNat ≤ 2 ^ 24
  rw [key_diff base cyc _ _ h1]
  omega

theorem Lv.base {pq : PQ Nat} {cyc : Nat → UInt64} (h : Lv pq cyc) : BaseOk (cyc (pq.q 0)) pq cyc :=
  ⟨h.idx, PQ.heap_congr (fun a b ha hb => cycleLess_eq _ cyc a b (h.win a ha) (h.win b hb)) h.heap, h.win⟩

theorem lv_empty (pq : PQ Nat) (cyc : Nat → UInt64) (h : pq.len = 0) : Lv pq cyc :=
  ⟨fun i hi => by omega, fun j _ hj => by omega, fun x ⟨i, hi, _⟩ => by omega⟩

theorem baseOk_empty (base : UInt64) (pq : PQ Nat) (cyc : Nat → UInt64) (h : pq.len = 0) : BaseOk base pq cyc :=
  ⟨fun i hi => by omega, fun j _ hj => by omega, fun x ⟨i, hi, _⟩ => by omega⟩

theorem BaseOk.congr {base : UInt64} {pq : PQ Nat} {cyc cyc' : Nat → UInt64} (h : BaseOk base pq cyc) (he : ∀ x, Mem pq x → cyc' x = cyc x) :
    BaseOk base pq cyc' := by
  have hk : ∀ x, Mem pq x → key base cyc' x = key base cyc x := fun x hx => by unfold key; rw [he x hx]
  refine ⟨h.idx, PQ.heap_congr (fun a b ha hb => ?_) h.heap, fun x hx => by rw [hk x hx]; exact h.win x hx⟩
  unfold keyLess
  rw [hk a ha, hk b hb]

theorem Lv.congr {pq : PQ Nat} {cyc cyc' : Nat → UInt64} (h : Lv pq cyc) (he : ∀ x, Mem pq x → cyc' x = cyc x) : Lv pq cyc' :=
  (h.base.congr he).lv

theorem BaseOk.remove {base : UInt64} {pq : PQ Nat} {cyc : Nat → UInt64} (h : BaseOk base pq cyc) {x : Nat} (hx : Mem pq x) :
    ∃ pq', pq.remove (cycleLess cyc) x = some pq' ∧ BaseOk base pq' cyc ∧ pq'.len + 1 = pq.len ∧ ∀ y, Mem pq' y ↔ Mem pq y ∧ y ≠ x := by
  have e := PQ.remove_congr (P := Mem pq) h.agree h.idx (fun _ h => h) hx
  obtain ⟨pq', h1, h2, h3, h4⟩ := PQ.remove_same (keyLess base cyc) h.idx hx
  obtain ⟨pq'', g1, g2⟩ := (PQ.rep_entries h.heap h.idx).remove (keyLess_sw base cyc) ((PQ.mem_entries pq x).2 hx)
  rw [h1] at g1
  obtain rfl : pq' = pq'' := Option.some.inj g1
  exact ⟨pq', e.trans h1, ⟨h2, g2.heap, fun y hy => h.win y ((h4 y).1 hy).1⟩, h3, h4⟩

theorem BaseOk.push {base : UInt64} {pq : PQ Nat} {cyc : Nat → UInt64} (h : BaseOk base pq cyc) {x : Nat} (hx : ¬ Mem pq x) (c : UInt64)
    (hc : (c - base).toNat ≤ 2 ^ 24) :
    BaseOk base (pq.push (cycleLess (upd cyc x c)) x) (upd cyc x c) ∧
      ∀ y, Mem (pq.push (cycleLess (upd cyc x c)) x) y ↔ y = x ∨ Mem pq y := by
  have hne : ∀ y, Mem pq y → y ≠ x := by rintro y hy rfl; exact hx hy
  have h' : BaseOk base pq (upd cyc x c) := h.congr fun y hy => upd_ne _ _ (hne y hy)
  have hkx : key base (upd cyc x c) x ≤ 2 ^ 24 := by unfold key; rw [upd_same]; exact hc
  have e := PQ.push_congr (l1 := cycleLess (upd cyc x c)) (l2 := keyLess base (upd cyc x c)) (pq := pq) (x := x)
    (P := fun y => key base (upd cyc x c) y ≤ 2 ^ 24) (fun a b ha hb => cycleLess_eq base _ a b ha hb) h'.win hkx
  obtain ⟨a, b, d⟩ := PQ.push_same (keyLess base (upd cyc x c)) h.idx hx
  have g := (PQ.rep_entries h'.heap h.idx).push (keyLess_sw base (upd cyc x c)) (x := x) (fun hm => hx ((PQ.mem_entries pq x).1 hm))
  rw [e]
  refine ⟨⟨a, g.heap, fun y hy => ?_⟩, d⟩
  rcases (d y).1 hy with rfl | hy
  · exact hkx
  · exact h'.win y hy

/-- what nghttp3_tnode_schedule does to the set of entries, for any cycles -/
theorem schedule_mem {pq : PQ Nat} {cyc : Nat → UInt64} {x : Nat} {sched : Bool} (hidx : IdxOk pq) (hs : sched = true ↔ Mem pq x) (inc : Bool)
    (n : Nat) : ∃ pq' c, tnodeSchedule pq cyc x sched inc n = some (pq', c) ∧ IdxOk pq' ∧ ∀ y, Mem pq' y ↔ y = x ∨ Mem pq y := by
  unfold tnodeSchedule
  by_cases h : sched = false
  · rw [if_pos h]
    have hx : ¬ Mem pq x := fun hm => by rw [hs.2 hm] at h; cases h
    obtain ⟨a, b, d⟩ := PQ.push_same (cycleLess (upd cyc x (firstCycle pq cyc + (if n = 0 ∨ inc = false then 0 else penalty n)))) hidx hx
    exact ⟨_, _, rfl, a, d⟩
  · rw [if_neg h]
    have hx : Mem pq x := hs.1 (by simpa using h)
    have hst : ∃ pq' c, (some (pq, cyc x) : Option (PQ Nat × UInt64)) = some (pq', c) ∧ IdxOk pq' ∧ ∀ y, Mem pq' y ↔ y = x ∨ Mem pq y :=
      ⟨_, _, rfl, hidx, fun y => ⟨Or.inr, fun h => by rcases h with rfl | h; exacts [hx, h]⟩⟩
    by_cases hn : n > 0
    · rw [if_pos hn]
      by_cases hi : inc = false ∨ pq.len = 1
      · rw [if_pos hi]; exact hst
      · rw [if_neg hi]
        obtain ⟨pq1, h1, h2, h3, h4⟩ := PQ.remove_same (cycleLess cyc) hidx hx
        dsimp only
        rw [h1]
        obtain ⟨a, b, d⟩ := PQ.push_same (cycleLess (upd cyc x (cyc x + penalty n))) h2 (x := x) (fun hm => ((h4 x).1 hm).2 rfl)
        refine ⟨_, _, rfl, a, fun y => ?_⟩
        rw [d, h4]
        constructor
        · rintro (h | ⟨h, _⟩)
          · exact Or.inl h
          · exact Or.inr h
        · rintro (h | h)
          · exact Or.inl h
          · by_cases e : y = x
            · exact Or.inl e
            · exact Or.inr ⟨h, e⟩
    · rw [if_neg hn]; exact hst

theorem penalty_le (n : Nat) (h : n < 800 * (2 ^ 24 + 1)) : 1 ≤ (penalty n).toNat ∧ (penalty n).toNat ≤ 2 ^ 24 := by
  unfold penalty MIN_WRITELEN
  have : max 1 (n / 800) ≤ 2 ^ 24 := by omega
  have h2 : max 1 (n / 800) < 2 ^ 64 := by omega
  rw [UInt64.toNat_ofNat_of_lt' h2]
  omega

theorem add_sub_nat (a b : UInt64) : (a + b - a).toNat = b.toNat := by
  have h1 := a.toNat_lt
  have h2 := b.toNat_lt
  rw [sub_toNat, UInt64.toNat_add]
  omega

/-- the level is in order, and the streams with unaccounted bytes (`uw`) have the smallest cycle -/
def LvU (pq : PQ Nat) (cyc : Nat → UInt64) (uw : Nat → Nat) : Prop :=
  ∃ base, BaseOk base pq cyc ∧ ∀ x, Mem pq x → 0 < uw x → cyc x = base

theorem LvU.norm {pq : PQ Nat} {cyc : Nat → UInt64} {uw : Nat → Nat} (h : LvU pq cyc uw) :
    BaseOk (cyc (pq.q 0)) pq cyc ∧ ∀ x, Mem pq x → 0 < uw x → cyc x = cyc (pq.q 0) := by
  obtain ⟨base, h1, h2⟩ := h
  refine ⟨h1.lv.base, fun x hx hu => ?_⟩
  have h3 := (h1.top_min x hx).1
  have h4 : key base cyc x = 0 := by unfold key; rw [h2 x hx hu, sub_toNat]; have := base.toNat_lt; omega
  exact (key_eq base cyc _ _).2 (by omega)

theorem lvU_empty (pq : PQ Nat) (cyc : Nat → UInt64) (uw : Nat → Nat) (h : pq.len = 0) : LvU pq cyc uw :=
  ⟨0, baseOk_empty _ _ _ h, fun x ⟨i, hi, _⟩ => by omega⟩

/-- changes that do not concern the queue -/
theorem LvU.congr {pq : PQ Nat} {cyc cyc' : Nat → UInt64} {uw uw' : Nat → Nat} (h : LvU pq cyc uw) (h1 : ∀ x, Mem pq x → cyc' x = cyc x)
    (h2 : ∀ x, Mem pq x → 0 < uw' x → 0 < uw x ∨ cyc x = cyc (pq.q 0)) : LvU pq cyc' uw' := by
  obtain ⟨g1, g2⟩ := h.norm
  refine ⟨cyc (pq.q 0), g1.congr h1, fun x hx hu => ?_⟩
  rw [h1 x hx]
  rcases h2 x hx hu with h3 | h3
  · exact g2 x hx h3
  · exact h3

theorem LvU.remove {pq : PQ Nat} {cyc : Nat → UInt64} {uw : Nat → Nat} (h : LvU pq cyc uw) {x : Nat} (hx : Mem pq x) {pq' : PQ Nat}
    (he : pq.remove (cycleLess cyc) x = some pq') : LvU pq' cyc uw := by
  obtain ⟨base, h1, h2⟩ := h
  obtain ⟨pq1, g1, g2, _, g4⟩ := h1.remove hx
  rw [he] at g1
  obtain rfl : pq' = pq1 := Option.some.inj g1
  exact ⟨base, g2, fun y hy hu => h2 y ((g4 y).1 hy).1 hu⟩

/-- nghttp3_tnode_schedule keeps the level in order if the stream that moves has the smallest cycle (or is new) and wrote less than
800 * (2^24 + 1) bytes -/
theorem LvU.schedule {pq : PQ Nat} {cyc : Nat → UInt64} {uw : Nat → Nat} {x : Nat} {sched : Bool} (h : LvU pq cyc uw)
    (hs : sched = true ↔ Mem pq x) (inc : Bool) (n : Nat) (hn : n < 800 * (2 ^ 24 + 1))
    (ht : sched = true → 0 < n → cyc x = cyc (pq.q 0)) {pq' : PQ Nat} {c : UInt64} (he : tnodeSchedule pq cyc x sched inc n = some (pq', c))
    {uw' : Nat → Nat} (hu0 : uw' x = 0) (hu : ∀ y, y ≠ x → uw' y = uw y) : LvU pq' (upd cyc x c) uw' := by
  obtain ⟨hb, hbu⟩ := h.norm
  have fin : ∀ {p : PQ Nat}, BaseOk (cyc (pq.q 0)) p (upd cyc x c) → (∀ y, Mem p y → y = x ∨ Mem pq y) → LvU p (upd cyc x c) uw' := by
    intro p hp hm
    refine ⟨_, hp, fun y hy h0 => ?_⟩
    have hne : y ≠ x := by rintro rfl; omega
    rw [upd_ne _ _ hne]
    exact hbu y ((hm y hy).resolve_left hne) (by rw [← hu y hne]; exact h0)
  unfold tnodeSchedule at he
  by_cases hsf : sched = false
  · rw [if_pos hsf] at he
    have hx : ¬ Mem pq x := fun hm => by rw [hs.2 hm] at hsf; cases hsf
    dsimp only at he
    generalize hp : (if n = 0 ∨ inc = false then 0 else penalty n : UInt64) = p at he
    have hp2 : p.toNat ≤ 2 ^ 24 := by
      rw [← hp]
      split_ifs
      · decide
      · exact (penalty_le n hn).2
    obtain ⟨rfl, rfl⟩ := Prod.mk.inj (Option.some.inj he)
    by_cases h0 : pq.len = 0
    · obtain ⟨g1, g2⟩ := (baseOk_empty (firstCycle pq cyc) pq cyc h0).push hx (firstCycle pq cyc + p) (by rw [add_sub_nat]; exact hp2)
      refine ⟨_, g1, fun y hy hpos => ?_⟩
      rcases (g2 y).1 hy with rfl | ⟨i, hi, _⟩
      · omega
      · omega
    · have hf : firstCycle pq cyc = cyc (pq.q 0) := by unfold firstCycle PQ.top; rw [if_neg h0]
      rw [hf] at fin ⊢
      obtain ⟨g1, g2⟩ := hb.push hx (cyc (pq.q 0) + p) (by rw [add_sub_nat]; exact hp2)
      exact fin g1 fun y hy => (g2 y).1 hy
  · rw [if_neg hsf] at he
    have hx : Mem pq x := hs.1 (by simpa using hsf)
    have hst : c = cyc x → BaseOk (cyc (pq.q 0)) pq (upd cyc x c) := fun hc => hb.congr fun y hy => by
      by_cases e : y = x
      · rw [e, upd_same, hc]
      · rw [upd_ne _ _ e]
    by_cases hn0 : n > 0
    · rw [if_pos hn0] at he
      by_cases hi : inc = false ∨ pq.len = 1
      · rw [if_pos hi] at he
        obtain ⟨rfl, rfl⟩ := Prod.mk.inj (Option.some.inj he)
        exact fin (hst rfl) fun y hy => Or.inr hy
      · rw [if_neg hi] at he
        obtain ⟨pq1, h1, h2, h3, h4⟩ := hb.remove hx
        dsimp only at he
        rw [h1] at he
        obtain ⟨rfl, rfl⟩ := Prod.mk.inj (Option.some.inj he)
        obtain ⟨g1, g2⟩ := h2.push (fun hm => ((h4 x).1 hm).2 rfl) (cyc x + penalty n)
          (by rw [← ht (by simpa using hsf) hn0, add_sub_nat]; exact (penalty_le n hn).2)
        exact fin g1 fun y hy => ((g2 y).1 hy).imp_right fun h => ((h4 y).1 h).1
    · rw [if_neg hn0] at he
      obtain ⟨rfl, rfl⟩ := Prod.mk.inj (Option.some.inj he)
      exact fin (hst rfl) fun y hy => Or.inr hy

end Conn
end Nghttp3
