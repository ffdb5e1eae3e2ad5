import Verif.Props.Pq
import Mathlib.Data.List.Nodup
/-! The priority queue with a comparison that need not be an order on all entries: which entries it holds does not depend on the comparison,
and only entries in the queue are compared. -/
namespace Nghttp3
namespace PQ
variable {α : Type} [DecidableEq α]

/-- the entries are kept -/
def Same (pq pq' : PQ α) : Prop := IdxOk pq' ∧ pq'.len = pq.len ∧ ∀ x, Mem pq' x ↔ Mem pq x

theorem bubbleUp_same (less : α → α → Bool) (i : Nat) : ∀ (pq : PQ α), i < pq.len → IdxOk pq → Same pq (bubbleUp less pq i) := by
  induction i using Nat.strongRecOn with
  | ind i ih =>
    intro pq hi hidx
    unfold bubbleUp
    by_cases h0 : i = 0
    · rw [dif_pos h0]; exact ⟨hidx, rfl, fun _ => Iff.rfl⟩
    · rw [dif_neg h0]
      dsimp only
      split_ifs
      · exact ⟨hidx, rfl, fun _ => Iff.rfl⟩
      · have hp : (i - 1) / 2 < pq.len := by omega
        obtain ⟨a, b, c⟩ := ih ((i - 1) / 2) (by omega) (swap pq ((i - 1) / 2) i) hp (swap_idxOk hidx hp hi (by omega))
        exact ⟨a, b, fun x => by rw [c, swap_mem hp hi]⟩

theorem minChild_cases (less : α → α → Bool) (pq : PQ α) (i : Nat) :
    minChild less pq i = i ∨ (minChild less pq i < pq.len ∧ i < minChild less pq i) := by
  unfold minChild
  dsimp only
  split_ifs <;> omega

theorem bubbleDownF_same (less : α → α → Bool) (fuel : Nat) : ∀ (pq : PQ α) (i : Nat), IdxOk pq → Same pq (bubbleDownF less fuel pq i) := by
  induction fuel with
  | zero => intro pq i h; exact ⟨h, rfl, fun _ => Iff.rfl⟩
  | succ n ih =>
    intro pq i hidx
    unfold bubbleDownF
    dsimp only
    by_cases hm : minChild less pq i = i
    · rw [if_pos hm]; exact ⟨hidx, rfl, fun _ => Iff.rfl⟩
    · rw [if_neg hm]
      obtain ⟨h1, h2⟩ := (minChild_cases less pq i).resolve_left hm
      obtain ⟨a, b, c⟩ := ih (swap pq i (minChild less pq i)) (minChild less pq i) (swap_idxOk hidx (by omega) h1 (by omega))
      exact ⟨a, b, fun x => by rw [c, swap_mem (by omega) h1]⟩

/-- the queue with the last entry moved to position `i` -/
def fillHole (pq : PQ α) (i : Nat) : PQ α :=
  ⟨upd pq.q i (pq.q (pq.len - 1)), upd pq.idx (pq.q (pq.len - 1)) i, pq.len - 1⟩

theorem fillHole_ok {pq : PQ α} (hidx : IdxOk pq) {i : Nat} (hi : i < pq.len) : IdxOk (fillHole pq i) := by
  intro j hj
  have hj : j < pq.len - 1 := hj
  show upd pq.idx (pq.q (pq.len - 1)) i (upd pq.q i (pq.q (pq.len - 1)) j) = j
  by_cases hj2 : j = i
  · rw [hj2, upd_same, upd_same]
  · rw [upd_ne _ _ hj2, upd_ne]
    · exact hidx j (by omega)
    · intro e
      have := hidx.inj (by omega) (by omega) e
      omega

theorem fillHole_mem {pq : PQ α} (hidx : IdxOk pq) {i : Nat} (hi : i < pq.len) (y : α) :
    Mem (fillHole pq i) y ↔ Mem pq y ∧ y ≠ pq.q i := by
  constructor
  · rintro ⟨j, hj, hy⟩
    have hj : j < pq.len - 1 := hj
    change upd pq.q i (pq.q (pq.len - 1)) j = y at hy
    by_cases hji : j = i
    · rw [hji, upd_same] at hy
      refine ⟨⟨pq.len - 1, by omega, hy⟩, fun e => ?_⟩
      have := hidx.inj (i := pq.len - 1) (j := i) (by omega) hi (by rw [hy, e])
      omega
    · rw [upd_ne _ _ hji] at hy
      refine ⟨⟨j, by omega, hy⟩, fun e => ?_⟩
      exact hji (hidx.inj (by omega) hi (by rw [hy, e]))
  · rintro ⟨⟨j, hj, hy⟩, hne⟩
    have hji : j ≠ i := by rintro rfl; exact hne hy.symm
    by_cases hl : j = pq.len - 1
    · exact ⟨i, by show i < pq.len - 1; omega, by show upd pq.q i (pq.q (pq.len - 1)) i = y; rw [upd_same, ← hl, hy]⟩
    · exact ⟨j, by show j < pq.len - 1; omega, by show upd pq.q i (pq.q (pq.len - 1)) j = y; rw [upd_ne _ _ hji, hy]⟩

theorem push_same (less : α → α → Bool) {pq : PQ α} (hidx : IdxOk pq) {x : α} (hx : ¬ Mem pq x) :
    IdxOk (push less pq x) ∧ (push less pq x).len = pq.len + 1 ∧ ∀ y, Mem (push less pq x) y ↔ y = x ∨ Mem pq y := by
  have hxm : ∀ i, i < pq.len → pq.q i ≠ x := fun i hi he => hx ⟨i, hi, he⟩
  have key := bubbleUp_same less pq.len
    { q := upd pq.q pq.len x, idx := upd pq.idx x pq.len, len := pq.len + 1 } (by simp) (by
      intro i hi
      have hi : i < pq.len + 1 := hi
      show upd pq.idx x pq.len (upd pq.q pq.len x i) = i
      by_cases hi2 : i = pq.len
      · rw [hi2, upd_same, upd_same]
      · rw [upd_ne _ _ hi2, upd_ne _ _ (hxm i (by omega))]
        exact hidx i (by omega))
  obtain ⟨a, b, c⟩ := key
  refine ⟨a, b, fun y => ?_⟩
  rw [push, c]
  constructor
  · rintro ⟨i, hi, he⟩
    simp only [upd] at he hi
    split_ifs at he with hi2
    · exact Or.inl he.symm
    · exact Or.inr ⟨i, by omega, he⟩
  · rintro (rfl | ⟨i, hi, he⟩)
    · exact ⟨pq.len, by simp, by simp [upd]⟩
    · exact ⟨i, by simp only; omega, by simp only [upd]; rw [if_neg (by omega), he]⟩

theorem remove_same (less : α → α → Bool) {pq : PQ α} (hidx : IdxOk pq) {x : α} (hx : Mem pq x) :
    ∃ pq', remove less pq x = some pq' ∧ IdxOk pq' ∧ pq'.len + 1 = pq.len ∧ ∀ y, Mem pq' y ↔ Mem pq y ∧ y ≠ x := by
  obtain ⟨i, hi, he⟩ := hx
  have hix : pq.idx x = i := by rw [← he]; exact hidx i hi
  have hf := fillHole_ok hidx hi
  have hm := fillHole_mem hidx hi
  rw [he] at hm
  unfold remove
  dsimp only
  rw [hix, if_neg (by simp [he])]
  by_cases hi0 : i = 0
  · rw [if_pos hi0]
    unfold pop
    rw [if_neg (by omega)]
    subst hi0
    obtain ⟨a, b, c⟩ := bubbleDownF_same less (fillHole pq 0).len (fillHole pq 0) 0 hf
    refine ⟨_, rfl, a, ?_, fun y => ?_⟩
    · have : (fillHole pq 0).len = pq.len - 1 := rfl
      change (bubbleDownF less (fillHole pq 0).len (fillHole pq 0) 0).len + 1 = pq.len
      omega
    · rw [← hm]; exact c y
  · rw [if_neg hi0]
    by_cases hl : i = pq.len - 1
    · rw [if_pos hl]
      refine ⟨_, rfl, fun j hj => hidx j (by simp only at hj; omega), by simp only; omega, fun y => ?_⟩
      rw [← hm]
      constructor
      · rintro ⟨j, hj, hy⟩
        simp only at hj hy
        exact ⟨j, hj, by show upd pq.q i _ j = y; rw [upd_ne _ _ (by omega), hy]⟩
      · rintro ⟨j, hj, hy⟩
        have hj : j < pq.len - 1 := hj
        change upd pq.q i _ j = y at hy
        rw [upd_ne _ _ (by omega)] at hy
        exact ⟨j, hj, hy⟩
    · rw [if_neg hl]
      have hlen : (fillHole pq i).len = pq.len - 1 := rfl
      split_ifs
      · obtain ⟨a, b, c⟩ := bubbleDownF_same less (fillHole pq i).len (fillHole pq i) i hf
        refine ⟨_, rfl, a, ?_, fun y => by rw [← hm]; exact c y⟩
        change (bubbleDownF less (fillHole pq i).len (fillHole pq i) i).len + 1 = pq.len
        omega
      · obtain ⟨a, b, c⟩ := bubbleUp_same less i (fillHole pq i) (by omega) hf
        refine ⟨_, rfl, a, ?_, fun y => by rw [← hm]; exact c y⟩
        change (bubbleUp less (fillHole pq i) i).len + 1 = pq.len
        omega

theorem top_mem {pq : PQ α} {x : α} (h : pq.top = some x) : Mem pq x ∧ pq.q 0 = x ∧ 0 < pq.len := by
  unfold top at h
  split_ifs at h with h0
  have : pq.q 0 = x := by simpa using h
  exact ⟨⟨0, by omega, this⟩, this, by omega⟩

theorem top_none {pq : PQ α} (h : pq.top = none) (x : α) : ¬ Mem pq x := by
  unfold top at h
  split_ifs at h with h0
  rintro ⟨i, hi, _⟩
  omega

/-! Only entries in the queue are compared. -/

theorem swap_range {pq : PQ α} {i j : Nat} (hi : i < pq.len) (hj : j < pq.len) {P : α → Prop} (h : ∀ k, k < pq.len → P (pq.q k)) :
    ∀ k, k < (swap pq i j).len → P ((swap pq i j).q k) := by
  intro k hk
  rw [swap_q]
  have hk : k < pq.len := hk
  split_ifs
  · exact h _ hi
  · exact h _ hj
  · exact h _ hk

theorem bubbleUp_congr {l1 l2 : α → α → Bool} {P : α → Prop} (hl : ∀ a b, P a → P b → l1 a b = l2 a b) (i : Nat) :
    ∀ (pq : PQ α), i < pq.len → (∀ k, k < pq.len → P (pq.q k)) → bubbleUp l1 pq i = bubbleUp l2 pq i := by
  induction i using Nat.strongRecOn with
  | ind i ih =>
    intro pq hi hp
    unfold bubbleUp
    by_cases h0 : i = 0
    · rw [dif_pos h0, dif_pos h0]
    · rw [dif_neg h0, dif_neg h0]
      dsimp only
      have hpar : (i - 1) / 2 < pq.len := by omega
      rw [hl _ _ (hp i hi) (hp _ hpar), ih ((i - 1) / 2) (by omega) (swap pq ((i - 1) / 2) i) hpar (swap_range hpar hi hp)]

theorem minChild_congr {l1 l2 : α → α → Bool} {P : α → Prop} (hl : ∀ a b, P a → P b → l1 a b = l2 a b) (pq : PQ α)
    (hp : ∀ k, k < pq.len → P (pq.q k)) (i : Nat) : minChild l1 pq i = minChild l2 pq i := by
  unfold minChild
  dsimp only
  by_cases h1 : i * 2 + 1 ≥ pq.len
  · rw [if_pos h1, if_pos h1]
  · rw [if_neg h1, if_neg h1, hl _ _ (hp (i * 2 + 1) (by omega)) (hp i (by omega))]
    by_cases h2 : i * 2 + 1 + 1 ≥ pq.len
    · rw [if_pos h2, if_pos h2]
    · rw [if_neg h2, if_neg h2]
      congr 2
      apply hl _ _ (hp _ (by omega))
      split_ifs
      · exact hp _ (by omega)
      · exact hp _ (by omega)

theorem bubbleDownF_congr {l1 l2 : α → α → Bool} {P : α → Prop} (hl : ∀ a b, P a → P b → l1 a b = l2 a b) (fuel : Nat) :
    ∀ (pq : PQ α) (i : Nat), (∀ k, k < pq.len → P (pq.q k)) → bubbleDownF l1 fuel pq i = bubbleDownF l2 fuel pq i := by
  induction fuel with
  | zero => intro pq i _; rfl
  | succ n ih =>
    intro pq i hp
    unfold bubbleDownF
    dsimp only
    rw [minChild_congr hl pq hp]
    by_cases hm : minChild l2 pq i = i
    · rw [if_pos hm, if_pos hm]
    · rw [if_neg hm, if_neg hm]
      obtain ⟨h1, h2⟩ := (minChild_cases l2 pq i).resolve_left hm
      exact ih _ _ (swap_range (by omega) h1 hp)

theorem mem_range {pq : PQ α} {P : α → Prop} (h : ∀ x, Mem pq x → P x) : ∀ k, k < pq.len → P (pq.q k) := fun k hk => h _ ⟨k, hk, rfl⟩

theorem push_congr {l1 l2 : α → α → Bool} {pq : PQ α} {x : α} {P : α → Prop} (hl : ∀ a b, P a → P b → l1 a b = l2 a b)
    (hp : ∀ y, Mem pq y → P y) (hx : P x) : push l1 pq x = push l2 pq x := by
  unfold push
  refine bubbleUp_congr hl _ _ (by simp) ?_
  intro k hk
  have hk : k < pq.len + 1 := hk
  show P (upd pq.q pq.len x k)
  by_cases h : k = pq.len
  · rw [h, upd_same]; exact hx
  · rw [upd_ne _ _ h]; exact hp _ ⟨k, by omega, rfl⟩

theorem fillHole_range {pq : PQ α} {i : Nat} (hi : i < pq.len) {P : α → Prop} (hp : ∀ y, Mem pq y → P y) :
    ∀ k, k < (fillHole pq i).len → P ((fillHole pq i).q k) := by
  intro k hk
  have hk : k < pq.len - 1 := hk
  show P (upd pq.q i (pq.q (pq.len - 1)) k)
  by_cases h : k = i
  · rw [h, upd_same]; exact hp _ ⟨_, by omega, rfl⟩
  · rw [upd_ne _ _ h]; exact hp _ ⟨k, by omega, rfl⟩

theorem remove_congr {l1 l2 : α → α → Bool} {pq : PQ α} {x : α} {P : α → Prop} (hl : ∀ a b, P a → P b → l1 a b = l2 a b)
    (hidx : IdxOk pq) (hp : ∀ y, Mem pq y → P y) (hx : Mem pq x) : remove l1 pq x = remove l2 pq x := by
  obtain ⟨i, hi, he⟩ := hx
  have hix : pq.idx x = i := by rw [← he]; exact hidx i hi
  have hr := fillHole_range hi hp
  unfold remove
  dsimp only
  have hnn : ¬ (pq.q i ≠ x) := fun h => h he
  rw [hix, if_neg hnn, if_neg hnn]
  by_cases hi0 : i = 0
  · rw [if_pos hi0, if_pos hi0]
    unfold pop
    rw [if_neg (by omega), if_neg (by omega)]
    subst hi0
    exact congrArg some (bubbleDownF_congr hl _ (fillHole pq 0) 0 hr)
  · rw [if_neg hi0, if_neg hi0]
    by_cases hlast : i = pq.len - 1
    · rw [if_pos hlast, if_pos hlast]
    · rw [if_neg hlast, if_neg hlast, hl x _ (hp x ⟨i, hi, he⟩) (hp _ ⟨pq.len - 1, by omega, rfl⟩)]
      have hlen : (fillHole pq i).len = pq.len - 1 := rfl
      have e1 := bubbleDownF_congr hl (fillHole pq i).len (fillHole pq i) i hr
      have e2 := bubbleUp_congr hl i (fillHole pq i) (by omega) hr
      split_ifs
      · exact congrArg some e1
      · exact congrArg some e2

/-- the entries as a list -/
def entries (pq : PQ α) : List α := (List.range pq.len).map pq.q

theorem mem_entries (pq : PQ α) (x : α) : x ∈ entries pq ↔ Mem pq x := by
  unfold entries Mem
  simp

theorem entries_length (pq : PQ α) : (entries pq).length = pq.len := by unfold entries; simp

theorem entries_nodup {pq : PQ α} (h : IdxOk pq) : (entries pq).Nodup := by
  unfold entries
  refine List.Nodup.map_on ?_ List.nodup_range
  intro a ha b hb e
  exact h.inj (List.mem_range.1 ha) (List.mem_range.1 hb) e

theorem rep_entries {less : α → α → Bool} {pq : PQ α} (h : Heap less pq) (hi : IdxOk pq) : Rep less pq (entries pq) :=
  ⟨h, hi, entries_nodup hi, (entries_length pq).symm, fun x => (mem_entries pq x).symm⟩

theorem heap_congr {l1 l2 : α → α → Bool} {pq : PQ α} (hl : ∀ a b, Mem pq a → Mem pq b → l1 a b = l2 a b) (h : Heap l1 pq) :
    Heap l2 pq := by
  intro j h0 hj
  have := h j h0 hj
  unfold PairOk at this ⊢
  rw [← hl _ _ ⟨j, hj, rfl⟩ ⟨_, by omega, rfl⟩]
  exact this

/-- the first entry is minimal -/
theorem heap_top_min {less : α → α → Bool} (hl : StrictWeak less) {pq : PQ α} (h : Heap less pq) (i : Nat) :
    i < pq.len → less (pq.q i) (pq.q 0) = false := by
  induction i using Nat.strongRecOn with
  | ind i ih =>
    intro hi
    by_cases h0 : i = 0
    · rw [h0]; exact hl.irr _
    · exact hl.ntrans _ _ _ (h i (by omega) hi) (ih _ (by omega) (by omega))

end PQ
end Nghttp3
