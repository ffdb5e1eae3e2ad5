import Verif.Model.Pq
import Verif.Spec.Order
import Mathlib.Tactic.SplitIfs

/-! Property theorem C06. -/

namespace Nghttp3
variable {α : Type} [DecidableEq α]

namespace PQ

theorem upd_same {β γ : Type} [DecidableEq β] (f : β → γ) (a : β) (v : γ) : upd f a v a = v := if_pos rfl

theorem upd_ne {β γ : Type} [DecidableEq β] (f : β → γ) {a x : β} (v : γ) (h : x ≠ a) : upd f a v x = f x :=
  if_neg h

/-- every parent/child pair at child `j` is in order -/
def PairOk (less : α → α → Bool) (pq : PQ α) (j : Nat) : Prop :=
  less (pq.q j) (pq.q ((j - 1) / 2)) = false

def Heap (less : α → α → Bool) (pq : PQ α) : Prop := ∀ j, 0 < j → j < pq.len → PairOk less pq j

def IdxOk (pq : PQ α) : Prop := ∀ i, i < pq.len → pq.idx (pq.q i) = i

def Mem (pq : PQ α) (x : α) : Prop := ∃ i, i < pq.len ∧ pq.q i = x

theorem IdxOk.inj {pq : PQ α} (h : IdxOk pq) {i j : Nat} (hi : i < pq.len) (hj : j < pq.len)
    (he : pq.q i = pq.q j) : i = j := by
  rw [← h i hi, ← h j hj, he]

theorem swap_q (pq : PQ α) (i j k : Nat) :
    (swap pq i j).q k = if k = j then pq.q i else if k = i then pq.q j else pq.q k := rfl

theorem swap_idxOk {pq : PQ α} (h : IdxOk pq) {i j : Nat} (hi : i < pq.len) (hj : j < pq.len)
    (hij : i ≠ j) : IdxOk (swap pq i j) := by
  intro k hk
  have hk' : k < pq.len := hk
  have hne : pq.q i ≠ pq.q j := fun e => hij (h.inj hi hj e)
  rw [swap_q]
  simp only [swap, upd]
  by_cases h1 : k = j
  · simp [h1]
  · by_cases h2 : k = i
    · simp [h2, hij, hne.symm]
    · rw [if_neg h1, if_neg h2]
      rw [if_neg (fun e => h2 (h.inj hk' hi e)), if_neg (fun e => h1 (h.inj hk' hj e))]
      exact h k hk'

theorem swap_mem {pq : PQ α} {i j : Nat} (hi : i < pq.len) (hj : j < pq.len) (x : α) :
    Mem (swap pq i j) x ↔ Mem pq x := by
  constructor
  · rintro ⟨k, hk, he⟩
    rw [swap_q] at he
    split_ifs at he
    · exact ⟨i, hi, he⟩
    · exact ⟨j, hj, he⟩
    · exact ⟨k, hk, he⟩
  · rintro ⟨k, hk, he⟩
    by_cases h1 : k = i
    · subst h1; exact ⟨j, hj, by rw [swap_q, if_pos rfl, he]⟩
    · by_cases h2 : k = j
      · subst h2; exact ⟨i, hi, by rw [swap_q]; rw [if_neg (fun e => h1 e.symm), if_pos rfl, he]⟩
      · exact ⟨k, hk, by rw [swap_q, if_neg h2, if_neg h1, he]⟩

/-- what both sift operations guarantee -/
def Good (less : α → α → Bool) (pq pq' : PQ α) : Prop :=
  Heap less pq' ∧ IdxOk pq' ∧ pq'.len = pq.len ∧ ∀ x, Mem pq' x ↔ Mem pq x

theorem bubbleUp_good {less : α → α → Bool} (hl : StrictWeak less) (i : Nat) :
    ∀ (pq : PQ α), i < pq.len → IdxOk pq →
    (∀ j, 0 < j → j < pq.len → j ≠ i → PairOk less pq j) →
    (∀ j, 0 < i → j < pq.len → 0 < j → (j - 1) / 2 = i → less (pq.q j) (pq.q ((i - 1) / 2)) = false) →
    Good less pq (bubbleUp less pq i) := by
  induction i using Nat.strongRecOn with
  | ind i ih =>
    intro pq hi hidx hpairs hgc
    unfold bubbleUp
    by_cases h0 : i = 0
    · subst h0
      simp only [dif_pos]
      exact ⟨fun j h1 h2 => hpairs j h1 h2 (by omega), hidx, rfl, fun x => Iff.rfl⟩
    · rw [dif_neg h0]
      by_cases hless : less (pq.q i) (pq.q ((i - 1) / 2)) = true
      · simp only [hless, Bool.not_true, Bool.false_eq_true, if_false]
        have hp : (i - 1) / 2 < i := by omega
        have hplt : (i - 1) / 2 < pq.len := by omega
        have hpne : (i - 1) / 2 ≠ i := by omega
        have hrec := ih ((i - 1) / 2) hp (swap pq ((i - 1) / 2) i) hplt
          (swap_idxOk hidx hplt hi hpne) ?_ ?_
        · obtain ⟨g1, g2, g3, g4⟩ := hrec
          exact ⟨g1, g2, g3, fun x => by rw [g4, swap_mem hplt hi]⟩
        · intro j hj0 hj hjp
          have hj' : j < pq.len := hj
          unfold PairOk
          rw [swap_q, swap_q]
          by_cases hji : j = i
          · subst hji
            rw [if_pos rfl, if_neg hpne, if_pos rfl]
            exact hl.asymm _ _ hless
          · rw [if_neg hji, if_neg hjp]
            by_cases hjc : (j - 1) / 2 = i
            · rw [if_pos hjc]
              exact hgc j (by omega) hj' hj0 hjc
            · rw [if_neg hjc]
              by_cases hjs : (j - 1) / 2 = (i - 1) / 2
              · rw [if_pos hjs]
                have h1 : less (pq.q j) (pq.q ((j - 1) / 2)) = false := hpairs j hj0 hj' hji
                rw [hjs] at h1
                exact hl.ntrans _ _ _ h1 (hl.asymm _ _ hless)
              · rw [if_neg hjs]
                exact hpairs j hj0 hj' hji
        · intro j hpp hj hj0 hjpar
          have hj' : j < pq.len := hj
          rw [swap_q, swap_q]
          have hne1 : ((i - 1) / 2 - 1) / 2 ≠ i := by omega
          have hne2 : ((i - 1) / 2 - 1) / 2 ≠ (i - 1) / 2 := by omega
          rw [if_neg hne1, if_neg hne2]
          have hpgp : less (pq.q ((i - 1) / 2)) (pq.q (((i - 1) / 2 - 1) / 2)) = false :=
            hpairs _ hpp hplt hpne
          by_cases hji : j = i
          · rw [if_pos hji]; exact hpgp
          · rw [if_neg hji, if_neg (by omega)]
            have h1 : less (pq.q j) (pq.q ((j - 1) / 2)) = false := hpairs j hj0 hj' hji
            rw [hjpar] at h1
            exact hl.ntrans _ _ _ h1 hpgp
      · simp only [hless, Bool.not_false, if_true]
        refine ⟨fun j h1 h2 => ?_, hidx, rfl, fun x => Iff.rfl⟩
        by_cases hji : j = i
        · subst hji; simpa [PairOk] using hless
        · exact hpairs j h1 h2 hji

theorem minChild_spec {less : α → α → Bool} (hl : StrictWeak less) (pq : PQ α) (i : Nat) :
    (minChild less pq i = i ∧ (∀ j, 0 < j → j < pq.len → (j - 1) / 2 = i → less (pq.q j) (pq.q i) = false)) ∨
    (minChild less pq i < pq.len ∧ i < minChild less pq i ∧ (minChild less pq i - 1) / 2 = i ∧
      less (pq.q (minChild less pq i)) (pq.q i) = true ∧
      (∀ j, 0 < j → j < pq.len → (j - 1) / 2 = i → less (pq.q j) (pq.q (minChild less pq i)) = false)) := by
  have irr : ∀ a, less a a = false := fun a => by
    cases h : less a a with
    | false => rfl
    | true => exact absurd (hl.asymm _ _ h) (by simp [h])
  have hch : ∀ j, 0 < j → (j - 1) / 2 = i → j = i * 2 + 1 ∨ j = i * 2 + 1 + 1 := by intro j _ _; omega
  unfold minChild
  dsimp only
  by_cases h1 : i * 2 + 1 ≥ pq.len
  · rw [if_pos h1]
    left; refine ⟨rfl, fun j h0 hj hp => ?_⟩
    rcases hch j h0 hp with rfl | rfl <;> omega
  · rw [if_neg h1]
    by_cases hA : less (pq.q (i * 2 + 1)) (pq.q i) = true
    · rw [if_pos hA]
      by_cases h2 : i * 2 + 1 + 1 ≥ pq.len
      · rw [if_pos h2]
        right; refine ⟨by omega, by omega, by omega, hA, fun j h0 hj hp => ?_⟩
        rcases hch j h0 hp with rfl | rfl
        · exact irr _
        · omega
      · rw [if_neg h2]
        by_cases hB : less (pq.q (i * 2 + 1 + 1)) (pq.q (i * 2 + 1)) = true
        · rw [if_pos hB]
          right; refine ⟨by omega, by omega, by omega, ?_, fun j h0 hj hp => ?_⟩
          · cases hc : less (pq.q (i * 2 + 1 + 1)) (pq.q i) with
            | true => rfl
            | false =>
              have := hl.ntrans _ _ _ hc (hl.asymm _ _ hA)
              rw [this] at hB; simp at hB
          · rcases hch j h0 hp with rfl | rfl
            · exact hl.asymm _ _ hB
            · exact irr _
        · rw [if_neg hB]
          right; refine ⟨by omega, by omega, by omega, hA, fun j h0 hj hp => ?_⟩
          rcases hch j h0 hp with rfl | rfl
          · exact irr _
          · simpa using hB
    · rw [if_neg hA]
      by_cases h2 : i * 2 + 1 + 1 ≥ pq.len
      · rw [if_pos h2]
        left; refine ⟨rfl, fun j h0 hj hp => ?_⟩
        rcases hch j h0 hp with rfl | rfl
        · simpa using hA
        · omega
      · rw [if_neg h2]
        by_cases hB : less (pq.q (i * 2 + 1 + 1)) (pq.q i) = true
        · rw [if_pos hB]
          right; refine ⟨by omega, by omega, by omega, hB, fun j h0 hj hp => ?_⟩
          rcases hch j h0 hp with rfl | rfl
          · exact hl.ntrans _ _ _ (by simpa using hA) (hl.asymm _ _ hB)
          · exact irr _
        · rw [if_neg hB]
          left; refine ⟨rfl, fun j h0 hj hp => ?_⟩
          rcases hch j h0 hp with rfl | rfl
          · simpa using hA
          · simpa using hB

theorem bubbleDownF_good {less : α → α → Bool} (hl : StrictWeak less) (fuel : Nat) :
    ∀ (pq : PQ α) (i : Nat), pq.len ≤ fuel + i → IdxOk pq →
    (∀ j, 0 < j → j < pq.len → (j - 1) / 2 ≠ i → PairOk less pq j) →
    (∀ j, 0 < i → j < pq.len → 0 < j → (j - 1) / 2 = i → less (pq.q j) (pq.q ((i - 1) / 2)) = false) →
    Good less pq (bubbleDownF less fuel pq i) := by
  induction fuel with
  | zero =>
    intro pq i hf hidx hp hgc
    refine ⟨fun j h1 (h2 : j < pq.len) => hp j h1 h2 (by omega), hidx, rfl, fun x => Iff.rfl⟩
  | succ n ih =>
    intro pq i hf hidx hpairs hgc
    unfold bubbleDownF
    dsimp only
    rcases minChild_spec hl pq i with ⟨hm, hall⟩ | ⟨hm1, hm2, hm3, hm4, hm5⟩
    · rw [if_pos hm]
      refine ⟨fun j h1 h2 => ?_, hidx, rfl, fun x => Iff.rfl⟩
      by_cases hji : (j - 1) / 2 = i
      · have := hall j h1 h2 hji
        unfold PairOk; rw [hji]; exact this
      · exact hpairs j h1 h2 hji
    · generalize minChild less pq i = m at *
      rw [if_neg (by omega)]
      have hi : i < pq.len := by omega
      have hrec := ih (swap pq i m) m (by show pq.len ≤ _; omega)
        (swap_idxOk hidx hi hm1 (by omega)) ?_ ?_
      · obtain ⟨g1, g2, g3, g4⟩ := hrec
        exact ⟨g1, g2, g3, fun x => by rw [g4, swap_mem hi hm1]⟩
      · intro j hj0 hj hjm
        have hj' : j < pq.len := hj
        unfold PairOk
        rw [swap_q, swap_q]
        rw [if_neg hjm]
        by_cases hji : j = m
        · subst hji
          rw [if_pos rfl, if_pos hm3]
          exact hl.asymm _ _ hm4
        · rw [if_neg hji]
          by_cases hpi : (j - 1) / 2 = i
          · rw [if_pos hpi, if_neg (by omega)]
            exact hm5 j hj0 hj' hpi
          · rw [if_neg hpi]
            by_cases hj2 : j = i
            · rw [if_pos hj2]
              subst hj2
              exact hgc m hj0 hm1 (by omega) hm3
            · rw [if_neg hj2]
              exact hpairs j hj0 hj' hpi
      · intro j hm0 hj hj0 hjpar
        have hj' : j < pq.len := hj
        rw [swap_q, swap_q]
        rw [if_neg (by omega), if_neg (by omega), hm3, if_neg (by omega), if_pos rfl]
        have : PairOk less pq j := hpairs j hj0 hj' (by omega)
        unfold PairOk at this
        rw [hjpar] at this; exact this

theorem bubbleDown_good {less : α → α → Bool} (hl : StrictWeak less) (pq : PQ α) (i : Nat) (hidx : IdxOk pq)
    (hpairs : ∀ j, 0 < j → j < pq.len → (j - 1) / 2 ≠ i → PairOk less pq j)
    (hgc : ∀ j, 0 < i → j < pq.len → 0 < j → (j - 1) / 2 = i → less (pq.q j) (pq.q ((i - 1) / 2)) = false) :
    Good less pq (bubbleDown less pq i) :=
  bubbleDownF_good hl pq.len pq i (by omega) hidx hpairs hgc

/-- representation of the ideal content `M` -/
structure Rep (less : α → α → Bool) (pq : PQ α) (M : List α) : Prop where
  heap : Heap less pq
  idx : IdxOk pq
  nodup : M.Nodup
  len : pq.len = M.length
  mem : ∀ x, Mem pq x ↔ x ∈ M

theorem Rep.push {less : α → α → Bool} (hl : StrictWeak less) {pq : PQ α} {M : List α} (h : Rep less pq M)
    {x : α} (hx : x ∉ M) : Rep less (PQ.push less pq x) (x :: M) := by
  have hxm : ∀ i, i < pq.len → pq.q i ≠ x := fun i hi he => hx ((h.mem x).1 ⟨i, hi, he⟩)
  have key := bubbleUp_good hl pq.len
    { q := upd pq.q pq.len x, idx := upd pq.idx x pq.len, len := pq.len + 1 } (by simp) ?_ ?_ ?_
  · obtain ⟨g1, g2, g3, g4⟩ := key
    refine ⟨g1, g2, List.nodup_cons.2 ⟨hx, h.nodup⟩, by rw [PQ.push, g3]; simp [h.len], fun y => ?_⟩
    rw [PQ.push, g4, List.mem_cons, ← h.mem]
    constructor
    · rintro ⟨i, hi, he⟩
      simp only [upd] at he hi
      split_ifs at he with hi2
      · exact Or.inl he.symm
      · exact Or.inr ⟨i, by omega, he⟩
    · rintro (rfl | ⟨i, hi, he⟩)
      · exact ⟨pq.len, by simp, by simp [upd]⟩
      · exact ⟨i, by simp only; omega, by simp only [upd]; rw [if_neg (by omega), he]⟩
  · intro i hi
    have hi : i < pq.len + 1 := hi
    show upd pq.idx x pq.len (upd pq.q pq.len x i) = i
    by_cases hi2 : i = pq.len
    · rw [hi2, upd_same, upd_same]
    · rw [upd_ne _ _ hi2, upd_ne _ _ (hxm i (by omega))]
      exact h.idx i (by omega)
  · intro j h0 hj hne
    simp only at hj
    simp only [PairOk, upd]
    rw [if_neg hne, if_neg (by omega)]
    exact h.heap j h0 (by omega)
  · intro j h0 hj hj0 hp
    simp only at hj; omega

theorem Rep.pop {less : α → α → Bool} (hl : StrictWeak less) {pq : PQ α} {M : List α} (h : Rep less pq M)
    (hne : M ≠ []) : ∃ m pq', PQ.top pq = some m ∧ PQ.pop less pq = some pq' ∧ m ∈ M ∧
      pq.idx m = 0 ∧ Rep less pq' (M.erase m) := by
  have hlen : 0 < pq.len := by rw [h.len]; exact List.length_pos_iff.2 hne
  refine ⟨pq.q 0, _, by simp [top]; omega, by simp only [PQ.pop]; rw [if_neg (by omega)], (h.mem _).1 ⟨0, hlen, rfl⟩, h.idx 0 hlen, ?_⟩
  have key := bubbleDown_good hl
    { q := upd pq.q 0 (pq.q (pq.len - 1)), idx := upd pq.idx (pq.q (pq.len - 1)) 0, len := pq.len - 1 } 0 ?_ ?_ ?_
  · obtain ⟨g1, g2, g3, g4⟩ := key
    refine ⟨g1, g2, h.nodup.erase _, ?_, fun y => ?_⟩
    · rw [g3, List.length_erase_of_mem ((h.mem _).1 ⟨0, hlen, rfl⟩), h.len]
    · rw [g4, h.nodup.mem_erase_iff, ← h.mem]
      constructor
      · rintro ⟨i, hi, he⟩
        simp only [upd] at he hi
        split_ifs at he with hi2
        · refine ⟨fun e => ?_, pq.len - 1, by omega, he⟩
          have := h.idx.inj (i := pq.len - 1) (j := 0) (by omega) (by omega) (he.trans e)
          omega
        · refine ⟨fun e => ?_, i, by omega, he⟩
          have := h.idx.inj (i := i) (j := 0) (by omega) (by omega) (he.trans e)
          omega
      · rintro ⟨hy, i, hi, he⟩
        have hi0 : i ≠ 0 := by rintro rfl; exact hy he.symm
        by_cases hl' : i = pq.len - 1
        · refine ⟨0, by simp only; omega, by simp only [upd]; rw [if_pos trivial, ← hl', he]⟩
        · exact ⟨i, by simp only; omega, by simp only [upd]; rw [if_neg hi0, he]⟩
  · intro i hi
    have hi : i < pq.len - 1 := hi
    show upd pq.idx (pq.q (pq.len - 1)) 0 (upd pq.q 0 (pq.q (pq.len - 1)) i) = i
    by_cases hi2 : i = 0
    · rw [hi2, upd_same, upd_same]
    · rw [upd_ne _ _ hi2, upd_ne]
      · exact h.idx i (by omega)
      · intro e
        have := h.idx.inj (by omega) (by omega) e
        omega
  · intro j h0 hj hne
    simp only at hj
    simp only [PairOk, upd]
    rw [if_neg (by omega), if_neg hne]
    exact h.heap j h0 (by omega)
  · intro j h0; omega

theorem Rep.remove {less : α → α → Bool} (hl : StrictWeak less) {pq : PQ α} {M : List α} (h : Rep less pq M)
    {x : α} (hx : x ∈ M) : ∃ pq', PQ.remove less pq x = some pq' ∧ Rep less pq' (M.erase x) := by
  obtain ⟨i, hi, he⟩ := (h.mem x).2 hx
  have hix : pq.idx x = i := by rw [← he]; exact h.idx i hi
  have hne : M ≠ [] := List.ne_nil_of_mem hx
  unfold PQ.remove
  dsimp only
  rw [hix, if_neg (by simp [he])]
  by_cases hi0 : i = 0
  · rw [if_pos hi0]
    obtain ⟨m, pq', h1, h2, h3, h4, h5⟩ := h.pop hl hne
    have : m = x := by
      have : PQ.top pq = some (pq.q 0) := by simp [top]; omega
      rw [this] at h1
      rw [← he, hi0]; simpa using h1.symm
    subst this
    exact ⟨pq', h2, h5⟩
  · rw [if_neg hi0]
    have hlenE : M.length - 1 = (M.erase x).length := by rw [List.length_erase_of_mem hx]
    by_cases hlast : i = pq.len - 1
    · rw [if_pos hlast]
      refine ⟨_, rfl, ?_, ?_, h.nodup.erase _, ?_, fun y => ?_⟩
      · intro j h0 hj; exact h.heap j h0 (by simp only at hj; omega)
      · intro j hj; exact h.idx j (by simp only at hj; omega)
      · simp only; rw [h.len]; exact hlenE
      · rw [h.nodup.mem_erase_iff, ← h.mem]
        constructor
        · rintro ⟨j, hj, hy⟩
          simp only at hj hy
          refine ⟨fun e => ?_, j, by omega, hy⟩
          have := h.idx.inj (i := j) (j := i) (by omega) hi (by rw [hy, he, e])
          omega
        · rintro ⟨hyx, j, hj, hy⟩
          refine ⟨j, ?_, hy⟩
          simp only
          by_cases hji : j = i
          · subst hji; exact absurd (hy.symm.trans he) hyx
          · omega
    · rw [if_neg hlast]
      have hidx' : IdxOk (⟨upd pq.q i (pq.q (pq.len - 1)), upd pq.idx (pq.q (pq.len - 1)) i, pq.len - 1⟩ : PQ α) := by
        intro j hj
        have hj : j < pq.len - 1 := hj
        show upd pq.idx (pq.q (pq.len - 1)) i (upd pq.q i (pq.q (pq.len - 1)) j) = j
        by_cases hj2 : j = i
        · rw [hj2, upd_same, upd_same]
        · rw [upd_ne _ _ hj2, upd_ne]
          · exact h.idx j (by omega)
          · intro e
            have := h.idx.inj (by omega) (by omega) e
            omega
      have hmem' : ∀ y, Mem (⟨upd pq.q i (pq.q (pq.len - 1)), upd pq.idx (pq.q (pq.len - 1)) i, pq.len - 1⟩ : PQ α) y ↔
          y ∈ M.erase x := by
        intro y
        rw [h.nodup.mem_erase_iff, ← h.mem]
        constructor
        · rintro ⟨j, hj, hy⟩
          simp only [upd] at hj hy
          split_ifs at hy with hji
          · refine ⟨fun e => ?_, pq.len - 1, by omega, hy⟩
            have := h.idx.inj (i := pq.len - 1) (j := i) (by omega) hi (by rw [hy, he, e])
            omega
          · refine ⟨fun e => ?_, j, by omega, hy⟩
            have := h.idx.inj (i := j) (j := i) (by omega) hi (by rw [hy, he, e])
            omega
        · rintro ⟨hyx, j, hj, hy⟩
          have hji : j ≠ i := by rintro rfl; exact hyx (hy.symm.trans he)
          by_cases hl' : j = pq.len - 1
          · exact ⟨i, by simp only; omega, by simp only [upd]; rw [if_pos trivial, ← hl', hy]⟩
          · exact ⟨j, by simp only; omega, by simp only [upd]; rw [if_neg hji, hy]⟩
      have hchild : ∀ j, 0 < j → j < pq.len → (j - 1) / 2 = i → less (pq.q j) x = false := by
        intro j h0 hj hp
        have := h.heap j h0 hj
        unfold PairOk at this
        rwa [hp, he] at this
      have hpar : less x (pq.q ((i - 1) / 2)) = false := by
        have := h.heap i (by omega) hi
        unfold PairOk at this
        rwa [he] at this
      have hgc : ∀ j, 0 < i → j < pq.len - 1 → 0 < j → (j - 1) / 2 = i →
          less (upd pq.q i (pq.q (pq.len - 1)) j) (upd pq.q i (pq.q (pq.len - 1)) ((i - 1) / 2)) = false := by
        intro j _ hj hj0 hp
        simp only [upd]
        rw [if_neg (by omega), if_neg (by omega)]
        exact hl.ntrans _ _ _ (hchild j hj0 (by omega) hp) hpar
      have other : ∀ j, 0 < j → j < pq.len - 1 → j ≠ i → (j - 1) / 2 ≠ i →
          less (upd pq.q i (pq.q (pq.len - 1)) j) (upd pq.q i (pq.q (pq.len - 1)) ((j - 1) / 2)) = false := by
        intro j h0 hj hji hp
        simp only [upd]
        rw [if_neg hji, if_neg hp]
        exact h.heap j h0 (by omega)
      by_cases hless : less x (pq.q (pq.len - 1)) = true
      · rw [if_pos hless]
        refine ⟨_, rfl, ?_⟩
        obtain ⟨g1, g2, g3, g4⟩ := bubbleDown_good hl
          (⟨upd pq.q i (pq.q (pq.len - 1)), upd pq.idx (pq.q (pq.len - 1)) i, pq.len - 1⟩ : PQ α) i hidx' (by
            intro j h0 hj hp
            by_cases hji : j = i
            · subst hji
              simp only [PairOk, upd]
              rw [if_pos trivial, if_neg hp]
              exact hl.ntrans _ _ _ (hl.asymm _ _ hless) hpar
            · exact other j h0 hj hji hp) hgc
        exact ⟨g1, g2, h.nodup.erase _, by rw [g3]; simp only; rw [h.len]; exact hlenE, fun y => by rw [g4, hmem']⟩
      · rw [if_neg hless]
        refine ⟨_, rfl, ?_⟩
        obtain ⟨g1, g2, g3, g4⟩ := bubbleUp_good hl i
          (⟨upd pq.q i (pq.q (pq.len - 1)), upd pq.idx (pq.q (pq.len - 1)) i, pq.len - 1⟩ : PQ α)
          (by simp only; omega) hidx' (by
            intro j h0 hj hji
            by_cases hp : (j - 1) / 2 = i
            · simp only [PairOk, upd]
              rw [if_neg hji, if_pos hp]
              simp only at hj
              exact hl.ntrans _ _ _ (hchild j h0 (by omega) hp) (by simpa using hless)
            · exact other j h0 hj hji hp) hgc
        exact ⟨g1, g2, h.nodup.erase _, by rw [g3]; simp only; rw [h.len]; exact hlenE, fun y => by rw [g4, hmem']⟩

/-- the top is least -/
theorem Heap.top_le {less : α → α → Bool} (hl : StrictWeak less) {pq : PQ α} (h : Heap less pq) :
    ∀ j, j < pq.len → less (pq.q j) (pq.q 0) = false := by
  have irr : ∀ a, less a a = false := fun a => by
    cases h : less a a with
    | false => rfl
    | true => exact absurd (hl.asymm _ _ h) (by simp [h])
  intro j
  induction j using Nat.strongRecOn with
  | ind j ih =>
    intro hj
    by_cases h0 : j = 0
    · subst h0; exact irr _
    · exact hl.ntrans _ _ _ (h j (by omega) hj) (ih ((j - 1) / 2) (by omega) (by omega))

end PQ

/-- `History less pq M`: `pq` is a queue reached by some history of operations, none of which breaches
the contract (an entry is pushed only while not a member, removed only while a member, and pop is used
only on a non-empty queue), and `M` is what an ideal container holds after it. -/
inductive History (less : α → α → Bool) : PQ α → List α → Prop
  | init (q : Nat → α) (idx : α → Nat) : History less ⟨q, idx, 0⟩ []
  | push {pq M} (x : α) : History less pq M → x ∉ M → History less (PQ.push less pq x) (x :: M)
  | pop {pq M m pq'} : History less pq M → PQ.top pq = some m → PQ.pop less pq = some pq' →
      History less pq' (M.erase m)
  | remove {pq M pq'} (x : α) : History less pq M → x ∈ M → PQ.remove less pq x = some pq' →
      History less pq' (M.erase x)
  | clear {pq M} : History less pq M → History less (PQ.clear pq) []

theorem History.rep {less : α → α → Bool} (hl : StrictWeak less) {pq : PQ α} {M : List α}
    (h : History less pq M) : PQ.Rep less pq M := by
  induction h with
  | init q idx =>
    refine ⟨fun j _ hj => by simp at hj, fun j hj => by simp at hj, List.nodup_nil, rfl, fun x => ?_⟩
    simp [PQ.Mem]
  | push x _ hx ih => exact ih.push hl hx
  | @pop pq M m pq' h ht hp ih =>
    have hne : M ≠ [] := by
      rintro rfl
      have := ih.len
      simp [PQ.top, this] at ht
    obtain ⟨m', p', h1, h2, h3, -, h5⟩ := ih.pop hl hne
    rw [ht] at h1; rw [hp] at h2
    cases h1; cases h2
    exact h5
  | remove x _ hx hr ih =>
    obtain ⟨p', h1, h2⟩ := ih.remove hl hx
    rw [hr] at h1; cases h1; exact h2
  | clear _ ih =>
    refine ⟨fun j _ hj => by simp [PQ.clear] at hj, fun j hj => by simp [PQ.clear] at hj, List.nodup_nil, rfl, fun x => ?_⟩
    simp [PQ.Mem, PQ.clear]

namespace Props

/-- C06.  After any history, for any strict weak order: the size is the number of members; the slots
hold exactly the members, each once, and every member's recorded position is where it is; asking for
the top fails only when there is no member and otherwise returns a member no member precedes; and
every operation whose contract is met succeeds (no assert fails). -/
theorem C06_pq_minimum {less : α → α → Bool} (hl : StrictWeak less) {pq : PQ α} {M : List α}
    (h : History less pq M) :
    M.Nodup ∧ pq.len = M.length ∧
    (∀ x, x ∈ M ↔ ∃ i, i < pq.len ∧ pq.q i = x ∧ pq.idx x = i) ∧
    (M = [] → PQ.top pq = none) ∧
    (M ≠ [] → ∃ m, PQ.top pq = some m ∧ m ∈ M ∧ (∀ y ∈ M, less y m = false) ∧
      ∃ pq', PQ.pop less pq = some pq') ∧
    (∀ x ∈ M, ∃ pq', PQ.remove less pq x = some pq') := by
  have r := h.rep hl
  refine ⟨r.nodup, r.len, fun x => ?_, fun h0 => ?_, fun hne => ?_, fun x hx => ?_⟩
  · rw [← r.mem]
    constructor
    · rintro ⟨i, hi, he⟩; exact ⟨i, hi, he, by rw [← he]; exact r.idx i hi⟩
    · rintro ⟨i, hi, he, -⟩; exact ⟨i, hi, he⟩
  · have := r.len; rw [h0] at this; simp [PQ.top, this]
  · obtain ⟨m, pq', h1, h2, h3, h4, -⟩ := r.pop hl hne
    refine ⟨m, h1, h3, fun y hy => ?_, pq', h2⟩
    have hlen : 0 < pq.len := by rw [r.len]; exact List.length_pos_iff.2 hne
    have hm : m = pq.q 0 := by
      have : PQ.top pq = some (pq.q 0) := by simp [PQ.top]; omega
      rw [this] at h1; simpa using h1.symm
    obtain ⟨j, hj, he⟩ := (r.mem y).2 hy
    rw [hm, ← he]
    exact r.heap.top_le hl j hj
  · obtain ⟨p, h1, -⟩ := r.remove hl hx; exact ⟨p, h1⟩

theorem natLessStrictWeak : StrictWeak (fun a b : Nat => decide (a < b)) :=
  ⟨fun a b h => by simp at *; omega, fun a b c h1 h2 => by simp at *; omega⟩

/-- a concrete history with a mid-heap removal meets the hypotheses -/
example : ∃ pq : PQ Nat, History (fun a b => decide (a < b)) pq [3, 7, 9, 2] ∧ PQ.top pq = some 2 := by
  have h1 := ((((History.init (less := fun a b : Nat => decide (a < b)) (fun _ => 0) (fun _ => 0)).push 5
    (by decide)).push 2 (by decide)).push 9 (by decide)).push 7 (by decide) |>.push 3 (by decide)
  obtain ⟨pq', hr⟩ := (C06_pq_minimum natLessStrictWeak h1).2.2.2.2.2 5 (by decide)
  have h2 : History (fun a b : Nat => decide (a < b)) pq' [3, 7, 9, 2] := h1.remove 5 (by decide) hr
  obtain ⟨m, ht, hm, hmin, -⟩ := (C06_pq_minimum natLessStrictWeak h2).2.2.2.2.1 (by decide)
  refine ⟨pq', h2, ?_⟩
  have := hmin 2 (by decide)
  simp at this hm
  rw [ht]; congr 1; omega

end Props
end Nghttp3
