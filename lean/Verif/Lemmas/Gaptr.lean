import Verif.Model.Gaptr
import Mathlib.Tactic.SplitIfs

namespace Nghttp3

/-- some gap contains `x` -/
def InGaps (gaps : List Range) (x : Nat) : Prop := ∃ g ∈ gaps, g.b ≤ x ∧ x < g.e

/-- gaps are non-empty, increasing and separated, starting at or after `lo` -/
def GapsOk : Nat → List Range → Prop
  | _, [] => True
  | lo, g :: t => lo ≤ g.b ∧ g.b < g.e ∧ GapsOk (g.e + 1) t

theorem GapsOk.mono {lo lo' : Nat} {gaps : List Range} (h : GapsOk lo gaps) (hl : lo' ≤ lo) :
    GapsOk lo' gaps := by
  cases gaps with
  | nil => trivial
  | cons g t => exact ⟨Nat.le_trans hl h.1, h.2⟩

theorem GapsOk.lower {lo : Nat} {gaps : List Range} (h : GapsOk lo gaps) {x : Nat}
    (hx : InGaps gaps x) : lo ≤ x := by
  induction gaps generalizing lo with
  | nil => obtain ⟨g, hg, _⟩ := hx; simp at hg
  | cons g t ih =>
    obtain ⟨k, hk, h1, h2⟩ := hx
    rcases List.mem_cons.1 hk with rfl | hk
    · exact Nat.le_trans h.1 h1
    · have := ih h.2.2 ⟨k, hk, h1, h2⟩
      have := h.1; have := h.2.1
      omega

theorem inGaps_cons {g : Range} {t : List Range} {x : Nat} :
    InGaps (g :: t) x ↔ (g.b ≤ x ∧ x < g.e) ∨ InGaps t x := by
  unfold InGaps
  simp

theorem inGaps_nil {x : Nat} : ¬ InGaps [] x := by
  rintro ⟨g, hg, _⟩; simp at hg

theorem rangeIntersect_pos {q k : Range} (h : max q.b k.b < min q.e k.e) :
    rangeIntersect q k = ⟨max q.b k.b, min q.e k.e⟩ := if_pos h

theorem rangeIntersect_neg {q k : Range} (h : ¬ max q.b k.b < min q.e k.e) :
    rangeIntersect q k = ⟨0, 0⟩ := if_neg h

theorem gapPushLoop_noov {q k : Range} {t : List Range} (h : ¬ max q.b k.b < min q.e k.e) :
    gapPushLoop q (k :: t) = k :: t := by
  unfold gapPushLoop
  rw [rangeIntersect_neg h]
  exact if_pos rfl

theorem gapPushLoop_ov {q k : Range} {t : List Range} (hk : k.b < k.e)
    (h : max q.b k.b < min q.e k.e) :
    gapPushLoop q (k :: t) = (if k.b < q.b then [⟨k.b, q.b⟩] else []) ++
      ((if q.e < k.e then [⟨q.e, k.e⟩] else []) ++ gapPushLoop q t) := by
  conv => lhs; unfold gapPushLoop
  rw [rangeIntersect_pos h]
  have hl : (Range.mk (max q.b k.b) (min q.e k.e)).len ≠ 0 := by
    simp only [Range.len]; omega
  have hll : (Range.mk k.b (max q.b k.b)).len = max q.b k.b - k.b := rfl
  have hrl : (Range.mk (min q.e k.e) k.e).len = k.e - min q.e k.e := rfl
  have heq : k = Range.mk (max q.b k.b) (min q.e k.e) ↔ ¬ k.b < q.b ∧ ¬ q.e < k.e := by
    cases k; simp only [Range.mk.injEq] at *; omega
  dsimp only [rangeCut]
  rw [if_neg hl]
  by_cases h1 : k.b < q.b <;> by_cases h2 : q.e < k.e
  all_goals simp only [h1, h2, if_true, if_false]
  · rw [if_neg (by rw [heq]; omega), if_pos (by rw [hll]; omega), if_pos (by rw [hrl]; omega)]
    have e1 : max q.b k.b = q.b := by omega
    have e2 : min q.e k.e = q.e := by omega
    rw [e1, e2]; rfl
  · rw [if_neg (by rw [heq]; omega), if_pos (by rw [hll]; omega), if_neg (by rw [hrl]; omega)]
    have e1 : max q.b k.b = q.b := by omega
    rw [e1]; rfl
  · rw [if_neg (by rw [heq]; omega), if_neg (by rw [hll]; omega), if_pos (by rw [hrl]; omega)]
    have e2 : min q.e k.e = q.e := by omega
    rw [e2]; rfl
  · rw [if_pos (by rw [heq]; omega)]; rfl

theorem pushLoop_spec (q : Range) (hq : q.b < q.e) : ∀ (gaps : List Range) (lo : Nat), GapsOk lo gaps →
    (∀ g ∈ gaps, ¬ rangeExclLess g q) →
    GapsOk lo (gapPushLoop q gaps) ∧
    ∀ x, InGaps (gapPushLoop q gaps) x ↔ InGaps gaps x ∧ ¬ (q.b ≤ x ∧ x < q.e) := by
  intro gaps
  induction gaps with
  | nil => intro lo h _; exact ⟨trivial, fun x => by simp [gapPushLoop, inGaps_nil]⟩
  | cons k t ih =>
    intro lo hok hge
    have hk := hge k (by simp)
    have hkl := hok.1
    have hkk := hok.2.1
    have htail := hok.2.2
    have hk2 : q.b ≤ k.b ∨ (max k.b q.b < min k.e q.e) := by
      simp [rangeExclLess] at hk
      rcases Nat.lt_or_ge k.b q.b with h | h
      · have := hk h; omega
      · exact Or.inl h
    by_cases hov : max q.b k.b < min q.e k.e
    · have hge' : ∀ g ∈ t, ¬ rangeExclLess g q := fun g hg => hge g (by simp [hg])
      obtain ⟨i1, i2⟩ := ih (k.e + 1) htail hge'
      rw [gapPushLoop_ov hkk hov]
      split_ifs with h1 h2 h2
      all_goals
        simp only [List.cons_append, List.nil_append, GapsOk, inGaps_cons, i2]
        constructor
      · refine ⟨by omega, by omega, by omega, by omega, i1⟩
      · intro x; constructor
        · rintro (h | h | ⟨h, h'⟩)
          · exact ⟨Or.inl (by omega), by omega⟩
          · exact ⟨Or.inl (by omega), by omega⟩
          · exact ⟨Or.inr h, h'⟩
        · rintro ⟨h | h, h'⟩
          · omega
          · exact Or.inr (Or.inr ⟨h, h'⟩)
      · exact ⟨by omega, by omega, i1.mono (by omega)⟩
      · intro x; constructor
        · rintro (h | ⟨h, h'⟩)
          · exact ⟨Or.inl (by omega), by omega⟩
          · exact ⟨Or.inr h, h'⟩
        · rintro ⟨h | h, h'⟩
          · omega
          · exact Or.inr ⟨h, h'⟩
      · exact ⟨by omega, by omega, i1⟩
      · intro x; constructor
        · rintro (h | ⟨h, h'⟩)
          · exact ⟨Or.inl (by omega), by omega⟩
          · exact ⟨Or.inr h, h'⟩
        · rintro ⟨h | h, h'⟩
          · omega
          · exact Or.inr ⟨h, h'⟩
      · exact i1.mono (by omega)
      · intro x; constructor
        · rintro ⟨h, h'⟩
          exact ⟨Or.inr h, h'⟩
        · rintro ⟨h | h, h'⟩
          · omega
          · exact ⟨h, h'⟩
    · rw [gapPushLoop_noov hov]
      refine ⟨hok, fun x => ?_⟩
      constructor
      · intro hx
        refine ⟨hx, ?_⟩
        have : q.b ≤ k.b := by omega
        have h1 : k.b ≤ x := GapsOk.lower (lo := k.b) (gaps := k :: t) ⟨Nat.le_refl _, hkk, htail⟩ hx
        omega
      · exact fun h => h.1

theorem pushFrom_spec (q : Range) (hq : q.b < q.e) : ∀ (gaps : List Range) (lo : Nat), GapsOk lo gaps →
    GapsOk lo (gapPushFrom q gaps) ∧
    ∀ x, InGaps (gapPushFrom q gaps) x ↔ InGaps gaps x ∧ ¬ (q.b ≤ x ∧ x < q.e) := by
  intro gaps
  induction gaps with
  | nil => intro lo h; exact ⟨trivial, fun x => by simp [gapPushFrom, inGaps_nil]⟩
  | cons k t ih =>
    intro lo hok
    unfold gapPushFrom
    split_ifs with h
    · obtain ⟨i1, i2⟩ := ih (k.e + 1) hok.2.2
      refine ⟨⟨hok.1, hok.2.1, i1⟩, fun x => ?_⟩
      rw [inGaps_cons, i2, inGaps_cons]
      simp [rangeExclLess] at h
      have := hok.2.1
      constructor
      · rintro (h | ⟨h, h'⟩)
        · exact ⟨Or.inl h, by omega⟩
        · exact ⟨Or.inr h, h'⟩
      · rintro ⟨h | h, h'⟩
        · exact Or.inl h
        · exact Or.inr ⟨h, h'⟩
    · apply pushLoop_spec q hq (k :: t) lo hok
      -- no later gap is less than q either
      have hmono : ∀ (l : List Range) (lo : Nat), GapsOk lo l → q.b ≤ lo →
          ∀ g ∈ l, ¬ rangeExclLess g q := by
        intro l
        induction l with
        | nil => intro lo _ _ g hg; simp at hg
        | cons a s ihs =>
          intro lo ho hlo g hg
          rcases List.mem_cons.1 hg with rfl | hg
          · simp [rangeExclLess]; intro hlt; have := ho.1; omega
          · exact ihs (a.e + 1) ho.2.2 (by have := ho.1; have := ho.2.1; omega) g hg
      intro g hg
      rcases List.mem_cons.1 hg with rfl | hg
      · exact h
      · refine hmono t (k.e + 1) hok.2.2 ?_ g hg
        have := hok.2.1
        simp [rangeExclLess] at h
        rcases Nat.lt_or_ge k.b q.b with h' | h'
        · have := h h'; omega
        · omega

theorem find_spec (q : Range) (hq : q.b < q.e) : ∀ (gaps : List Range) (lo : Nat), GapsOk lo gaps →
    match gaps.find? (fun k => !rangeExclLess k q) with
    | none => ∀ x, InGaps gaps x → x < q.b
    | some k => k ∈ gaps ∧ (∀ x, InGaps gaps x → q.b ≤ x → k.b ≤ x) ∧ (q.b ≤ k.b ∨ (k.b ≤ q.b ∧ q.b < k.e)) := by
  intro gaps
  induction gaps with
  | nil => intro lo _; simp; intro x hx; exact absurd hx inGaps_nil
  | cons k t ih =>
    intro lo hok
    rw [List.find?_cons]
    by_cases h : rangeExclLess k q
    · simp only [h, Bool.not_true]
      have h' := h
      simp [rangeExclLess] at h'
      have hkk := hok.2.1
      have hke : k.e ≤ q.b := by omega
      have := ih (k.e + 1) hok.2.2
      split at this
      · rename_i heq
        rw [heq]
        intro x hx
        rcases inGaps_cons.1 hx with hx | hx
        · omega
        · exact this x hx
      · rename_i k' heq
        rw [heq]
        refine ⟨by simp [this.1], ?_, this.2.2⟩
        intro x hx hqx
        rcases inGaps_cons.1 hx with hx | hx
        · omega
        · exact this.2.1 x hx hqx
    · simp only [h, Bool.not_false]
      refine ⟨by simp, ?_, ?_⟩
      · intro x hx hqx
        exact GapsOk.lower (lo := k.b) (gaps := k :: t) ⟨Nat.le_refl _, hok.2⟩ hx
      · simp [rangeExclLess] at h
        rcases Nat.lt_or_ge k.b q.b with h' | h'
        · have := h h'; right; omega
        · left; exact h'

end Nghttp3
