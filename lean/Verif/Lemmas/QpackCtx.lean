import Verif.Model.QpackDec
import Verif.Props.StaticTable
import Mathlib.Tactic.SplitIfs
/-! Lemmas about the dynamic table. -/
namespace Nghttp3
namespace Qpack

/-- total size of a list of entries -/
def spaces : List Ent → Nat
  | [] => 0
  | e :: t => e.space + spaces t

@[simp] theorem spaces_nil : spaces [] = 0 := rfl
@[simp] theorem spaces_cons (e : Ent) (t : List Ent) : spaces (e :: t) = e.space + spaces t := rfl

@[simp] theorem spaces_append (a b : List Ent) : spaces (a ++ b) = spaces a + spaces b := by
  induction a with
  | nil => simp
  | cons e t ih => simp [ih]; omega

@[simp] theorem spaces_reverse (a : List Ent) : spaces a.reverse = spaces a := by
  induction a with
  | nil => rfl
  | cons e t ih => simp [ih]; omega

theorem spaces_take_le (a : List Ent) (n : Nat) : spaces (a.take n) ≤ spaces a := by
  conv => rhs; rw [← List.take_append_drop n a, spaces_append]
  omega

theorem space_ge (e : Ent) : 32 ≤ e.space := by unfold Ent.space tableSpace; omega

theorem length_le_spaces (l : List Ent) : 32 * l.length ≤ spaces l := by
  induction l with
  | nil => simp
  | cons e t ih => have := space_ge e; simp; omega

theorem evictOld_spec (cap space : Nat) (l : List Ent) (hs : space ≤ cap) :
    ∃ k, k ≤ l.length ∧ evictOld cap space l (spaces l) = some (l.drop k, spaces (l.drop k)) ∧
      spaces (l.drop k) + space ≤ cap ∧ ∀ j < k, cap < spaces (l.drop j) + space := by
  induction l with
  | nil => exact ⟨0, by simp, by simp [evictOld, hs], by simpa, by simp⟩
  | cons e t ih =>
    by_cases h : spaces (e :: t) + space ≤ cap
    · refine ⟨0, by simp, ?_, h, by simp⟩
      rw [evictOld, if_pos h]; rfl
    · obtain ⟨k, hk, he, hle, hm⟩ := ih
      refine ⟨k + 1, by simpa using hk, ?_, by simpa using hle, ?_⟩
      · rw [evictOld, if_neg h, List.drop_succ_cons, ← he]
        congr 1; simp
      · intro j hj
        cases j with
        | zero => simpa using h
        | succ j => exact hm j (by omega)

/-- what holds of every table the library builds -/
structure CtxB (c : Ctx) : Prop where
  size : c.size = spaces c.ents
  hard : c.maxCap ≤ c.hardMax
  idx : ∀ i e, c.ents[i]? = some e → e.absidx + i + 1 = c.next
  len : c.ents.length ≤ c.next
  tok : ∀ e ∈ c.ents, e.token = lookupToken e.name
  sums : ∀ i e, c.ents[i]? = some e → e.sum + spaces (c.ents.take (i + 1)) = c.sum

/-- … and of every table of a decoder, and of an encoder's unless a lower capacity is pending -/
structure CtxOk (c : Ctx) : Prop extends CtxB c where
  cap : c.size ≤ c.maxCap

theorem CtxOk.init (hardMax maxBlocked : Nat) : CtxOk { hardMax := hardMax, maxBlocked := maxBlocked } :=
  ⟨⟨rfl, Nat.zero_le _, by simp, by simp, by simp, by simp⟩, Nat.le_refl _⟩

theorem reverse_drop_reverse (l : List Ent) (k : Nat) :
    (l.reverse.drop k).reverse = l.take (l.length - k) := by
  rw [List.drop_reverse, List.reverse_reverse]

/-- keeping only the newest `n` entries -/
theorem CtxB.take {c : Ctx} (h : CtxB c) (n cap : Nat) (hc : spaces (c.ents.take n) ≤ cap) (hh : cap ≤ c.hardMax) :
    CtxOk { c with ents := c.ents.take n, size := spaces (c.ents.take n), maxCap := cap } where
  size := rfl
  cap := hc
  hard := hh
  idx := by
    intro i e he
    rw [List.getElem?_take] at he
    split_ifs at he
    exact h.idx i e he
  len := by have := h.len; simp; omega
  tok := fun e he => h.tok e (List.mem_of_mem_take he)
  sums := by
    intro i e he
    rw [List.getElem?_take] at he
    split_ifs at he
    have := h.sums i e he
    simp only [List.take_take]
    rw [Nat.min_eq_left (by omega)]
    exact this

/-- the table after a push -/
def Ctx.pushed (c : Ctx) (n : Nat) (name value : Bytes) (token : Option Nat) (hash : Nat) : Ctx :=
  { c with
    ents := ⟨name, value, token, c.sum, c.next, hash⟩ :: c.ents.take n
    size := spaces (c.ents.take n) + tableSpace name.length value.length
    sum := c.sum + tableSpace name.length value.length
    next := c.next + 1 }

theorem Ctx.add_spec {c : Ctx} (h : CtxB c) (name value : Bytes) (token : Option Nat) (hash : Nat)
    (hs : tableSpace name.length value.length ≤ c.maxCap) :
    ∃ n, n ≤ c.ents.length ∧ c.add name value token hash = some (c.pushed n name value token hash) ∧
      spaces (c.ents.take n) + tableSpace name.length value.length ≤ c.maxCap ∧
      ∀ m, n < m → m ≤ c.ents.length → c.maxCap < spaces (c.ents.take m) + tableSpace name.length value.length := by
  obtain ⟨k, hk, he, hle, hm⟩ := evictOld_spec c.maxCap _ c.ents.reverse hs
  simp only [List.length_reverse] at hk
  refine ⟨c.ents.length - k, by omega, ?_, ?_, ?_⟩
  · unfold Ctx.add
    dsimp only
    rw [if_neg (by omega), h.size]
    rw [spaces_reverse] at he
    rw [he]
    dsimp only
    rw [reverse_drop_reverse]
    unfold Ctx.pushed
    congr 2
    rw [← reverse_drop_reverse, spaces_reverse]
  · rw [← reverse_drop_reverse, spaces_reverse]; exact hle
  · intro m h1 h2
    have := hm (c.ents.length - m) (by omega)
    rw [← spaces_reverse, reverse_drop_reverse] at this
    rwa [show c.ents.length - (c.ents.length - m) = m by omega] at this

theorem CtxB.pushed {c : Ctx} (h : CtxB c) {n : Nat} {name value : Bytes} {token : Option Nat} {hash : Nat}
    (hs : spaces (c.ents.take n) + tableSpace name.length value.length ≤ c.maxCap) (ht : token = lookupToken name) :
    CtxOk (c.pushed n name value token hash) where
  size := by simp [Ctx.pushed, Ent.space]; omega
  cap := hs
  hard := h.hard
  idx := by
    intro i e he
    cases i with
    | zero => simp [Ctx.pushed] at he; subst he; simp [Ctx.pushed]
    | succ i =>
      simp only [Ctx.pushed, List.getElem?_cons_succ, List.getElem?_take] at he
      split_ifs at he
      have := h.idx i e he
      simp only [Ctx.pushed]; omega
  len := by have := h.len; simp [Ctx.pushed]; omega
  tok := by
    intro e he
    rcases List.mem_cons.1 he with rfl | he
    · exact ht
    · exact h.tok e (List.mem_of_mem_take he)
  sums := by
    intro i e he
    cases i with
    | zero => simp [Ctx.pushed] at he; subst he; simp [Ctx.pushed, Ent.space]
    | succ i =>
      simp only [Ctx.pushed, List.getElem?_cons_succ, List.getElem?_take] at he
      split_ifs at he
      have := h.sums i e he
      simp only [Ctx.pushed, List.take_succ_cons, spaces_cons, List.take_take]
      rw [Nat.min_eq_left (by omega)]
      simp only [Ent.space] at this ⊢; omega

theorem CtxB.get_valid {c : Ctx} (h : CtxB c) {a : Nat} (hv : validateIndex c true a = true) :
    ∃ e, c.get a = some e ∧ e.absidx = a ∧ e ∈ c.ents := by
  simp [validateIndex] at hv
  refine ⟨c.ents[c.next - a - 1]'hv.2, ?_, ?_, List.getElem_mem _⟩
  · unfold Ctx.get; rw [if_pos hv.1]; simp [hv.2]
  · have := h.idx (c.next - a - 1) _ (List.getElem?_eq_getElem hv.2); omega

theorem CtxOk.setCap {c : Ctx} (h : CtxOk c) (cap : Nat) (hc : cap ≤ c.hardMax) :
    ∃ n, n ≤ c.ents.length ∧
      c.setCap cap = some (some { c with ents := c.ents.take n, size := spaces (c.ents.take n), maxCap := cap }) ∧
      spaces (c.ents.take n) ≤ cap ∧ ∀ m, n < m → m ≤ c.ents.length → cap < spaces (c.ents.take m) := by
  obtain ⟨k, hk, he, hle, hm⟩ := evictOld_spec cap 0 c.ents.reverse (Nat.zero_le _)
  simp only [List.length_reverse] at hk
  refine ⟨c.ents.length - k, by omega, ?_, ?_, ?_⟩
  · unfold Ctx.setCap
    rw [if_neg (by omega), h.size]
    rw [spaces_reverse] at he
    rw [he]
    dsimp only
    rw [reverse_drop_reverse, ← spaces_reverse, reverse_drop_reverse]
  · rw [← reverse_drop_reverse, spaces_reverse]; exact hle
  · intro m h1 h2
    have := hm (c.ents.length - m) (by omega)
    rw [← spaces_reverse, reverse_drop_reverse] at this
    rw [show c.ents.length - (c.ents.length - m) = m by omega] at this
    simpa using this

theorem addChecked_ok {c : Ctx} (h : CtxOk c) (name value : Bytes) (token : Option Nat) (ht : token = lookupToken name) :
    c.addChecked name value token = some none ∨
      ∃ c', c.addChecked name value token = some (some c') ∧ CtxOk c' ∧ c'.hardMax = c.hardMax ∧ c'.next = c.next + 1 ∧
        c'.bad = c.bad := by
  unfold Ctx.addChecked
  by_cases hs : c.maxCap < tableSpace name.length value.length
  · left; rw [if_pos hs]
  · right
    obtain ⟨n, hn, ha, hle, _⟩ := Ctx.add_spec h.toCtxB name value token 0 (by omega)
    rw [if_neg hs, ha]
    exact ⟨_, rfl, h.pushed hle ht, rfl, rfl, rfl⟩

end Qpack
end Nghttp3
