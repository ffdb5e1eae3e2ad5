import Verif.Model.Ringbuf
import Verif.Spec.Deque
import Mathlib.Tactic.SplitIfs

/-! Property theorem C05. -/

namespace Nghttp3
open Spec

variable {α : Type}

/-- the specification's effect of an operation -/
def specStep (d : Deque α) : RBOp α → Deque α
  | .pushFront x => d.pushFront x
  | .pushBack x => d.pushBack x
  | .popFront => d.popFront
  | .popBack => d.popBack
  | .resize n => d.resize n
  | .reserve n => d.reserve n

/-- the documented precondition of an operation, in terms of the ideal queue -/
def specPre (d : Deque α) : RBOp α → Prop
  | .pushFront _ => d.CanPush
  | .pushBack _ => d.CanPush
  | .popFront => d.CanPop
  | .popBack => d.CanPop
  | .resize n => n ≤ d.items.length
  | .reserve n => n ≤ d.cap ∨ (IsPow2 n ∧ n < 2 ^ 63)

/-- a history all of whose operations meet their preconditions -/
def ValidHist : Deque α → List (RBOp α) → Prop
  | _, [] => True
  | d, op :: t => specPre d op ∧ ValidHist (specStep d op) t

theorem ispow2_iff (n : Nat) : RB.ispow2 n = true ↔ IsPow2 n := by
  unfold RB.ispow2 IsPow2
  constructor
  · intro h
    simp at h
    obtain ⟨h0, h1⟩ := h
    exact (Nat.and_sub_one_eq_zero_iff_isPowerOfTwo h0).1 h1
  · rintro ⟨k, rfl⟩
    have : 2 ^ k ≠ 0 := Nat.pos_iff_ne_zero.1 (Nat.two_pow_pos k)
    simp

/-- representation relation -/
structure RBRep (rb : RB α) (d : Deque α) : Prop where
  cap : rb.nmemb = d.cap
  len : rb.len = d.items.length
  le : rb.len ≤ rb.nmemb
  pow : rb.nmemb = 0 ∨ IsPow2 rb.nmemb
  small : rb.nmemb < 2 ^ 63
  first : rb.nmemb = 0 ∧ rb.first = 0 ∨ rb.first < rb.nmemb
  cell : ∀ i, i < rb.len → rb.buf ((rb.first + i) % rb.nmemb) = d.items[i]?

theorem mask_eq {rb : RB α} (hp : IsPow2 rb.nmemb) (hs : rb.nmemb < 2 ^ 63) (x : Nat) :
    RB.mask rb x = x % rb.nmemb := by
  obtain ⟨k, hk⟩ := hp
  have hpos : 0 < rb.nmemb := by rw [hk]; exact Nat.two_pow_pos k
  unfold RB.mask
  have : (rb.nmemb + 2 ^ 64 - 1) % 2 ^ 64 = rb.nmemb - 1 := by omega
  rw [this, hk, Nat.and_two_pow_sub_one_eq_mod]
  apply Nat.mod_mod_of_dvd
  apply Nat.pow_dvd_pow
  have : 2 ^ k < 2 ^ 63 := hk ▸ hs
  exact Nat.le_of_lt (Nat.lt_trans ((Nat.pow_lt_pow_iff_right (by decide)).1 this) (by decide))

theorem mod_wrap {a n : Nat} (h : a < 2 * n) : a % n = if a < n then a else a - n := by
  split_ifs with h1
  · exact Nat.mod_eq_of_lt h1
  · rw [Nat.mod_eq_sub_mod (by omega), Nat.mod_eq_of_lt (by omega)]

theorem RBRep.step {rb : RB α} {d : Deque α} (h : RBRep rb d) (op : RBOp α) (hp : specPre d op) :
    ∃ rb', rb.step op = some rb' ∧ RBRep rb' (specStep d op) := by
  obtain ⟨nm, fi, ln, bf⟩ := rb
  obtain ⟨cap, its⟩ := d
  obtain ⟨h1, h2, h3, h4, h5, h6, h7⟩ := h
  simp only at h1 h2 h3 h4 h5 h6 h7
  subst h1; subst h2
  have hpow : 0 < nm → IsPow2 nm := fun h => h4.resolve_left (by omega)
  cases op with
  | pushFront x =>
    have hp' : 0 < nm := hp
    have hm := mask_eq (rb := ⟨nm, fi, its.length, bf⟩) (hpow hp') h5
    have hpd := hpow hp'
    have hfi : fi < nm := by omega
    have e1 : RB.mask ⟨nm, fi, its.length, bf⟩ (fi + 2 ^ 64 - 1) = if fi = 0 then nm - 1 else fi - 1 := by
      rw [hm]
      show (fi + 2 ^ 64 - 1) % nm = _
      obtain ⟨k, hk⟩ := hpd
      have hkle : k ≤ 64 := by
        have : 2 ^ k < 2 ^ 63 := hk ▸ h5
        exact Nat.le_of_lt (Nat.lt_trans ((Nat.pow_lt_pow_iff_right (by decide)).1 this) (by decide))
      have h64 : 2 ^ 64 = nm * 2 ^ (64 - k) := by
        rw [hk, ← Nat.pow_add]; congr 1; omega
      have hq : 0 < 2 ^ (64 - k) := Nat.two_pow_pos _
      obtain ⟨q, hq'⟩ : ∃ q, 2 ^ (64 - k) = q + 1 := ⟨2 ^ (64 - k) - 1, by omega⟩
      rw [h64, hq', Nat.mul_add, Nat.mul_one]
      split_ifs with h0
      · subst h0
        have : 0 + (nm * q + nm) - 1 = (nm - 1) + nm * q := by omega
        rw [this, Nat.add_mul_mod_self_left, Nat.mod_eq_of_lt (by omega)]
      · have : fi + (nm * q + nm) - 1 = (fi - 1) + nm * (q + 1) := by rw [Nat.mul_add]; omega
        rw [this, Nat.add_mul_mod_self_left, Nat.mod_eq_of_lt (by omega)]
    simp only [RB.step, RB.pushFront, RB.store, e1]
    rw [if_pos (by split_ifs <;> omega)]
    refine ⟨_, rfl, ?_⟩
    simp only [specStep, Deque.pushFront]
    refine ⟨rfl, ?_, ?_, h4, h5, ?_, ?_⟩
    · simp
    · simp; omega
    · right; simp only; split_ifs <;> omega
    · intro i hi
      simp only at hi ⊢
      rw [List.getElem?_take_of_lt (by omega)]
      rw [mod_wrap (by split_ifs <;> omega)]
      cases i with
      | zero =>
        rw [if_pos]
        · rfl
        · split_ifs <;> omega
      | succ j =>
        rw [if_neg]
        · have := h7 j (by omega)
          rw [mod_wrap (by omega)] at this
          rw [List.getElem?_cons_succ, ← this]
          congr 1
          split_ifs <;> omega
        · split_ifs <;> omega
  | pushBack x =>
    have hp' : 0 < nm := hp
    have hm := mask_eq (rb := ⟨nm, fi, its.length, bf⟩) (hpow hp') h5
    have hfi : fi < nm := by omega
    simp only [RB.step, RB.pushBack, RB.store, specStep, Deque.pushBack]
    have hlt : (fi + its.length) % nm < nm := Nat.mod_lt _ hp'
    by_cases hfull : its.length = nm
    · rw [if_pos hfull, if_pos hfull, hm, hm, if_pos hlt]
      refine ⟨_, rfl, rfl, ?_, h3, h4, h5, ?_, ?_⟩
      · simp; omega
      · exact Or.inr (Nat.mod_lt _ hp')
      · intro i hi
        simp only at hi ⊢
        rw [mod_wrap (a := fi + its.length) (by omega), mod_wrap (a := fi + 1) (by omega)]
        by_cases hlast : i = its.length - 1
        · rw [if_pos]
          · rw [List.getElem?_append_right (by simp; omega)]
            simp [hlast]
          · rw [mod_wrap (by split_ifs <;> omega)]
            split_ifs <;> omega
        · rw [if_neg]
          · rw [List.getElem?_append_left (by simp; omega), List.getElem?_tail, ← h7 (i + 1) (by omega)]
            congr 1
            rw [mod_wrap (by split_ifs <;> omega), mod_wrap (a := fi + (i + 1)) (by omega)]
            split_ifs <;> omega
          · rw [mod_wrap (by split_ifs <;> omega)]
            split_ifs <;> omega
    · rw [if_neg hfull, if_neg hfull, hm, if_pos hlt]
      refine ⟨_, rfl, rfl, ?_, ?_, h4, h5, h6, ?_⟩
      · simp
      · show its.length + 1 ≤ nm; omega
      · intro i hi
        simp only at hi ⊢
        rw [mod_wrap (a := fi + its.length) (by omega), mod_wrap (a := fi + i) (by omega)]
        by_cases hlast : i = its.length
        · rw [if_pos (by rw [hlast]), List.getElem?_append_right (by omega)]
          simp [hlast]
        · rw [if_neg (by split_ifs <;> omega), List.getElem?_append_left (by omega), ← h7 i (by omega),
            mod_wrap (a := fi + i) (by omega)]
  | popFront =>
    have hne : its ≠ [] := hp
    have hlen : 0 < its.length := List.length_pos_iff.2 hne
    have hm := mask_eq (rb := ⟨nm, fi, its.length, bf⟩) (hpow (by omega)) h5
    simp only [RB.step, RB.popFront, specStep, Deque.popFront]
    rw [if_neg (by omega), hm]
    refine ⟨_, rfl, rfl, by simp, by simp only; omega, h4, h5, Or.inr (Nat.mod_lt _ (by simp only; omega)), ?_⟩
    intro i hi
    simp only at hi ⊢
    rw [List.getElem?_tail, ← h7 (i + 1) (by omega)]
    congr 1
    rw [Nat.mod_add_mod]; congr 1; omega
  | popBack =>
    have hne : its ≠ [] := hp
    have hlen : 0 < its.length := List.length_pos_iff.2 hne
    simp only [RB.step, RB.popBack, specStep, Deque.popBack]
    rw [if_neg (by omega)]
    refine ⟨_, rfl, rfl, by simp, by simp only; omega, h4, h5, h6, ?_⟩
    intro i hi
    simp only at hi ⊢
    rw [h7 i (by omega), List.dropLast_eq_take, List.getElem?_take_of_lt hi]
  | resize n =>
    have hn : n ≤ its.length := hp
    simp only [RB.step, RB.resize, specStep, Deque.resize]
    rw [if_pos (by omega)]
    refine ⟨_, rfl, rfl, by simp; omega, by simp only; omega, h4, h5, h6, ?_⟩
    intro i hi
    simp only at hi ⊢
    rw [h7 i (by omega), List.getElem?_take_of_lt hi]
  | reserve n =>
    simp only [RB.step, RB.reserve, specStep, Deque.reserve]
    by_cases hge : nm ≥ n
    · rw [if_pos hge]
      refine ⟨_, rfl, ?_, rfl, h3, h4, h5, h6, h7⟩
      simp only; omega
    · have hp2 : IsPow2 n ∧ n < 2 ^ 63 := hp.resolve_left (by simp only; omega)
      rw [if_neg hge, (ispow2_iff n).2 hp2.1, if_neg (by simp)]
      by_cases h0 : nm = 0
      · rw [if_neg (by omega)]
        refine ⟨_, rfl, ?_, rfl, ?_, Or.inr hp2.1, hp2.2, ?_, ?_⟩
        · simp only; omega
        · simp only; omega
        · simp only; omega
        · intro i hi; simp only at hi; omega
      · rw [if_pos h0]
        have hfi : fi < nm := by omega
        by_cases hlin : fi + its.length ≤ nm
        · rw [if_pos hlin]
          refine ⟨_, rfl, ?_, rfl, ?_, Or.inr hp2.1, hp2.2, ?_, ?_⟩
          · simp only; omega
          · simp only; omega
          · simp only; omega
          · intro i hi
            simp only at hi ⊢
            rw [Nat.zero_add, Nat.mod_eq_of_lt (by omega), if_pos hi, ← h7 i hi, Nat.mod_eq_of_lt (by omega)]
        · rw [if_neg hlin]
          refine ⟨_, rfl, ?_, rfl, ?_, Or.inr hp2.1, hp2.2, ?_, ?_⟩
          · simp only; omega
          · simp only; omega
          · simp only; omega
          · intro i hi
            simp only at hi ⊢
            rw [Nat.zero_add, Nat.mod_eq_of_lt (by omega), ← h7 i hi, mod_wrap (a := fi + i) (by omega)]
            split_ifs <;> first | omega | rfl | (congr 1; omega)

/-- run a history; `none` as soon as an assert fails or memory outside the buffer is touched -/
def RB.run (rb : RB α) (ops : List (RBOp α)) : Option (RB α) := ops.foldlM RB.step rb

namespace Props

/-- C05.  A ring buffer created with any power-of-two (or zero) capacity and then subjected to any
history of operations meeting their documented preconditions never fails, and afterwards reports the
ideal deque's length, and returns at every position the ideal deque's element there. -/
theorem C05_ringbuf_deque (nmemb : Nat) (hn : nmemb = 0 ∨ IsPow2 nmemb) (hs : nmemb < 2 ^ 63)
    (ops : List (RBOp α)) (hv : ValidHist ⟨nmemb, []⟩ ops) :
    ∃ rb0 rb, RB.init nmemb = some rb0 ∧ rb0.run ops = some rb ∧
      rb.len = (ops.foldl specStep ⟨nmemb, []⟩).items.length ∧
      (∀ i, rb.get i = (ops.foldl specStep ⟨nmemb, []⟩).items[i]?) ∧
      (rb.full = true ↔
        (ops.foldl specStep ⟨nmemb, []⟩).items.length = (ops.foldl specStep ⟨nmemb, []⟩).cap) := by
  have hinit : ∃ rb0 : RB α, RB.init nmemb = some rb0 ∧ RBRep rb0 ⟨nmemb, []⟩ := by
    unfold RB.init
    rcases hn with rfl | hp
    · refine ⟨_, rfl, rfl, rfl, by simp, Or.inl rfl, by simp, Or.inl ⟨rfl, rfl⟩, ?_⟩
      intro i hi; simp at hi
    · have h0 : nmemb ≠ 0 := by
        obtain ⟨k, rfl⟩ := hp; exact Nat.pos_iff_ne_zero.1 (Nat.two_pow_pos k)
      rw [if_pos h0, if_pos ((ispow2_iff _).2 hp)]
      refine ⟨_, rfl, rfl, rfl, by simp, Or.inr hp, hs, Or.inr (Nat.pos_of_ne_zero h0), ?_⟩
      intro i hi; simp at hi
  obtain ⟨rb0, hi0, hr0⟩ := hinit
  have key : ∀ (ops : List (RBOp α)) (d : Deque α) (rb : RB α), RBRep rb d → ValidHist d ops →
      ∃ rb', rb.run ops = some rb' ∧ RBRep rb' (ops.foldl specStep d) := by
    intro ops
    induction ops with
    | nil => intro d rb h _; exact ⟨rb, rfl, h⟩
    | cons op t ih =>
      intro d rb h hv
      obtain ⟨rb1, e1, r1⟩ := h.step op hv.1
      obtain ⟨rb2, e2, r2⟩ := ih _ rb1 r1 hv.2
      refine ⟨rb2, ?_, r2⟩
      simp only [RB.run, List.foldlM_cons, e1, Option.bind_eq_bind, Option.bind_some]
      exact e2
  obtain ⟨rb, e, r⟩ := key ops _ rb0 hr0 hv
  refine ⟨rb0, rb, hi0, e, r.len, fun i => ?_, ?_⟩
  · unfold RB.get
    split_ifs with hi
    · have hle := r.le
      have hpos : 0 < rb.nmemb := by omega
      rw [mask_eq (r.pow.resolve_left (by omega)) r.small, r.cell i hi]
    · rw [r.len] at hi
      rw [List.getElem?_eq_none (by omega)]
  · rw [← r.len, ← r.cap]; simp [RB.full]

/-- the hypotheses are met by a history that wraps around, overwrites and grows -/
example : ValidHist (α := Nat) ⟨4, []⟩
    [.pushBack 1, .pushBack 2, .pushFront 0, .popFront, .pushBack 3, .pushBack 4, .pushBack 5, .reserve 8,
     .pushFront 9, .popBack, .resize 2] := by
  refine ⟨by simp [specPre, Deque.CanPush], ?_⟩
  simp [ValidHist, specPre, specStep, Deque.CanPush, Deque.CanPop, Deque.pushBack, Deque.pushFront,
    Deque.popFront, Deque.popBack, Deque.resize, Deque.reserve]
  exact ⟨3, rfl⟩

end Props
end Nghttp3
