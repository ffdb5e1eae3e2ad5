import Verif.Model.QpackInt
import Verif.Spec.QpackInt
import Mathlib.Tactic.Ring
import Mathlib.Tactic.SplitIfs

namespace Nghttp3
namespace QInt
open Spec.QInt

theorem and7f (n : Nat) : n &&& 0x7f = n % 128 := by
  rw [show (0x7f : Nat) = 2 ^ 7 - 1 from rfl, Nat.and_two_pow_sub_one_eq_mod]

theorem or128 {n : Nat} (h : n < 128) : 128 ||| n = 128 + n := by
  have := Nat.two_pow_add_eq_or_of_lt (i := 7) (b := n) h 1
  simpa using this.symm

theorem and80 {n : Nat} (h : n < 256) : n &&& 0x80 = 0 ↔ n < 128 := by
  have : ∀ n < 256, (n &&& 0x80 = 0 ↔ n < 128) := by decide +kernel
  exact this n h

theorem readLoop_cons (n shift : Nat) (b : UInt8) (t : List UInt8) :
    readLoop n shift (b :: t) =
      if 62 < shift ∨ INT_MAX < n + (b.toNat % 128) * 2 ^ shift then .fatal
      else if b.toNat < 128 then .done (n + (b.toNat % 128) * 2 ^ shift) shift t
      else readLoop (n + (b.toNat % 128) * 2 ^ shift) (shift + 7) t := by
  conv => lhs; unfold readLoop
  dsimp only
  rw [and7f, Nat.shiftLeft_eq]
  have hb : (b.toNat &&& 0x80 = 0) = (b.toNat < 128) := propext (and80 b.toNat_lt)
  by_cases h1 : 62 < shift
  · simp [h1]
  · have hx : INT_MAX >>> shift < b.toNat % 128 ↔ INT_MAX < (b.toNat % 128) * 2 ^ shift := by
      rw [Nat.shiftRight_eq_div_pow, Nat.div_lt_iff_lt_mul (Nat.two_pow_pos _)]
    by_cases h2 : INT_MAX < (b.toNat % 128) * 2 ^ shift
    · simp only [h1, if_false, false_or]
      rw [if_pos (hx.2 h2), if_pos (by omega)]
    · rw [if_neg h1, if_neg (fun h => h2 (hx.1 h))]
      by_cases h3 : INT_MAX < n + (b.toNat % 128) * 2 ^ shift
      · rw [if_pos (by omega), if_pos (Or.inr h3)]
      · rw [if_neg (show ¬ (INT_MAX - b.toNat % 128 * 2 ^ shift < n) by omega), if_neg (show ¬ (62 < shift ∨ _) from fun h => h.elim h1 h3)]
        simp only [hb]

theorem readLoop_append (n shift : Nat) (x y : List UInt8) :
    readLoop n shift (x ++ y) = match readLoop n shift x with
      | .part l s => readLoop l s y
      | .done l s r => .done l s (r ++ y)
      | r => r := by
  induction x generalizing n shift with
  | nil => rfl
  | cons b t ih =>
    rw [List.cons_append, readLoop_cons, readLoop_cons]
    split_ifs
    · rfl
    · rfl
    · exact ih _ _

theorem readLoop_left (n shift : Nat) (x : List UInt8) {l s : Nat} (h : readLoop n shift x = .part l s) : n ≤ l := by
  induction x generalizing n shift with
  | nil => simp [readLoop] at h; omega
  | cons b t ih =>
    rw [readLoop_cons] at h
    split_ifs at h
    have := ih _ _ h
    omega

/-- resuming: for a non-empty first piece -/
theorem readInt_append (pfx left shift : Nat) (hp : 0 < pfx) (x y : List UInt8) (hx : x ≠ [])
    (hs : left = 0 → shift = 0) :
    readInt pfx left shift (x ++ y) = match readInt pfx left shift x with
      | .part l s => if y = [] then .part l s else readInt pfx l s y
      | .done l s r => .done l s (r ++ y)
      | r => r := by
  have hk : 0 < 2 ^ pfx - 1 := by
    have : 2 ^ 1 ≤ 2 ^ pfx := Nat.pow_le_pow_right (by decide) hp
    omega
  by_cases hy : y = []
  · subst hy
    rw [List.append_nil]
    cases h : readInt pfx left shift x <;> simp
  · unfold readInt
    by_cases hl : left = 0
    · rw [if_pos hl, if_pos hl]
      match x, hx with
      | b :: t, _ =>
        rw [List.cons_append]
        dsimp only
        split_ifs with h1
        · rfl
        · match t with
          | [] =>
            match y, hy with
            | c :: u, _ =>
              have hz := hs hl
              subst hz
              simp only [List.nil_append]
              rw [if_neg (by omega)]
          | c :: u =>
            simp only [List.cons_append]
            rw [← List.cons_append, readLoop_append]
            cases h : readLoop (2 ^ pfx - 1) shift (c :: u) with
            | part l s =>
              have := readLoop_left _ _ _ h
              dsimp only
              rw [if_neg (show ¬ l = 0 by omega)]
            | _ => rfl
    · rw [if_neg hl, if_neg hl, readLoop_append]
      cases h : readLoop left shift x with
      | part l s =>
        have := readLoop_left _ _ _ h
        dsimp only
        rw [if_neg hy, if_neg (by omega)]
      | _ => rfl

theorem readInt_part_pos {pfx left shift : Nat} (hp : 0 < pfx) {x : List UInt8} {l s : Nat}
    (h : readInt pfx left shift x = .part l s) : 0 < l := by
  have hk : 0 < 2 ^ pfx - 1 := by
    have : 2 ^ 1 ≤ 2 ^ pfx := Nat.pow_le_pow_right (by decide) hp
    omega
  unfold readInt at h
  split_ifs at h with hl
  · match x with
    | b :: t =>
      dsimp only at h
      split_ifs at h
      match t with
      | [] => simp at h; omega
      | c :: u => have := readLoop_left _ _ _ h; omega
  · have := readLoop_left _ _ _ h; omega

theorem readLoop_max {n shift : Nat} {x : List UInt8} {l s : Nat} {r : List UInt8}
    (h : readLoop n shift x = .done l s r) : l ≤ INT_MAX := by
  induction x generalizing n shift with
  | nil => simp [readLoop] at h
  | cons b t ih =>
    rw [readLoop_cons] at h
    split_ifs at h with h1 h2
    · simp only [RV.done.injEq] at h; omega
    · exact ih h

theorem readLoop_shift {n shift : Nat} {x : List UInt8} :
    (∀ {l s}, readLoop n shift x = .part l s → shift ≤ 62 → s ≤ 69) := by
  induction x generalizing n shift with
  | nil => intro l s h hs; simp [readLoop] at h; omega
  | cons b t ih =>
    intro l s h hs
    rw [readLoop_cons] at h
    split_ifs at h with h1 h2
    match t with
    | [] => simp [readLoop] at h; omega
    | c :: u =>
      by_cases h3 : shift + 7 ≤ 62
      · exact ih h h3
      · rw [readLoop_cons, if_pos (by omega)] at h
        cases h

theorem readInt_length {pfx left shift : Nat} {x : List UInt8} {l s : Nat} {r : List UInt8}
    (h : readInt pfx left shift x = .done l s r) : r.length < x.length := by
  have key : ∀ (x : List UInt8) n sh, readLoop n sh x = .done l s r → r.length < x.length := by
    intro x
    induction x with
    | nil => intro n sh h; simp [readLoop] at h
    | cons b t ih =>
      intro n sh h
      rw [readLoop_cons] at h
      split_ifs at h
      · simp only [RV.done.injEq] at h; rw [← h.2.2]; simp
      · have := ih _ _ h; simp; omega
  unfold readInt at h
  split_ifs at h with hl
  · match x with
    | b :: t =>
      dsimp only at h
      split_ifs at h
      · simp only [RV.done.injEq] at h; rw [← h.2.2]; simp
      · match t with
        | c :: u => have := key _ _ _ h; simp at this ⊢; omega
  · exact key _ _ _ h

theorem readInt_max {pfx left shift : Nat} (hp : pfx ≤ 8) {x : List UInt8} {l s : Nat} {r : List UInt8}
    (h : readInt pfx left shift x = .done l s r) : l ≤ INT_MAX := by
  unfold readInt at h
  split_ifs at h with hl
  · match x with
    | b :: t =>
      dsimp only at h
      split_ifs at h
      · simp only [RV.done.injEq] at h
        rw [← h.1]
        have h1 : b.toNat &&& (2 ^ pfx - 1) ≤ b.toNat := Nat.and_le_left
        have h2 := b.toNat_lt
        unfold INT_MAX; omega
      · match t with
        | c :: u => exact readLoop_max h
  · exact readLoop_max h

/-! ### Reading: exactly the encodings of at most nine groups and at most INT_MAX -/

theorem readLoop_iff (x : List UInt8) (n shift v s : Nat) (r : List UInt8) :
    readLoop n shift x = .done v s r ↔
      ∃ g, x = g ++ r ∧ groupsOk g ∧ v = n + groupsVal g * 2 ^ shift ∧ v ≤ INT_MAX ∧
        s + 7 = shift + 7 * g.length ∧ s ≤ 62 := by
  induction x generalizing n shift with
  | nil =>
    constructor
    · intro h; simp [readLoop] at h
    · rintro ⟨g, h1, h2, _⟩
      simp at h1
      obtain ⟨rfl, _⟩ := h1
      exact absurd h2 (by simp [groupsOk])
  | cons b t ih =>
    rw [readLoop_cons]
    have hb : b.toNat < 256 := b.toNat_lt
    have gl : ∀ g, groupsOk g → 1 ≤ g.length := by
      intro g hg; cases g with
      | nil => exact absurd hg (by simp [groupsOk])
      | cons _ _ => simp
    have mono : ∀ a g, groupsVal (a :: g) * 2 ^ shift =
        a.toNat % 128 * 2 ^ shift + groupsVal g * 2 ^ (shift + 7) := by
      intro a g; rw [groupsVal, Nat.pow_add]; ring
    split_ifs with h1 h2
    · constructor
      · intro h; cases h
      · rintro ⟨g, e, hg, hv, hm, hs, hs2⟩
        exfalso
        have := gl g hg
        cases g with
        | nil => simp at this
        | cons a g' =>
          simp only [List.cons_append, List.cons.injEq] at e
          obtain ⟨rfl, _⟩ := e
          rw [mono] at hv
          rcases h1 with h1 | h1
          · omega
          · omega
    · simp only [RV.done.injEq]
      constructor
      · rintro ⟨rfl, rfl, rfl⟩
        refine ⟨[b], rfl, h2, by simp [groupsVal], by omega, by simp, by omega⟩
      · rintro ⟨g, e, hg, hv, hm, hs, hs2⟩
        cases g with
        | nil => exact absurd hg (by simp [groupsOk])
        | cons a g' =>
          simp only [List.cons_append, List.cons.injEq] at e
          obtain ⟨rfl, e⟩ := e
          cases g' with
          | nil =>
            simp [groupsVal] at hv hs e
            exact ⟨hv.symm, by omega, e⟩
          | cons c g'' => have := hg.1; omega
    · rw [ih]
      constructor
      · rintro ⟨g, rfl, hg, hv, hm, hs, hs2⟩
        refine ⟨b :: g, rfl, ?_, ?_, hm, ?_, hs2⟩
        · cases g with
          | nil => exact absurd hg (by simp [groupsOk])
          | cons c g' => exact ⟨by omega, hg⟩
        · rw [mono]; omega
        · simp; omega
      · rintro ⟨g, e, hg, hv, hm, hs, hs2⟩
        cases g with
        | nil => exact absurd hg (by simp [groupsOk])
        | cons a g' =>
          simp only [List.cons_append, List.cons.injEq] at e
          obtain ⟨rfl, e⟩ := e
          cases g' with
          | nil => exact absurd hg h2
          | cons c g'' =>
            refine ⟨c :: g'', e, hg.2, ?_, hm, ?_, hs2⟩
            · rw [mono] at hv; omega
            · simp at hs ⊢; omega

theorem and_mask (b pfx : Nat) : b &&& (2 ^ pfx - 1) = b % 2 ^ pfx := Nat.and_two_pow_sub_one_eq_mod b pfx

theorem readInt_aux (k n : Nat) (t r : List UInt8) :
    (∃ s, (match t with | [] => RV.part k 0 | c :: u => readLoop k 0 (c :: u) : RV) = .done n s r) ↔
      ∃ s, readLoop k 0 t = .done n s r := by
  cases t <;> simp [readLoop]

theorem readInt_iff {pfx : Nat} (h8 : pfx ≤ 8) (src : List UInt8) (n : Nat) (r : List UInt8) :
    (∃ s, readInt pfx 0 0 src = .done n s r) ↔
      ∃ enc, src = enc ++ r ∧ Encodes pfx enc n ∧ n ≤ INT_MAX ∧ enc.length ≤ 10 := by
  unfold readInt
  rw [if_pos rfl]
  cases src with
  | nil =>
    simp only [reduceCtorEq, exists_false, false_iff]
    rintro ⟨enc, e, h, _⟩
    simp at e; rw [e.1] at h; exact h
  | cons b t =>
    have hb := b.toNat_lt
    have hpow : 0 < 2 ^ pfx := Nat.two_pow_pos _
    have hmod : b.toNat % 2 ^ pfx < 2 ^ pfx := Nat.mod_lt _ hpow
    have hp8 : 2 ^ pfx ≤ 2 ^ 8 := Nat.pow_le_pow_right (by decide) h8
    dsimp only
    rw [and_mask]
    split_ifs with h1
    · simp only [RV.done.injEq]
      constructor
      · rintro ⟨s, rfl, _, rfl⟩
        exact ⟨[b], rfl, Or.inl ⟨rfl, by omega, rfl⟩, by unfold INT_MAX; omega, by simp⟩
      · rintro ⟨enc, e, h, _, _⟩
        cases enc with
        | nil => exact h.elim
        | cons a g =>
          simp only [List.cons_append, List.cons.injEq] at e
          obtain ⟨rfl, e⟩ := e
          rcases h with ⟨rfl, _, rfl⟩ | ⟨h, _⟩
          · exact ⟨0, rfl, rfl, e⟩
          · exact absurd h h1
    · push Not at h1
      refine (readInt_aux _ _ _ _).trans ?_
      constructor
      · rintro ⟨s, h⟩
        obtain ⟨g, rfl, hg, hv, hm, hs, hs2⟩ := (readLoop_iff _ _ _ _ _ _).1 h
        exact ⟨b :: g, rfl, Or.inr ⟨h1, hg, by simpa using hv⟩, hm, by simp; omega⟩
      · rintro ⟨enc, e, h, hm, hlen⟩
        cases enc with
        | nil => exact h.elim
        | cons a g =>
          simp only [List.cons_append, List.cons.injEq] at e
          obtain ⟨rfl, e⟩ := e
          rcases h with ⟨_, h, _⟩ | ⟨_, hg, hv⟩
          · omega
          · have : 1 ≤ g.length := by
              cases g with
              | nil => exact hg.elim
              | cons _ _ => simp
            refine ⟨7 * g.length - 7, (readLoop_iff _ _ _ _ _ _).2 ⟨g, e, hg, by simpa using hv, hm, by omega, ?_⟩⟩
            simp at hlen; omega

/-! ### Writing -/

theorem putTail_cons {n : Nat} (h : 128 ≤ n) :
    putTail n = UInt8.ofNat (128 + n % 128) :: putTail (n / 128) := by
  conv => lhs; unfold putTail
  rw [if_pos h, and7f, or128 (Nat.mod_lt _ (by decide))]

theorem putTail_last {n : Nat} (h : n < 128) : putTail n = [UInt8.ofNat n] := by
  unfold putTail; rw [if_neg (by omega)]

theorem putTail_ne (n : Nat) : putTail n ≠ [] := by
  unfold putTail; split_ifs <;> simp

theorem putTail_spec (n : Nat) : groupsOk (putTail n) ∧ groupsVal (putTail n) = n ∧
    (putTail n).length = putLenTail n := by
  induction n using Nat.strongRecOn with
  | _ n ih =>
    unfold putLenTail
    by_cases h : 128 ≤ n
    · rw [putTail_cons h, if_pos h]
      obtain ⟨h1, h2, h3⟩ := ih (n / 128) (Nat.div_lt_self (by omega) (by omega))
      have hm : n % 128 < 128 := Nat.mod_lt _ (by decide)
      have e : (UInt8.ofNat (128 + n % 128)).toNat = 128 + n % 128 := by
        rw [UInt8.toNat_ofNat']; omega
      refine ⟨?_, ?_, by simp [h3]⟩
      · cases hx : putTail (n / 128) with
        | nil => exact absurd hx (putTail_ne _)
        | cons c t => rw [hx] at h1; exact ⟨by omega, h1⟩
      · rw [groupsVal, h2, e]; omega
    · rw [putTail_last (by omega), if_neg h]
      have e : (UInt8.ofNat n).toNat = n := by rw [UInt8.toNat_ofNat']; omega
      refine ⟨?_, ?_, rfl⟩
      · show _ < _; omega
      · simp [groupsVal, e]; omega

/-- a bound on the length in terms of the bound on the value -/
theorem putLenTail_le (j : Nat) : ∀ n, n < 128 ^ (j + 1) → putLenTail n ≤ j + 1 := by
  induction j with
  | zero => intro n h; unfold putLenTail; rw [if_neg (by omega)]
  | succ j ih =>
    intro n h
    unfold putLenTail
    split_ifs with h1
    · have := ih (n / 128) (by rw [Nat.div_lt_iff_lt_mul (by decide)]; rw [Nat.pow_succ] at h; exact h)
      omega
    · omega

theorem put_length (b : UInt8) (n pfx : Nat) : (put b n pfx).length = putLen n pfx := by
  unfold put putLen
  dsimp only
  split_ifs
  · rfl
  · simp [(putTail_spec _).2.2]; omega

/-- first byte: high bits from `b`, low bits the prefix -/
theorem first_byte (b : UInt8) {pfx v : Nat} (h8 : pfx ≤ 8) (hv : v < 2 ^ pfx) :
    (b &&& UInt8.ofNat (255 - (2 ^ pfx - 1)) ||| UInt8.ofNat v).toNat = b.toNat / 2 ^ pfx * 2 ^ pfx + v := by
  have hb := b.toNat_lt
  have hp8 : 2 ^ pfx ≤ 2 ^ 8 := Nat.pow_le_pow_right (by decide) h8
  have hpos := Nat.two_pow_pos pfx
  rw [UInt8.toNat_or, UInt8.toNat_and, UInt8.toNat_ofNat', UInt8.toNat_ofNat', Nat.mod_eq_of_lt (by omega),
    Nat.mod_eq_of_lt (by omega)]
  have e1 : ∀ p ≤ 8, ∀ x < 256, x &&& (255 - (2 ^ p - 1)) = x / 2 ^ p * 2 ^ p := by decide +kernel
  rw [e1 pfx h8 _ hb, Nat.mul_comm, ← Nat.two_pow_add_eq_or_of_lt hv]

theorem put_encodes (b : UInt8) {n pfx : Nat} (h8 : pfx ≤ 8) : Encodes pfx (put b n pfx) n := by
  have hpos := Nat.two_pow_pos pfx
  unfold put
  dsimp only
  split_ifs with h
  · left
    refine ⟨rfl, ?_, ?_⟩ <;> rw [first_byte b h8 (by omega), Nat.mul_add_mod_self_right, Nat.mod_eq_of_lt (by omega)]
    exact h
  · right
    refine ⟨?_, (putTail_spec _).1, ?_⟩
    · rw [first_byte b h8 (by omega), Nat.mul_add_mod_self_right, Nat.mod_eq_of_lt (by omega)]
    · rw [(putTail_spec _).2.1]; omega

theorem putLen_le {n pfx : Nat} (h : n ≤ INT_MAX) : putLen n pfx ≤ 10 := by
  unfold putLen
  split_ifs
  · omega
  · have : n - (2 ^ pfx - 1) < 128 ^ (8 + 1) := by unfold INT_MAX at h; omega
    have := putLenTail_le 8 _ this
    omega

/-- round trip in the middle of a stream -/
theorem readInt_put (b : UInt8) {n pfx : Nat} (h8 : pfx ≤ 8) (hn : n ≤ INT_MAX) (r : List UInt8) :
    ∃ s, readInt pfx 0 0 (put b n pfx ++ r) = .done n s r :=
  (readInt_iff h8 _ _ _).2 ⟨_, rfl, put_encodes b h8, hn, by rw [put_length]; exact putLen_le hn⟩

theorem put_cons (b : UInt8) (n : Nat) {pfx : Nat} (h8 : pfx ≤ 8) :
    ∃ c t, put b n pfx = c :: t ∧ c.toNat / 2 ^ pfx = b.toNat / 2 ^ pfx := by
  have hpos := Nat.two_pow_pos pfx
  unfold put
  dsimp only
  split_ifs with h
  · refine ⟨_, _, rfl, ?_⟩
    rw [first_byte b h8 (by omega), Nat.mul_comm, Nat.mul_add_div hpos, Nat.add_eq_left]; exact Nat.div_eq_of_lt (by omega)
  · refine ⟨_, _, rfl, ?_⟩
    rw [first_byte b h8 (by omega), Nat.mul_comm, Nat.mul_add_div hpos, Nat.add_eq_left]; exact Nat.div_eq_of_lt (by omega)

end QInt
end Nghttp3
