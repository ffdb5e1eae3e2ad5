import Verif.Lemmas.Bytes
import Verif.Spec.Varint
import Mathlib.Tactic.NormNum
import Mathlib.Tactic.SplitIfs

namespace Nghttp3

/-- Check a decidable statement about all bytes by evaluating it on the 256 bytes. -/
theorem forall_byte {p : UInt8 → Prop} (h : ∀ i : Fin 256, p (UInt8.ofNat i.val)) : ∀ b, p b := by
  intro b
  have := h ⟨b.toNat, b.toNat_lt⟩
  simpa using this

theorem bigEndian_eq (l : List UInt8) : Spec.bigEndian l = beVal l := by
  induction l with
  | nil => rfl
  | cons b t ih => rw [beVal_cons, Spec.bigEndian, ih]

theorem and3f : ∀ b : UInt8, (b &&& 0x3f).toNat = b.toNat % 64 := by
  apply forall_byte; decide +kernel

theorem or40 : ∀ b : UInt8, b.toNat < 64 → (b ||| 0x40).toNat = 64 + b.toNat := by
  apply forall_byte; decide +kernel

theorem or80 : ∀ b : UInt8, b.toNat < 64 → (b ||| 0x80).toNat = 128 + b.toNat := by
  apply forall_byte; decide +kernel

theorem orc0 : ∀ b : UInt8, b.toNat < 64 → (b ||| 0xc0).toNat = 192 + b.toNat := by
  apply forall_byte; decide +kernel

theorem shr6 (b : UInt8) : b.toNat >>> 6 = b.toNat / 64 := by
  rw [Nat.shiftRight_eq_div_pow]

theorem getVarintLen_eq (b : UInt8) : getVarintLen b = 2 ^ (b.toNat / 64) := by
  rw [getVarintLen, shr6, Nat.shiftLeft_eq, Nat.one_mul]

theorem getVarintLen_pos (b : UInt8) : 0 < getVarintLen b := by
  rw [getVarintLen_eq]; exact Nat.pow_pos (by decide)

theorem div64_le (b : UInt8) : b.toNat / 64 ≤ 3 := by
  have := b.toNat_lt; omega

theorem beVal_andHead (b : UInt8) (t : List UInt8) :
    beVal (andHead 0x3f (b :: t)) = (b.toNat % 64) * 256 ^ t.length + beVal t := by
  rw [andHead, beVal_cons, and3f]

/-- Uniform description of getVarint. -/
theorem getVarint_cons (b : UInt8) (t : List UInt8) :
    getVarint (b :: t) =
      if (b :: t).length < getVarintLen b then none
      else some (beVal (andHead 0x3f ((b :: t).take (getVarintLen b))), (b :: t).drop (getVarintLen b)) := by
  have hb := div64_le b
  have h0 := getVarintLen_eq b
  unfold getVarint
  dsimp only
  rw [shr6]
  have hcases : b.toNat / 64 = 0 ∨ b.toNat / 64 = 1 ∨ b.toNat / 64 = 2 ∨ b.toNat / 64 = 3 := by omega
  rcases hcases with h | h | h | h <;> rw [h0, h]
  · simp only [Nat.pow_zero, List.length_cons, List.take_succ_cons, List.take_zero,
      List.drop_succ_cons, List.drop_zero]
    rw [if_neg (by omega), beVal_andHead]
    have : b.toNat % 64 = b.toNat := Nat.mod_eq_of_lt (by omega)
    simp [this, beVal_nil]
  · rfl
  · rfl
  · rfl

theorem getVarint_append {b : UInt8} {t : List UInt8} (rest : List UInt8)
    (hlen : (b :: t).length = getVarintLen b) :
    getVarint ((b :: t) ++ rest) = some ((b.toNat % 64) * 256 ^ t.length + beVal t, rest) := by
  rw [List.cons_append, getVarint_cons]
  rw [if_neg (by rw [← hlen]; simp)]
  rw [← hlen, ← List.cons_append, List.take_left, List.drop_left, beVal_andHead]

theorem pow_len (e : Nat) (t : List UInt8) (h : t.length + 1 = 2 ^ e) :
    2 ^ (8 * 2 ^ e - 2) = 64 * 256 ^ t.length := by
  rw [← h]
  have : 8 * (t.length + 1) - 2 = 6 + 8 * t.length := by omega
  rw [this, Nat.pow_add, Nat.pow_mul]

/-- Any RFC encoding is read correctly. -/
theorem getVarint_of_isVarint {n : Nat} {bs : List UInt8} (h : Spec.IsVarint n bs)
    (rest : List UInt8) : getVarint (bs ++ rest) = some (n, rest) := by
  obtain ⟨e, he, hl, hn, hv⟩ := h
  cases bs with
  | nil => simp at hl; exact absurd hl (by have := Nat.pow_pos (a := 2) (n := e) (by decide); omega)
  | cons b t =>
    rw [bigEndian_eq, beVal_cons] at hv
    rw [List.length_cons] at hl
    have hp := pow_len e t hl
    rw [hp] at hn hv
    have hlt := beVal_lt t
    have hpos : 0 < 256 ^ t.length := Nat.pow_pos (by decide)
    generalize hP : 256 ^ t.length = P at *
    have hdiv : b.toNat = e * 64 + n / P := by
      have h1 : (b.toNat * P + beVal t) / P = b.toNat := by
        rw [Nat.mul_comm, Nat.mul_add_div hpos, Nat.div_eq_of_lt hlt]; simp
      rw [hv, ← Nat.mul_assoc, Nat.mul_comm (e * 64) P, Nat.mul_add_div hpos] at h1
      exact h1.symm
    have hnP : n / P < 64 := (Nat.div_lt_iff_lt_mul hpos).2 hn
    have hb64 : b.toNat / 64 = e := by
      generalize n / P = q at *; omega
    have hm64 : b.toNat % 64 = n / P := by
      generalize n / P = q at *; omega
    have hval : beVal t = n % P := by
      have h1 : (b.toNat * P + beVal t) % P = beVal t := by
        rw [Nat.mul_comm, Nat.mul_add_mod, Nat.mod_eq_of_lt hlt]
      rw [hv, ← Nat.mul_assoc, Nat.mul_comm (e * 64) P, Nat.mul_add_mod] at h1
      exact h1.symm
    rw [getVarint_append rest (by rw [getVarintLen_eq, hb64, List.length_cons, hl]), hm64, hval, hP]
    rw [Nat.mul_comm, Nat.div_add_mod]

theorem getVarint_isVarint {p : List UInt8} {n : Nat} {rest : List UInt8}
    (h : getVarint p = some (n, rest)) : ∃ bs, p = bs ++ rest ∧ Spec.IsVarint n bs := by
  cases p with
  | nil => simp [getVarint] at h
  | cons b t =>
    rw [getVarint_cons] at h
    split at h
    · simp at h
    · rename_i hl
      simp only [Option.some.injEq, Prod.mk.injEq] at h
      obtain ⟨hv, hr⟩ := h
      have hpos := getVarintLen_pos b
      obtain ⟨k, hk⟩ : ∃ k, getVarintLen b = k + 1 := ⟨getVarintLen b - 1, by omega⟩
      refine ⟨(b :: t).take (getVarintLen b), ?_, ?_⟩
      · rw [← hr, List.take_append_drop]
      · rw [hk] at hl hv ⊢
        rw [List.take_succ_cons] at hv ⊢
        rw [beVal_andHead] at hv
        have hl' : (t.take k).length = k := by
          rw [List.length_take]; simp at hl; omega
        have he := getVarintLen_eq b
        rw [hk] at he
        have hp := pow_len (b.toNat / 64) (t.take k) (by rw [hl', he])
        refine ⟨b.toNat / 64, div64_le b, by rw [List.length_cons, hl', he], ?_, ?_⟩
        · rw [hp, ← hv]
          have := beVal_lt (t.take k)
          have h64 : b.toNat % 64 < 64 := Nat.mod_lt _ (by decide)
          have : b.toNat % 64 * 256 ^ (t.take k).length ≤ 63 * 256 ^ (t.take k).length :=
            Nat.mul_le_mul_right _ (by omega)
          omega
        · rw [hp, ← hv, bigEndian_eq, beVal_cons]
          have : b.toNat = b.toNat / 64 * 64 + b.toNat % 64 := by omega
          generalize 256 ^ (t.take k).length = P
          conv => lhs; rw [this]
          ring

theorem beVal_orHead {m : UInt8} {a : Nat} {b : UInt8} {t : List UInt8}
    (h : (b ||| m).toNat = a + b.toNat) :
    beVal (orHead m (b :: t)) = a * 256 ^ t.length + beVal (b :: t) := by
  rw [orHead, beVal_cons, beVal_cons, h]; ring

theorem orHead_length (m : UInt8) (l : List UInt8) : (orHead m l).length = l.length := by
  cases l <;> simp [orHead]

theorem putVarint_length (n : Nat) : (putVarint n).length = putVarintLen n := by
  unfold putVarint putVarintLen
  split_ifs <;> simp [orHead_length]

theorem head_beBytes (k n : Nat) (h : n < 64 * 256 ^ k) :
    (UInt8.ofNat (n / 256 ^ k)).toNat < 64 := by
  have : n / 256 ^ k < 64 := (Nat.div_lt_iff_lt_mul (Nat.pow_pos (by decide))).2 h
  simp only [UInt8.toNat_ofNat']
  generalize n / 256 ^ k = q at *
  omega

theorem putVarint_isVarint (n : Nat) (h : n < 2 ^ 62) : Spec.IsVarint n (putVarint n) := by
  unfold putVarint
  split_ifs with h1 h2 h3
  · refine ⟨0, by decide, by simp, by simpa using h1, ?_⟩
    simp [Spec.bigEndian]; omega
  · refine ⟨1, by decide, by simp [orHead_length], by norm_num; omega, ?_⟩
    rw [bigEndian_eq, beBytes, beVal_orHead (or40 _ (head_beBytes 1 n (by norm_num; omega))),
      ← beBytes, beVal_beBytes, beBytes_length, Nat.mod_eq_of_lt (by norm_num; omega)]
    norm_num
  · refine ⟨2, by decide, by simp [orHead_length], by norm_num; omega, ?_⟩
    rw [bigEndian_eq, beBytes, beVal_orHead (or80 _ (head_beBytes 3 n (by norm_num; omega))),
      ← beBytes, beVal_beBytes, beBytes_length, Nat.mod_eq_of_lt (by norm_num; omega)]
    norm_num
  · refine ⟨3, by decide, by simp [orHead_length], by norm_num; omega, ?_⟩
    rw [bigEndian_eq, beBytes, beVal_orHead (orc0 _ (head_beBytes 7 n (by norm_num; omega))),
      ← beBytes, beVal_beBytes, beBytes_length, Nat.mod_eq_of_lt (by norm_num; omega)]
    norm_num

theorem getVarint_putVarint (n : Nat) (h : n < 2 ^ 62) (rest : List UInt8) :
    getVarint (putVarint n ++ rest) = some (n, rest) :=
  getVarint_of_isVarint (putVarint_isVarint n h) rest

end Nghttp3
