import Verif.Model.Rd
import Verif.Lemmas.ReadVarint
namespace Nghttp3

/-- states `nghttp3_read_varint` leaves behind: idle, or a nonempty proper prefix of an integer was read -/
def RvOk (rv : RVInt) : Prop := rv = {} ∨ ∃ b t k, 0 < k ∧ rv = preState (b :: t) k

theorem rvOk_idle : RvOk {} := .inl rfl

def Rd.shift (k : Nat) : Rd → Rd
  | .done v n => .done v (k + n)
  | r => r

theorem rd_resume (b : UInt8) (t : List UInt8) (k : Nat) (hk : 0 < k) (c : List UInt8) (hc : c ≠ []) (fin : Bool) :
    rd (preState (b :: t) k) c fin =
      if k ≤ c.length then .done (preVal (b :: t ++ c.take k)) k
      else if fin then .err
      else .part (preState (b :: t ++ c) (k - c.length)) := by
  unfold rd
  rw [readVarint_resume b t k hk c hc fin]
  by_cases h : k ≤ c.length
  · simp only [h, if_true]
  · simp only [h, if_false]
    cases fin
    · simp only [Bool.false_eq_true, if_false]
      rw [if_neg (by unfold preState; dsimp only; omega)]
    · simp

theorem rd_start (b : UInt8) (t : List UInt8) (fin : Bool) :
    rd {} (b :: t) fin =
      if getVarintLen b ≤ (b :: t).length then .done (preVal ((b :: t).take (getVarintLen b))) (getVarintLen b)
      else if fin then .err
      else .part (preState (b :: t) (getVarintLen b - (b :: t).length)) := by
  unfold rd
  rw [readVarint_start]
  by_cases h : getVarintLen b ≤ (b :: t).length
  · simp only [h, if_true]
  · simp only [h, if_false]
    cases fin
    · simp only [Bool.false_eq_true, if_false]
      rw [if_neg (by unfold preState; dsimp only; omega)]
    · simp

theorem rd_spec (rv : RVInt) (x : List UInt8) (fin : Bool) (h : RvOk rv) (hx : x ≠ []) :
    match rd rv x fin with
    | .crash => False
    | .err => fin = true
    | .part rv' => fin = false ∧ RvOk rv' ∧ rv'.left ≠ 0 ∧ ∀ y f, y ≠ [] → rd rv (x ++ y) f = (rd rv' y f).shift x.length
    | .done v n => 0 < n ∧ n ≤ x.length ∧ ∀ y f, rd rv (x.take n ++ y) f = .done v n := by
  rcases h with rfl | ⟨b, t, k, hk, rfl⟩
  · obtain ⟨b, t, rfl⟩ := List.exists_cons_of_ne_nil hx
    rw [rd_start]
    by_cases h : getVarintLen b ≤ (b :: t).length
    · simp only [h, if_true]
      refine ⟨getVarintLen_pos b, trivial, ?_⟩
      intro y f
      obtain ⟨m, hm⟩ : ∃ m, getVarintLen b = m + 1 := ⟨getVarintLen b - 1, by have := getVarintLen_pos b; omega⟩
      have hl : ((b :: t).take (getVarintLen b)).length = getVarintLen b := by rw [List.length_take]; omega
      have he : (b :: t).take (getVarintLen b) = b :: t.take m := by rw [hm, List.take_succ_cons]
      have e2 : (b :: t).take (getVarintLen b) ++ y = b :: (t.take m ++ y) := by rw [he]; rfl
      rw [e2, rd_start, ← e2, if_pos (by rw [List.length_append]; omega)]
      congr 2
      rw [List.take_append_of_le_length (by omega), List.take_of_length_le (by omega)]
    · simp only [h, if_false]
      cases fin
      · simp only [Bool.false_eq_true, if_false]
        refine ⟨trivial, .inr ⟨b, t, _, by omega, rfl⟩, by unfold preState; dsimp only; omega, ?_⟩
        intro y f hy
        rw [rd_resume _ _ _ (by omega) _ hy, List.cons_append, rd_start, ← List.cons_append]
        by_cases h2 : getVarintLen b ≤ (b :: t ++ y).length
        · rw [if_pos h2, if_pos (by rw [List.length_append] at h2; omega)]
          unfold Rd.shift
          dsimp only
          congr 1
          · rw [List.take_append, List.take_of_length_le (by omega)]
          · omega
        · have h3 : ¬ getVarintLen b - (b :: t).length ≤ y.length := by rw [List.length_append] at h2; omega
          rw [if_neg h2, if_neg h3]
          cases f
          · simp only [Bool.false_eq_true, if_false, Rd.shift]
            rw [List.length_append, Nat.sub_sub]
          · simp [Rd.shift]
      · simp
  · rw [rd_resume b t k hk x hx]
    by_cases h : k ≤ x.length
    · simp only [h, if_true]
      refine ⟨hk, trivial, ?_⟩
      intro y f
      have hl : (x.take k).length = k := by rw [List.length_take]; omega
      rw [rd_resume b t k hk _ (by intro h0; have := congrArg List.length h0; rw [List.length_append, hl, List.length_nil] at this; omega),
        if_pos (by rw [List.length_append]; omega), List.take_append_of_le_length (by omega), List.take_of_length_le (by omega)]
    · simp only [h, if_false]
      cases fin
      · simp only [Bool.false_eq_true, if_false]
        refine ⟨trivial, .inr ⟨b, t ++ x, _, by omega, rfl⟩, by unfold preState; dsimp only; omega, ?_⟩
        intro y f hy
        have e := rd_resume b (t ++ x) (k - x.length) (by omega) y hy f
        rw [← List.cons_append] at e
        rw [e, rd_resume b t k hk _ (by simp [hx])]
        by_cases h2 : k ≤ (x ++ y).length
        · rw [if_pos h2, if_pos (by rw [List.length_append] at h2; omega)]
          unfold Rd.shift
          dsimp only
          congr 1
          · rw [List.take_append, List.take_of_length_le (by omega), List.append_assoc]
          · omega
        · have h3 : ¬ k - x.length ≤ y.length := by rw [List.length_append] at h2; omega
          rw [if_neg h2, if_neg h3]
          cases f
          · simp only [Bool.false_eq_true, if_false, Rd.shift]
            rw [List.length_append, Nat.sub_sub, List.append_assoc]
          · simp [Rd.shift]
      · simp

/-- reading inside a frame -/
theorem rdl_spec (rv : RVInt) (left : Nat) (x : List UInt8) (h : RvOk rv) (hl : 0 < left) (hx : x ≠ []) :
    match rdl rv left x with
    | .crash => False
    | .err => left ≤ x.length ∧ ∀ y, rdl rv left (x ++ y) = .err
    | .part rv' => x.length < left ∧ RvOk rv' ∧ rv'.left ≠ 0 ∧
        ∀ y, y ≠ [] → rdl rv left (x ++ y) = (rdl rv' (left - x.length) y).shift x.length
    | .done v n => 0 < n ∧ n ≤ x.length ∧ n ≤ left ∧ ∀ y, rdl rv left (x.take n ++ y) = .done v n := by
  have hx' : x.take left ≠ [] := by
    intro h0; have := congrArg List.length h0
    rw [List.length_take, List.length_nil] at this
    have := List.length_pos_iff.2 hx
    omega
  have hlt : (x.take left).length = min left x.length := List.length_take ..
  have hs := rd_spec rv (x.take left) (decide (left ≤ (x.take left).length)) h hx'
  rcases he : rd rv (x.take left) (decide (left ≤ (x.take left).length)) with _ | _ | rv' | ⟨v, n⟩ <;> rw [he] at hs <;>
    unfold rdl <;> rw [he] <;> dsimp only at hs ⊢
  · simp only [decide_eq_true_eq] at hs
    have hle : left ≤ x.length := by omega
    refine ⟨hle, fun y => ?_⟩
    rw [List.take_append_of_le_length hle]
    exact he
  · obtain ⟨h1, h2, h3, h4⟩ := hs
    simp only [decide_eq_false_iff_not] at h1
    have hlt' : x.length < left := by omega
    refine ⟨hlt', h2, h3, ?_⟩
    intro y hy
    have ht : x.take left = x := List.take_of_length_le (by omega)
    rw [ht] at h4
    have hy' : y.take (left - x.length) ≠ [] := by
      intro h0; have := congrArg List.length h0
      rw [List.length_take, List.length_nil] at this
      have := List.length_pos_iff.2 hy
      omega
    have e : (x ++ y).take left = x ++ y.take (left - x.length) := by
      rw [List.take_append, ht]
    rw [e, h4 _ _ hy']
    congr 2
    rw [List.length_append]
    simp only [decide_eq_decide]
    omega
  · obtain ⟨h1, h2, h3⟩ := hs
    have hn : n ≤ left := by omega
    refine ⟨h1, by omega, hn, ?_⟩
    intro y
    rw [List.take_take, Nat.min_eq_left hn] at h3
    have e : (x.take n ++ y).take left = x.take n ++ y.take (left - n) := by
      rw [List.take_append, List.take_of_length_le (by rw [List.length_take]; omega)]
      congr 2
      rw [List.length_take]; omega
    rw [e]
    exact h3 _ _

theorem take_append_drop_left {α : Type} (n : Nat) (x y : List α) (h : n ≤ x.length) :
    x.take n ++ (x.drop n ++ y) = x ++ y := by rw [← List.append_assoc, List.take_append_drop]

/-- a complete encoding at the front of the input -/
theorem rd_varint {v : Nat} {b : List UInt8} (h : Spec.IsVarint v b) (y : List UInt8) (f : Bool) :
    rd {} (b ++ y) f = .done v b.length := by
  obtain ⟨c, t, rfl, hlen, hval⟩ := preVal_of_isVarint h
  rw [List.cons_append, rd_start, ← List.cons_append, if_pos (by rw [List.length_append]; omega), hlen]
  congr 1
  rw [List.take_left, hval]

theorem isVarint_pos {v : Nat} {b : List UInt8} (h : Spec.IsVarint v b) : 0 < b.length := by
  obtain ⟨c, t, rfl, _, _⟩ := preVal_of_isVarint h
  simp

theorem rdl_varint {v : Nat} {b : List UInt8} (h : Spec.IsVarint v b) (left : Nat) (hl : b.length ≤ left) (y : List UInt8) :
    rdl {} left (b ++ y) = .done v b.length := by
  unfold rdl
  rw [List.take_append, List.take_of_length_le hl]
  exact rd_varint h _ _

end Nghttp3
