import Verif.Model.Conv
import Mathlib.Tactic.Ring

namespace Nghttp3

@[simp] theorem beBytes_length (k n : Nat) : (beBytes k n).length = k := by
  induction k generalizing n with
  | zero => rfl
  | succ k ih => simp [beBytes, ih]

theorem foldl_be (l : List UInt8) (a : Nat) :
    l.foldl (fun a b => a * 256 + b.toNat) a = a * 256 ^ l.length + beVal l := by
  induction l generalizing a with
  | nil => simp [beVal]
  | cons b t ih =>
    simp only [List.foldl_cons, beVal, List.length_cons]
    rw [ih, ih]
    simp [beVal]
    ring

theorem beVal_nil : beVal [] = 0 := rfl

theorem beVal_cons (b : UInt8) (t : List UInt8) :
    beVal (b :: t) = b.toNat * 256 ^ t.length + beVal t := by
  show (b :: t).foldl _ 0 = _
  rw [List.foldl_cons, foldl_be]
  simp

theorem beVal_append (l m : List UInt8) :
    beVal (l ++ m) = beVal l * 256 ^ m.length + beVal m := by
  unfold beVal
  rw [List.foldl_append, foldl_be]
  rfl

theorem beVal_lt (l : List UInt8) : beVal l < 256 ^ l.length := by
  induction l with
  | nil => simp [beVal]
  | cons b t ih =>
    rw [beVal_cons, List.length_cons, Nat.pow_succ]
    have : b.toNat < 256 := b.toNat_lt
    have h2 : b.toNat * 256 ^ t.length ≤ 255 * 256 ^ t.length :=
      Nat.mul_le_mul_right _ (by omega)
    omega

theorem beVal_beBytes (k n : Nat) : beVal (beBytes k n) = n % 256 ^ k := by
  induction k generalizing n with
  | zero => simp [beBytes, beVal, Nat.mod_one]
  | succ k ih =>
    rw [beBytes, beVal_cons, beBytes_length, ih]
    simp only [UInt8.toNat_ofNat']
    have h : (2:Nat)^8 = 256 := rfl
    rw [h, Nat.pow_succ, Nat.mod_mul]
    ring

theorem beBytes_mod (k n : Nat) : beBytes k (n % 256 ^ k) = beBytes k n := by
  induction k generalizing n with
  | zero => rfl
  | succ k ih =>
    simp only [beBytes]
    congr 1
    · apply UInt8.toNat_inj.mp
      simp only [UInt8.toNat_ofNat']
      rw [Nat.pow_succ, Nat.mod_mul_right_div_self]
      simp
    · rw [← ih (n % 256 ^ (k+1)), ← ih n]
      congr 1
      rw [Nat.pow_succ, Nat.mod_mul_right_mod]

theorem beBytes_beVal (l : List UInt8) : beBytes l.length (beVal l) = l := by
  induction l with
  | nil => rfl
  | cons b t ih =>
    rw [List.length_cons, beBytes, beVal_cons]
    have hlt := beVal_lt t
    have hpos : 0 < 256 ^ t.length := Nat.pow_pos (by decide)
    congr 1
    · rw [Nat.mul_comm, Nat.mul_add_div hpos, Nat.div_eq_of_lt hlt]
      simp
    · rw [← beBytes_mod, Nat.mul_comm, Nat.mul_add_mod, Nat.mod_eq_of_lt hlt, ih]

end Nghttp3
