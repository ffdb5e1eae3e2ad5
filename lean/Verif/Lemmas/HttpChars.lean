import Verif.Model.Http
import Verif.Spec.Http
import Verif.Props.StaticTable
import Mathlib.Tactic.Linarith
/-! Characters, names and numbers: the tables and loops of nghttp3_http.c against the grammar. -/
namespace Nghttp3
namespace Http
open Qpack Spec

theorem all_bytes {p : UInt8 → Prop} (h : ∀ n < 256, p (UInt8.ofNat n)) (c : UInt8) : p c := by
  have := h c.toNat c.toNat_lt
  rwa [UInt8.ofNat_toNat] at this

set_option maxRecDepth 100000 in
theorem authority_tbl (c : UInt8) : (tbl Chars.authorityChars c != 0) = isAuthorityChar c :=
  all_bytes (p := fun c => (tbl Chars.authorityChars c != 0) = isAuthorityChar c) (by decide +kernel) c

set_option maxRecDepth 100000 in
theorem method_tbl (c : UInt8) : (tbl Chars.methodChars c != 0) = isTchar c :=
  all_bytes (p := fun c => (tbl Chars.methodChars c != 0) = isTchar c) (by decide +kernel) c

set_option maxRecDepth 100000 in
theorem path_tbl (c : UInt8) : (tbl Chars.pathChars c != 0) = isPathChar c :=
  all_bytes (p := fun c => (tbl Chars.pathChars c != 0) = isPathChar c) (by decide +kernel) c

set_option maxRecDepth 100000 in
theorem name_tbl (c : UInt8) : tbl Chars.nameChars c = if isNameChar c then 1 else if isUpper c then -1 else 0 :=
  all_bytes (p := fun c => tbl Chars.nameChars c = if isNameChar c then 1 else if isUpper c then -1 else 0) (by decide +kernel) c

set_option maxRecDepth 100000 in
theorem upper_tchar (c : UInt8) : isUpper c = true → isTchar c = true :=
  all_bytes (p := fun c => isUpper c = true → isTchar c = true) (by decide +kernel) c

set_option maxRecDepth 100000 in
theorem value_tbl (c : UInt8) : (tbl Chars.valueChars c != 0) = isValueChar c :=
  all_bytes (p := fun c => (tbl Chars.valueChars c != 0) = isValueChar c) (by decide +kernel) c

set_option maxRecDepth 100000 in
theorem avx2_char (c : UInt8) : badValueCharAvx2 c = !isValueChar c :=
  all_bytes (p := fun c => badValueCharAvx2 c = !isValueChar c) (by decide +kernel) c

set_option maxRecDepth 100000 in
theorem downcase_eq (c : UInt8) : downcase c = lowerChar c :=
  all_bytes (p := fun c => downcase c = lowerChar c) (by decide +kernel) c

theorem checkAuthority_eq (v : List UInt8) : checkAuthority v = v.all isAuthorityChar := by
  unfold checkAuthority; congr 1; funext c; exact authority_tbl c

theorem checkPath_eq (v : List UInt8) : checkPath v = v.all isPathChar := by
  unfold checkPath; congr 1; funext c; exact path_tbl c

theorem checkMethod_eq (v : List UInt8) : checkMethod v = (v ≠ [] && v.all isTchar) := by
  unfold checkMethod
  cases v with
  | nil => rfl
  | cons c t =>
    rw [if_neg (by simp)]
    have : (fun c => tbl Chars.methodChars c != 0) = isTchar := funext method_tbl
    rw [this]; simp

theorem checkScheme_eq (v : List UInt8) : checkScheme v = isScheme v := by
  cases v with
  | nil => rfl
  | cons c t =>
    unfold checkScheme isScheme
    have h1 : ∀ c : UInt8, ((decide (0x41 ≤ c) && decide (c ≤ 0x5a)) || (decide (0x61 ≤ c) && decide (c ≤ 0x7a))) = (isUpper c || isLower c) :=
      fun c => rfl
    have h2 : (fun c : UInt8 => (decide (0x41 ≤ c) && decide (c ≤ 0x5a)) || (decide (0x61 ≤ c) && decide (c ≤ 0x7a)) ||
        (decide (0x30 ≤ c) && decide (c ≤ 0x39)) || c == 0x2b || c == 0x2d || c == 0x2e) =
        fun c => isUpper c || isLower c || isDigit c || decide (c ∈ ascii "+-.") := by
      funext c
      have : ascii "+-." = [0x2b, 0x2d, 0x2e] := by decide
      rw [this, h1 c]
      have h3 : (decide (c ∈ [(0x2b : UInt8), 0x2d, 0x2e])) = (c == 0x2b || c == 0x2d || c == 0x2e) := by
        simp [List.mem_cons, Bool.or_assoc, beq_eq_decide]
      rw [h3]
      simp only [isDigit, Bool.or_assoc]
    dsimp only
    rw [h2]
    simp only [h1 c]
    cases (isUpper c || isLower c) <;> rfl

theorem lstrieq_eq (a b : List UInt8) : lstrieq a b = (a == lower b) := by
  unfold lstrieq lower
  induction a generalizing b with
  | nil => cases b <;> rfl
  | cons x t ih =>
    cases b with
    | nil => rfl
    | cons y u =>
      have := ih u
      simp only [List.length_cons, List.zip_cons_cons, List.all_cons, List.map_cons, downcase_eq] at this ⊢
      rw [List.cons_beq_cons, ← this]
      rw [show (t.length + 1 == u.length + 1) = (t.length == u.length) by simp]
      cases (t.length == u.length) <;> cases (x == lowerChar y) <;> simp

/-- names -/
theorem checkNonemptyName_eq (n : List UInt8) :
    checkNonemptyName n = if n.all isNameChar then 1 else if badCase n then -1 else 0 := by
  induction n with
  | nil => rfl
  | cons c t ih =>
    rw [checkNonemptyName, name_tbl]
    cases h : isNameChar c
    · simp only [Bool.false_eq_true, if_false, List.all_cons, h, Bool.false_and]
      have : badCase (c :: t) = isUpper c := by unfold badCase; simp [List.dropWhile, h]
      rw [this]
      cases isUpper c <;> simp
    · simp only [if_true, ne_eq, not_true, if_false, List.all_cons, h, Bool.true_and]
      rw [ih]
      have : badCase (c :: t) = badCase t := by unfold badCase; simp [List.dropWhile, h]
      rw [this]

theorem badCase_not_name (n : List UInt8) (h : badCase n = true) : n.all isNameChar = false := by
  cases ha : n.all isNameChar
  · rfl
  · unfold badCase at h
    have : n.dropWhile isNameChar = [] := by
      have gen : ∀ l : List UInt8, (∀ x ∈ l, isNameChar x = true) → l.dropWhile isNameChar = [] := by
        intro l
        induction l with
        | nil => intro _; rfl
        | cons a l ih =>
          intro h
          rw [List.dropWhile_cons_of_pos (h a List.mem_cons_self)]
          exact ih fun x hx => h x (List.mem_cons_of_mem _ hx)
      exact gen n fun x hx => List.all_eq_true.1 ha x hx
    rw [this] at h; cases h

theorem checkHeaderValue_eq (v : List UInt8) : checkHeaderValue v = isFieldValue v := by
  unfold checkHeaderValue isFieldValue
  have h1 : (fun c => tbl Chars.valueChars c != 0) = isValueChar := funext value_tbl
  cases v with
  | nil => rfl
  | cons c t =>
    cases t with
    | nil =>
      dsimp only
      rw [value_tbl]
      have : isWs c = isBlank c := rfl
      rw [this]
      simp only [List.all_cons, List.all_nil, Bool.and_true, List.head?_cons, List.getLast?_singleton, Option.any_some]
      cases isBlank c <;> simp
    | cons d u =>
      dsimp only
      rw [h1]
      have h2 : (c :: d :: u).getLast? = (d :: u).getLast? := by simp [List.getLast?_cons]
      obtain ⟨l, hl⟩ : ∃ l, (d :: u).getLast? = some l := ⟨_, List.getLast?_eq_some_getLast (by simp)⟩
      rw [h2, hl, List.head?_cons]
      dsimp only [Option.getD, Option.any]
      have h3 : ∀ c, isWs c = isBlank c := fun _ => rfl
      simp only [h3]
      cases isBlank c <;> cases isBlank l <;> simp

theorem all_split (v : List UInt8) (n : Nat) (p : UInt8 → Bool) : v.all p = ((v.take n).all p && (v.drop n).all p) := by
  rw [← List.all_append, List.take_append_drop]

theorem checkHeaderValueAvx2_eq (v : List UInt8) : checkHeaderValueAvx2 v = checkHeaderValue v := by
  unfold checkHeaderValueAvx2 checkHeaderValue
  have h1 : (fun c => tbl Chars.valueChars c != 0) = isValueChar := funext value_tbl
  have h2 : badValueCharAvx2 = fun c => !isValueChar c := funext avx2_char
  cases v with
  | nil => rfl
  | cons c t =>
    cases t with
    | nil => rfl
    | cons d u =>
      dsimp only
      rw [h1, h2]
      generalize c :: d :: u = v
      by_cases hw : (isWs c || isWs (((d :: u).getLast?).getD 0)) = true
      · rw [if_pos hw, if_pos hw]
      · rw [if_neg hw, if_neg hw]
        by_cases hl : v.length ≥ 32
        · rw [all_split v (v.length / 32 * 32) isValueChar, if_pos hl]
          have : (List.take (v.length / 32 * 32) v).any (fun c => !isValueChar c) = !((List.take (v.length / 32 * 32) v).all isValueChar) := by
            rw [List.not_all_eq_any_not]
          rw [this]
          cases (List.take (v.length / 32 * 32) v).all isValueChar
          · simp [hl]
          · simp
        · rw [if_neg (by simp [hl]), if_neg hl]

/-- numbers -/
theorem parseUintLoop_eq (t : List UInt8) (n : Nat) (hn : (n : Int) ≤ maxVarint) :
    parseUintLoop n t = if t.all isDigit ∧ (t.foldl (fun n c => 10 * n + (c.toNat - 0x30)) n : Nat) < 2 ^ 62 then
      ((t.foldl (fun n c => 10 * n + (c.toNat - 0x30)) n : Nat) : Int) else -1 := by
  unfold maxVarint at hn
  induction t generalizing n with
  | nil =>
    rw [parseUintLoop, List.foldl_nil, if_pos ⟨rfl, by omega⟩]
  | cons c t ih =>
    rw [parseUintLoop, List.foldl_cons, List.all_cons]
    have mono : ∀ (l : List UInt8) (a : Nat), a ≤ l.foldl (fun n c => 10 * n + (c.toNat - 0x30)) a := by
      intro l
      induction l with
      | nil => intro a; exact Nat.le_refl _
      | cons d l ih => intro a; rw [List.foldl_cons]; exact Nat.le_trans (by omega) (ih _)
    by_cases hd : 0x30 ≤ c ∧ c ≤ 0x39
    · have hd' : isDigit c = true := by unfold isDigit; simp [hd.1, hd.2]
      rw [if_pos hd, hd', Bool.true_and]
      have hc1 : 0x30 ≤ c.toNat := UInt8.le_iff_toNat_le.1 hd.1
      have hc2 : c.toNat ≤ 0x39 := UInt8.le_iff_toNat_le.1 hd.2
      unfold maxVarint
      have hm := mono t (10 * n + (c.toNat - 0x30))
      by_cases h1 : (n : Int) > (2 ^ 62 - 1) / 10
      · rw [if_pos h1, if_neg]
        rintro ⟨_, h2⟩
        omega
      · rw [if_neg h1]
        by_cases h2 : (n : Int) * 10 > 2 ^ 62 - 1 - (c.toNat - 0x30 : Int)
        · rw [if_pos h2, if_neg]
          rintro ⟨_, h3⟩
          omega
        · rw [if_neg h2]
          have he : (n : Int) * 10 + (c.toNat - 0x30 : Int) = ((10 * n + (c.toNat - 0x30) : Nat) : Int) := by omega
          rw [he, ih _ (by omega)]
    · have hd' : isDigit c = false := by
        unfold isDigit
        by_cases h1 : 0x30 ≤ c
        · have h2 : ¬ c ≤ 0x39 := fun h2 => hd ⟨h1, h2⟩
          simp [h2]
        · simp [h1]
      rw [if_neg hd, hd', Bool.false_and, if_neg (by simp)]

theorem parseUint_eq (v : List UInt8) : parseUint v = if isLength v then (decimal v : Int) else -1 := by
  unfold parseUint isLength decimal
  cases v with
  | nil => rfl
  | cons c t =>
    rw [if_neg (by simp)]
    have h := parseUintLoop_eq (c :: t) 0 (by decide)
    rw [Int.natCast_zero] at h
    rw [h]
    simp

end Http
end Nghttp3
