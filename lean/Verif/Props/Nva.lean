import Verif.Model.Nva
import Verif.Spec.Ascii
import Mathlib.Tactic.Linarith
/-! Property theorems C45: copying of header lists. -/
namespace Nghttp3
open Spec

/-- the strings that have to be copied for one field, each with a NUL at its end -/
def nvStrings (x : Nv) : List UInt8 :=
  (if x.noCopyName then [] else lower x.name ++ [0]) ++ (if x.noCopyValue then [] else x.value ++ [0])

set_option maxRecDepth 100000 in
theorem downcaseTbl_ok : ∀ n < 256, UInt8.ofNat ((Chars.downcaseTbl[n]?).getD 0) = lowerChar (UInt8.ofNat n) := by decide +kernel

theorem downcase_char (c : UInt8) : UInt8.ofNat ((Chars.downcaseTbl[c.toNat]?).getD 0) = lowerChar c := by
  rw [downcaseTbl_ok c.toNat c.toNat_lt, UInt8.ofNat_toNat]

theorem downcaseAt_eq (pre s post : List UInt8) :
    downcaseAt (pre ++ s ++ post) pre.length s.length = some (pre ++ lower s ++ post) := by
  induction s generalizing pre with
  | nil => simp [downcaseAt, lower]
  | cons c t ih =>
    rw [List.length_cons, downcaseAt]
    have h1 : (pre ++ c :: t ++ post)[pre.length]? = some c := by simp
    rw [h1]
    dsimp only
    rw [downcase_char]
    have h2 : (pre ++ c :: t ++ post).set pre.length (lowerChar c) = (pre ++ [lowerChar c]) ++ t ++ post := by simp
    rw [h2]
    have h3 := ih (pre ++ [lowerChar c])
    rw [show (pre ++ [lowerChar c]).length = pre.length + 1 by simp] at h3
    rw [h3]
    simp [lower]

theorem memWrite_eq (pre s post junk : List UInt8) (h : junk.length = s.length) :
    memWrite (pre ++ junk ++ post) pre.length s = some (pre ++ s ++ post) := by
  unfold memWrite
  rw [if_pos (by simp; omega)]
  congr 1
  rw [← h]
  simp

theorem copyStr_eq (pre s post junk : List UInt8) (lw : Bool) (h : junk.length = s.length + 1) :
    copyStr (pre ++ (junk ++ post)) pre.length s lw =
      some (pre ++ (((if lw then lower s else s) ++ [0]) ++ post), pre.length + s.length + 1) := by
  have hj : junk = junk.take s.length ++ junk.drop s.length := (List.take_append_drop _ _).symm
  have hj1 : (junk.take s.length).length = s.length := by simp; omega
  have hj2 : (junk.drop s.length).length = 1 := by simp; omega
  generalize junk.take s.length = j1 at *
  generalize junk.drop s.length = j2 at *
  subst hj
  unfold copyStr
  have h1 : (if s.length ≠ 0 then (memWrite (pre ++ (j1 ++ j2 ++ post)) pre.length s).bind fun m =>
      if lw then downcaseAt m pre.length s.length else some m else some (pre ++ (j1 ++ j2 ++ post))) =
      some (pre ++ (if lw then lower s else s) ++ (j2 ++ post)) := by
    by_cases hs : s.length = 0
    · rw [if_neg (by simpa using hs)]
      have hs' := List.length_eq_zero_iff.1 hs
      have hj' := List.length_eq_zero_iff.1 (hj1.trans hs)
      subst hs' hj'
      simp [lower]
    · rw [if_pos hs]
      have := memWrite_eq pre s (j2 ++ post) j1 hj1
      rw [show pre ++ (j1 ++ j2 ++ post) = pre ++ j1 ++ (j2 ++ post) by simp, this]
      dsimp only [Option.bind]
      cases lw
      · rfl
      · exact downcaseAt_eq pre s (j2 ++ post)
  rw [h1]
  have hlen : (if lw then lower s else s).length = s.length := by cases lw <;> simp [lower]
  dsimp only [Option.bind]
  have h2 := memWrite_eq (pre ++ (if lw then lower s else s)) [0] post j2 (by simpa using hj2)
  rw [show (pre ++ (if lw then lower s else s)).length = pre.length + s.length by simp [hlen]] at h2
  rw [← List.append_assoc, h2]
  simp

theorem take_nul (s r : List UInt8) : (s ++ ([0] ++ r)).take (s.length + 1) = s ++ [0] := by
  rw [← List.append_assoc, List.take_append_of_le_length (by simp)]
  rw [List.take_of_length_le (by simp)]

/-- the pointers the copy has when its data begins at `off` -/
def nvOuts (off : Nat) : List Nv → List NvOut
  | [] => []
  | x :: t =>
    ⟨if x.noCopyName then .orig else .data off, x.name.length,
      if x.noCopyValue then .orig else .data (off + if x.noCopyName then 0 else x.name.length + 1), x.value.length, x.flags⟩ ::
      nvOuts (off + (nvStrings x).length) t

theorem nvaCopyLoop_eq (nva : List Nv) (pre junk : List UInt8) (h : junk.length = nvaBuflen nva) :
    nvaCopyLoop (pre ++ junk) pre.length nva =
      some (nvOuts pre.length nva, pre ++ nva.flatMap nvStrings, pre.length + nvaBuflen nva) := by
  induction nva generalizing pre junk with
  | nil =>
    have : junk = [] := List.length_eq_zero_iff.1 h
    subst this
    simp [nvaCopyLoop, nvOuts, nvaBuflen]
  | cons x t ih =>
    rw [nvaBuflen] at h
    -- split the junk in the three parts
    obtain ⟨j1, j2, j3, rfl, h1, h2, h3⟩ : ∃ j1 j2 j3, junk = j1 ++ (j2 ++ j3) ∧
        j1.length = (if x.noCopyName then 0 else x.name.length + 1) ∧
        j2.length = (if x.noCopyValue then 0 else x.value.length + 1) ∧ j3.length = nvaBuflen t := by
      refine ⟨junk.take (if x.noCopyName then 0 else x.name.length + 1), (junk.drop (if x.noCopyName then 0 else x.name.length + 1)).take
        (if x.noCopyValue then 0 else x.value.length + 1), (junk.drop (if x.noCopyName then 0 else x.name.length + 1)).drop
        (if x.noCopyValue then 0 else x.value.length + 1), ?_, ?_, ?_, ?_⟩
      · rw [List.take_append_drop, List.take_append_drop]
      · rw [List.length_take]; omega
      · rw [List.length_take, List.length_drop]; omega
      · rw [List.length_drop, List.length_drop]; omega
    rw [nvaCopyLoop]
    have e1 : (if x.noCopyName then some (NvPtr.orig, pre ++ (j1 ++ (j2 ++ j3)), pre.length)
        else (copyStr (pre ++ (j1 ++ (j2 ++ j3))) pre.length x.name true).map fun r => (NvPtr.data pre.length, r.1, r.2)) =
        some ((if x.noCopyName then .orig else .data pre.length),
          (pre ++ (if x.noCopyName then [] else lower x.name ++ [0])) ++ (j2 ++ j3),
          (pre ++ (if x.noCopyName then [] else lower x.name ++ [0])).length) := by
      cases hn : x.noCopyName
      · rw [hn] at h1
        rw [if_neg (by simp), copyStr_eq pre x.name (j2 ++ j3) j1 true (by simpa using h1)]
        simp [lower, Nat.add_assoc]
      · rw [hn] at h1
        have := List.length_eq_zero_iff.1 (by simpa using h1)
        subst this
        simp
    rw [e1]
    dsimp only [Option.bind]
    generalize hp1 : pre ++ (if x.noCopyName then [] else lower x.name ++ [0]) = pre1
    have e2 : (if x.noCopyValue then some (NvPtr.orig, pre1 ++ (j2 ++ j3), pre1.length)
        else (copyStr (pre1 ++ (j2 ++ j3)) pre1.length x.value false).map fun r => (NvPtr.data pre1.length, r.1, r.2)) =
        some ((if x.noCopyValue then .orig else .data pre1.length),
          (pre1 ++ (if x.noCopyValue then [] else x.value ++ [0])) ++ j3,
          (pre1 ++ (if x.noCopyValue then [] else x.value ++ [0])).length) := by
      cases hn : x.noCopyValue
      · rw [hn] at h2
        rw [if_neg (by simp), copyStr_eq pre1 x.value j3 j2 false (by simpa using h2)]
        simp [Nat.add_assoc]
      · rw [hn] at h2
        have := List.length_eq_zero_iff.1 (by simpa using h2)
        subst this
        simp
    rw [e2]
    dsimp only [Option.bind]
    rw [ih _ _ h3]
    have hl : (pre1 ++ (if x.noCopyValue then [] else x.value ++ [0])) = pre ++ nvStrings x := by
      rw [← hp1, nvStrings, List.append_assoc]
    have hl1 : pre1.length = pre.length + (if x.noCopyName then 0 else x.name.length + 1) := by
      rw [← hp1]; cases x.noCopyName <;> simp [lower]
    have hl2 : (nvStrings x).length = (if x.noCopyName then 0 else x.name.length + 1) +
        (if x.noCopyValue then 0 else x.value.length + 1) := by
      unfold nvStrings; cases x.noCopyName <;> cases x.noCopyValue <;> simp [lower] <;> omega
    rw [hl, hl1]
    simp only [Option.map_some, nvOuts, List.flatMap_cons, nvaBuflen, List.length_append, List.append_assoc, hl2]
    rw [Nat.add_assoc pre.length]

namespace Props

/-- C45.  For every header list and whatever the fresh memory contains, copying writes inside the allocation only; the data area is
filled exactly: it is the sequence of the strings to be copied, names in lower case, each followed by NUL, and the write pointer
ends at its end. -/
theorem C45_allocation_filled_exactly (garbage : Nat → List UInt8) (hg : ∀ n, (garbage n).length = n) (nva : List Nv) :
    ∃ outs m fin, nvaCopy garbage nva = some (outs, m, fin) ∧ fin = m.length ∧ m.length = nvaBuflen nva ∧
      m = nva.flatMap (fun x => (if x.noCopyName then [] else lower x.name ++ [0]) ++
        (if x.noCopyValue then [] else x.value ++ [0])) := by
  have := nvaCopyLoop_eq nva [] (garbage (nvaBuflen nva)) (hg _)
  refine ⟨_, _, _, this, ?_, ?_, rfl⟩ <;>
  · simp only [List.nil_append, List.length_nil, Nat.zero_add]
    clear this
    induction nva with
    | nil => rfl
    | cons x t ih =>
      rw [List.flatMap_cons, nvaBuflen, List.length_append]
      first | rw [← ih] | rw [ih]
      unfold nvStrings
      cases x.noCopyName <;> cases x.noCopyValue <;> simp [lower] <;> omega

theorem nvOuts_length (nva : List Nv) (off : Nat) : (nvOuts off nva).length = nva.length := by
  induction nva generalizing off with
  | nil => rfl
  | cons x t ih => simp [nvOuts, ih]

/-- C45.  The copy has the fields of the list in their order, with the same flags and lengths.  A copied name can be read through
its pointer and is the submitted one with A-Z in lower case, a copied value is the submitted one, both followed by NUL; a field
flagged so as not to be copied keeps its pointer. -/
theorem C45_fields_copied (garbage : Nat → List UInt8) (hg : ∀ n, (garbage n).length = n) (nva : List Nv) (outs : List NvOut)
    (m : List UInt8) (fin : Nat) (h : nvaCopy garbage nva = some (outs, m, fin)) :
    outs.length = nva.length ∧
    ∀ (i : Nat) (x : Nv), nva[i]? = some x → ∃ o, outs[i]? = some o ∧ o.flags = x.flags ∧ o.namelen = x.name.length ∧
      o.valuelen = x.value.length ∧
      (match o.name with
        | .orig => x.noCopyName = true
        | .data off => x.noCopyName = false ∧ (m.drop off).take (o.namelen + 1) = lower x.name ++ [0]) ∧
      (match o.value with
        | .orig => x.noCopyValue = true
        | .data off => x.noCopyValue = false ∧ (m.drop off).take (o.valuelen + 1) = x.value ++ [0]) := by
  have heq := nvaCopyLoop_eq nva [] (garbage (nvaBuflen nva)) (hg _)
  unfold nvaCopy at h
  rw [List.nil_append, List.length_nil] at heq
  rw [heq] at h
  cases h
  refine ⟨nvOuts_length _ _, ?_⟩
  have gen : ∀ (nva : List Nv) (pre : List UInt8) (i : Nat) (x : Nv), nva[i]? = some x →
      ∃ o, (nvOuts pre.length nva)[i]? = some o ∧ o.flags = x.flags ∧ o.namelen = x.name.length ∧ o.valuelen = x.value.length ∧
      (match o.name with
        | .orig => x.noCopyName = true
        | .data off => x.noCopyName = false ∧ ((pre ++ nva.flatMap nvStrings).drop off).take (o.namelen + 1) = lower x.name ++ [0]) ∧
      (match o.value with
        | .orig => x.noCopyValue = true
        | .data off => x.noCopyValue = false ∧ ((pre ++ nva.flatMap nvStrings).drop off).take (o.valuelen + 1) = x.value ++ [0]) := by
    intro nva
    induction nva with
    | nil => intro _ i x hx; simp at hx
    | cons y t ih =>
      intro pre i x hx
      cases i with
      | zero =>
        simp only [List.getElem?_cons_zero, Option.some.injEq] at hx
        subst hx
        refine ⟨_, rfl, rfl, rfl, rfl, ?_, ?_⟩
        · dsimp only
          cases hn : y.noCopyName
          · simp only [Bool.false_eq_true, if_false, true_and]
            rw [List.flatMap_cons, nvStrings, hn]
            simp only [Bool.false_eq_true, if_false, List.drop_left, List.append_assoc]
            rw [show y.name.length + 1 = (lower y.name).length + 1 by simp [lower]]
            exact take_nul _ _
          · simp
        · dsimp only
          cases hv : y.noCopyValue
          · simp only [Bool.false_eq_true, if_false, true_and]
            rw [List.flatMap_cons, nvStrings, hv]
            simp only [Bool.false_eq_true, if_false, List.append_assoc]
            have hd : List.drop (pre.length + if y.noCopyName then 0 else y.name.length + 1)
                (pre ++ ((if y.noCopyName then [] else lower y.name ++ [0]) ++ (y.value ++ ([0] ++ List.flatMap nvStrings t)))) =
                y.value ++ ([0] ++ List.flatMap nvStrings t) := by
              have hl : (pre ++ (if y.noCopyName then [] else lower y.name ++ [0])).length =
                  pre.length + if y.noCopyName then 0 else y.name.length + 1 := by
                cases y.noCopyName <;> simp [lower]
              rw [← hl, ← List.append_assoc, List.drop_left]
            rw [hd]
            exact take_nul _ _
          · simp
      | succ j =>
        simp only [List.getElem?_cons_succ] at hx
        obtain ⟨o, h1, h2⟩ := ih (pre ++ nvStrings y) j x hx
        refine ⟨o, ?_, ?_⟩
        · rw [nvOuts, List.getElem?_cons_succ, ← List.length_append]; exact h1
        · rw [List.flatMap_cons, ← List.append_assoc]; exact h2
  intro i x hx
  have := gen nva [] i x hx
  rw [List.nil_append, List.length_nil] at this
  exact this

/-- three fields, one with a name not to be copied, one with an empty value -/
example : (nvaCopy (fun n => List.replicate n 0xcc) [⟨ascii ":Path", ascii "/X", 1⟩, ⟨ascii "Te", [], 2⟩, ⟨[], ascii "B", 4⟩]).map
    (fun r => (r.1.map (fun o => (o.name, o.value)), r.2)) =
    some ([(.data 0, .data 6), (.orig, .data 9), (.data 10, .orig)], ascii ":path" ++ [0] ++ ascii "/X" ++ [0, 0, 0], 11) := by
  decide +kernel

end Props
end Nghttp3
