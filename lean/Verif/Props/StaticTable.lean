import Verif.Model.StaticTable
import Verif.Spec.StaticTable
import Mathlib.Tactic.SplitIfs

/-! Property theorems C48: static table and token lookup. -/
namespace Nghttp3
namespace Qpack
open Spec

/-- a table of (name, token) pairs: what the lookup switch spells out -/
def switchNames : List (List UInt8 × Nat) :=
  lookupSwitch.flatMap fun r => r.cases.flatMap fun c => c.2.map fun x => (x.1 ++ [UInt8.ofNat c.1], x.2.2)

/-- every arm of the switch compares all bytes but the last, and switches on the last -/
def okRow (r : SwitchRow) : Bool :=
  Nat.beq (r.idx + 1) r.len && r.cases.all fun c => Nat.blt c.1 256 &&
    c.2.all fun x => Nat.beq x.2.1 r.idx && Nat.beq x.1.length r.idx

set_option maxRecDepth 100000 in
theorem rows_ok : lookupSwitch.all okRow = true := by decide +kernel

set_option maxRecDepth 100000 in
theorem switch_self : switchNames.all (fun x => lookupToken x.1 == some x.2) = true := by decide +kernel

set_option maxRecDepth 100000 in
theorem switch_tokens_distinct : (switchNames.map (·.2)).Nodup := by decide +kernel

theorem arm_sound {name : List UInt8} {c tk : Nat} (l : List (Nat × List (List UInt8 × Nat × Nat)))
    (h : lookupArms name c l = some tk) :
    ∃ x ∈ l, x.1 = c ∧ ∃ y ∈ x.2, memeq y.1 name y.2.1 = true ∧ y.2.2 = tk := by
  induction l with
  | nil => simp [lookupArms] at h
  | cons a t ih =>
    obtain ⟨ch, xs⟩ := a
    simp only [lookupArms] at h
    split_ifs at h with hc
    · rw [Option.map_eq_some_iff] at h
      obtain ⟨y, hy, rfl⟩ := h
      refine ⟨(ch, xs), by simp, by simpa using hc, y, List.mem_of_find?_eq_some hy, ?_, rfl⟩
      simpa using List.find?_some hy
    · obtain ⟨x, hx, h2⟩ := ih h
      exact ⟨x, by simp [hx], h2⟩

theorem row_sound {name : List UInt8} {tk : Nat} (l : List SwitchRow) (h : lookupRows name l = some tk) :
    ∃ r ∈ l, r.len = name.length ∧ lookupArms name ((name[r.idx]?).getD 0).toNat r.cases = some tk := by
  induction l with
  | nil => simp [lookupRows] at h
  | cons r t ih =>
    simp only [lookupRows] at h
    split_ifs at h with hc
    · exact ⟨r, by simp, by simpa using hc, h⟩
    · obtain ⟨x, hx, h2⟩ := ih h
      exact ⟨x, by simp [hx], h2⟩

theorem lookupToken_iff (name : List UInt8) (tk : Nat) :
    lookupToken name = some tk ↔ (name, tk) ∈ switchNames := by
  constructor
  · intro h
    obtain ⟨r, hr, hlen, ha⟩ := row_sound _ h
    obtain ⟨c, hc, hcc, x, hx, hm, rfl⟩ := arm_sound _ ha
    have hok := List.all_eq_true.1 rows_ok r hr
    simp only [okRow, Bool.and_eq_true, Nat.beq_eq, List.all_eq_true, Nat.blt_eq] at hok
    obtain ⟨hidx, hcs⟩ := hok
    obtain ⟨h256, hxs⟩ := hcs c hc
    obtain ⟨hn1, hn2⟩ := hxs x hx
    have hli : r.idx < name.length := by omega
    rw [List.getElem?_eq_getElem hli] at hcc
    simp at hcc
    have hpre : x.1 = name.take r.idx := by
      unfold memeq at hm
      rw [hn1] at hm
      simp only [Bool.or_eq_true, beq_iff_eq] at hm
      rcases hm with hm | hm
      · rw [hm] at hn2 ⊢; simp at hn2 ⊢; exact hn2
      · rw [← hm, List.take_of_length_le (by omega)]
    have hname : name = x.1 ++ [UInt8.ofNat c.1] := by
      rw [hpre, hcc, UInt8.ofNat_toNat]
      have : name.take (r.idx + 1) = name := List.take_of_length_le (by omega)
      have h2 := List.take_append_getElem hli
      rw [this] at h2
      exact h2.symm
    unfold switchNames
    simp only [List.mem_flatMap, List.mem_map]
    exact ⟨r, hr, c, hc, x, hx, by rw [hname]⟩
  · intro h
    have := List.all_eq_true.1 switch_self _ h
    simpa using this

theorem token_inj {n m : List UInt8} {tk : Nat} (h1 : lookupToken n = some tk) (h2 : lookupToken m = some tk) :
    n = m := by
  rw [lookupToken_iff] at h1 h2
  have hnd := switch_tokens_distinct
  have key : ∀ (l : List (List UInt8 × Nat)), (l.map (·.2)).Nodup → (n, tk) ∈ l → (m, tk) ∈ l → n = m := by
    intro l
    induction l with
    | nil => intro _ h; simp at h
    | cons a t ih =>
      intro hnd h1 h2
      simp only [List.map_cons, List.nodup_cons, List.mem_map, not_exists, not_and] at hnd
      rcases List.mem_cons.1 h1 with e1 | m1 <;> rcases List.mem_cons.1 h2 with e2 | m2
      · rw [← e1] at e2; injection e2 with e2 _; exact e2.symm
      · exact absurd (by rw [← e1]) (hnd.1 _ m2)
      · exact absurd (by rw [← e2]) (hnd.1 _ m1)
      · exact ih hnd.2 m1 m2
  exact key _ hnd h1 h2

set_option maxRecDepth 100000 in
theorem stable_eq : stable.map (fun x => (x.1, x.2.1)) = rfcStaticTable := by decide +kernel

set_option maxRecDepth 100000 in
theorem stable_tokens : stable.all (fun x => lookupToken x.1 == some x.2.2) = true := by decide +kernel

/-- all tokens below 99 are positions of the first entry of their group in `token_stable` -/
def okTokenPos (tk : Nat) : Bool :=
  let e := (tokenStable[tk]?).getD (0, 0, 0)
  Nat.beq e.2.1 tk && Nat.blt e.1 99

set_option maxRecDepth 100000 in
theorem token_pos : stable.all (fun x => okTokenPos x.2.2) = true := by decide +kernel

set_option maxRecDepth 100000 in
theorem token_stable_ok :
    tokenStable.all (fun e => Nat.blt e.1 99 && ((stable[e.1]?).getD ([], [], 0)).2.2 == e.2.1) = true := by
  decide +kernel

/-- the entries of `token_stable` with token `tk` are exactly a contiguous run starting at `tk` -/
def okRun (tk : Nat) : Bool :=
  ((tokenStable.drop tk).takeWhile (fun e => e.2.1 == tk)).map (·.1) ==
    (List.range 99).filter (fun i => ((stable[i]?).getD ([], [], 0)).2.2 == tk)

set_option maxRecDepth 100000 in
theorem runs_ok : stable.all (fun x => okRun x.2.2) = true := by decide +kernel

set_option maxRecDepth 100000 in
theorem small_tokens : switchNames.all (fun x => Nat.ble 1000 x.2 || stable.any (fun y => y.2.2 == x.2)) = true := by
  decide +kernel

set_option maxRecDepth 100000 in
theorem hashes_ok :
    tokenStable.all (fun e => hashName ((stable[e.1]?).getD ([], [], 0)).1 == e.2.2) = true := by
  decide +kernel

theorem loop_eq (value : List UInt8) (tk : Nat) (l : List (Nat × Nat × Nat)) :
    lookupStableLoop value tk l = ((l.takeWhile (fun e => e.2.1 == tk)).map (·.1)).find?
      (fun i => ((stable[i]?).getD ([], [], 0)).2.1 == value) := by
  induction l with
  | nil => rfl
  | cons e t ih =>
    obtain ⟨a, k, h⟩ := e
    simp only [lookupStableLoop, List.takeWhile_cons]
    by_cases hk : k == tk
    · rw [if_pos hk]
      simp only [hk, if_true, List.map_cons, List.find?_cons]
      by_cases hv : ((stable[a]?).getD ([], [], 0)).2.1 == value
      · simp [hv]
      · simp only [hv]
        exact ih
    · simp [hk]

theorem stable_get {i : Nat} (h : i < 99) :
    ∃ n v t, stable[i]? = some (n, v, t) ∧ rfcStaticTable[i]? = some (n, v) ∧ lookupToken n = some t := by
  have hl : stable.length = 99 := by decide +kernel
  have hg : stable[i]? = some (stable[i]'(by omega)) := List.getElem?_eq_getElem (by omega)
  refine ⟨(stable[i]'(by omega)).1, (stable[i]'(by omega)).2.1, (stable[i]'(by omega)).2.2, hg, ?_, ?_⟩
  · rw [← stable_eq, List.getElem?_map, hg]; rfl
  · have := List.all_eq_true.1 stable_tokens _ (List.getElem_mem (by omega : i < stable.length))
    simpa using this

end Qpack

namespace Props
open Qpack Spec

/-- C48.  The static table is RFC 9204 Appendix A. -/
theorem C48_static_table_is_rfc : stable.map (fun x => (x.1, x.2.1)) = rfcStaticTable := stable_eq

/-- C48.  Two different names never have the same token, whatever their bytes; and every name of the static
table has the token stored beside it. -/
theorem C48_tokens_identify_names :
    (∀ n m tk, lookupToken n = some tk → lookupToken m = some tk → n = m) ∧
    (∀ i < 99, ∃ n v t, stable[i]? = some (n, v, t) ∧ lookupToken n = some t) :=
  ⟨fun _ _ _ h1 h2 => token_inj h1 h2, fun i h => by
    obtain ⟨n, v, t, h1, _, h3⟩ := stable_get h
    exact ⟨n, v, t, h1, h3⟩⟩

/-- C48.  For every field whose name has a static token, the lookup returns an RFC index with that name; if it
says the value matches too, it does; and it says so whenever some entry of the RFC table has this name and
value. -/
theorem C48_lookup_stable (name value : List UInt8) (tk : Nat) (hn : lookupToken name = some tk) (htk : tk < 99)
    (mode : Mode) :
    (∃ v, rfcStaticTable[(lookupStable value tk mode).1]? = some (name, v) ∧
      ((lookupStable value tk mode).2 = true → v = value)) ∧
    (mode ≠ .never → (∃ i : Nat, rfcStaticTable[i]? = some (name, value)) → (lookupStable value tk mode).2 = true) := by
  have hmem : ∃ y ∈ stable, y.2.2 = tk := by
    have := List.all_eq_true.1 small_tokens _ ((lookupToken_iff _ _).1 hn)
    simp only [Bool.or_eq_true, Nat.ble_eq, List.any_eq_true, beq_iff_eq] at this
    rcases this with h | ⟨y, hy, h⟩
    · omega
    · exact ⟨y, hy, h⟩
  obtain ⟨y, hy, hytk⟩ := hmem
  have hpos := List.all_eq_true.1 token_pos _ hy
  have hrun := List.all_eq_true.1 runs_ok _ hy
  rw [hytk] at hpos hrun
  simp only [okTokenPos, Bool.and_eq_true, Nat.beq_eq, Nat.blt_eq] at hpos
  simp only [okRun, beq_iff_eq] at hrun
  have htok : ∀ e ∈ tokenStable, e.1 < 99 ∧ ((stable[e.1]?).getD ([], [], 0)).2.2 = e.2.1 := by
    intro e he
    have := List.all_eq_true.1 token_stable_ok e he
    simpa using this
  -- an index whose stored token is `tk` has the name `name`
  have hname : ∀ i < 99, ((stable[i]?).getD ([], [], 0)).2.2 = tk →
      ∃ v, rfcStaticTable[i]? = some (name, v) ∧ ((stable[i]?).getD ([], [], 0)).2.1 = v := by
    intro i hi ht
    obtain ⟨n, v, t, h1, h2, h3⟩ := stable_get hi
    rw [h1] at ht
    simp at ht
    subst ht
    have := token_inj h3 hn
    subst this
    exact ⟨v, h2, by rw [h1]; rfl⟩
  have hfirst : ∃ v, rfcStaticTable[((tokenStable[tk]?).getD (0, 0, 0)).1]? = some (name, v) := by
    have hl : tokenStable.length = 99 := by decide +kernel
    have hg : tokenStable[tk]? = some (tokenStable[tk]'(by omega)) := List.getElem?_eq_getElem (by omega)
    have := htok _ (List.getElem_mem (by omega : tk < tokenStable.length))
    rw [hg] at hpos ⊢
    simp only [Option.getD_some] at hpos ⊢
    obtain ⟨v, hv, _⟩ := hname _ this.1 (this.2.trans hpos.1)
    exact ⟨v, hv⟩
  unfold lookupStable
  dsimp only
  rw [loop_eq, hrun]
  by_cases hm : mode = .never
  · subst hm
    obtain ⟨v, hv⟩ := hfirst
    exact ⟨⟨v, by simpa using hv, by simp⟩, by simp⟩
  · rw [if_neg hm]
    cases hf : ((List.range 99).filter (fun i => ((stable[i]?).getD ([], [], 0)).2.2 == tk)).find?
        (fun i => ((stable[i]?).getD ([], [], 0)).2.1 == value) with
    | some i =>
      have hi := List.mem_of_find?_eq_some hf
      have hv := List.find?_some hf
      simp only [List.mem_filter, List.mem_range, beq_iff_eq] at hi hv
      obtain ⟨v, h1, h2⟩ := hname i hi.1 hi.2
      exact ⟨⟨v, h1, fun _ => by rw [← h2, hv]⟩, fun _ _ => rfl⟩
    | none =>
      obtain ⟨v, hv⟩ := hfirst
      refine ⟨⟨v, hv, by simp⟩, ?_⟩
      rintro _ ⟨i, hi⟩
      exfalso
      have h99 : i < 99 := by
        have hl : rfcStaticTable.length = 99 := by decide +kernel
        rw [List.getElem?_eq_some_iff] at hi
        obtain ⟨h, _⟩ := hi
        omega
      obtain ⟨n, v, t, h1, h2, h3⟩ := stable_get h99
      rw [hi] at h2
      injection h2 with h2
      injection h2 with h2a h2b
      subst h2a h2b
      rw [hn] at h3
      injection h3 with h3
      have := List.find?_eq_none.1 hf i
      simp [h99, h1, h3] at this

/-- C48.  The pre-computed hashes are the hashes of the names. -/
theorem C48_hashes (e : Nat × Nat × Nat) (he : e ∈ tokenStable) :
    ∃ n v t, stable[e.1]? = some (n, v, t) ∧ hashName n = e.2.2 := by
  have h1 := List.all_eq_true.1 hashes_ok e he
  have h2 := List.all_eq_true.1 token_stable_ok e he
  simp only [Bool.and_eq_true, Nat.blt_eq] at h2
  obtain ⟨n, v, t, h3, _⟩ := stable_get h2.1
  rw [h3] at h1
  exact ⟨n, v, t, h3, by simpa using h1⟩

/-- `cookie` with a value that is not in the table, `:method: GET`, and an unknown name -/
example : lookupToken [99, 111, 111, 107, 105, 101] = some 68 ∧ lookupStable [97] 68 .store = (5, false) ∧
    lookupStable [71, 69, 84] 1 .literal = (17, true) ∧ lookupStable [71, 69, 84] 1 .never = (15, false) ∧
    lookupToken [99, 111, 111, 107, 105, 120] = none := by decide +kernel

end Props
end Nghttp3
