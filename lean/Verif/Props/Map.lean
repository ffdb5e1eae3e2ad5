import Verif.Lemmas.Map
import Mathlib.Data.List.Nodup

/-! Property theorem C07. -/

namespace Nghttp3
variable {V : Type}

/-- The ideal finite map: an association list, at most one pair per key. -/
def specMapStep (M : List (Nat × V)) : MapOp V → MapOut V × List (Nat × V)
  | .insert k v => if k ∈ M.map Prod.fst then (.rv .invalidArgument, M) else (.rv .ok, (k, v) :: M)
  | .find k => (.found (M.lookup k), M)
  | .remove k => if k ∈ M.map Prod.fst then (.rv .ok, M.filter (fun p => p.1 ≠ k)) else (.rv .invalidArgument, M)
  | .clear => (.unit, [])

/-- outputs of a history on the model, together with the size reported after each call; `none` if a
loop does not terminate or an assert fails -/
def HMap.run : HMap V → List (MapOp V) → Option (List (MapOut V × Nat))
  | _, [] => some []
  | m, op :: t => do
    let (o, m') ← m.step op
    let r ← HMap.run m' t
    return (o, m'.size) :: r

/-- outputs of a history on the ideal map, together with the number of keys -/
def specMapRun : List (Nat × V) → List (MapOp V) → List (MapOut V × Nat)
  | _, [] => []
  | M, op :: t => let r := specMapStep M op; (r.1, r.2.length) :: specMapRun r.2 t

namespace HMap

structure Rep (m : HMap V) (M : List (Nat × V)) : Prop where
  nodup : (M.map Prod.fst).Nodup
  size : m.size = M.length
  bits : m.hashbits = 0 ∨ 4 ≤ m.hashbits
  inv : Inv (2 ^ m.hashbits) (fun k => hash k m.hashbits) m.table
  has : ∀ k v, Has (2 ^ m.hashbits) m.table k v ↔ (k, v) ∈ M
  load : m.size = 0 ∨ (m.size * 4 ≤ 2 ^ m.hashbits * 3 ∧ 4 ≤ m.hashbits)

theorem hash_lt (k bits : Nat) : hash k bits < 2 ^ bits := by
  unfold hash
  rw [Nat.shiftRight_eq_div_pow]
  apply Nat.div_lt_of_lt_mul
  have h1 : k * 11400714819323198485 % 2 ^ 64 < 2 ^ 64 := Nat.mod_lt _ (by decide)
  have h2 : 2 ^ 64 ≤ 2 ^ (64 - bits) * 2 ^ bits := by
    rw [← Nat.pow_add]; exact Nat.pow_le_pow_right (by decide) (by omega)
  omega

theorem lookup_iff {M : List (Nat × V)} (hnd : (M.map Prod.fst).Nodup) (k : Nat) :
    (∀ v, (k, v) ∈ M → M.lookup k = some v) ∧ (k ∉ M.map Prod.fst → M.lookup k = none) := by
  induction M with
  | nil => simp
  | cons p t ih =>
    obtain ⟨a, b⟩ := p
    rw [List.map_cons, List.nodup_cons] at hnd
    obtain ⟨i1, i2⟩ := ih hnd.2
    constructor
    · intro v hv
      rcases List.mem_cons.1 hv with h1 | h1
      · cases h1; simp [List.lookup]
      · have : k ≠ a := by
          rintro rfl
          exact hnd.1 (List.mem_map.2 ⟨(k, v), h1, rfl⟩)
        rw [List.lookup_cons, beq_eq_false_iff_ne.2 this]
        exact i1 v h1
    · intro hk
      simp only [List.map_cons, List.mem_cons, not_or] at hk
      rw [List.lookup_cons, beq_eq_false_iff_ne.2 hk.1]
      exact i2 hk.2

theorem mem_keys_iff {M : List (Nat × V)} {k : Nat} : k ∈ M.map Prod.fst ↔ ∃ v, (k, v) ∈ M := by
  simp

/-- with fewer entries than slots some slot is empty -/
theorem exists_empty {n : Nat} {T : Tbl V} {M : List (Nat × V)} (hu : Uniq n T)
    (hhas : ∀ k v, Has n T k v → (k, v) ∈ M) (hlt : M.length < n) : ∃ z, z < n ∧ T z = none := by
  classical
  by_contra hcon
  have hall : ∀ z, z < n → ∃ b, T z = some b := by
    intro z hz
    cases hb : T z with
    | none => exact absurd ⟨z, hz, hb⟩ hcon
    | some b => exact ⟨b, rfl⟩
  let keyAt : Nat → Nat := fun i => match T i with | some b => b.key | none => 0
  have hinj : ((List.range n).map keyAt).Nodup := by
    apply List.Nodup.map_on _ List.nodup_range
    intro x hx y hy hxy
    rw [List.mem_range] at hx hy
    obtain ⟨b, hb⟩ := hall x hx
    obtain ⟨c, hc⟩ := hall y hy
    refine hu x y hx hy b c hb hc ?_
    simpa [keyAt, hb, hc] using hxy
  have hsub : ((List.range n).map keyAt) ⊆ M.map Prod.fst := by
    intro k hk
    obtain ⟨i, hi, rfl⟩ := List.mem_map.1 hk
    rw [List.mem_range] at hi
    obtain ⟨b, hb⟩ := hall i hi
    rw [mem_keys_iff]
    exact ⟨b.data, hhas _ _ ⟨i, hi, b, hb, by simp [keyAt, hb], rfl⟩⟩
  have := (List.subperm_of_subset hinj hsub).length_le
  simp at this
  omega

/-- raw insertion into a table representing `M` -/
theorem insert'_spec {bits : Nat} (hb : 4 ≤ bits) {T : Tbl V} {M : List (Nat × V)}
    (hI : Inv (2 ^ bits) (fun k => hash k bits) T)
    (hhas : ∀ k v, Has (2 ^ bits) T k v ↔ (k, v) ∈ M) (hlt : M.length < 2 ^ bits) (k : Nat) (v : V) :
    (k ∈ M.map Prod.fst → insert' T bits k v = some (.invalidArgument, T)) ∧
    (k ∉ M.map Prod.fst → ∃ T', insert' T bits k v = some (.ok, T') ∧
      Inv (2 ^ bits) (fun k => hash k bits) T' ∧ ∀ k' v', Has (2 ^ bits) T' k' v' ↔ (k', v') ∈ (k, v) :: M) := by
  have hn16 : 2 ^ 4 ≤ 2 ^ bits := Nat.pow_le_pow_right (by decide) hb
  have hn : 2 < 2 ^ bits := by omega
  obtain ⟨z, hz, hTz⟩ := exists_empty hI.uniq (fun k v => (hhas k v).1) hlt
  obtain ⟨t, ht, hzt⟩ := pos_surj (hash_lt k bits) hz
  constructor
  · intro hk
    obtain ⟨w, hw⟩ := mem_keys_iff.1 hk
    obtain ⟨b, h1, h2, h3, h4, h5⟩ := present hI (by omega) ((hhas k w).2 hw) ht (by rw [hzt]; exact hTz)
    have := insertLoop_present (bits := bits) rfl (data := v) h1 h4 h5 (2 ^ bits + 1) 0 (by omega) (by omega)
    rw [pos_zero (hash_lt k bits)] at this
    exact this
  · intro hk
    have habs : ∀ p, p < 2 ^ bits → ∀ c, T p = some c → c.key ≠ k := by
      intro p hp c hc he
      apply hk
      rw [mem_keys_iff]
      exact ⟨c.data, (hhas _ _).1 ⟨p, hp, c, hc, he, rfl⟩⟩
    obtain ⟨T', h1, h2, h3⟩ := insertLoop_absent (bits := bits) (key := k) rfl (by omega) (2 ^ bits + 1) t T
      (hash k bits) ⟨0, k, v⟩ hI (pos_zero (hash_lt k bits)).symm (fun h => absurd h (by simp)) ht
      (by rw [hzt]; exact hTz) (fun s _ c hc => habs _ (pos_lt (by omega)) c hc) habs (by omega)
    refine ⟨T', h1, h2, fun k' v' => ?_⟩
    rw [h3, hhas, List.mem_cons]
    simp only [Prod.mk.injEq]
    exact Or.comm

theorem empty_inv (bits : Nat) : Inv (2 ^ bits) (fun k => hash k bits) (fun _ => none : Tbl V) :=
  ⟨fun p _ x hx => by simp at hx, fun p _ b hb => by simp at hb, fun p q _ _ b c hb => by simp at hb⟩

theorem empty_has (n : Nat) (k : Nat) (v : V) : ¬ Has n (fun _ => none : Tbl V) k v := by
  rintro ⟨p, _, b, hb, _⟩; simp at hb

/-- growing the table keeps the content -/
theorem resize_spec {m : HMap V} {M : List (Nat × V)} (hr : Rep m M) {nb : Nat} (hb : 4 ≤ nb)
    (hlt : M.length < 2 ^ nb) : ∃ T, resize m nb = some ⟨T, nb, m.size⟩ ∧
      Inv (2 ^ nb) (fun k => hash k nb) T ∧ ∀ k v, Has (2 ^ nb) T k v ↔ (k, v) ∈ M := by
  unfold resize
  by_cases h0 : m.size = 0
  · simp only [h0, ne_eq, not_true, if_false, Option.map_some]
    refine ⟨_, by rw [← h0], empty_inv nb, fun k v => ?_⟩
    have : M = [] := List.length_eq_zero_iff.1 (hr.size ▸ h0)
    simp [this, empty_has]
  · simp only [ne_eq, h0, not_false_iff, if_true]
    have key : ∀ c, c ≤ 2 ^ m.hashbits → ∃ (T : Tbl V) (N : List (Nat × V)),
        (List.range c).foldlM (rehashStep m.table nb) (fun _ => none) = some T ∧
        Inv (2 ^ nb) (fun k => hash k nb) T ∧ (∀ k v, Has (2 ^ nb) T k v ↔ (k, v) ∈ N) ∧
        (N.map Prod.fst).Nodup ∧
        (∀ k v, (k, v) ∈ N ↔ ∃ i, i < c ∧ ∃ b, m.table i = some b ∧ b.key = k ∧ b.data = v) := by
      intro c
      induction c with
      | zero =>
        intro _
        exact ⟨_, [], rfl, empty_inv nb, fun k v => by simp [empty_has], by simp, by simp⟩
      | succ c ih =>
        intro hc
        obtain ⟨T, N, h1, h2, h3, h4, h5⟩ := ih (by omega)
        rw [List.range_succ, List.foldlM_append, h1]
        simp only [List.foldlM_cons, List.foldlM_nil, Option.bind_eq_bind, Option.bind_some, rehashStep]
        cases hT : m.table c with
        | none =>
          refine ⟨T, N, rfl, h2, h3, h4, fun k v => ?_⟩
          rw [h5]
          constructor
          · rintro ⟨i, hi, r⟩; exact ⟨i, by omega, r⟩
          · rintro ⟨i, hi, b, hb, r⟩
            have : i ≠ c := by rintro rfl; rw [hT] at hb; cases hb
            exact ⟨i, by omega, b, hb, r⟩
        | some b =>
          have hnew : b.key ∉ N.map Prod.fst := by
            intro hk
            obtain ⟨w, hw⟩ := mem_keys_iff.1 hk
            obtain ⟨i, hi, b', hb', e1, -⟩ := (h5 _ _).1 hw
            have := hr.inv.uniq i c (by omega) (by omega) b' b hb' hT e1
            omega
          have hNM : N.length < 2 ^ nb := by
            have hsub : N.map Prod.fst ⊆ M.map Prod.fst := by
              intro k hk
              obtain ⟨w, hw⟩ := mem_keys_iff.1 hk
              obtain ⟨i, hi, b', hb', e1, e2⟩ := (h5 _ _).1 hw
              exact mem_keys_iff.2 ⟨w, (hr.has _ _).1 ⟨i, by omega, b', hb', e1, e2⟩⟩
            have := (List.subperm_of_subset h4 hsub).length_le
            simp at this; omega
          obtain ⟨T', g1, g2, g3⟩ := (insert'_spec hb h2 h3 hNM b.key b.data).2 hnew
          refine ⟨T', (b.key, b.data) :: N, by simp [g1], g2, g3, ?_, fun k v => ?_⟩
          · rw [List.map_cons, List.nodup_cons]; exact ⟨hnew, h4⟩
          · rw [List.mem_cons, h5]
            constructor
            · rintro (h | ⟨i, hi, r⟩)
              · cases h; exact ⟨c, by omega, b, hT, rfl, rfl⟩
              · exact ⟨i, by omega, r⟩
            · rintro ⟨i, hi, b', hb', e1, e2⟩
              by_cases hic : i = c
              · subst hic; rw [hT] at hb'; cases hb'; left; rw [← e1, ← e2]
              · exact Or.inr ⟨i, by omega, b', hb', e1, e2⟩
    obtain ⟨T, N, h1, h2, h3, h4, h5⟩ := key _ (Nat.le_refl _)
    refine ⟨T, by rw [h1]; rfl, h2, fun k v => ?_⟩
    rw [h3, h5, ← hr.has]
    rfl

theorem Rep.insert {m : HMap V} {M : List (Nat × V)} (hr : Rep m M) (k : Nat) (v : V) :
    (k ∈ M.map Prod.fst → ∃ m', m.insert k v = some (.invalidArgument, m') ∧ Rep m' M) ∧
    (k ∉ M.map Prod.fst → ∃ m', m.insert k v = some (.ok, m') ∧ Rep m' ((k, v) :: M)) := by
  -- after the growth step
  have hgrow : ∃ m1 : HMap V, grow m = some m1 ∧
      Rep m1 M ∧ 4 ≤ m1.hashbits ∧ (m1.size + 1) * 4 ≤ 2 ^ m1.hashbits * 3 := by
    unfold grow
    by_cases hg : (m.size + 1) * 4 > 2 ^ m.hashbits * 3
    · rw [if_pos hg]
      by_cases h0 : m.hashbits ≠ 0
      · rw [if_pos h0]
        have hb4 : 4 ≤ m.hashbits := hr.bits.resolve_left h0
        have hn16 : 2 ^ 4 ≤ 2 ^ m.hashbits := Nat.pow_le_pow_right (by decide) hb4
        have hd : 2 ^ (m.hashbits + 1) = 2 * 2 ^ m.hashbits := by rw [Nat.pow_succ]; omega
        have hload : m.size * 4 ≤ 2 ^ m.hashbits * 3 := by
          rcases hr.load with h | h
          · omega
          · exact h.1
        have hsz := hr.size
        obtain ⟨T, e, i1, i2⟩ := resize_spec hr (nb := m.hashbits + 1) (by omega) (by rw [← hr.size]; omega)
        refine ⟨_, e, ⟨hr.nodup, hr.size, Or.inr (by simp only; omega), i1, i2, Or.inr ⟨by simp only; omega, by simp only; omega⟩⟩,
          by simp only; omega, by simp only; omega⟩
      · rw [if_neg h0]
        have h0' : m.hashbits = 0 := by omega
        have hs0 : m.size = 0 := by
          rcases hr.load with h | h
          · exact h
          · omega
        obtain ⟨T, e, i1, i2⟩ := resize_spec hr (nb := 4) (by omega) (by rw [← hr.size, hs0]; decide)
        refine ⟨_, e, ⟨hr.nodup, hr.size, Or.inr (by simp), i1, i2, Or.inl hs0⟩, by simp, by simp [hs0]⟩
    · rw [if_neg hg]
      have hb4 : 4 ≤ m.hashbits := by
        rcases hr.bits with h | h
        · rw [h] at hg; omega
        · exact h
      exact ⟨m, rfl, hr, hb4, by omega⟩
  obtain ⟨m1, e1, r1, hb1, hl1⟩ := hgrow
  have hlt : M.length < 2 ^ m1.hashbits := by rw [← r1.size]; omega
  have hins := insert'_spec hb1 r1.inv r1.has hlt k v
  unfold HMap.insert
  rw [e1]
  dsimp only
  constructor
  · intro hk
    rw [hins.1 hk]
    refine ⟨_, rfl, ⟨r1.nodup, r1.size, r1.bits, r1.inv, r1.has, r1.load⟩⟩
  · intro hk
    obtain ⟨T', g1, g2, g3⟩ := hins.2 hk
    rw [g1]
    refine ⟨_, rfl, ⟨?_, ?_, r1.bits, g2, g3, Or.inr ⟨hl1, hb1⟩⟩⟩
    · rw [List.map_cons, List.nodup_cons]; exact ⟨hk, r1.nodup⟩
    · simp [r1.size]

theorem Rep.find {m : HMap V} {M : List (Nat × V)} (hr : Rep m M) (k : Nat) :
    m.find k = some (M.lookup k) := by
  unfold HMap.find
  by_cases h0 : m.size = 0
  · have : M = [] := List.length_eq_zero_iff.1 (hr.size ▸ h0)
    rw [if_pos h0, this]; rfl
  · rw [if_neg h0]
    have hl := hr.load.resolve_left h0
    have hn16 : 2 ^ 4 ≤ 2 ^ m.hashbits := Nat.pow_le_pow_right (by decide) hl.2
    have hlt : M.length < 2 ^ m.hashbits := by rw [← hr.size]; omega
    obtain ⟨z, hz, hTz⟩ := exists_empty hr.inv.uniq (fun k v => (hr.has k v).1) hlt
    obtain ⟨t, ht, hzt⟩ := pos_surj (hash_lt k m.hashbits) hz
    by_cases hk : k ∈ M.map Prod.fst
    · obtain ⟨w, hw⟩ := mem_keys_iff.1 hk
      obtain ⟨b, h1, h2, h3, h4, h5⟩ := present hr.inv (by omega) ((hr.has k w).2 hw) ht (by rw [hzt]; exact hTz)
      have := findLoop_present (bits := m.hashbits) rfl h1 h4 h5 (2 ^ m.hashbits + 1) 0 (by omega) (by omega)
      rw [pos_zero (hash_lt k m.hashbits)] at this
      rw [this, (lookup_iff hr.nodup k).1 w hw, h2]
    · have hnk : ∀ e, ∀ c, m.table (pos (2 ^ m.hashbits) (hash k m.hashbits) e) = some c → c.key ≠ k := by
        intro e c hc he
        apply hk
        rw [mem_keys_iff]
        exact ⟨c.data, (hr.has _ _).1 ⟨_, pos_lt (by omega), c, hc, he, rfl⟩⟩
      have := findLoop_absent (bits := m.hashbits) rfl (by rw [hzt]; exact hTz) hnk (2 ^ m.hashbits + 1) 0
        (by omega) (by omega)
      rw [pos_zero (hash_lt k m.hashbits)] at this
      rw [this, (lookup_iff hr.nodup k).2 hk]

theorem length_filter_key {M : List (Nat × V)} (hnd : (M.map Prod.fst).Nodup) {k : Nat}
    (hk : k ∈ M.map Prod.fst) : (M.filter (fun p => p.1 ≠ k)).length = M.length - 1 := by
  induction M with
  | nil => simp at hk
  | cons p t ih =>
    rw [List.map_cons, List.nodup_cons] at hnd
    by_cases hp : p.1 = k
    · have hnot : ∀ q ∈ t, q.1 ≠ k := by
        intro q hq he
        exact hnd.1 (List.mem_map.2 ⟨q, hq, he.trans hp.symm⟩)
      have hall : t.filter (fun p => decide (p.1 ≠ k)) = t := by
        rw [List.filter_eq_self]; intro q hq; simpa using hnot q hq
      rw [List.filter_cons]
      simp only [hp, ne_eq, not_true, decide_false, Bool.false_eq_true, if_false]
      simp only [ne_eq] at hall
      rw [hall]; simp
    · have hk' : k ∈ t.map Prod.fst := by
        rw [List.map_cons, List.mem_cons] at hk
        exact hk.resolve_left (fun e => hp e.symm)
      have := ih hnd.2 hk'
      have hpos : 0 < t.length := by
        rw [← List.length_map (f := Prod.fst)]; exact List.length_pos_of_mem hk'
      rw [List.filter_cons]
      simp only [ne_eq, hp, not_false_iff, decide_true, if_true, List.length_cons] at *
      omega

theorem Rep.remove {m : HMap V} {M : List (Nat × V)} (hr : Rep m M) (k : Nat) :
    (k ∉ M.map Prod.fst → m.remove k = some (.invalidArgument, m)) ∧
    (k ∈ M.map Prod.fst → ∃ m', m.remove k = some (.ok, m') ∧ Rep m' (M.filter (fun p => p.1 ≠ k))) := by
  unfold HMap.remove
  by_cases h0 : m.size = 0
  · have : M = [] := List.length_eq_zero_iff.1 (hr.size ▸ h0)
    rw [if_pos h0, this]
    exact ⟨fun _ => rfl, fun h => by simp at h⟩
  · rw [if_neg h0]
    have hl := hr.load.resolve_left h0
    have hn16 : 2 ^ 4 ≤ 2 ^ m.hashbits := Nat.pow_le_pow_right (by decide) hl.2
    have hn0 : 0 < 2 ^ m.hashbits := by omega
    have hlt : M.length < 2 ^ m.hashbits := by rw [← hr.size]; omega
    obtain ⟨z, hz, hTz⟩ := exists_empty hr.inv.uniq (fun k v => (hr.has k v).1) hlt
    obtain ⟨t, ht, hzt⟩ := pos_surj (hash_lt k m.hashbits) hz
    constructor
    · intro hk
      have hnk : ∀ e, ∀ c, m.table (pos (2 ^ m.hashbits) (hash k m.hashbits) e) = some c → c.key ≠ k := by
        intro e c hc he
        apply hk
        rw [mem_keys_iff]
        exact ⟨c.data, (hr.has _ _).1 ⟨_, pos_lt (by omega), c, hc, he, rfl⟩⟩
      have := removeLoop_absent (bits := m.hashbits) rfl (by rw [hzt]; exact hTz) hnk (2 ^ m.hashbits + 1) 0
        (by omega) (by omega)
      rw [pos_zero (hash_lt k m.hashbits)] at this
      rw [this]
    · intro hk
      obtain ⟨w, hw⟩ := mem_keys_iff.1 hk
      obtain ⟨b, h1, h2, h3, h4, h5⟩ := present hr.inv hn0 ((hr.has k w).2 hw) ht (by rw [hzt]; exact hTz)
      have hrm := removeLoop_present (bits := m.hashbits) rfl h1 h4 h5 (2 ^ m.hashbits + 1) 0 (by omega) (by omega)
      rw [pos_zero (hash_lt k m.hashbits)] at hrm
      generalize hq : pos (2 ^ m.hashbits) (hash k m.hashbits) b.psl = p at hrm h4
      have hp : p < 2 ^ m.hashbits := by rw [← hq]; exact pos_lt hn0
      obtain ⟨t', ht', hzt'⟩ := pos_surj hp hz
      have ht'0 : 1 ≤ t' := by
        rcases Nat.eq_zero_or_pos t' with h | h
        · subst h; rw [pos_zero hp] at hzt'; subst hzt'; rw [hTz] at h4; cases h4
        · exact h
      have hpne : ∀ s, 0 < s → s < 2 ^ m.hashbits → ∀ i, i < 2 ^ m.hashbits → pos (2 ^ m.hashbits) i s ≠ i := by
        intro s hs hsn i hi he
        have := pos_inj (s := i) hsn hn0 (he.trans (pos_zero hi).symm)
        omega
      have hz' : z ≠ p := by rintro rfl; rw [hTz] at h4; cases h4
      obtain ⟨T', g1, g2, g3⟩ := shiftLoop_spec (h := fun k => hash k m.hashbits) (bits := m.hashbits) rfl (by omega)
        (2 ^ m.hashbits + 1) t' m.table (setB m.table p none) p hp rfl
        (by
          intro q hqn hqp x hx hx0
          have hx1 : pos (2 ^ m.hashbits) q 1 ≠ p := by
            intro e; rw [e, setB_same] at hx; cases hx
          rw [setB_ne _ _ hx1] at hx
          obtain ⟨c, hc, hle⟩ := hr.inv.rh q hqn x hx hx0
          exact ⟨c, by rw [setB_ne _ _ hqp]; exact hc, hle⟩)
        (by
          intro x hx hx2
          rw [setB_ne _ _ (hpne 1 (by omega) (by omega) p hp)] at hx
          obtain ⟨c, hc, hle⟩ := hr.inv.rh p hp x hx (by omega)
          rw [h4] at hc; cases hc
          obtain ⟨q, hqn, hq1⟩ : ∃ q, q < 2 ^ m.hashbits ∧ pos (2 ^ m.hashbits) q 1 = p := by
            refine ⟨pos (2 ^ m.hashbits) p (2 ^ m.hashbits - 1), pos_lt hn0, ?_⟩
            rw [pos_pos, Nat.sub_add_cancel hn0]
            unfold pos; rw [Nat.add_mod_right]; exact Nat.mod_eq_of_lt hp
          obtain ⟨c, hc, hle2⟩ := hr.inv.rh q hqn b (by rw [hq1]; exact h4) (by omega)
          have hqp : q ≠ p := by
            rintro rfl; exact hpne 1 (by omega) (by omega) q hqn hq1
          exact ⟨q, c, hqn, hq1, by rw [setB_ne _ _ hqp]; exact hc, by omega⟩)
        (by
          intro q hqn c hc
          have hqp : q ≠ p := by rintro rfl; rw [setB_same] at hc; cases hc
          rw [setB_ne _ _ hqp] at hc
          exact hr.inv.wf q hqn c hc)
        (by
          intro q r hqn hrn c d hc hd hcd
          have hqp : q ≠ p := by rintro rfl; rw [setB_same] at hc; cases hc
          have hrp : r ≠ p := by rintro rfl; rw [setB_same] at hd; cases hd
          rw [setB_ne _ _ hqp] at hc; rw [setB_ne _ _ hrp] at hd
          exact hr.inv.uniq q r hqn hrn c d hc hd hcd)
        ht'0 ht' (by rw [hzt', setB_ne _ _ hz']; exact hTz) (by omega)
      rw [hrm, g1]
      refine ⟨_, rfl, ?_, ?_, hr.bits, g2, fun k' v' => ?_, ?_⟩
      · exact (List.Sublist.map Prod.fst List.filter_sublist).nodup hr.nodup
      · rw [length_filter_key hr.nodup hk, ← hr.size]
      · rw [g3, List.mem_filter, ← hr.has]
        constructor
        · rintro ⟨q, hqn, c, hc, rfl, rfl⟩
          have hqp : q ≠ p := by rintro rfl; rw [setB_same] at hc; cases hc
          rw [setB_ne _ _ hqp] at hc
          refine ⟨⟨q, hqn, c, hc, rfl, rfl⟩, ?_⟩
          simp only [ne_eq, decide_eq_true_eq]
          intro he
          exact hqp (hr.inv.uniq q p hqn hp c b hc h4 (by rw [he, h1]))
        · rintro ⟨⟨q, hqn, c, hc, rfl, rfl⟩, hne⟩
          simp only [ne_eq, decide_eq_true_eq] at hne
          have hqp : q ≠ p := by rintro rfl; rw [h4] at hc; cases hc; exact hne h1
          exact ⟨q, hqn, c, by rw [setB_ne _ _ hqp]; exact hc, rfl, rfl⟩
      · right; exact ⟨by simp only; omega, hl.2⟩

theorem Rep.step {m : HMap V} {M : List (Nat × V)} (hr : Rep m M) (op : MapOp V) :
    ∃ m', m.step op = some ((specMapStep M op).1, m') ∧ Rep m' (specMapStep M op).2 := by
  cases op with
  | insert k v =>
    by_cases hk : k ∈ M.map Prod.fst
    · obtain ⟨m', e, r⟩ := (hr.insert k v).1 hk
      simp only [HMap.step, e, specMapStep, if_pos hk, Option.map_some]
      exact ⟨m', rfl, r⟩
    · obtain ⟨m', e, r⟩ := (hr.insert k v).2 hk
      simp only [HMap.step, e, specMapStep, if_neg hk, Option.map_some]
      exact ⟨m', rfl, r⟩
  | find k =>
    simp only [HMap.step, hr.find k, Option.map_some, specMapStep]
    exact ⟨m, rfl, hr⟩
  | remove k =>
    by_cases hk : k ∈ M.map Prod.fst
    · obtain ⟨m', e, r⟩ := (hr.remove k).2 hk
      simp only [HMap.step, e, specMapStep, if_pos hk, Option.map_some]
      exact ⟨m', rfl, r⟩
    · have e := (hr.remove k).1 hk
      simp only [HMap.step, e, specMapStep, if_neg hk, Option.map_some]
      exact ⟨m, rfl, hr⟩
  | clear =>
    simp only [HMap.step, HMap.clear, specMapStep]
    refine ⟨_, rfl, ?_⟩
    by_cases h0 : m.size = 0
    · rw [if_pos h0]
      have : M = [] := List.length_eq_zero_iff.1 (hr.size ▸ h0)
      rw [← this]; exact hr
    · rw [if_neg h0]
      exact ⟨by simp, rfl, hr.bits, empty_inv _, fun k v => by simp [empty_has], Or.inl rfl⟩

end HMap

namespace Props

/-- C07.  For every history of insert/find/remove/clear, starting from an empty map, the results and the
reported sizes are those of an ideal finite map (every loop terminates, no assert fails). -/
theorem C07_map_is_finite_map (ops : List (MapOp V)) :
    HMap.run (HMap.init : HMap V) ops = some (specMapRun [] ops) := by
  have key : ∀ (ops : List (MapOp V)) (m : HMap V) (M : List (Nat × V)), HMap.Rep m M →
      HMap.run m ops = some (specMapRun M ops) := by
    intro ops
    induction ops with
    | nil => intro m M _; rfl
    | cons op t ih =>
      intro m M hr
      obtain ⟨m', e, r⟩ := hr.step op
      simp only [HMap.run, e, Option.bind_eq_bind, Option.bind_some, ih m' _ r, specMapRun, r.size]
      rfl
  exact key ops _ _ ⟨by simp, rfl, Or.inl rfl, HMap.empty_inv 0,
    fun k v => by simp [HMap.init, HMap.empty_has], Or.inl rfl⟩

/-- keys that collide (same hash at 4 bits) behave as required -/
example : (HMap.run (HMap.init : HMap Nat) [.insert 0 5, .insert 4 7, .insert 0 9, .remove 0, .find 4, .find 0]).map
    (fun l => l.map Prod.snd) = some [1, 2, 2, 1, 1, 1] := by
  rw [C07_map_is_finite_map]; decide

end Props
end Nghttp3
