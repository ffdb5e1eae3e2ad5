import Verif.Lemmas.QpackWireEs
/-! Sequences of encoder instructions. -/
namespace Nghttp3
namespace Qpack
open Rfc9204 (IntAs StrAs Instr Table AreInstrs)

theorem intAs_ne {p top : Nat} {enc : Bytes} {n : Nat} (h : IntAs p top enc n) : enc ≠ [] := by
  obtain ⟨⟨b, t, e, _⟩, _⟩ := h; rw [e]; simp

theorem instr_ne {i : Instr} {enc : Bytes} (h : i.Is enc) : enc ≠ [] := by
  cases i with
  | setCapacity n => exact intAs_ne h
  | duplicate n => exact intAs_ne h
  | insertStaticName n v => obtain ⟨x, y, rfl, h, _⟩ := h; simp [intAs_ne h]
  | insertDynamicName n v => obtain ⟨x, y, rfl, h, _⟩ := h; simp [intAs_ne h]
  | insertLiteral n v => obtain ⟨x, y, rfl, h, _⟩ := h; simp [strAs_ne h]

theorem es_all {is : List Instr} : ∀ {x : Bytes}, AreInstrs is x → ∀ {d : Dec}, DecWF d → d.state = .opcode → ∀ rest,
    EsDone d.ctx (esRun d (x ++ rest) false) rest (d.ctx.table.applyAll d.ctx.hardMax is) := by
  induction is with
  | nil =>
    intro x hx d hw hs rest
    have : x = [] := hx
    subst this
    exact ⟨d, rfl, hw, hs, rfl, rfl, rfl⟩
  | cons i l ih =>
    intro x hx d hw hs rest
    obtain ⟨enc, y, rfl, hi, hl⟩ := hx
    rcases he : enc with _ | ⟨b, t⟩
    · exact absurd he (instr_ne hi)
    have hr : rdInstr (b :: (t ++ (y ++ rest))) = some (i, y ++ rest) :=
      (rdInstr_iff b (t ++ (y ++ rest)) i (y ++ rest)).2 ⟨enc, by rw [he]; simp, hi⟩
    have h1 := es_one hw hs b (t ++ (y ++ rest))
    rw [hr] at h1
    dsimp only at h1
    rw [show (b :: t ++ y ++ rest) = b :: (t ++ (y ++ rest)) by simp]
    rw [Table.applyAll]
    rcases ha : d.ctx.table.apply d.ctx.hardMax i with _ | t'
    · rw [ha] at h1; exact h1
    · rw [ha] at h1
      obtain ⟨d', k1, k2, k3, k4, k5, k6⟩ := h1
      rw [k1, ← k5, ← k4]
      have := ih hl k2 k3 rest
      simp only [Option.bind_some]
      generalize d'.ctx.table.applyAll d'.ctx.hardMax l = q at this ⊢
      cases q with
      | none => exact this
      | some t2 =>
        obtain ⟨d2, z1, z2, z3, z4, z5, z6⟩ := this
        exact ⟨d2, z1, z2, z3, z4, z5.trans k5, z6.trans k6⟩

/-- bytes that begin with no instruction -/
def NoInstr (rest : Bytes) : Prop := ∀ i enc r, rest = enc ++ r → ¬ Instr.Is i enc

theorem es_parse (n : Nat) : ∀ (x : Bytes), x.length ≤ n → ∀ {d : Dec}, DecWF d → d.state = .opcode →
    ∃ is y rest, x = y ++ rest ∧ AreInstrs is y ∧ NoInstr rest ∧
      ∀ d', esRun d x false = .ok d' → d.ctx.table.applyAll d.ctx.hardMax is = some d'.ctx.table ∧ d'.ctx.hardMax = d.ctx.hardMax := by
  induction n with
  | zero =>
    intro x hx d hw hs
    have : x = [] := List.length_eq_zero_iff.1 (by omega)
    subst this
    refine ⟨[], [], [], rfl, rfl, ?_, ?_⟩
    · intro i enc r h hi
      exact instr_ne hi (List.append_eq_nil_iff.1 h.symm).1
    · intro d' h
      rw [esRun, Machine.run_eq esM_good hw (by simp), if_pos ⟨rfl, rfl⟩] at h
      cases h
      exact ⟨rfl, rfl⟩
  | succ n ih =>
    intro x hx d hw hs
    rcases x with _ | ⟨b, t⟩
    · exact ih [] (by simp) hw hs
    have h1 := es_one hw hs b t
    rcases hr : rdInstr (b :: t) with _ | ⟨i, r1⟩ <;> rw [hr] at h1 <;> dsimp only at h1
    · refine ⟨[], [], b :: t, rfl, rfl, ?_, ?_⟩
      · intro i enc r h hi
        have := (rdInstr_iff b t i r).2 ⟨enc, h, hi⟩
        rw [hr] at this; cases this
      · intro d' h
        rw [h] at h1
        rcases h1 with ⟨o, h1⟩ | ⟨d2, h1, h2, _⟩
        · cases h1
        · cases h1
          rw [h2]
          exact ⟨rfl, rfl⟩
    · obtain ⟨enc, k1, k2⟩ := (rdInstr_iff b t i r1).1 hr
      have hlen : r1.length ≤ n := by
        have := congrArg List.length k1
        have h2 : 0 < enc.length := List.length_pos_iff.2 (instr_ne k2)
        simp at this hx; omega
      rcases ha : d.ctx.table.apply d.ctx.hardMax i with _ | t'
      · rw [ha] at h1
        obtain ⟨is, y, rest, z1, z2, z3, _⟩ := ih r1 hlen hw hs
        refine ⟨i :: is, enc ++ y, rest, by rw [k1, z1]; simp, ⟨enc, y, rfl, k2, z2⟩, z3, ?_⟩
        intro d' h
        obtain ⟨c', h1⟩ := h1
        rw [h] at h1; cases h1
      · rw [ha] at h1
        obtain ⟨d1, q1, q2, q3, q4, q5, q6⟩ := h1
        obtain ⟨is, y, rest, z1, z2, z3, z4⟩ := ih r1 hlen q2 q3
        refine ⟨i :: is, enc ++ y, rest, by rw [k1, z1]; simp, ⟨enc, y, rfl, k2, z2⟩, z3, ?_⟩
        intro d' h
        rw [q1] at h
        obtain ⟨g1, g2⟩ := z4 d' h
        rw [Table.applyAll, ha]
        simp only [Option.bind_some]
        rw [← q4, ← q5]
        exact ⟨g1, g2⟩

end Qpack
end Nghttp3
