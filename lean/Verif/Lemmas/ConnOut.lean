import Verif.Lemmas.ConnCore
/-! What partial writes and acknowledgements do to the conditions the scheduler looks at. -/
namespace Nghttp3
namespace Outq
variable {F : Type}

theorem addLoop_len : ∀ (l : List Ent) (n : Nat), (addLoop l n).1.length = l.length ∧ (addLoop l n).2.1 ≤ l.length
  | [], n => by simp [addLoop]
  | e :: t, n => by
    unfold addLoop
    split_ifs
    · simp
    · have := addLoop_len t (n - e.len)
      simp only [List.length_cons]
      omega

/-- reporting written bytes does not make a finished queue unfinished -/
theorem addOutqOffset_keep {s s' : St F} {n : Nat} (h : addOutqOffset s n = .ok s') :
    s'.frq = s.frq ∧ s'.readBlocked = s.readBlocked ∧ s'.endStream = s.endStream ∧ (writeDone s = true → writeDone s' = true) := by
  unfold addOutqOffset at h
  dsimp only at h
  split_ifs at h
  obtain rfl := R.ok.inj h
  refine ⟨rfl, rfl, rfl, fun hd => ?_⟩
  unfold writeDone at hd ⊢
  dsimp only
  simp only [Bool.or_eq_true, beq_iff_eq, decide_eq_true_eq] at hd ⊢
  have h1 := addLoop_len (s.outq.drop s.outqIdx) n
  simp only [List.length_drop, List.length_append, List.length_take] at h1 ⊢
  omega

theorem ackLoop_done (off : Nat) : ∀ (l : List Ent) (cs : List Chunk) (idx base ao : Nat) (r : List Ent × List Chunk × Nat × Nat × List Int),
    ackLoop off l cs idx base ao = some r → ((r.1.length = 0 ∨ r.2.2.1 ≥ r.1.length) ↔ (l.length = 0 ∨ idx ≥ l.length))
  | [], cs, idx, base, ao, r, h => by
    unfold ackLoop at h
    obtain rfl := Option.some.inj h
    simp
  | e :: t, cs, idx, base, ao, r, h => by
    unfold ackLoop at h
    dsimp only at h
    by_cases hc : idx > 0 ∧ off ≥ base + (e.last - e.beg)
    · rw [if_pos hc] at h
      rcases hp : popChunks cs e with _ | cs'
      · rw [hp] at h; cases h
      · rw [hp] at h
        dsimp only at h
        rcases hr : ackLoop off t cs' (idx - 1) (base + (e.last - e.beg)) (base + (e.last - e.beg)) with _ | r'
        · rw [hr] at h; cases h
        · rw [hr] at h
          obtain rfl := Option.some.inj h
          have := ackLoop_done off t cs' _ _ _ r' hr
          dsimp only
          rw [this]
          simp only [List.length_cons]
          omega
    · rw [if_neg hc] at h
      obtain rfl := Option.some.inj h
      simp

theorem updateAckOffset_keep {s s' : St F} {off : Nat} {l : List Int} (h : updateAckOffset s off = .ok (s', l)) :
    s'.frq = s.frq ∧ s'.readBlocked = s.readBlocked ∧ s'.endStream = s.endStream ∧ writeDone s' = writeDone s := by
  unfold updateAckOffset at h
  rcases hr : ackLoop off s.outq s.chunks s.outqIdx s.ackBase s.ackOffset with _ | ⟨oq, cs, idx, base, rep⟩
  · rw [hr] at h; cases h
  · rw [hr] at h
    obtain ⟨rfl, _⟩ := Prod.mk.inj (R.ok.inj h)
    refine ⟨rfl, rfl, rfl, ?_⟩
    have := ackLoop_done _ _ _ _ _ _ _ hr
    unfold writeDone
    dsimp only at this ⊢
    rw [Bool.eq_iff_iff]
    simp only [Bool.or_eq_true, beq_iff_eq, decide_eq_true_eq]
    exact this

end Outq
end Nghttp3
