import Mathlib.Tactic.SplitIfs
/-! A generic resumable byte reader: a loop around a `step` that consumes a prefix of the input.  If every step is
"chunk-invariant" then so is the loop, it never crashes and its result does not depend on the fuel. -/
namespace Nghttp3
namespace Machine

abbrev Bytes := List UInt8

inductive Res (σ ω : Type) where
  | crash
  | fail (o : ω)
  | stop (o : ω) (rest : Bytes)
  | cont (s : σ) (rest : Bytes) (busy : Bool)
  | ret (s : σ)

inductive Out (σ ω : Type) where
  | crash
  | fail (o : ω)
  | stop (o : ω) (rest : Bytes)
  | ok (s : σ)

variable {σ ω : Type}

def loop (step : σ → Bytes → Res σ ω) : Nat → σ → Bytes → Bool → Out σ ω
  | 0, _, _, _ => .crash
  | f + 1, s, src, busy =>
    if src = [] ∧ busy = false then .ok s
    else
      match step s src with
      | .crash => .crash
      | .fail o => .fail o
      | .stop o rest => .stop o rest
      | .cont s' rest b => loop step f s' rest b
      | .ret s' => .ok s'

/-- chunk invariance of one step -/
structure Good (step : σ → Bytes → Res σ ω) (Inv : σ → Prop) (vis : σ → Bool) (rank : σ → Nat) : Prop where
  step : ∀ s x, Inv s → (x ≠ [] ∨ vis s = true) →
    match step s x with
    | .crash => False
    | .fail o => ∀ y, step s (x ++ y) = .fail o
    | .stop o rest => ∀ y, step s (x ++ y) = .stop o (rest ++ y)
    | .cont s' rest b => Inv s' ∧ (b = true → vis s' = true) ∧ 8 * rest.length + rank s' < 8 * x.length + rank s ∧
        ∀ y, step s (x ++ y) = .cont s' (rest ++ y) b
    | .ret s' => Inv s' ∧ ∀ y, y ≠ [] → step s (x ++ y) = step s' y

variable {step : σ → Bytes → Res σ ω} {Inv : σ → Prop} {vis : σ → Bool} {rank : σ → Nat}

theorem loop_fuel (g : Good step Inv vis rank) (f f' : Nat) (s : σ) (x : Bytes) (b : Bool) (hi : Inv s)
    (hb : b = true → vis s = true) (h : 8 * x.length + rank s < f) (h' : 8 * x.length + rank s < f') :
    loop step f s x b = loop step f' s x b := by
  induction f generalizing f' s x b with
  | zero => omega
  | succ f ih =>
    cases f' with
    | zero => omega
    | succ f' =>
      unfold loop
      by_cases h0 : x = [] ∧ b = false
      · rw [if_pos h0, if_pos h0]
      · rw [if_neg h0, if_neg h0]
        have hx : x ≠ [] ∨ vis s = true := by
          by_cases hx : x = []
          · right; apply hb; cases b <;> simp_all
          · left; exact hx
        have := g.step s x hi hx
        rcases hs : step s x with _ | _ | _ | ⟨s', rest, b'⟩ | _ <;> rw [hs] at this <;> dsimp only at this ⊢
        exact ih _ _ _ _ this.1 this.2.1 (by omega) (by omega)

theorem loop_safe (g : Good step Inv vis rank) (f : Nat) (s : σ) (x : Bytes) (b : Bool) (hi : Inv s)
    (hb : b = true → vis s = true) (h : 8 * x.length + rank s < f) :
    loop step f s x b ≠ .crash ∧ ∀ s', loop step f s x b = .ok s' → Inv s' := by
  induction f generalizing s x b with
  | zero => omega
  | succ f ih =>
    unfold loop
    by_cases h0 : x = [] ∧ b = false
    · rw [if_pos h0]; exact ⟨by simp, fun s' hs => by cases hs; exact hi⟩
    · rw [if_neg h0]
      have hx : x ≠ [] ∨ vis s = true := by
        by_cases hx : x = []
        · right; apply hb; cases b <;> simp_all
        · left; exact hx
      have := g.step s x hi hx
      rcases hs : step s x with _ | _ | _ | ⟨s', rest, b'⟩ | s' <;> rw [hs] at this <;> dsimp only at this ⊢
      · exact ⟨by simp, by simp⟩
      · exact ⟨by simp, by simp⟩
      · exact ih _ _ _ this.1 this.2.1 (by omega)
      · exact ⟨by simp, fun s'' hs => by cases hs; exact this.1⟩

/-- the loop with enough fuel -/
def run (step : σ → Bytes → Res σ ω) (rank : σ → Nat) (s : σ) (x : Bytes) (b : Bool) : Out σ ω :=
  loop step (8 * x.length + rank s + 1) s x b

theorem loop_run (g : Good step Inv vis rank) {f : Nat} {s : σ} {x : Bytes} {b : Bool} (hi : Inv s)
    (hb : b = true → vis s = true) (h : 8 * x.length + rank s < f) : loop step f s x b = run step rank s x b :=
  loop_fuel g _ _ _ _ _ hi hb h (by omega)

theorem run_eq (g : Good step Inv vis rank) {s : σ} {x : Bytes} {b : Bool} (hi : Inv s)
    (hb : b = true → vis s = true) :
    run step rank s x b =
      if x = [] ∧ b = false then .ok s
      else
        match step s x with
        | .crash => .crash
        | .fail o => .fail o
        | .stop o rest => .stop o rest
        | .cont s' rest b => run step rank s' rest b
        | .ret s' => .ok s' := by
  by_cases h0 : x = [] ∧ b = false
  · unfold run loop; rw [if_pos h0, if_pos h0]
  · rw [if_neg h0]
    have hx : x ≠ [] ∨ vis s = true := by
      by_cases hx : x = []
      · right; apply hb; cases b <;> simp_all
      · left; exact hx
    have := g.step s x hi hx
    unfold run
    rw [loop, if_neg h0]
    rcases hs : step s x with _ | _ | _ | ⟨s', rest, b'⟩ | s' <;> rw [hs] at this <;> dsimp only at this ⊢
    exact loop_fuel g _ _ _ _ _ this.1 this.2.1 (by omega) (by omega)

/-- one pass of the loop -/
theorem run_cont (g : Good step Inv vis rank) {s s' : σ} {x rest : Bytes} {b b' : Bool} (hi : Inv s)
    (hb : b = true → vis s = true) (hx : ¬ (x = [] ∧ b = false)) (h : step s x = .cont s' rest b') :
    Inv s' ∧ (b' = true → vis s' = true) ∧ run step rank s x b = run step rank s' rest b' := by
  have hx' : x ≠ [] ∨ vis s = true := by
    by_cases h0 : x = []
    · right; apply hb; cases b <;> simp_all
    · left; exact h0
  have := g.step s x hi hx'
  rw [h] at this
  refine ⟨this.1, this.2.1, ?_⟩
  rw [run_eq g hi hb, if_neg hx, h]

/-- `busy` only matters without input -/
theorem run_busy (g : Good step Inv vis rank) {s : σ} {x : Bytes} {b b' : Bool} (hi : Inv s)
    (hb : b = true → vis s = true) (hb' : b' = true → vis s = true) (hx : x ≠ []) :
    run step rank s x b = run step rank s x b' := by
  rw [run_eq g hi hb, run_eq g hi hb']
  simp [hx]

theorem run_append (g : Good step Inv vis rank) (s : σ) (x y : Bytes) (b : Bool) (hi : Inv s)
    (hb : b = true → vis s = true) :
    run step rank s (x ++ y) b =
      match run step rank s x b with
      | .crash => .crash
      | .fail o => .fail o
      | .stop o rest => .stop o (rest ++ y)
      | .ok s' => if y = [] then .ok s' else run step rank s' y false := by
  by_cases hy : y = []
  · subst hy
    simp only [List.append_nil, if_true]
    cases run step rank s x b <;> rfl
  simp only [hy, if_false]
  have key : ∀ n, ∀ s x b, 8 * x.length + rank s ≤ n → Inv s → (b = true → vis s = true) →
      run step rank s (x ++ y) b =
      match run step rank s x b with
      | .crash => .crash
      | .fail o => .fail o
      | .stop o rest => .stop o (rest ++ y)
      | .ok s' => run step rank s' y false := by
    intro n
    induction n using Nat.strongRecOn with
    | _ n ih =>
      intro s x b hn hi hb
      rw [run_eq (x := x) g hi hb]
      by_cases h0 : x = [] ∧ b = false
      · rw [if_pos h0]
        obtain ⟨rfl, rfl⟩ := h0
        rfl
      · rw [if_neg h0, run_eq g hi hb, if_neg (by simp [hy])]
        have hx : x ≠ [] ∨ vis s = true := by
          by_cases hx : x = []
          · right; apply hb; cases b <;> simp_all
          · left; exact hx
        have := g.step s x hi hx
        rcases hs : step s x with _ | o | ⟨o, rest⟩ | ⟨s', rest, b'⟩ | s' <;> rw [hs] at this <;> dsimp only at this ⊢
        · rw [this]
        · rw [this]
        · rw [this.2.2.2]
          exact ih (8 * rest.length + rank s') (by omega) s' rest b' (Nat.le_refl _) this.1 this.2.1
        · rw [this.2 y hy, run_eq g this.1 (by simp), if_neg (by simp [hy])]
  exact key _ s x b (Nat.le_refl _) hi hb

def Res.map (F : σ → σ) (G : ω → ω) : Res σ ω → Res σ ω
  | .crash => .crash
  | .fail o => .fail (G o)
  | .stop o rest => .stop (G o) rest
  | .cont s rest b => .cont (F s) rest b
  | .ret s => .ret (F s)

def Out.map (F : σ → σ) (G : ω → ω) : Out σ ω → Out σ ω
  | .crash => .crash
  | .fail o => .fail (G o)
  | .stop o rest => .stop (G o) rest
  | .ok s => .ok (F s)

/-- a change of the state that every step carries along -/
theorem run_map (F : σ → σ) (G : ω → ω) (hs : ∀ s x, step (F s) x = (step s x).map F G) (hr : ∀ s, rank (F s) = rank s) (s : σ) (x : Bytes) (b : Bool) :
    run step rank (F s) x b = (run step rank s x b).map F G := by
  unfold run
  rw [hr]
  generalize 8 * x.length + rank s + 1 = f
  induction f generalizing s x b with
  | zero => rfl
  | succ f ih =>
    unfold loop
    by_cases h0 : x = [] ∧ b = false
    · rw [if_pos h0, if_pos h0]; rfl
    · rw [if_neg h0, if_neg h0, hs]
      rcases step s x with _ | _ | _ | _ | _ <;> dsimp only [Res.map] <;> first | rfl | exact ih _ _ _

/-- a property that every step keeps -/
theorem run_keeps (g : Good step Inv vis rank) (P : σ → Prop) (Q : ω → Prop)
    (h : ∀ s x, Inv s → (x ≠ [] ∨ vis s = true) → P s → match step s x with
      | .crash => True
      | .fail o => Q o
      | .stop o _ => Q o
      | .cont s' _ _ => P s'
      | .ret s' => P s') (s : σ) (x : Bytes) (b : Bool) (hi : Inv s) (hb : b = true → vis s = true) (hp : P s) :
    match run step rank s x b with
    | .crash => True
    | .fail o => Q o
    | .stop o _ => Q o
    | .ok s' => P s' := by
  unfold run
  generalize 8 * x.length + rank s + 1 = f
  induction f generalizing s x b with
  | zero => trivial
  | succ f ih =>
    unfold loop
    by_cases h0 : x = [] ∧ b = false
    · rw [if_pos h0]; exact hp
    · rw [if_neg h0]
      have hx : x ≠ [] ∨ vis s = true := by
        by_cases hx : x = []
        · right; apply hb; cases b <;> simp_all
        · left; exact hx
      have hg := g.step s x hi hx
      have := h s x hi hx hp
      rcases hs : step s x with _ | _ | _ | _ | _ <;> rw [hs] at this hg <;> dsimp only at this hg ⊢
      · exact this
      · exact this
      · exact ih _ _ _ hg.1 hg.2.1 this
      · exact this

theorem run_append' (g : Good step Inv vis rank) (s : σ) (x y : Bytes) (b : Bool) (hi : Inv s)
    (hb : b = true → vis s = true) :
    run step rank s (x ++ y) b =
      match run step rank s x b with
      | .crash => .crash
      | .fail o => .fail o
      | .stop o rest => .stop o (rest ++ y)
      | .ok s' => run step rank s' y false := by
  rw [run_append g s x y b hi hb]
  have hsafe := (loop_safe g (8 * x.length + rank s + 1) s x b hi hb (Nat.lt_succ_self _)).2
  change ∀ s', run step rank s x b = .ok s' → Inv s' at hsafe
  rcases hr : run step rank s x b with _ | _ | _ | s' <;> dsimp only
  by_cases hy : y = []
  · rw [if_pos hy, run_eq g (hsafe s' hr) (by simp), if_pos ⟨hy, rfl⟩]
  · rw [if_neg hy]

end Machine
end Nghttp3
