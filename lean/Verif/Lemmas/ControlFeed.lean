import Verif.Lemmas.Control
/-! Whole runs of the control stream reader: invariants of the connection, comparison with the ideal reader. -/
namespace Nghttp3
namespace Control

variable {S : Type} {P : Bytes → Prop}

/-- outcome carries connections satisfying `Q` only -/
def OutQ (Q : Conn S → Prop) : Machine.Out (St S) (Int × Conn S) → Prop
  | .crash => True
  | .fail o => Q o.2
  | .stop _ _ => False
  | .ok s => Q s.conn

def ResQ (Q : Conn S → Prop) : Res S → Prop
  | .crash => True
  | .fail o => Q o.2
  | .stop _ _ => False
  | .cont s _ _ => Q s.conn
  | .ret s => Q s.conn

/-- properties of the connection every step of the reader keeps -/
structure Stable (env : Env S) (Q : Conn S → Prop) : Prop where
  recved : ∀ c, Q c → Q { c with settingsRecved := true }
  rep : ∀ c, Q c → Q { c with ev := c.ev ++ [.settings c.remote] }
  entry : ∀ c i v c', Q c → onEntry c i v = .ok c' → Q c'
  goaway : ∀ c v, Q c → v ≤ c.rxGoaway → (c.server = false → v % 4 = 0) →
    Q { c with goawayRecved := true, rxGoaway := v, ev := c.ev ++ [.shutdown v] }
  push : ∀ c v, Q c → c.maxPushes ≤ v + 1 → Q { c with maxPushes := v + 1 }
  ext : ∀ c e p x, Q c → env.onPri c.ext e p = .ok x → Q { c with ext := x }
  long : ∀ c, Q c → Q { c with long := true }

variable {env : Env S} {Q : Conn S → Prop}

theorem report_pres (s : St S) (c : Conn S) (e : Ev) (rest : Bytes) (h : Q { c with ev := c.ev ++ [e] }) :
    ResQ Q (report env s c e rest) := by
  unfold report
  dsimp only
  split_ifs
  · exact h
  · exact h

theorem dispatch_pres (hQ : Stable env Q) (s : St S) (rest : Bytes) (h : Q s.conn) : ResQ Q (dispatch env s rest) := by
  unfold dispatch
  dsimp only
  split_ifs
  · exact report_pres _ _ _ _ (hQ.rep _ h)
  all_goals exact h

theorem header_pres (hQ : Stable env Q) (s : St S) (rest : Bytes) (h : Q s.conn) : ResQ Q (header env s rest) := by
  unfold header
  split_ifs
  · exact h
  · exact dispatch_pres hQ _ _ (hQ.recved _ h)
  · exact h
  · exact dispatch_pres hQ _ _ h

theorem inFrame_pres (s : St S) (x : Bytes) (k : Nat → St S → Bytes → Res S) (h : Q s.conn)
    (hk : ∀ v s' r, s'.conn = s.conn → ResQ Q (k v s' r)) : ResQ Q (inFrame s x k) := by
  unfold inFrame
  rcases rdl s.rv s.left x with _ | _ | rv | ⟨v, n⟩
  · trivial
  · exact h
  · exact h
  · exact hk _ _ _ rfl

theorem gotId_pres (v : Nat) (s : St S) (rest : Bytes) (h : Q s.conn) : ResQ Q (gotId v s rest) := by
  unfold gotId
  split_ifs <;> exact h

theorem gotVal_pres (hQ : Stable env Q) (v : Nat) (s : St S) (rest : Bytes) (h : Q s.conn) : ResQ Q (gotVal env v s rest) := by
  unfold gotVal
  rcases he : onEntry s.conn s.sid v with e | c
  · exact h
  · have hc := hQ.entry _ _ _ _ h he
    dsimp only
    split_ifs
    · exact hc
    · exact report_pres _ _ _ _ (hQ.rep _ hc)

theorem gotGoaway_pres (hQ : Stable env Q) (v : Nat) (s : St S) (rest : Bytes) (h : Q s.conn) : ResQ Q (gotGoaway env v s rest) := by
  unfold gotGoaway
  split_ifs with h1 h2
  · exact h
  · exact h
  · refine report_pres _ _ _ _ ?_
    exact hQ.goaway s.conn v h (by omega) (fun h3 => by
      by_contra h4; exact h1 ⟨h3, h4⟩)

theorem gotMaxPush_pres (hQ : Stable env Q) (v : Nat) (s : St S) (rest : Bytes) (h : Q s.conn) : ResQ Q (gotMaxPush v s rest) := by
  unfold gotMaxPush
  split_ifs with h1
  · exact h
  · exact hQ.push _ v h (by omega)

theorem applyPri_pres (hQ : Stable env Q) (s : St S) (buf : Bytes) (p : Http.Pri) (rest : Bytes) (h : Q s.conn) :
    ResQ Q (applyPri env s buf p rest) := by
  unfold applyPri
  rcases he : env.onPri s.conn.ext s.elem p with e | x
  · exact h
  · exact hQ.ext _ _ _ _ h he

theorem gotElem_pres (hQ : Stable env Q) (v : Nat) (s : St S) (rest : Bytes) (h : Q s.conn) : ResQ Q (gotElem env v s rest) := by
  unfold gotElem
  dsimp only
  split_ifs
  · exact applyPri_pres hQ _ _ _ _ h
  · exact h

theorem gotField_pres (hQ : Stable env Q) (s : St S) (f rest : Bytes) (h : Q s.conn) : ResQ Q (gotField env s f rest) := by
  unfold gotField
  rcases env.parsePri f with _ | p
  · exact h
  · exact applyPri_pres hQ _ _ _ _ h

theorem priField_pres (hQ : Stable env Q) (s : St S) (x : Bytes) (h : Q s.conn) : ResQ Q (priField env s x) := by
  unfold priField tooLong
  dsimp only
  split_ifs
  · trivial
  · exact hQ.long _ h
  · exact gotField_pres hQ _ _ _ h
  · exact hQ.long _ h
  · exact gotField_pres hQ _ _ _ h
  · exact h

theorem step_pres (hQ : Stable env Q) (s : St S) (x : Bytes) (h : Q s.conn) : ResQ Q (step env s x) := by
  unfold step
  rcases s.st with _ | _ | _ | _ | _ | _ | _ | _ | _ | _ <;> dsimp only
  · rcases rd s.rv x false with _ | _ | rv | ⟨v, n⟩
    · trivial
    all_goals exact h
  · rcases rd s.rv x false with _ | _ | rv | ⟨v, n⟩
    · trivial
    · exact h
    · exact h
    · exact header_pres hQ _ _ h
  · split_ifs
    · exact report_pres _ _ _ _ (hQ.rep _ h)
    · exact h
    · exact inFrame_pres _ _ _ h (fun v s' r hs => gotId_pres _ _ _ (by rw [hs]; exact h))
  · exact inFrame_pres _ _ _ h (fun v s' r hs => gotId_pres _ _ _ (by rw [hs]; exact h))
  · exact inFrame_pres _ _ _ h (fun v s' r hs => gotVal_pres hQ _ _ _ (by rw [hs]; exact h))
  · exact inFrame_pres _ _ _ h (fun v s' r hs => gotGoaway_pres hQ _ _ _ (by rw [hs]; exact h))
  · exact inFrame_pres _ _ _ h (fun v s' r hs => gotMaxPush_pres hQ _ _ _ (by rw [hs]; exact h))
  · exact inFrame_pres _ _ _ h (fun v s' r hs => gotElem_pres hQ _ _ _ (by rw [hs]; exact h))
  · exact priField_pres hQ _ _ h
  · unfold ignFrame
    dsimp only
    split_ifs <;> exact h

theorem loop_pres (hQ : Stable env Q) (f : Nat) (s : St S) (x : Bytes) (b : Bool) (h : Q s.conn) :
    OutQ Q (Machine.loop (step env) f s x b) := by
  induction f generalizing s x b with
  | zero => trivial
  | succ f ih =>
    unfold Machine.loop
    split_ifs with h0
    · exact h
    · have := step_pres hQ s x h
      rcases hr : step env s x with _ | o | ⟨o, r⟩ | ⟨s', r, b'⟩ | s' <;> rw [hr] at this
      · trivial
      · exact this
      · exact this.elim
      · exact ih _ _ _ this
      · exact this

theorem read_pres (hQ : Stable env Q) (s : St S) (x : Bytes) (h : Q s.conn) : OutQ Q (read env s x) := by
  unfold read
  split_ifs
  · trivial
  · exact loop_pres hQ _ _ _ _ h

theorem feed_pres (hQ : Stable env Q) (s : St S) (cs : List Bytes) (h : Q s.conn) : OutQ Q (feed env s cs) := by
  induction cs generalizing s with
  | nil => exact h
  | cons c cs ih =>
    unfold feed
    have := read_pres hQ s c h
    rcases hr : read env s c with _ | o | ⟨o, r⟩ | s' <;> rw [hr] at this
    · trivial
    · exact this
    · exact this.elim
    · exact ih _ this

theorem onEntry_keeps {c c' : Conn S} {i v : Nat} (h : onEntry c i v = .ok c') :
    c'.server = c.server ∧ c'.long = c.long ∧ c'.ev = c.ev ∧ c'.rxGoaway = c.rxGoaway ∧ c'.goawayRecved = c.goawayRecved ∧
      c'.maxPushes = c.maxPushes ∧ c'.settingsRecved = c.settingsRecved ∧ c'.ext = c.ext := by
  unfold onEntry at h
  split_ifs at h <;> cases h <;> exact ⟨rfl, rfl, rfl, rfl, rfl, rfl, rfl, rfl⟩

theorem stable_long : Stable env (fun c : Conn S => c.long = true) :=
  ⟨fun _ h => h, fun _ h => h, fun _ _ _ _ h he => by rw [(onEntry_keeps he).2.1]; exact h, fun _ _ h _ _ => h,
    fun _ _ h _ => h, fun _ _ _ _ h _ => h, fun _ _ => rfl⟩

theorem stable_server (b : Bool) : Stable env (fun c : Conn S => c.server = b) :=
  ⟨fun _ h => h, fun _ h => h, fun _ _ _ _ h he => by rw [(onEntry_keeps he).1]; exact h, fun _ _ h _ _ => h,
    fun _ _ h _ => h, fun _ _ _ _ h _ => h, fun _ h => h⟩

/-! ### The real reader against the ideal one -/

/-- the field value of the frame being read fits in the buffer -/
def fits (s : St S) (x : Bytes) : Prop := ¬ FIELDBUF < min s.left x.length + s.priBuf.length

theorem gotField_buf (s : St S) (b : Bytes) (f rest : Bytes) :
    gotField env { s with priBuf := b } f rest = gotField env s f rest := by
  unfold gotField applyPri reset
  rfl

theorem step_eq_of_ne (s : St S) (x : Bytes) (h : s.st ≠ .priField) : step env s x = stepI env s x := by
  unfold stepI; rw [if_neg h]

theorem step_pri (s : St S) (x : Bytes) (hs : s.st = .priField) (hl : 0 < s.left) :
    (x = [] → step env s x = .crash) ∧
    (x ≠ [] → fits s x → step env s x = stepI env s x) ∧
    (x ≠ [] → ¬ fits s x → step env s x = tooLong s x ∧ stepI env s x = .fail (0, { s.conn with long := true })) := by
  have e1 : step env s x = priField env s x := by unfold step; rw [hs]
  have e2 : stepI env s x = priFieldI env s x := by unfold stepI; rw [if_pos hs]
  rw [e1, e2]
  refine ⟨?_, ?_, ?_⟩
  · rintro rfl; unfold priField; simp
  · intro hx hf
    unfold fits at hf
    have hx' := List.length_pos_iff.2 hx
    unfold priField priFieldI
    dsimp only
    rw [if_neg (show ¬ min s.left x.length = 0 by omega), if_neg hf, if_neg hf]
    by_cases h1 : s.left ≤ x.length
    · rw [if_pos h1, Nat.min_eq_left h1]
      by_cases h2 : s.priBuf = []
      · rw [if_pos ⟨h2, rfl⟩, if_neg (by omega), h2]
        exact (gotField_buf { s with left := 0 } ([] ++ x.take s.left) _ _).symm
      · rw [if_neg (by simp [h2]), if_pos rfl]
    · rw [if_neg h1, Nat.min_eq_right (by omega), if_neg (by omega), if_neg (by omega), List.take_length]
  · intro hx hf
    unfold fits at hf
    push Not at hf
    have hx' := List.length_pos_iff.2 hx
    unfold priField priFieldI
    dsimp only
    rw [if_neg (show ¬ min s.left x.length = 0 by omega), if_pos hf, if_pos hf]
    refine ⟨?_, rfl⟩
    split_ifs with h1 h2
    · rfl
    · rw [h1.1] at hf; simp at hf; omega
    · rfl

def Pnil (b : Bytes) : Prop := b = []
def P8 (b : Bytes) : Prop := b.length ≤ FIELDBUF
theorem bufNil : Buf Pnil := ⟨rfl, fun b h => by rw [h]; simp⟩
theorem buf8 : Buf P8 := ⟨by simp [P8], fun b h => h⟩

/-- the step of the real reader -/
theorem step_real (hP : Buf P) (s : St S) (x : Bytes) (hi : Inv P s) (hx : x ≠ [] ∨ vis s = true)
    (hP8 : ∀ b : Bytes, b.length ≤ FIELDBUF → P b) :
    match step env s x with
    | .crash => s.st = .priField ∧ x = []
    | .fail _ => True
    | .stop _ _ => False
    | .cont s' rest b => Inv P s' ∧ (b = true → vis s' = true) ∧ 8 * rest.length + rank s' < 8 * x.length + rank s ∧
        ∀ y, step env s (x ++ y) = .cont s' (rest ++ y) b
    | .ret s' => Inv P s' := by
  have hns : ∀ o r, step env s x ≠ .stop o r := by
    intro o r h
    have := step_pres (stable_server (env := env) s.conn.server) s x rfl
    rw [h] at this
    exact this
  by_cases hs : s.st = .priField
  · have hl := hi.left (by simp [hs])
    obtain ⟨h1, h2, h3⟩ := step_pri (env := env) s x hs hl
    by_cases hx0 : x = []
    · rw [h1 hx0]; exact ⟨hs, hx0⟩
    by_cases hf : fits s x
    · have := stepI_pri env s x hP hi hs
      rw [h2 hx0 hf] at hns ⊢
      rcases hr : stepI env s x with _ | o | ⟨o, r⟩ | ⟨s', r, b⟩ | s' <;> rw [hr] at this hns <;> unfold GoodRes at this <;> dsimp only at this ⊢
      · exact hns _ _ rfl
      · refine ⟨this.1, this.2.1, this.2.2.1, fun y => ?_⟩
        have hle : s.left ≤ x.length := by
          by_contra hc
          have e2 : stepI env s x = priFieldI env s x := by unfold stepI; rw [if_pos hs]
          rw [e2] at hr
          unfold priFieldI at hr
          rw [if_neg hf, if_neg hc] at hr
          cases hr
        have hf' : fits s (x ++ y) := by
          unfold fits at hf ⊢
          rw [List.length_append]; omega
        rw [(step_pri (env := env) s (x ++ y) hs hl).2.1 (by simp [hx0]) hf']
        exact this.2.2.2 y
      · exact this.1
    · rw [(h3 hx0 hf).1]
      unfold tooLong
      dsimp only
      refine ⟨⟨?_, fun _ => hP8 _ hi.buf8, hi.buf8, by simp, fun _ => hi.rv0 (by simp [hs]), by simp⟩, by simp [vis], by simp [rank, hs], fun y => ?_⟩
      · have := hi.rv0 (by simp [hs]); dsimp only; rw [this]; exact rvOk_idle
      · have hf' : ¬ fits s (x ++ y) := by
          unfold fits at hf ⊢
          rw [List.length_append]; omega
        exact ((step_pri (env := env) s (x ++ y) hs hl).2.2 (by simp [hx0]) hf').1
  · have := step_good env s x hP hi hs hx
    rcases hr : step env s x with _ | o | ⟨o, r⟩ | ⟨s', r, b⟩ | s' <;> rw [hr] at this hns <;> unfold GoodRes at this <;> dsimp only at this ⊢
    · exact hns _ _ rfl
    · exact this
    · exact this.1

/-- ideal processing of a whole byte string -/
def runI (env : Env S) (s : St S) (x : Bytes) : Machine.Out (St S) (Int × Conn S) := Machine.run (stepI env) rank s x false

/-- an over-long field value was met -/
abbrev LongOut (r : Machine.Out (St S) (Int × Conn S)) : Prop := OutQ (fun c => c.long = true) r

theorem loop_cmp (f : Nat) (s : St S) (x : Bytes) (b : Bool) (hi : Inv Pnil s) (hb : b = true → vis s = true) :
    Machine.loop (step env) f s x b = .crash ∨ Machine.loop (step env) f s x b = Machine.loop (stepI env) f s x b ∨
      (LongOut (Machine.loop (step env) f s x b) ∧ ∃ c : Conn S, c.long = true ∧ Machine.loop (stepI env) f s x b = .fail (0, c)) := by
  induction f generalizing s x b with
  | zero => left; rfl
  | succ f ih =>
    by_cases h0 : x = [] ∧ b = false
    · right; left
      unfold Machine.loop
      rw [if_pos h0, if_pos h0]
    have hx : x ≠ [] ∨ vis s = true := by
      by_cases hx : x = []
      · right; apply hb; cases b <;> simp_all
      · left; exact hx
    have key : step env s x = stepI env s x → _ := fun heq => by
      have hg := stepI_good env s x bufNil hi hx
      have hstep : Machine.loop (step env) (f + 1) s x b = .crash ∨
          Machine.loop (step env) (f + 1) s x b = Machine.loop (stepI env) (f + 1) s x b ∨
          (LongOut (Machine.loop (step env) (f + 1) s x b) ∧ ∃ c : Conn S, c.long = true ∧
            Machine.loop (stepI env) (f + 1) s x b = .fail (0, c)) := by
        unfold Machine.loop
        rw [if_neg h0, if_neg h0, heq]
        rcases hr : stepI env s x with _ | o | ⟨o, r⟩ | ⟨s', r, b'⟩ | s' <;> rw [hr] at hg <;> dsimp only
        · left; trivial
        · right; left; trivial
        · right; left; trivial
        · exact ih s' r b' hg.1 hg.2.1
        · right; left; trivial
      exact hstep
    by_cases hs : s.st = .priField
    · have hl := hi.left (by simp [hs])
      obtain ⟨h1, h2, h3⟩ := step_pri (env := env) s x hs hl
      by_cases hx0 : x = []
      · left
        unfold Machine.loop
        rw [if_neg h0, h1 hx0]
      by_cases hf : fits s x
      · exact key (h2 hx0 hf)
      · right; right
        obtain ⟨e1, e2⟩ := h3 hx0 hf
        constructor
        · unfold Machine.loop
          rw [if_neg h0, e1]
          exact loop_pres stable_long _ _ _ _ rfl
        · refine ⟨{ s.conn with long := true }, rfl, ?_⟩
          unfold Machine.loop
          rw [if_neg h0, e2]
    · exact key (step_eq_of_ne s x hs)

theorem read_cmp (s : St S) (x : Bytes) (hx : x ≠ []) (hi : Inv Pnil s) :
    read env s x = .crash ∨ read env s x = runI env s x ∨
      (LongOut (read env s x) ∧ ∃ c : Conn S, c.long = true ∧ runI env s x = .fail (0, c)) := by
  unfold read runI Machine.run
  rw [if_neg hx]
  exact loop_cmp _ _ _ _ hi (by simp)

theorem runI_ok (s : St S) (x : Bytes) (hi : Inv Pnil s) (s' : St S) (h : runI env s x = .ok s') : Inv Pnil s' :=
  (Machine.loop_safe (goodI env bufNil) _ s x false hi (by simp) (Nat.lt_succ_self _)).2 s' h

theorem runI_safe (s : St S) (x : Bytes) (hi : Inv Pnil s) : runI env s x ≠ .crash :=
  (Machine.loop_safe (goodI env bufNil) _ s x false hi (by simp) (Nat.lt_succ_self _)).1

theorem runI_append (s : St S) (x y : Bytes) (hi : Inv Pnil s) :
    runI env s (x ++ y) = match runI env s x with
      | .crash => .crash
      | .fail o => .fail o
      | .stop o rest => .stop o (rest ++ y)
      | .ok s' => runI env s' y := by
  have := Machine.run_append (goodI env bufNil) s x y false hi (by simp)
  unfold runI
  rw [this]
  rcases Machine.run (stepI env) rank s x false with _ | o | ⟨o, r⟩ | s'
  · rfl
  · rfl
  · rfl
  · dsimp only
    split_ifs with h
    · subst h
      unfold Machine.run Machine.loop
      simp
    · rfl

/-- the reader fails an assertion only if a call ends right after a prioritized element ID -/
theorem loop_crash_cmp (f : Nat) (s : St S) (x : Bytes) (b : Bool) (hi : Inv Pnil s) (hb : b = true → vis s = true)
    (hf : 8 * x.length + rank s < f) (h : Machine.loop (step env) f s x b = .crash) :
    (∃ s', Machine.loop (stepI env) f s x b = .ok s' ∧ s'.st = .priField) ∨
      ∃ c : Conn S, c.long = true ∧ Machine.loop (stepI env) f s x b = .fail (0, c) := by
  induction f generalizing s x b with
  | zero => omega
  | succ f ih =>
    by_cases h0 : x = [] ∧ b = false
    · unfold Machine.loop at h
      rw [if_pos h0] at h; cases h
    have hx : x ≠ [] ∨ vis s = true := by
      by_cases hx : x = []
      · right; apply hb; cases b <;> simp_all
      · left; exact hx
    have key : step env s x = stepI env s x → (∃ s', Machine.loop (stepI env) (f + 1) s x b = .ok s' ∧ s'.st = .priField) ∨
        ∃ c : Conn S, c.long = true ∧ Machine.loop (stepI env) (f + 1) s x b = .fail (0, c) := fun heq => by
      have hg := stepI_good env s x bufNil hi hx
      unfold Machine.loop at h ⊢
      rw [if_neg h0] at h ⊢
      rw [heq] at h
      rcases hr : stepI env s x with _ | o | ⟨o, r⟩ | ⟨s', r, b'⟩ | s' <;> rw [hr] at hg h <;> dsimp only at h ⊢
      · exact (hg : False).elim
      · cases h
      · cases h
      · exact ih s' r b' hg.1 hg.2.1 (by have := hg.2.2.1; omega) h
      · cases h
    by_cases hs : s.st = .priField
    · have hl := hi.left (by simp [hs])
      obtain ⟨h1, h2, h3⟩ := step_pri (env := env) s x hs hl
      by_cases hx0 : x = []
      · left
        refine ⟨s, ?_, hs⟩
        unfold Machine.loop
        rw [if_neg h0]
        subst hx0
        unfold stepI
        rw [if_pos hs]
        unfold priFieldI
        have := hi.buf8
        rw [if_neg (by simp; omega), if_neg (by simp; omega)]
        simp
      by_cases hf : fits s x
      · exact key (h2 hx0 hf)
      · right
        obtain ⟨e1, e2⟩ := h3 hx0 hf
        refine ⟨{ s.conn with long := true }, rfl, ?_⟩
        unfold Machine.loop
        rw [if_neg h0, e2]
    · exact key (step_eq_of_ne s x hs)

theorem read_crash_cmp (s : St S) (x : Bytes) (hx : x ≠ []) (hi : Inv Pnil s) (h : read env s x = .crash) :
    (∃ s', runI env s x = .ok s' ∧ s'.st = .priField) ∨ ∃ c : Conn S, c.long = true ∧ runI env s x = .fail (0, c) := by
  unfold read at h
  rw [if_neg hx] at h
  exact loop_crash_cmp _ s x false hi (by simp) (Nat.lt_succ_self _) h

/-- the real reader, fed in pieces, against the ideal one on the concatenation -/
theorem feed_cmp (s : St S) (cs : List Bytes) (hne : ∀ c ∈ cs, c ≠ []) (hi : Inv Pnil s) :
    feed env s cs = .crash ∨ feed env s cs = runI env s cs.flatten ∨
      (LongOut (feed env s cs) ∧ ∃ c : Conn S, c.long = true ∧ runI env s cs.flatten = .fail (0, c)) := by
  induction cs generalizing s with
  | nil =>
    right; left
    unfold feed runI Machine.run Machine.loop
    simp
  | cons c cs ih =>
    have hc := hne c (by simp)
    rw [List.flatten_cons, runI_append s c _ hi]
    have hns := read_pres (stable_server (env := env) s.conn.server) s c rfl
    unfold feed
    rcases read_cmp (env := env) s c hc hi with h | h | ⟨h, c', hl, h'⟩
    · left; rw [h]
    · rcases hr : runI env s c with _ | o | ⟨o, r⟩ | s'
      · exact absurd hr (runI_safe s c hi)
      · rw [h, hr]; right; left; rfl
      · rw [h, hr] at hns; exact hns.elim
      · rw [h, hr]
        exact ih s' (fun x hx => hne x (by simp [hx])) (runI_ok s c hi s' hr)
    · rw [h']
      right; right
      refine ⟨?_, c', hl, rfl⟩
      rcases hr : read env s c with _ | o | ⟨o, r⟩ | s' <;> rw [hr] at h
      · trivial
      · exact h
      · exact h.elim
      · exact feed_pres stable_long _ _ h

/-! ### Clients -/

theorem loop_client (f : Nat) (s : St S) (x : Bytes) (b : Bool) (hi : Inv Pnil s) (hb : b = true → vis s = true)
    (hc : s.conn.server = false) : Machine.loop (step env) f s x b = Machine.loop (stepI env) f s x b := by
  induction f generalizing s x b with
  | zero => rfl
  | succ f ih =>
    unfold Machine.loop
    by_cases h0 : x = [] ∧ b = false
    · rw [if_pos h0, if_pos h0]
    rw [if_neg h0, if_neg h0]
    have hx : x ≠ [] ∨ vis s = true := by
      by_cases hx : x = []
      · right; apply hb; cases b <;> simp_all
      · left; exact hx
    have hg := stepI_good env s x bufNil hi hx
    have hp := step_pres (stable_server (env := env) false) s x hc
    have heq := step_eq_of_ne (env := env) s x (hi.role hc).2.2
    rw [heq] at hp ⊢
    rcases hr : stepI env s x with _ | o | ⟨o, r⟩ | ⟨s', r, b'⟩ | s' <;> rw [hr] at hg hp <;> dsimp only
    exact ih s' r b' hg.1 hg.2.1 hp

theorem feed_client (s : St S) (cs : List Bytes) (hne : ∀ c ∈ cs, c ≠ []) (hi : Inv Pnil s) (hc : s.conn.server = false) :
    feed env s cs = runI env s cs.flatten := by
  induction cs generalizing s with
  | nil => unfold feed runI Machine.run Machine.loop; simp
  | cons c cs ih =>
    have hcn := hne c (by simp)
    have hrd : read env s c = runI env s c := by
      unfold read runI Machine.run
      rw [if_neg hcn]
      exact loop_client _ _ _ _ hi (by simp) hc
    have hns := read_pres (stable_server (env := env) false) s c hc
    rw [List.flatten_cons, runI_append s c _ hi]
    unfold feed
    rw [hrd] at hns ⊢
    rcases hr : runI env s c with _ | o | ⟨o, r⟩ | s' <;> rw [hr] at hns
    · exact hns.elim
    · exact ih s' (fun x hx => hne x (by simp [hx])) (runI_ok s c hi s' hr) hns

/-! ### Where the real reader crashes -/

theorem loop_crash (f : Nat) (s : St S) (x : Bytes) (b : Bool) (hi : Inv P8 s) (hb : b = true → vis s = true)
    (hf : 8 * x.length + rank s < f) (h : Machine.loop (step env) f s x b = .crash) (y : UInt8) (g : Nat) (hg : 8 * x.length + 8 + rank s < g) :
    Machine.loop (step env) g s (x ++ [y]) b ≠ .crash := by
  induction f generalizing s x b g with
  | zero => omega
  | succ f ih =>
    unfold Machine.loop at h
    by_cases h0 : x = [] ∧ b = false
    · rw [if_pos h0] at h; cases h
    rw [if_neg h0] at h
    have hx : x ≠ [] ∨ vis s = true := by
      by_cases hx : x = []
      · right; apply hb; cases b <;> simp_all
      · left; exact hx
    cases g with
    | zero => omega
    | succ g =>
    unfold Machine.loop
    rw [if_neg (by simp)]
    have hs := step_real (env := env) buf8 s x hi hx (fun _ h => h)
    rcases hr : step env s x with _ | o | ⟨o, r⟩ | ⟨s', r, b'⟩ | s' <;> rw [hr] at hs h <;> dsimp only at hs h
    · -- the assertion: with one more byte the state is left without failure
      obtain ⟨hst, rfl⟩ := hs
      rw [List.nil_append]
      have hs1 := step_real (env := env) buf8 s [y] hi (by simp) (fun _ h => h)
      rcases hr1 : step env s [y] with _ | o | ⟨o, r⟩ | ⟨s', r, b'⟩ | s' <;> rw [hr1] at hs1 <;> dsimp only at hs1 ⊢
      · simp at hs1
      · simp
      · obtain ⟨i1, i2, i3, i4⟩ := hs1
        -- the new state is idle or skips the frame
        have hrank : rank s = 2 := by simp [rank, hst]
        have hst' : s'.st = .frameType ∧ b' = false ∨ s'.st = .ignFrame := by
          have e1 : step env s [y] = priField env s [y] := by unfold step; rw [hst]
          rw [e1] at hr1
          unfold priField tooLong gotField applyPri reset at hr1
          dsimp only at hr1
          split_ifs at hr1
          all_goals first
            | (cases hr1; right; rfl)
            | (split at hr1
               · cases hr1
               · split at hr1
                 · cases hr1
                 · cases hr1; left; exact ⟨rfl, rfl⟩)
        have hgen : ∀ (g : Nat) (t : St S) (r : Bytes) (b : Bool), Inv P8 t → (b = true → vis t = true) → t.st ≠ .priField → t.st ≠ .elemId →
            t.st ≠ .settingVal → t.st ≠ .frameLen → (t.st = .frameType ∧ b = false ∨ t.st = .ignFrame) → r.length ≤ 1 →
            8 * r.length + rank t < g → Machine.loop (step env) g t r b ≠ .crash := by
          intro g
          induction g with
          | zero => intros; omega
          | succ g ihg =>
            intro t r b ht hbt n1 n2 n3 n4 hst hr hgt
            unfold Machine.loop
            by_cases h0 : r = [] ∧ b = false
            · rw [if_pos h0]; simp
            rw [if_neg h0]
            have hx : r ≠ [] ∨ vis t = true := by
              by_cases hx : r = []
              · right; apply hbt; cases b <;> simp_all
              · left; exact hx
            have hs := step_real (env := env) buf8 t r ht hx (fun _ h => h)
            rcases hr1 : step env t r with _ | o | ⟨o, r'⟩ | ⟨t', r', b'⟩ | t' <;> rw [hr1] at hs <;> dsimp only at hs ⊢
            · exact absurd hs.1 n1
            · simp
            · rcases hst with ⟨hst, -⟩ | hst
              · have hle : r'.length = 0 := by
                  have e0 : rank t = 0 := by simp [rank, hst]
                  have := hs.2.2.1; omega
                have hb' : b' = false := by
                  unfold step at hr1; rw [hst] at hr1
                  dsimp only at hr1
                  rcases hrd : rd t.rv r false with _ | _ | rv | ⟨v, n⟩ <;> rw [hrd] at hr1 <;> cases hr1 <;> rfl
                have : r' = [] := List.length_eq_zero_iff.1 hle
                cases g with
                | zero => have := hs.2.2.1; omega
                | succ g => unfold Machine.loop; rw [if_pos ⟨this, hb'⟩]; simp
              · have e : t'.st = .frameType ∧ b' = false := by
                  unfold step at hr1; rw [hst] at hr1
                  dsimp only at hr1
                  unfold ignFrame reset at hr1
                  dsimp only at hr1
                  split_ifs at hr1; cases hr1; exact ⟨rfl, rfl⟩
                have hm := hs.2.2.1
                have e1 : rank t = 1 := by simp [rank, hst]
                refine ihg t' r' b' hs.1 hs.2.1 (by rw [e.1]; decide) (by rw [e.1]; decide) (by rw [e.1]; decide) (by rw [e.1]; decide) (.inl e)
                  (by omega) (by omega)
            · simp
        have hl1 : r.length ≤ 1 := by simp only [List.length_cons, List.length_nil] at i3; omega
        simp only [List.length_nil] at hg
        simp only [List.length_cons, List.length_nil] at i3
        refine hgen g s' r b' i1 i2 ?_ ?_ ?_ ?_ hst' hl1 (by omega)
        all_goals (rcases hst' with h | h; rw [h.1]; decide; rw [h]; decide)
      · simp
    · cases h
    · rw [hs.2.2.2 [y]]
      dsimp only
      have := hs.2.2.1
      exact ih s' r b' hs.1 hs.2.1 (by omega) h g (by omega)
    · cases h

theorem loop_real (f : Nat) (s : St S) (x : Bytes) (b : Bool) (hi : Inv P8 s) (hb : b = true → vis s = true)
    (s' : St S) (h : Machine.loop (step env) f s x b = .ok s') : Inv P8 s' := by
  induction f generalizing s x b with
  | zero => cases h
  | succ f ih =>
    unfold Machine.loop at h
    by_cases h0 : x = [] ∧ b = false
    · rw [if_pos h0] at h; cases h; exact hi
    rw [if_neg h0] at h
    have hx : x ≠ [] ∨ vis s = true := by
      by_cases hx : x = []
      · right; apply hb; cases b <;> simp_all
      · left; exact hx
    have hs := step_real (env := env) buf8 s x hi hx (fun _ h => h)
    rcases hr : step env s x with _ | o | ⟨o, r⟩ | ⟨s1, r, b'⟩ | s1 <;> rw [hr] at hs h <;> dsimp only at hs h
    · cases h
    · cases h
    · exact ih s1 r b' hs.1 hs.2.1 h
    · cases h; exact hs

theorem read_real (s : St S) (x : Bytes) (hi : Inv P8 s) (s' : St S) (h : read env s x = .ok s') : Inv P8 s' := by
  unfold read at h
  split_ifs at h
  exact loop_real _ _ _ _ hi (by simp) s' h

theorem read_crash (s : St S) (x : Bytes) (hi : Inv P8 s) (hx : x ≠ []) (h : read env s x = .crash) (y : UInt8) :
    read env s (x ++ [y]) ≠ .crash := by
  unfold read at h ⊢
  rw [if_neg hx] at h
  rw [if_neg (by simp)]
  unfold Machine.run at h ⊢
  exact loop_crash _ s x false hi (by simp) (Nat.lt_succ_self _) h y _ (by rw [List.length_append]; simp; omega)

end Control
end Nghttp3
