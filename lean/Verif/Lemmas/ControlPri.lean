import Verif.Lemmas.ControlFeed
/-! What the control stream reader tells the rest of the connection: identifiers of prioritized elements are below 2^62, priorities are the
default or come from the parser, and only a server is told any. -/
namespace Nghttp3

/-- the integer that is being read will be below 2^62 -/
def RvB (rv : RVInt) : Prop := (rv.left = 0 ∧ rv.acc = 0) ∨ (0 < rv.left ∧ rv.acc + 256 ^ rv.left ≤ 2 ^ 62)

theorem rvB_idle : RvB {} := .inl ⟨rfl, rfl⟩

theorem preVal_lt (b : UInt8) (t : List UInt8) : preVal (b :: t) + 1 ≤ 64 * 256 ^ t.length := by
  unfold preVal
  rw [beVal_andHead]
  have h1 := beVal_lt t
  have h2 : b.toNat % 64 < 64 := Nat.mod_lt _ (by decide)
  calc _ ≤ b.toNat % 64 * 256 ^ t.length + 256 ^ t.length := by omega
    _ = (b.toNat % 64 + 1) * 256 ^ t.length := by ring
    _ ≤ 64 * 256 ^ t.length := Nat.mul_le_mul_right _ h2

theorem vlen_le (b : UInt8) : getVarintLen b ≤ 8 := by
  unfold getVarintLen
  have : b.toNat >>> 6 ≤ 3 := by rw [Nat.shiftRight_eq_div_pow]; have := b.toNat_lt; omega
  rw [Nat.shiftLeft_eq, Nat.one_mul]
  exact Nat.pow_le_pow_right (by decide) this

theorem rd_bound (rv : RVInt) (x : List UInt8) (fin : Bool) (h : RvB rv) :
    match rd rv x fin with
    | .part rv' => RvB rv'
    | .done v _ => v < 2 ^ 62
    | _ => True := by
  rcases x with _ | ⟨b, t⟩
  · unfold rd readVarint; trivial
  rcases h with ⟨h1, h2⟩ | ⟨h1, h2⟩
  · obtain rfl : rv = {} := by cases rv; dsimp only at h1 h2; rw [h1, h2]
    rw [rd_start]
    have hv := vlen_le b
    have hp := getVarintLen_pos b
    by_cases hl : getVarintLen b ≤ (b :: t).length
    · rw [if_pos hl]
      dsimp only
      obtain ⟨m, hm⟩ : ∃ m, getVarintLen b = m + 1 := ⟨getVarintLen b - 1, by omega⟩
      rw [hm, List.take_succ_cons]
      have := preVal_lt b (t.take m)
      have h3 : 256 ^ (t.take m).length ≤ 256 ^ 7 := Nat.pow_le_pow_right (by decide) (by rw [List.length_take]; omega)
      omega
    · rw [if_neg hl]
      cases fin
      · rw [if_neg (by decide)]
        simp only [List.length_cons] at hl ⊢
        refine .inr ⟨by show 0 < getVarintLen b - (t.length + 1); omega, ?_⟩
        show preVal (b :: t) * 256 ^ (getVarintLen b - (t.length + 1)) + 256 ^ (getVarintLen b - (t.length + 1)) ≤ _
        have := preVal_lt b t
        calc _ = (preVal (b :: t) + 1) * 256 ^ (getVarintLen b - (t.length + 1)) := by ring
          _ ≤ 64 * 256 ^ t.length * 256 ^ (getVarintLen b - (t.length + 1)) := Nat.mul_le_mul_right _ this
          _ = 64 * 256 ^ (t.length + (getVarintLen b - (t.length + 1))) := by rw [Nat.pow_add]; ring
          _ ≤ 64 * 256 ^ 7 := Nat.mul_le_mul_left _ (Nat.pow_le_pow_right (by decide) (by omega))
          _ = 2 ^ 62 := by norm_num
      · trivial
  · unfold rd readVarint
    dsimp only
    rw [if_neg (by omega)]
    generalize b :: t = x
    have hb := beVal_lt (x.take (min rv.left x.length))
    have hl : (x.take (min rv.left x.length)).length = min rv.left x.length := by rw [List.length_take]; omega
    rw [hl] at hb
    have key : rv.acc + beVal (x.take (min rv.left x.length)) * 256 ^ (rv.left - min rv.left x.length) + 256 ^ (rv.left - min rv.left x.length) ≤ 2 ^ 62 := by
      have : (beVal (x.take (min rv.left x.length)) + 1) * 256 ^ (rv.left - min rv.left x.length) ≤ 256 ^ rv.left := by
        calc _ ≤ 256 ^ min rv.left x.length * 256 ^ (rv.left - min rv.left x.length) := Nat.mul_le_mul_right _ hb
          _ = 256 ^ rv.left := by rw [← Nat.pow_add]; congr 1; omega
      rw [Nat.add_mul, Nat.one_mul] at this
      omega
    by_cases h0 : rv.left - min rv.left x.length = 0
    · rw [if_pos h0]
      dsimp only
      rw [if_pos h0]
      dsimp only
      rw [h0] at key ⊢
      omega
    · rw [if_neg h0]
      cases fin
      · rw [if_neg (by decide)]
        dsimp only
        rw [if_neg h0]
        exact .inr ⟨by dsimp only; omega, key⟩
      · trivial

namespace Control

variable {S : Type} {env : Env S} {Q : Conn S → Prop}

/-- properties of the connection every step of the reader keeps; what is known of the arguments of `onPri` -/
structure StableP (env : Env S) (Q : Conn S → Prop) : Prop where
  recved : ∀ c, Q c → Q { c with settingsRecved := true }
  rep : ∀ c e, Q c → Q { c with ev := c.ev ++ [e] }
  entry : ∀ c i v c', Q c → onEntry c i v = .ok c' → Q c'
  goaway : ∀ c v, Q c → Q { c with goawayRecved := true, rxGoaway := v }
  push : ∀ c v, Q c → Q { c with maxPushes := v }
  ext : ∀ c e p x, Q c → c.server = true → e < 2 ^ 62 → (p = ⟨3, false⟩ ∨ ∃ f, env.parsePri f = some p) → env.onPri c.ext e p = .ok x → Q { c with ext := x }
  long : ∀ c, Q c → Q { c with long := true }

def SB (Q : Conn S → Prop) (s : St S) : Prop := Q s.conn ∧ s.elem < 2 ^ 62 ∧ RvB s.rv

def ResP (Q : Conn S → Prop) : Res S → Prop
  | .crash => True
  | .fail o => Q o.2
  | .stop _ _ => False
  | .cont s _ _ => SB Q s
  | .ret s => SB Q s

def OutP (Q : Conn S → Prop) : Machine.Out (St S) (Int × Conn S) → Prop
  | .crash => True
  | .fail o => Q o.2
  | .stop _ _ => False
  | .ok s => SB Q s

theorem report_prs (hQ : StableP env Q) (s : St S) (c : Conn S) (e : Ev) (rest : Bytes) (h : Q c) : ResP Q (report env s c e rest) := by
  unfold report
  dsimp only
  split_ifs
  · exact ⟨hQ.rep _ _ h, show (0 : Nat) < 2 ^ 62 by decide, rvB_idle⟩
  · exact hQ.rep _ _ h

theorem dispatch_prs (hQ : StableP env Q) (s : St S) (rest : Bytes) (h : SB Q s) : ResP Q (dispatch env s rest) := by
  unfold dispatch
  dsimp only
  split_ifs
  · exact report_prs hQ _ _ _ _ h.1
  all_goals first | exact h | exact h.1

theorem header_prs (hQ : StableP env Q) (s : St S) (rest : Bytes) (h : SB Q s) : ResP Q (header env s rest) := by
  unfold header
  split_ifs
  · exact h.1
  · exact dispatch_prs hQ _ _ ⟨hQ.recved _ h.1, h.2⟩
  · exact h.1
  · exact dispatch_prs hQ _ _ h

theorem inFrame_prs (s : St S) (x : Bytes) (k : Nat → St S → Bytes → Res S) (h : SB Q s)
    (hk : ∀ v s' r, v < 2 ^ 62 → s'.conn = s.conn → SB Q s' → ResP Q (k v s' r)) : ResP Q (inFrame s x k) := by
  unfold inFrame
  have hb := rd_bound s.rv (x.take s.left) (decide (s.left ≤ (x.take s.left).length)) h.2.2
  unfold rdl
  rcases he : rd s.rv (x.take s.left) (decide (s.left ≤ (x.take s.left).length)) with _ | _ | rv | ⟨v, n⟩ <;> rw [he] at hb
  · trivial
  · exact h.1
  · exact ⟨h.1, h.2.1, hb⟩
  · exact hk _ _ _ hb rfl ⟨h.1, h.2.1, rvB_idle⟩

theorem gotId_prs (v : Nat) (s : St S) (rest : Bytes) (h : SB Q s) : ResP Q (gotId v s rest) := by
  unfold gotId
  split_ifs
  · exact h.1
  · exact h

theorem gotVal_prs (hQ : StableP env Q) (v : Nat) (s : St S) (rest : Bytes) (h : SB Q s) : ResP Q (gotVal env v s rest) := by
  unfold gotVal
  rcases he : onEntry s.conn s.sid v with e | c
  · exact h.1
  · have hc := hQ.entry _ _ _ _ h.1 he
    dsimp only
    split_ifs
    · exact ⟨hc, h.2⟩
    · exact report_prs hQ _ _ _ _ hc

theorem gotGoaway_prs (hQ : StableP env Q) (v : Nat) (s : St S) (rest : Bytes) (h : SB Q s) : ResP Q (gotGoaway env v s rest) := by
  unfold gotGoaway
  split_ifs with h1 h2
  · exact h.1
  · exact h.1
  · exact report_prs hQ _ _ _ _ (hQ.goaway _ _ h.1)

theorem gotMaxPush_prs (hQ : StableP env Q) (v : Nat) (s : St S) (rest : Bytes) (h : SB Q s) : ResP Q (gotMaxPush v s rest) := by
  unfold gotMaxPush
  split_ifs with h1
  · exact h.1
  · exact ⟨hQ.push _ _ h.1, show (0 : Nat) < 2 ^ 62 by decide, rvB_idle⟩

theorem applyPri_prs (hQ : StableP env Q) (s : St S) (buf : Bytes) (p : Http.Pri) (rest : Bytes) (h : SB Q s) (hs : s.conn.server = true)
    (hp : p = ⟨3, false⟩ ∨ ∃ f, env.parsePri f = some p) : ResP Q (applyPri env s buf p rest) := by
  unfold applyPri
  rcases he : env.onPri s.conn.ext s.elem p with e | x
  · exact h.1
  · exact ⟨hQ.ext _ _ _ _ h.1 hs h.2.1 hp he, show (0 : Nat) < 2 ^ 62 by decide, rvB_idle⟩

theorem gotElem_prs (hQ : StableP env Q) (v : Nat) (s : St S) (rest : Bytes) (hv : v < 2 ^ 62) (h : SB Q s) (hs : s.conn.server = true) :
    ResP Q (gotElem env v s rest) := by
  unfold gotElem
  dsimp only
  split_ifs
  · exact applyPri_prs hQ { s with elem := v } _ _ _ ⟨h.1, hv, h.2.2⟩ hs (.inl rfl)
  · exact ⟨h.1, hv, h.2.2⟩

theorem gotField_prs (hQ : StableP env Q) (s : St S) (f rest : Bytes) (h : SB Q s) (hs : s.conn.server = true) : ResP Q (gotField env s f rest) := by
  unfold gotField
  rcases hp : env.parsePri f with _ | p
  · exact h.1
  · exact applyPri_prs hQ _ _ _ _ h hs (.inr ⟨f, hp⟩)

theorem priField_prs (hQ : StableP env Q) (s : St S) (x : Bytes) (h : SB Q s) (hs : s.conn.server = true) : ResP Q (priField env s x) := by
  unfold priField tooLong
  dsimp only
  split_ifs
  · trivial
  · exact ⟨hQ.long _ h.1, h.2⟩
  · exact gotField_prs hQ _ _ _ h hs
  · exact ⟨hQ.long _ h.1, h.2⟩
  · exact gotField_prs hQ _ _ _ h hs
  · exact h

theorem step_prs (hQ : StableP env Q) (s : St S) (x : Bytes) (hi : Inv P8 s) (h : SB Q s) : ResP Q (step env s x) := by
  have hb := rd_bound s.rv x false h.2.2
  have srv : s.st = .elemId ∨ s.st = .priField → s.conn.server = true := by
    intro g
    by_contra hc
    have := hi.role (by simpa using hc)
    rcases g with g | g <;> rw [g] at this <;> simp at this
  unfold step
  rcases hst : s.st with _ | _ | _ | _ | _ | _ | _ | _ | _ | _ <;> dsimp only
  · rcases he : rd s.rv x false with _ | _ | rv | ⟨v, n⟩ <;> rw [he] at hb
    · trivial
    · exact h.1
    · exact ⟨h.1, h.2.1, hb⟩
    · exact ⟨h.1, h.2.1, rvB_idle⟩
  · rcases he : rd s.rv x false with _ | _ | rv | ⟨v, n⟩ <;> rw [he] at hb
    · trivial
    · exact h.1
    · exact ⟨h.1, h.2.1, hb⟩
    · exact header_prs hQ _ _ ⟨h.1, h.2.1, rvB_idle⟩
  · split_ifs
    · exact report_prs hQ _ _ _ _ h.1
    · exact h
    · exact inFrame_prs _ _ _ h (fun v s' r _ _ hs => gotId_prs _ _ _ hs)
  · exact inFrame_prs _ _ _ h (fun v s' r _ _ hs => gotId_prs _ _ _ hs)
  · exact inFrame_prs _ _ _ h (fun v s' r _ _ hs => gotVal_prs hQ _ _ _ hs)
  · exact inFrame_prs _ _ _ h (fun v s' r _ _ hs => gotGoaway_prs hQ _ _ _ hs)
  · exact inFrame_prs _ _ _ h (fun v s' r _ _ hs => gotMaxPush_prs hQ _ _ _ hs)
  · exact inFrame_prs _ _ _ h (fun v s' r hv hc hs => gotElem_prs hQ _ _ _ hv hs (by rw [hc]; exact srv (.inl hst)))
  · exact priField_prs hQ _ _ h (srv (.inr hst))
  · unfold ignFrame
    dsimp only
    split_ifs
    · exact h
    · exact ⟨h.1, show (0 : Nat) < 2 ^ 62 by decide, rvB_idle⟩

theorem loop_prs (hQ : StableP env Q) (f : Nat) (s : St S) (x : Bytes) (b : Bool) (hi : Inv P8 s) (hb : b = true → vis s = true) (h : SB Q s) :
    OutP Q (Machine.loop (step env) f s x b) := by
  induction f generalizing s x b with
  | zero => trivial
  | succ f ih =>
    unfold Machine.loop
    by_cases h0 : x = [] ∧ b = false
    · rw [if_pos h0]; exact h
    rw [if_neg h0]
    have hx : x ≠ [] ∨ vis s = true := by
      by_cases hx : x = []
      · right; apply hb; cases b <;> simp_all
      · left; exact hx
    have := step_prs hQ s x hi h
    have hs := step_real (env := env) buf8 s x hi hx (fun _ h => h)
    rcases hr : step env s x with _ | o | ⟨o, r⟩ | ⟨s', r, b'⟩ | s' <;> rw [hr] at this hs
    · trivial
    · exact this
    · exact this.elim
    · exact ih _ _ _ hs.1 hs.2.1 this
    · exact this

theorem read_prs (hQ : StableP env Q) (s : St S) (x : Bytes) (hi : Inv P8 s) (h : SB Q s) : OutP Q (read env s x) := by
  unfold read
  split_ifs
  · trivial
  · exact loop_prs hQ _ _ _ _ hi (by simp) h

/-- a client's reader never fails an assertion -/
theorem loop_client8 (f : Nat) (s : St S) (x : Bytes) (b : Bool) (hi : Inv P8 s) (hb : b = true → vis s = true) (hc : s.conn.server = false)
    (hf : 8 * x.length + rank s < f) : Machine.loop (step env) f s x b ≠ .crash := by
  induction f generalizing s x b with
  | zero => omega
  | succ f ih =>
    unfold Machine.loop
    by_cases h0 : x = [] ∧ b = false
    · rw [if_pos h0]; simp
    rw [if_neg h0]
    have hx : x ≠ [] ∨ vis s = true := by
      by_cases hx : x = []
      · right; apply hb; cases b <;> simp_all
      · left; exact hx
    have := step_pres (stable_server (env := env) false) s x hc
    have hs := step_real (env := env) buf8 s x hi hx (fun _ h => h)
    rcases hr : step env s x with _ | o | ⟨o, r⟩ | ⟨s', r, b'⟩ | s' <;> rw [hr] at this hs
    · exact absurd hs.1 (hi.role hc).2.2
    · simp
    · exact this.elim
    · have h9 := hs.2.2.1
      exact ih _ _ _ hs.1 hs.2.1 this (by omega)
    · simp

theorem read_client8 (s : St S) (x : Bytes) (hi : Inv P8 s) (hx : x ≠ []) (hc : s.conn.server = false) : read env s x ≠ .crash := by
  unfold read
  rw [if_neg hx]
  unfold Machine.run
  exact loop_client8 _ _ _ _ hi (by simp) hc (Nat.lt_succ_self _)

end Control
end Nghttp3
