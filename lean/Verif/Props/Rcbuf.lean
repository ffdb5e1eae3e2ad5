import Verif.Model.Rcbuf
/-! Property theorems C38: reference-counted buffers. -/
namespace Nghttp3

/-- what the code that holds references to buffers can do -/
inductive RcOp where
  /-- a new buffer; its creator owns one reference -/
  | new
  /-- an owner of buffer `i` takes another reference -/
  | inc (i : Nat)
  /-- an owner of buffer `i` gives up a reference -/
  | dec (i : Nat)

/-- all buffers, each with the number of references its owners hold; `frees`: the log of deallocations; buffers `< statics` are
static -/
structure RcSys where
  bufs : List (RcBuf × Nat)
  frees : List Nat := []

/-- `n` static buffers, to which one reference is held forever -/
def RcSys.init (n : Nat) : RcSys := { bufs := List.replicate n (RcBuf.static, 1) }

/-- is the operation one that an owner may do: someone holds a reference; and there are fewer than 2^31 - 1 of them -/
def RcSys.legal (s : RcSys) (statics : Nat) : RcOp → Prop
  | .new => True
  | .inc i => ∃ b n, s.bufs[i]? = some (b, n) ∧ 0 < n ∧ n < 2 ^ 31 - 1
  | .dec i => ∃ b n, s.bufs[i]? = some (b, n) ∧ 0 < n ∧ (i < statics → 1 < n)

def RcSys.step (s : RcSys) : RcOp → Option RcSys
  | .new => some { s with bufs := s.bufs ++ [(RcBuf.new, 1)] }
  | .inc i =>
    match s.bufs[i]? with
    | none => none
    | some (b, n) =>
      match b.incref with
      | .crash => none
      | .ok b' => some { s with bufs := s.bufs.set i (b', n + 1) }
  | .dec i =>
    match s.bufs[i]? with
    | none => none
    | some (b, n) =>
      match b.decref with
      | .crash => none
      | .ok b' => some { bufs := s.bufs.set i (b', n - 1), frees := if b' = .freed then s.frees ++ [i] else s.frees }

/-- histories in which owners keep to the rules -/
inductive RcSys.Reach (statics : Nat) : RcSys → Prop
  | init : Reach statics (RcSys.init statics)
  | step {s s' : RcSys} {o : RcOp} (h : Reach statics s) (hl : s.legal statics o) (hs : s.step o = some s') : Reach statics s'

structure RcOk (statics : Nat) (s : RcSys) : Prop where
  buf : ∀ i b n, s.bufs[i]? = some (b, n) →
    if i < statics then b = .live (-1) ∧ 0 < n ∧ i ∉ s.frees
    else (n = 0 ∧ b = .freed ∧ s.frees.count i = 1) ∨ (0 < n ∧ n ≤ 2 ^ 31 - 1 ∧ b = .live n ∧ i ∉ s.frees)
  new : ∀ i, s.bufs.length ≤ i → i ∉ s.frees
  len : statics ≤ s.bufs.length

theorem rc_init (n : Nat) : RcOk n (RcSys.init n) := by
  refine ⟨fun i b k h => ?_, by simp [RcSys.init], by simp [RcSys.init]⟩
  unfold RcSys.init at h
  dsimp only at h
  rw [List.getElem?_replicate] at h
  by_cases hi : i < n
  · rw [if_pos hi] at h ⊢
    cases h
    exact ⟨rfl, by omega, by simp [RcSys.init]⟩
  · rw [if_neg hi] at h; cases h

theorem rc_step {n : Nat} {s : RcSys} (h : RcOk n s) (o : RcOp) (hl : s.legal n o) : ∃ s', s.step o = some s' ∧ RcOk n s' := by
  cases o with
  | new =>
    refine ⟨_, rfl, ⟨fun i b k hb => ?_, fun i hi => h.new i ?_, ?_⟩⟩
    · dsimp only at hb ⊢
      rw [List.getElem?_append] at hb
      by_cases hi : i < s.bufs.length
      · rw [if_pos hi] at hb; exact h.buf i b k hb
      · rw [if_neg hi] at hb
        have h0 : i = s.bufs.length := by
          by_cases h0 : i - s.bufs.length = 0
          · omega
          · rw [List.getElem?_eq_none (by simp; omega)] at hb; cases hb
        subst h0
        simp at hb
        obtain ⟨rfl, rfl⟩ := hb
        rw [if_neg (by have := h.len; omega)]
        exact Or.inr ⟨by omega, by decide, rfl, h.new _ (Nat.le_refl _)⟩
    · simp at hi; omega
    · simp; have := h.len; omega
  | inc i =>
    obtain ⟨b, k, h1, h2, h3⟩ := hl
    have hb := h.buf i b k h1
    have hlt := (List.getElem?_eq_some_iff.1 h1).1
    unfold RcSys.step
    dsimp only
    rw [h1]
    dsimp only
    by_cases hi : i < n
    · rw [if_pos hi] at hb
      obtain ⟨rfl, h4, h5⟩ := hb
      refine ⟨_, rfl, ⟨fun j c m hc => ?_, by simpa using h.new, by simpa using h.len⟩⟩
      dsimp only at hc ⊢
      by_cases hj : i = j
      · subst hj
        rw [List.getElem?_set_self hlt] at hc
        cases hc
        rw [if_pos hi]; exact ⟨rfl, by omega, h5⟩
      · rw [List.getElem?_set_ne hj] at hc; exact h.buf j c m hc
    · rw [if_neg hi] at hb
      rcases hb with hb | ⟨_, h5, rfl, h6⟩
      · omega
      · have e : RcBuf.incref (.live k) = .ok (.live (k + 1 : Nat)) := by
          unfold RcBuf.incref
          dsimp only
          rw [if_neg (by omega), if_neg (by omega)]
          congr 2
        rw [e]
        refine ⟨_, rfl, ⟨fun j c m hc => ?_, by simpa using h.new, by simpa using h.len⟩⟩
        dsimp only at hc ⊢
        by_cases hj : i = j
        · subst hj
          rw [List.getElem?_set_self hlt] at hc
          cases hc
          rw [if_neg hi]; exact Or.inr ⟨by omega, by omega, rfl, h6⟩
        · rw [List.getElem?_set_ne hj] at hc; exact h.buf j c m hc
  | dec i =>
    obtain ⟨b, k, h1, h2, h3⟩ := hl
    have hb := h.buf i b k h1
    have hlt := (List.getElem?_eq_some_iff.1 h1).1
    unfold RcSys.step
    dsimp only
    rw [h1]
    dsimp only
    by_cases hi : i < n
    · rw [if_pos hi] at hb
      obtain ⟨rfl, h4, h5⟩ := hb
      refine ⟨_, rfl, ⟨fun j c m hc => ?_, by simpa using h.new, by simpa using h.len⟩⟩
      dsimp only at hc ⊢
      rw [show (if RcBuf.live (-1) = RcBuf.freed then s.frees ++ [i] else s.frees) = s.frees from if_neg (by simp)]
      by_cases hj : i = j
      · subst hj
        rw [List.getElem?_set_self hlt] at hc
        cases hc
        rw [if_pos hi]; exact ⟨rfl, by have := h3 hi; omega, h5⟩
      · rw [List.getElem?_set_ne hj] at hc; exact h.buf j c m hc
    · rw [if_neg hi] at hb
      rcases hb with hb | ⟨_, h5, rfl, h6⟩
      · omega
      · by_cases hk : k = 1
        · subst hk
          refine ⟨_, rfl, ⟨fun j c m hc => ?_, fun j hj => ?_, by simpa using h.len⟩⟩
          · dsimp only at hc ⊢
            rw [show (if RcBuf.freed = RcBuf.freed then s.frees ++ [i] else s.frees) = s.frees ++ [i] from if_pos rfl]
            by_cases hj : i = j
            · subst hj
              rw [List.getElem?_set_self hlt] at hc
              cases hc
              rw [if_neg hi]
              refine Or.inl ⟨rfl, rfl, ?_⟩
              rw [List.count_append, List.count_eq_zero_of_not_mem h6]
              simp
            · rw [List.getElem?_set_ne hj] at hc
              have := h.buf j c m hc
              rw [List.count_append]
              simpa [Ne.symm hj, hj] using this
          · dsimp only
            rw [if_pos rfl]
            simp only [List.length_set] at hj
            simp only [List.mem_append, List.mem_singleton, not_or]
            exact ⟨h.new j hj, by omega⟩
        · have e : RcBuf.decref (.live k) = .ok (.live (k - 1 : Nat)) := by
            unfold RcBuf.decref
            dsimp only
            rw [if_neg (by omega), if_neg (by omega), if_neg (by omega)]
            congr 2
            omega
          rw [e]
          refine ⟨_, rfl, ⟨fun j c m hc => ?_, by simpa using h.new, by simpa using h.len⟩⟩
          dsimp only at hc ⊢
          rw [show (if RcBuf.live ((k - 1 : Nat) : Int) = RcBuf.freed then s.frees ++ [i] else s.frees) = s.frees from
            if_neg (by simp)]
          by_cases hj : i = j
          · subst hj
            rw [List.getElem?_set_self hlt] at hc
            cases hc
            rw [if_neg hi]; exact Or.inr ⟨by omega, by omega, rfl, h6⟩
          · rw [List.getElem?_set_ne hj] at hc; exact h.buf j c m hc

theorem rc_reach {n : Nat} {s : RcSys} (h : RcSys.Reach n s) : RcOk n s := by
  induction h with
  | init => exact rc_init n
  | step _ hl hs ih =>
    obtain ⟨s1, h1, h2⟩ := rc_step ih _ hl
    rw [hs] at h1; cases h1; exact h2

namespace Props

/-- C38.  As long as only owners act, no operation ever touches freed memory, fails an assertion or overflows the count. -/
theorem C38_no_use_after_free (n : Nat) (s : RcSys) (h : RcSys.Reach n s) (o : RcOp) (hl : s.legal n o) : s.step o ≠ none := by
  obtain ⟨s', h1, _⟩ := rc_step (rc_reach h) o hl
  rw [h1]; simp

/-- C38.  A buffer that is not static has been freed if and only if no references to it are held; it has been freed exactly once
then, and never while a reference is held. -/
theorem C38_freed_when_last_owner_lets_go (n : Nat) (s : RcSys) (h : RcSys.Reach n s) (i : Nat) (hi : n ≤ i) (b : RcBuf) (k : Nat)
    (hb : s.bufs[i]? = some (b, k)) : (k = 0 ↔ b = .freed) ∧ s.frees.count i = if k = 0 then 1 else 0 := by
  have := (rc_reach h).buf i b k hb
  rw [if_neg (by omega)] at this
  rcases this with ⟨h1, h2, h3⟩ | ⟨h1, h2, h3, h4⟩
  · simp [h1, h2, h3]
  · rw [List.count_eq_zero_of_not_mem h4, h3]
    have : k ≠ 0 := by omega
    simp [this]

/-- C38.  Static buffers are never freed. -/
theorem C38_static_never_freed (n : Nat) (s : RcSys) (h : RcSys.Reach n s) (i : Nat) (hi : i < n) :
    i ∉ s.frees ∧ ∃ k, s.bufs[i]? = some (.static, k) := by
  have hr := rc_reach h
  have hlt : i < s.bufs.length := Nat.lt_of_lt_of_le hi hr.len
  rcases hb : s.bufs[i] with ⟨b, k⟩
  have hb' : s.bufs[i]? = some (b, k) := by rw [List.getElem?_eq_getElem hlt, hb]
  have := hr.buf i b k hb'
  rw [if_pos hi] at this
  exact ⟨this.2.2, k, by rw [hb', this.1]; rfl⟩

/-- C38.  The limit on the number of references in the rules is needed: from a count of 2^31 - 1 on (the largest int32_t) one more reference
overflows, and below it none does. -/
theorem C38_limit (k : Nat) (hk : 0 < k) (hm : k ≤ 2147483647) : (RcBuf.live k).incref = .crash ↔ k = 2147483647 := by
  unfold RcBuf.incref
  dsimp only
  rw [if_neg (by omega)]
  by_cases h : (k : Int) = 2 ^ 31 - 1
  · rw [if_pos h]; exact ⟨fun _ => by omega, fun _ => rfl⟩
  · rw [if_neg h]; exact ⟨fun g => (by cases g), fun g => absurd (by rw [g]; rfl) h⟩

def rcRun (s : RcSys) : List RcOp → Option RcSys
  | [] => some s
  | o :: t => (s.step o).bind fun s' => rcRun s' t

/-- a history: buffer 1 gets two more owners and loses all three, buffer 2 keeps one, the static buffer 0 is shared -/
example : (rcRun (RcSys.init 1) [.new, .inc 1, .inc 0, .new, .inc 1, .dec 1, .dec 1, .dec 0, .dec 1, .inc 2, .dec 2]).map
    (fun s => (s.bufs, s.frees)) = some ([(.live (-1), 1), (.freed, 0), (.live 1, 1)], [1]) := by decide

end Props
end Nghttp3
