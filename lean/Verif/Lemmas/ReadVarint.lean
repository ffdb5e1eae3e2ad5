import Verif.Lemmas.Varint

namespace Nghttp3

/-- Result of presenting successive chunks of a stream to `nghttp3_read_varint` the way the callers
do (nghttp3_conn.c:494, 649, 1239): stop at the first call that completes the integer. -/
inductive FeedRes where
  | done (value : Nat) (rest : List UInt8)
  | more (st : RVInt)
  | err
  | abort
deriving DecidableEq, Repr

/-- Feed chunks without fin. -/
def feedChunks (rv : RVInt) : List (List UInt8) → FeedRes
  | [] => .more rv
  | c :: cs =>
    match readVarint rv c false with
    | .read n st => if st.left = 0 then .done st.acc (c.drop n ++ cs.flatten) else feedChunks st cs
    | .err => .err
    | .abort => .abort

/-- accumulated value of a proper prefix of an encoding -/
def preVal (pre : List UInt8) : Nat := beVal (andHead 0x3f pre)

theorem preVal_append (b : UInt8) (t x : List UInt8) :
    preVal (b :: t ++ x) = preVal (b :: t) * 256 ^ x.length + beVal x := by
  unfold preVal
  rw [List.cons_append, andHead, andHead, ← List.cons_append, beVal_append]

/-- state after the non-empty proper prefix `pre` of an integer with `k` bytes missing -/
def preState (pre : List UInt8) (k : Nat) : RVInt := { acc := preVal pre * 256 ^ k, left := k }

theorem readVarint_resume (b : UInt8) (t : List UInt8) (k : Nat) (hk : 0 < k) (c : List UInt8)
    (hc : c ≠ []) (fin : Bool) :
    readVarint (preState (b :: t) k) c fin =
      if k ≤ c.length then .read k { acc := preVal (b :: t ++ c.take k), left := 0 }
      else if fin then .err
      else .read c.length (preState (b :: t ++ c) (k - c.length)) := by
  cases c with
  | nil => exact absurd rfl hc
  | cons x xs =>
    unfold readVarint preState
    dsimp only
    rw [if_neg (by omega)]
    generalize hC : x :: xs = c
    by_cases h : k ≤ c.length
    · have hm : min k c.length = k := by omega
      have hlen : (c.take k).length = k := by rw [List.length_take]; exact hm
      rw [hm, if_pos (by omega), if_pos h, preVal_append, hlen]
      simp
    · have hm : min k c.length = c.length := by omega
      rw [hm, if_neg (by omega), if_neg h, List.take_length]
      cases fin
      · simp only [Bool.false_eq_true, if_false]
        rw [preVal_append]
        congr 2
        have : k = c.length + (k - c.length) := by omega
        conv => lhs; rw [this]
        rw [Nat.pow_add]
        simp only [Nat.add_sub_cancel_left]
        ring
      · simp

theorem readVarint_start (b : UInt8) (t : List UInt8) (fin : Bool) :
    readVarint {} (b :: t) fin =
      if getVarintLen b ≤ (b :: t).length then
        .read (getVarintLen b) { acc := preVal ((b :: t).take (getVarintLen b)), left := 0 }
      else if fin then .err
      else .read (b :: t).length (preState (b :: t) (getVarintLen b - (b :: t).length)) := by
  unfold readVarint
  dsimp only
  rw [if_pos rfl, if_neg (by simp)]
  by_cases h : getVarintLen b ≤ (b :: t).length
  · rw [if_pos (by omega), getVarint_cons, if_neg (by omega), if_pos h]
    rfl
  · rw [if_neg (by omega), if_neg h]
    have hm : min (getVarintLen b) (b :: t).length = (b :: t).length := by omega
    rw [hm, List.take_length]
    rfl

theorem feed_resume (chunks : List (List UInt8)) :
    ∀ (b : UInt8) (t suf : List UInt8) (rest : List UInt8), suf ≠ [] →
      (∀ c ∈ chunks, c ≠ []) → chunks.flatten = suf ++ rest →
      feedChunks (preState (b :: t) suf.length) chunks = .done (preVal (b :: t ++ suf)) rest := by
  induction chunks with
  | nil => intro b t suf rest hs _ hf; simp at hf; exact absurd hf.1 hs
  | cons c cs ih =>
    intro b t suf rest hs hne hf
    have hc : c ≠ [] := hne c (by simp)
    have hpos : 0 < suf.length := List.length_pos_iff.2 hs
    rw [feedChunks, readVarint_resume b t suf.length hpos c hc false]
    by_cases h : suf.length ≤ c.length
    · rw [if_pos h]
      simp only [if_true]
      have hf' := hf
      rw [List.flatten_cons] at hf'
      have hsplit : c = suf ++ c.drop suf.length := by
        have h1 : (c ++ cs.flatten).take suf.length = suf := by rw [hf']; simp
        rw [List.take_append_of_le_length h] at h1
        conv => lhs; rw [← List.take_append_drop suf.length c]
        rw [h1]
      have htake : c.take suf.length = suf := by
        conv => lhs; rw [hsplit]
        simp
      rw [htake]
      congr 1
      rw [hsplit] at hf'
      rw [List.append_assoc] at hf'
      exact List.append_cancel_left hf'
    · rw [if_neg h]
      simp only [Bool.false_eq_true, if_false, preState]
      rw [if_neg (by omega)]
      rw [List.flatten_cons] at hf
      have hsplit : suf = c ++ suf.drop c.length := by
        have h1 : (suf ++ rest).take c.length = c := by rw [← hf]; simp
        rw [List.take_append_of_le_length (by omega)] at h1
        conv => lhs; rw [← List.take_append_drop c.length suf]
        rw [h1]
      have hs' : suf.drop c.length ≠ [] := by
        intro h0
        have := congrArg List.length h0
        simp at this; omega
      have hl : suf.length - c.length = (suf.drop c.length).length := by simp
      have := ih b (t ++ c) (suf.drop c.length) rest hs' (fun x hx => hne x (by simp [hx]))
        (by
          rw [hsplit, List.append_assoc] at hf
          exact List.append_cancel_left hf)
      rw [preState] at this
      rw [List.cons_append, hl, this]
      congr 1
      conv => rhs; rw [hsplit]
      simp

theorem preVal_of_isVarint {n : Nat} {bs : List UInt8} (h : Spec.IsVarint n bs) :
    ∃ b t, bs = b :: t ∧ getVarintLen b = bs.length ∧ preVal bs = n := by
  have hg := getVarint_of_isVarint h []
  obtain ⟨e, he, hl, hn, hv⟩ := h
  cases bs with
  | nil => simp at hl; exact absurd hl (by have := Nat.pow_pos (a := 2) (n := e) (by decide); omega)
  | cons b t =>
    rw [List.append_nil, getVarint_cons] at hg
    split at hg
    · simp at hg
    · simp only [Option.some.injEq, Prod.mk.injEq] at hg
      obtain ⟨h1, h2⟩ := hg
      rename_i hnl
      have hlen : getVarintLen b = (b :: t).length := by
        have := congrArg List.length h2
        rw [List.length_drop, List.length_nil] at this
        omega
      refine ⟨b, t, rfl, hlen, ?_⟩
      rw [hlen, List.take_length] at h1
      exact h1

theorem feed_start {n : Nat} {bs rest : List UInt8} (h : Spec.IsVarint n bs)
    (chunks : List (List UInt8)) (hne : ∀ c ∈ chunks, c ≠ []) (hf : chunks.flatten = bs ++ rest) :
    feedChunks {} chunks = .done n rest := by
  obtain ⟨b, t, rfl, hlen, hval⟩ := preVal_of_isVarint h
  cases chunks with
  | nil => simp at hf
  | cons c cs =>
    have hc := hne c (by simp)
    cases c with
    | nil => exact absurd rfl hc
    | cons x xs =>
      have hx : x = b := by
        simp at hf; exact hf.1
      subst hx
      rw [feedChunks, readVarint_start, hlen]
      rw [List.flatten_cons] at hf
      by_cases hle : (x :: t).length ≤ (x :: xs).length
      · rw [if_pos hle]
        simp only [if_true]
        have h1 : (x :: xs) = (x :: t) ++ (x :: xs).drop (x :: t).length := by
          have h2 : ((x :: xs) ++ cs.flatten).take (x :: t).length = (x :: t) := by rw [hf]; simp
          rw [List.take_append_of_le_length hle] at h2
          conv => lhs; rw [← List.take_append_drop (x :: t).length (x :: xs)]
          rw [h2]
        have h3 : (x :: xs).take (x :: t).length = x :: t := by
          conv => lhs; rw [h1]
          rw [List.take_left]
        rw [h3, hval]
        congr 1
        rw [h1, List.append_assoc] at hf
        exact List.append_cancel_left hf
      · rw [if_neg hle]
        simp only [Bool.false_eq_true, if_false]
        have h1 : (x :: t) = (x :: xs) ++ (x :: t).drop (x :: xs).length := by
          have h2 : ((x :: t) ++ rest).take (x :: xs).length = (x :: xs) := by rw [← hf]; simp
          rw [List.take_append_of_le_length (by omega)] at h2
          conv => lhs; rw [← List.take_append_drop (x :: xs).length (x :: t)]
          rw [h2]
        have hs' : (x :: t).drop (x :: xs).length ≠ [] := by
          intro h0
          have := congrArg List.length h0
          rw [List.length_drop, List.length_nil] at this
          omega
        have hl : (x :: t).length - (x :: xs).length = ((x :: t).drop (x :: xs).length).length := by
          rw [List.length_drop]
        have := feed_resume cs x xs _ rest hs' (fun y hy => hne y (by simp [hy])) (by
          rw [h1, List.append_assoc] at hf
          exact List.append_cancel_left hf)
        rw [if_neg (by rw [preState]; dsimp only; omega), hl, this, ← h1, hval]

end Nghttp3
