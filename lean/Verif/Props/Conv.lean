import Verif.Lemmas.ReadVarint

/-! Property theorems C01, C02, C44. -/

namespace Nghttp3.Props

/-- C01.  Writing any `n < 2^62` yields an RFC 9000 encoding of `n`, of exactly the announced length
and no longer than any other encoding of `n`; the length announced by the first byte is that length;
reading it back in front of arbitrary data returns `n` and consumes exactly the encoding. -/
theorem C01_varint_round_trip (n : Nat) (h : n < 2 ^ 62) :
    Spec.IsVarint n (putVarint n) ∧
    (putVarint n).length = putVarintLen n ∧
    (∀ bs, Spec.IsVarint n bs → (putVarint n).length ≤ bs.length) ∧
    (∀ b t, putVarint n = b :: t → getVarintLen b = putVarintLen n) ∧
    (∀ rest, getVarint (putVarint n ++ rest) = some (n, rest)) := by
  refine ⟨putVarint_isVarint n h, putVarint_length n, ?_, ?_, getVarint_putVarint n h⟩
  · rintro bs ⟨e, he, hl, hn, -⟩
    rw [putVarint_length, hl]
    unfold putVarintLen
    have : e = 0 ∨ e = 1 ∨ e = 2 ∨ e = 3 := by omega
    rcases this with rfl | rfl | rfl | rfl <;> norm_num at hn ⊢ <;> split_ifs <;> omega
  · intro b t hb
    obtain ⟨b', t', h1, h2, -⟩ := preVal_of_isVarint (putVarint_isVarint n h)
    rw [hb] at h1
    obtain ⟨rfl, rfl⟩ := List.cons.inj h1
    rw [h2, putVarint_length]

/-- C01 (reader side).  The reader accepts exactly the RFC 9000 encodings: what it returns is the
value denoted by the bytes it consumed. -/
theorem C01_varint_reader_exact (p : List UInt8) (n : Nat) (rest : List UInt8) :
    getVarint p = some (n, rest) ↔ ∃ bs, p = bs ++ rest ∧ Spec.IsVarint n bs := by
  constructor
  · exact getVarint_isVarint
  · rintro ⟨bs, rfl, h⟩
    exact getVarint_of_isVarint h rest

example : putVarint 15293 = [0x7b, 0xbd] := by decide
example : getVarint [0x9d, 0x7f, 0x3e, 0x7d, 0x55] = some (494878333, [0x55]) := by decide

/-- C02.  An integer split into arbitrary non-empty chunks is read to the same value, leaving the same
bytes unread, as from one contiguous buffer (and the reader's assertions never fail). -/
theorem C02_read_varint_chunking (n : Nat) (bs rest : List UInt8) (h : Spec.IsVarint n bs)
    (chunks : List (List UInt8)) (hne : ∀ c ∈ chunks, c ≠ []) (hf : chunks.flatten = bs ++ rest) :
    feedChunks {} chunks = .done n rest :=
  feed_start h chunks hne hf

/-- C02.  If the stream (or frame) ends inside an integer, the call that carries the end reports an
error: for every proper prefix `pre ++ last` of an encoding, whatever was consumed before. -/
theorem C02_truncated_is_error (n : Nat) (bs pre last suf : List UInt8) (h : Spec.IsVarint n bs)
    (hbs : bs = pre ++ last ++ suf) (hl : last ≠ []) (hs : suf ≠ []) :
    (pre = [] → readVarint {} last true = .err) ∧
    (pre ≠ [] → ∀ st, feedChunks {} [pre] = .more st → readVarint st last true = .err) := by
  obtain ⟨b, t, hbt, hlen, -⟩ := preVal_of_isVarint h
  have hslen : 0 < suf.length := List.length_pos_iff.2 hs
  constructor
  · rintro rfl
    cases last with
    | nil => exact absurd rfl hl
    | cons x xs =>
      have hx : x = b := by rw [hbs] at hbt; simp at hbt; exact hbt.1
      subst hx
      rw [readVarint_start, if_neg, if_pos rfl]
      rw [hlen, hbs]; simp; omega
  · intro hp st hst
    cases pre with
    | nil => exact absurd rfl hp
    | cons x xs =>
      have hx : x = b := by rw [hbs] at hbt; simp at hbt; exact hbt.1
      subst hx
      have hlt : (x :: xs).length < getVarintLen x := by
        rw [hlen, hbs]; simp; omega
      rw [feedChunks, readVarint_start, if_neg (by omega)] at hst
      simp only [Bool.false_eq_true, if_false, preState] at hst
      rw [if_neg (by omega)] at hst
      simp only [feedChunks, FeedRes.more.injEq] at hst
      rw [← hst]
      have := readVarint_resume x xs (getVarintLen x - (x :: xs).length) (by omega) last hl true
      rw [preState] at this
      rw [this, if_neg, if_pos rfl]
      rw [hlen, hbs]; simp; omega

example : feedChunks {} [[0x9d], [0x7f, 0x3e], [0x7d, 0x55]] = .done 494878333 [0x55] := by decide
example : readVarint {} [0x9d, 0x7f] true = .err := by decide

/-- C44.  The length of a scatter list is the exact sum or is refused; it is refused only when the
sum exceeds 2^62-1. -/
theorem C44_vec_len_varint (lens : List Nat) :
    vecLenVarint lens = if lens.sum ≤ 2 ^ 62 - 1 then some lens.sum else none := by
  have key : ∀ (l : List Nat) (r : Nat), r ≤ MAX_VARINT →
      vecLenVarintGo r l = if r + l.sum ≤ MAX_VARINT then some (r + l.sum) else none := by
    intro l
    induction l with
    | nil => intro r hr; simp [vecLenVarintGo, hr]
    | cons a t ih =>
      intro r hr
      rw [vecLenVarintGo, List.sum_cons]
      split_ifs with h1 h2 h2
      · omega
      · rfl
      · rw [ih _ (by omega), if_pos (by omega), Nat.add_assoc]
      · rw [ih _ (by omega), if_neg (by omega)]
  have := key lens 0 (by decide)
  simpa [vecLenVarint, MAX_VARINT] using this

/-- C44.  When the lengths fit, the unchecked sum used elsewhere does not wrap. -/
theorem C44_vec_len_exact (lens : List Nat) (h : lens.sum ≤ 2 ^ 62 - 1) : vecLen lens = lens.sum := by
  have key : ∀ (l : List Nat) (r : Nat), r + l.sum < 2 ^ 64 →
      l.foldl (fun r l => (r + l) % 2 ^ 64) r = r + l.sum := by
    intro l
    induction l with
    | nil => intro r _; simp
    | cons a t ih =>
      intro r hr
      rw [List.sum_cons] at hr
      rw [List.foldl_cons, Nat.mod_eq_of_lt (by omega), ih _ (by omega), List.sum_cons, Nat.add_assoc]
  have := key lens 0 (by omega)
  simpa [vecLen] using this

example : vecLenVarint [2 ^ 62 - 2, 1] = some (2 ^ 62 - 1) := by decide
example : vecLenVarint [2 ^ 62 - 2, 2] = none := by decide

end Nghttp3.Props
