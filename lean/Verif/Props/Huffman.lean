import Verif.Lemmas.Huffman

/-! Property theorems C09, C10, C11. -/
namespace Nghttp3
namespace Huff
open Spec.Huff

/-- feed chunks one after the other, the last one with `fin`; `none` as soon as a call fails -/
def decodeChunks : Nat → List (List UInt8) → Option (List UInt8)
  | ctx, [] => (decode ctx [] true).2
  | ctx, [c] => (decode ctx c true).2
  | ctx, c :: d :: r =>
    match decode ctx c false with
    | (_, none) => none
    | (ctx', some o) => (decodeChunks ctx' (d :: r)).map (o ++ ·)

theorem decGo_append (a b : List UInt8) (st : Nat) :
    decGo (a ++ b) st = ((decGo b (decGo a st).1).1, (decGo a st).2 ++ (decGo b (decGo a st).1).2) := by
  induction a generalizing st with
  | nil => rfl
  | cons c t ih => simp only [List.cons_append, decGo, ih, List.append_assoc]

theorem pad_pending (l : List Bool) : ∃ k < 8, pad l = l ++ List.replicate k true :=
  ⟨_, by omega, rfl⟩

theorem isEncoding_iff {e s : List UInt8} :
    IsEncoding e s ↔ ∃ k < 8, bitsOf e = codeBits s ++ List.replicate k true := by
  constructor
  · intro h
    obtain ⟨k, hk, hp⟩ := pad_pending (codeBits s)
    exact ⟨k, hk, by rw [← hp]; exact h⟩
  · rintro ⟨k, hk, h⟩
    have hl := congrArg List.length h
    simp at hl
    unfold IsEncoding pad
    rw [h]
    congr 2
    omega

theorem decode_iff (e s : List UInt8) : (decode ctxInit e true).2 = some s ↔ IsEncoding e s := by
  have hst := decGo_step (src := e) St_init
  rw [List.nil_append, List.nil_append] at hst
  rw [isEncoding_iff]
  unfold decode
  dsimp only
  constructor
  · intro h
    split_ifs at h with hacc
    simp only [true_and] at hacc
    injection h with h
    rw [h] at hst
    cases hst with
    | live hn hb ha =>
      obtain ⟨k, hk, hp⟩ := ha.1 hacc
      exact ⟨k, hk, by rw [hb, hp]⟩
    | failed hs r hb => rw [hs] at hacc; exact absurd (by decide) hacc
  · rintro ⟨k, hk, h⟩
    have h257 : ∀ (l : List UInt8), ∀ x ∈ l.map (·.toNat), x < 257 := fun l x hx => by
      have := sym_lt x hx; omega
    cases hst with
    | live hn hb ha =>
      rw [hb, codeBits_eq, codeBits_eq] at h
      obtain ⟨h1, h2⟩ := dec_unique (h257 _) (h257 _) (path_pending hn) (pending_ones (by omega)) h
      have hacc := ha.2 ⟨k, hk, h2⟩
      rw [if_neg (fun hc => hacc hc.2)]
      congr 1
      exact (List.map_inj_right (fun a b hab => UInt8.toNat_inj.1 hab)).1 h1
    | failed hs r hb =>
      exfalso
      rw [hb, codeBits_eq, codeBits_eq, ← List.append_assoc] at h
      have e1 : wordBits ((decGo e ctxInit).2.map (·.toNat)) ++ codeWord 256 =
          wordBits ((decGo e ctxInit).2.map (·.toNat) ++ [256]) := by
        rw [wordBits_append]; simp [wordBits]
      rw [e1] at h
      obtain ⟨c, hc⟩ := dec_prefix (h257 s) (fun x hx => by
        rcases List.mem_append.1 hx with hx | hx
        · exact h257 _ x hx
        · simp at hx; omega) (pending_ones (k := k) (by omega)) h.symm
      have : 256 ∈ s.map (·.toNat) := by rw [hc]; simp
      have := sym_lt 256 this
      omega

theorem decGo_len (src : List UInt8) (st : Nat) : (decGo src st).2.length ≤ 2 * src.length := by
  induction src generalizing st with
  | nil => simp [decGo]
  | cons c t ih =>
    simp only [decGo, List.length_append, List.length_cons]
    have h := ih (nibble (nibble st (c.toNat >>> 4)).1 (c.toNat &&& 0xf)).1
    have hn : ∀ st x, (nibble st x).2.length ≤ 1 := by
      intro st x; unfold nibble; dsimp only; split_ifs <;> simp
    have h1 := hn st (c.toNat >>> 4)
    have h2 := hn (nibble st (c.toNat >>> 4)).1 (c.toNat &&& 0xf)
    omega

theorem decGo_failed (src : List UInt8) : (decGo src 0x100) = (0x100, []) := by
  induction src with
  | nil => rfl
  | cons c t ih =>
    have hn : ∀ x < 16, nibble 0x100 x = (0x100, []) := by
      intro x hx
      have := entry_fail hx
      unfold nibble; dsimp only; rw [this]; rfl
    simp only [decGo]
    rw [hn _ (by rw [Nat.shiftRight_eq_div_pow]; have := c.toNat_lt; omega)]
    dsimp only
    rw [hn _ (by rw [show (0xf : Nat) = 2 ^ 4 - 1 from rfl, Nat.and_two_pow_sub_one_eq_mod]; omega)]
    dsimp only
    rw [ih]; rfl

theorem foldl_bits (l : List UInt8) (n : Nat) :
    l.foldl (fun nbits b => nbits + (sym b.toNat).1) n = n + (codeBits l).length := by
  induction l generalizing n with
  | nil => rfl
  | cons b t ih =>
    rw [List.foldl_cons, ih]
    have : codeBits (b :: t) = codeWord b.toNat ++ codeBits t := rfl
    rw [this, List.length_append, codeWord_length]; omega

end Huff

namespace Props
open Huff Spec.Huff

/-- C09.  Decoding (in one call, with `fin`) the Huffman encoding of any byte string gives that byte string. -/
theorem C09_huffman_lossless (s : List UInt8) : (decode ctxInit (encode s) true).2 = some s :=
  (decode_iff _ _).2 (encode_isEncoding s)

/-- C09.  What the encoder writes is the concatenation of the code words padded with ones. -/
theorem C09_encoder_writes_the_code (s : List UInt8) : bitsOf (encode s) = pad (codeBits s) :=
  encode_isEncoding s

/-- C10.  The number of bytes written is the number the length function predicts. -/
theorem C10_encode_count_exact (s : List UInt8) : (encode s).length = encodeCount s := by
  have h := congrArg List.length (encode_isEncoding s)
  unfold pad at h
  simp at h
  unfold encodeCount
  rw [foldl_bits]
  omega

/-- C10.  From any state the decoder writes at most two bytes per input byte (the size of the buffer the QPACK
decoder allocates). -/
theorem C10_decode_output_bounded (ctx : Nat) (src : List UInt8) (fin : Bool) (out : List UInt8)
    (h : (decode ctx src fin).2 = some out) : out.length ≤ 2 * src.length := by
  unfold decode at h
  dsimp only at h
  split_ifs at h
  injection h with h
  rw [← h]
  exact decGo_len src ctx

/-- C11.  The decoder accepts a complete input, giving `s`, exactly when the input is the encoding of `s`. -/
theorem C11_accepts_exactly_encodings (e s : List UInt8) :
    (decode ctxInit e true).2 = some s ↔ bitsOf e = pad (codeBits s) :=
  decode_iff e s

/-- C11.  In particular an accepted input is the very byte string the encoder produces. -/
theorem C11_accepted_is_canonical (e s : List UInt8) (h : (decode ctxInit e true).2 = some s) : e = encode s :=
  bitsOf_inj (((decode_iff e s).1 h).trans (encode_isEncoding s).symm)

/-- C11.  Feeding the input in any pieces gives the same output and verdict as feeding it whole. -/
theorem C11_chunking (ctx : Nat) (chunks : List (List UInt8)) :
    decodeChunks ctx chunks = (decode ctx chunks.flatten true).2 := by
  induction chunks generalizing ctx with
  | nil => rfl
  | cons c r ih =>
    cases r with
    | nil => simp [decodeChunks]
    | cons d r =>
      unfold decodeChunks
      simp only [decode, Bool.false_eq_true, false_and, if_false]
      rw [ih, List.flatten_cons (l := c)]
      generalize (d :: r).flatten = x
      simp only [decode, decGo_append, true_and]
      split_ifs <;> simp

/-- C11.  The failure state, which the QPACK decoder checks after each piece, is reported exactly when no
continuation of the input read so far can be a Huffman encoding. -/
theorem C11_failure_state_iff_doomed (a : List UInt8) :
    failureState (decode ctxInit a false).1 = true ↔ ∀ b s, ¬ bitsOf (a ++ b) = pad (codeBits s) := by
  have hfs : failureState (decode ctxInit a false).1 = true ↔ (decGo a ctxInit).1 = 0x100 := by
    simp [failureState, decode]
  rw [hfs]
  constructor
  · intro h b s hb
    have := (decode_iff (a ++ b) s).2 hb
    unfold decode at this
    rw [decGo_append, h, decGo_failed] at this
    exact absurd this (by simp [ACCEPTED])
  · intro h
    have hst := decGo_step (src := a) St_init
    rw [List.nil_append, List.nil_append] at hst
    cases hst with
    | failed hs _ _ => exact hs
    | live hn hb ha =>
      exfalso
      obtain ⟨s, hs, ⟨r, hr⟩, _, _⟩ := path_ext hn
      -- finish the pending code word and pad
      have hcode : bitsOf a ++ r = codeBits ((decGo a ctxInit).2 ++ [UInt8.ofNat s]) := by
        rw [hb, List.append_assoc, hr, codeBits_append]
        congr 1
        have : (UInt8.ofNat s).toNat = s := by rw [UInt8.toNat_ofNat']; exact Nat.mod_eq_of_lt hs
        simp [codeBits, this]
      obtain ⟨k, hk, hp⟩ := pad_pending (codeBits ((decGo a ctxInit).2 ++ [UInt8.ofNat s]))
      have hlen : (pad (codeBits ((decGo a ctxInit).2 ++ [UInt8.ofNat s]))).length % 8 = 0 := by
        unfold pad; simp; omega
      have hl2 : (r ++ List.replicate k true).length % 8 = 0 := by
        rw [hp, ← hcode] at hlen
        simp at hlen ⊢
        omega
      obtain ⟨b, hb2⟩ := exists_bytes ((r ++ List.replicate k true).length / 8) (r ++ List.replicate k true) (by omega)
      refine h b ((decGo a ctxInit).2 ++ [UInt8.ofNat s]) ?_
      rw [bitsOf_append, hb2, ← List.append_assoc, hcode, hp]

/-- a non-trivial string: its encoding, and a rejected over-long padding -/
example : encode [0x77, 0x77, 0x77, 0x2e, 0x61] = [0xf1, 0xe3, 0xc2, 0xe3] ∧
    (decode ctxInit [0xf1, 0xe3, 0xc2, 0xe3] true).2 = some [0x77, 0x77, 0x77, 0x2e, 0x61] ∧
    (decode ctxInit [0xf1, 0xe3, 0xc2, 0xe3, 0xff] true).2 = none := by
  decide +kernel

end Props
end Nghttp3
