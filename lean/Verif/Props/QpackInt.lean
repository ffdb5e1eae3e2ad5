import Verif.Lemmas.QpackInt

/-! Property theorems C12: QPACK prefixed integers. -/
namespace Nghttp3
namespace QInt

/-- feed pieces one after the other to the reader; the state between calls is `(left, shift)`.  Empty pieces are
skipped, as every caller does. -/
def readChunks (pfx : Nat) : Nat → Nat → List (List UInt8) → RV
  | left, shift, [] => .part left shift
  | left, shift, [] :: cs => readChunks pfx left shift cs
  | left, shift, (b :: t) :: cs =>
    match readInt pfx left shift (b :: t) with
    | .part l s => readChunks pfx l s cs
    | .done l s r => .done l s (r ++ cs.flatten)
    | r => r

theorem readChunks_eq (pfx : Nat) (hp : 0 < pfx) (cs : List (List UInt8)) (left shift : Nat)
    (hs : left = 0 → shift = 0) (hne : cs.flatten ≠ []) :
    readChunks pfx left shift cs = readInt pfx left shift cs.flatten := by
  induction cs generalizing left shift with
  | nil => simp at hne
  | cons c cs ih =>
    cases c with
    | nil => simp only [readChunks]; rw [ih _ _ hs (by simpa using hne)]; simp
    | cons b t =>
      simp only [readChunks, List.flatten_cons]
      rw [readInt_append pfx left shift hp (b :: t) cs.flatten (by simp) hs]
      cases h : readInt pfx left shift (b :: t) with
      | part l s =>
        dsimp only
        have hl := readInt_part_pos hp h
        by_cases he : cs.flatten = []
        · rw [if_pos he]
          have : ∀ (cs : List (List UInt8)), cs.flatten = [] → readChunks pfx l s cs = .part l s := by
            intro cs
            induction cs with
            | nil => intro _; rfl
            | cons c cs ih =>
              intro h
              simp at h
              rw [h.1]
              simp only [readChunks]
              exact ih (by simpa using h.2)
          exact this cs he
        · rw [if_neg he, ih l s (by omega) he]
      | _ => rfl

end QInt

namespace Props
open QInt Spec.QInt

/-- C12.  Whatever instruction pattern is in the first byte, the written bytes read back as the value, and the
reader stops exactly at the end of them. -/
theorem C12_round_trip (flags : UInt8) (n pfx : Nat) (hp : pfx ≤ 8) (hn : n ≤ 2 ^ 62 - 1) (rest : List UInt8) :
    ∃ s, readInt pfx 0 0 (put flags n pfx ++ rest) = .done n s rest :=
  readInt_put flags hp hn rest

/-- C12.  The reader completes with the value `n` exactly on the RFC encodings of `n`, for `n` up to 2^62 - 1 and
at most ten bytes; everything longer or larger is refused. -/
theorem C12_reads_exactly (src : List UInt8) (n pfx : Nat) (hp : pfx ≤ 8) (rest : List UInt8) :
    (∃ s, readInt pfx 0 0 src = .done n s rest) ↔
      ∃ enc, src = enc ++ rest ∧ Encodes pfx enc n ∧ n ≤ 2 ^ 62 - 1 ∧ enc.length ≤ 10 :=
  readInt_iff hp src n rest

/-- C12.  The writer's output is an RFC encoding, has the predicted length (at most ten bytes), and leaves the
instruction bits of the first byte alone. -/
theorem C12_written (flags : UInt8) (n pfx : Nat) (hp : pfx ≤ 8) (hn : n ≤ 2 ^ 62 - 1) :
    Encodes pfx (put flags n pfx) n ∧ (put flags n pfx).length = putLen n pfx ∧ putLen n pfx ≤ 10 ∧
    ((put flags n pfx).head?.map fun c => c.toNat / 2 ^ pfx) = some (flags.toNat / 2 ^ pfx) := by
  refine ⟨put_encodes flags hp, put_length flags n pfx, putLen_le hn, ?_⟩
  obtain ⟨c, t, h, h2⟩ := put_cons flags n hp
  rw [h]; simp [h2]

/-- C12.  The value does not depend on how the bytes are cut into pieces, nor does the verdict or the number of
bytes consumed. -/
theorem C12_chunking (pfx : Nat) (hp : 0 < pfx) (cs : List (List UInt8)) (hne : cs.flatten ≠ []) :
    readChunks pfx 0 0 cs = readInt pfx 0 0 cs.flatten :=
  readChunks_eq pfx hp cs 0 0 (fun _ => rfl) hne

/-- the RFC's example 1337 in a 5-bit prefix, and a refused over-long encoding -/
example : put 0xe0 1337 5 = [0xff, 154, 10] ∧ readChunks 5 0 0 [[0xff], [154], [], [10, 7]] = .done 1337 7 [7] ∧
    readInt 5 0 0 [0x1f, 0x80, 0x80, 0x80, 0x80, 0x80, 0x80, 0x80, 0x80, 0x80, 0x00] = .fatal := by
  decide +kernel

end Props
end Nghttp3
