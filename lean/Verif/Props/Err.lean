import Verif.Model.Err
import Verif.Spec.Err
import Mathlib.Tactic.SplitIfs
/-! Property theorems C37: error codes. -/
namespace Nghttp3.Props
open Err

theorem switch_cases {α : Type} (cases : List (Int × α)) (d : α) (e : Int) :
    (∃ c ∈ cases, c.1 = e ∧ switch cases d e = c.2) ∨ ((∀ c ∈ cases, c.1 ≠ e) ∧ switch cases d e = d) := by
  unfold switch
  rcases h : cases.find? (fun c => c.1 == e) with _ | c
  · right
    refine ⟨fun c hc he => ?_, by rw [h]⟩
    have := List.find?_eq_none.1 h c hc
    simp [he] at this
  · left
    exact ⟨c, List.mem_of_find?_eq_some h, by simpa using List.find?_some h, by rw [h]⟩

/-- C37.  For every int, the inferred application error code is one defined by the RFCs. -/
theorem C37_code_is_defined (e : Int) : Spec.DefinedCode (appErrorCode e) := by
  unfold appErrorCode
  rcases switch_cases appErrorCases 0x0101 e with ⟨c, hc, _, h⟩ | ⟨_, h⟩ <;> rw [h]
  · have : ∀ c ∈ appErrorCases, (0x0100 ≤ c.2 ∧ c.2 ≤ 0x0110) ∨ (0x0200 ≤ c.2 ∧ c.2 ≤ 0x0202) := by decide
    exact this c hc
  · left; decide

/-- C37.  Each library error named after a protocol error maps to the code of that error, success to H3_NO_ERROR. -/
theorem C37_named_errors : ∀ p ∈ Spec.namedAfter, appErrorCode p.1 = p.2 := by
  unfold Spec.namedAfter; decide

/-- C37.  Only success maps to H3_NO_ERROR, and a code that is the name of a library error other than the two catch-alls
H3_GENERAL_PROTOCOL_ERROR and H3_INTERNAL_ERROR comes from that library error only: distinct protocol errors are not confused. -/
theorem C37_codes_distinguish (e : Int) (p : Int × Nat) (hp : p ∈ Spec.namedAfter) (h1 : p.2 ≠ 0x0101) (h2 : p.2 ≠ 0x0102)
    (he : appErrorCode e = p.2) : e = p.1 := by
  rcases switch_cases appErrorCases 0x0101 e with ⟨c, hc, h3, h⟩ | ⟨_, h⟩
  · have : ∀ p ∈ Spec.namedAfter, ∀ c ∈ appErrorCases, p.2 ≠ 0x0101 → p.2 ≠ 0x0102 → c.2 = p.2 → c.1 = p.1 := by unfold Spec.namedAfter; decide
    rw [← h3]
    exact this p hp c hc h1 h2 (h.symm.trans he)
  · exact absurd (he.symm.trans h) h1

/-- C37.  Malformed messages map to H3_MESSAGE_ERROR, local failures to H3_INTERNAL_ERROR. -/
theorem C37_message_and_internal :
    appErrorCode MALFORMED_HTTP_HEADER = 0x010e ∧ appErrorCode MALFORMED_HTTP_MESSAGING = 0x010e ∧
    ∀ e ∈ [NOMEM, CALLBACK_FAILURE, QPACK_FATAL, QPACK_HEADER_TOO_LARGE, STREAM_DATA_OVERFLOW], appErrorCode e = 0x0102 := by decide

/-- C37.  The fatal errors are exactly the codes below -900: out of memory, callback failure and nothing the library reports for a
peer's misbehaviour. -/
theorem C37_fatal_range (e : Int) : (isFatal e = true ↔ e < -900) ∧ isFatal NOMEM = true ∧ isFatal CALLBACK_FAILURE = true ∧
    ∀ p ∈ Spec.namedAfter, isFatal p.1 = false := by
  refine ⟨by unfold isFatal FATAL; exact decide_eq_true_iff, by decide, by decide, by unfold Spec.namedAfter; decide⟩

/-- C37.  Every documented error has a text of its own. -/
theorem C37_strerror_distinguishes (a b : Int) (ha : strerror a ≠ "(unknown)") (h : strerror a = strerror b) : a = b := by
  unfold strerror at h ha
  rcases switch_cases strerrorCases "(unknown)" a with ⟨c, hc, h3, h4⟩ | ⟨_, h4⟩
  · rcases switch_cases strerrorCases "(unknown)" b with ⟨c', hc', h3', h4'⟩ | ⟨_, h4'⟩
    · have key : ∀ c ∈ strerrorCases, ∀ c' ∈ strerrorCases, c.2 = c'.2 → c.1 = c'.1 := by decide +kernel
      rw [← h3, ← h3']
      exact key c hc c' hc' (by rw [← h4, ← h4']; exact h)
    · rw [h, h4'] at ha; exact absurd rfl ha
  · exact absurd h4 ha

/-- C37.  Number for number: text and application error code of each documented error; every other number is unknown to nghttp3_strerror
and, except 0, has the code H3_GENERAL_PROTOCOL_ERROR; -901 and -902 are fatal, all other documented ones are not. -/
theorem C37_table :
    (∀ p ∈ Spec.documented, strerror p.1 = p.2.1 ∧ appErrorCode p.1 = p.2.2 ∧ (isFatal p.1 = true ↔ p.1 = -901 ∨ p.1 = -902)) ∧
    ∀ e : Int, (∀ p ∈ Spec.documented, p.1 ≠ e) → strerror e = "(unknown)" ∧ (e ≠ 0 → appErrorCode e = 0x0101) := by
  refine ⟨by unfold Spec.documented; decide +kernel, fun e h => ⟨?_, fun h0 => ?_⟩⟩
  · unfold strerror
    rcases switch_cases strerrorCases "(unknown)" e with ⟨c, hc, h3, _⟩ | ⟨_, h4⟩
    · have key : ∀ c ∈ strerrorCases, ∃ p ∈ Spec.documented, p.1 = c.1 := by unfold Spec.documented; decide +kernel
      obtain ⟨p, hp, hq⟩ := key c hc
      exact absurd (hq.trans h3) (h p hp)
    · exact h4
  · unfold appErrorCode
    rcases switch_cases appErrorCases 0x0101 e with ⟨c, hc, h3, _⟩ | ⟨_, h4⟩
    · have key : ∀ c ∈ appErrorCases, c.1 = 0 ∨ ∃ p ∈ Spec.documented, p.1 = c.1 := by unfold Spec.documented; decide +kernel
      rcases key c hc with hq | ⟨p, hp, hq⟩
      · exact absurd (h3.symm.trans hq) h0
      · exact absurd (hq.trans h3) (h p hp)
    · exact h4

/-- C37.  The names of the errors stand for these numbers. -/
theorem C37_numbers :
    [INVALID_ARGUMENT, INVALID_STATE, WOULDBLOCK, STREAM_IN_USE, MALFORMED_HTTP_HEADER, REMOVE_HTTP_HEADER, MALFORMED_HTTP_MESSAGING, QPACK_FATAL,
      QPACK_HEADER_TOO_LARGE, STREAM_NOT_FOUND, CONN_CLOSING, STREAM_DATA_OVERFLOW, QPACK_DECOMPRESSION_FAILED, QPACK_ENCODER_STREAM_ERROR,
      QPACK_DECODER_STREAM_ERROR, H3_FRAME_UNEXPECTED, H3_FRAME_ERROR, H3_MISSING_SETTINGS, H3_INTERNAL_ERROR, H3_CLOSED_CRITICAL_STREAM,
      H3_GENERAL_PROTOCOL_ERROR, H3_ID_ERROR, H3_SETTINGS_ERROR, H3_STREAM_CREATION_ERROR, NOMEM, CALLBACK_FAILURE] = Spec.documented.map (·.1) := by
  unfold Spec.documented; decide

end Nghttp3.Props
