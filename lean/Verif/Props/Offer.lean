import Verif.Props.Safety
/-! Property theorems C50: what it means when nghttp3_conn_writev_stream offers nothing. -/
namespace Nghttp3
namespace Props
open Conn
open Outq (R Frent Ans Bytes St FrentOk AnsOk EncodeOk)

variable {E F : Type} {c c' : Conn E F} {encode : Encode E F}

/-- C50.  In every history: when nghttp3_conn_writev_stream, with room for a vector, offers nothing, then the control stream and the QPACK
streams are blocked or have no unsent bytes; and either no request stream that the application has not closed can send anything, or the
stream whose turn it was has no bytes (its read_data had none). -/
theorem C50_nothing_offered {server : Bool} {st : Settings} {e0 : E} (h : Reach encode (fun _ o => OpOk o) (init server st e0) c)
    {k : Nat} {db : Bytes} {as : List Ans} (hk : 0 < k) (e : writevStream encode c k db as = .ok (c', .vecs none)) :
    (Quiet c' c'.ctrl ∧ Quiet c' c'.qdec ∧ Quiet c' c'.qenc) ∧
    ((∀ x s, x % 4 = 0 → c'.str x = some s → s.closed = false → sendable s = false) ∨
      ∃ id s, nextTx c = some id ∧ c'.str id = some s ∧ NoBytes s.out) := by
  have hi := reach_ok h
  refine ⟨quiet_after hi hk (fun _ _ _ g => by cases g) e, ?_⟩
  rcases none_next hi hk e with ⟨h1, h2⟩ | h1
  · left
    intro x s hx hs hcl
    by_contra hn
    have hsn : sendable s = true := by simpa using hn
    rw [h2 x (bidi_iff.2 hx)] at hs
    have hsch := (hi.sok x s hs).live (bidi_iff.2 hx) hcl hsn
    have hu := hi.core.reg.urg x s hs
    have hm := (hi.core.reg.mem s.pri.urgency x).2 ⟨s, hs, hsch, rfl⟩
    unfold nextTx at h1
    rw [List.findSome?_eq_none_iff] at h1
    have := h1 s.pri.urgency (List.mem_range.2 hu)
    obtain ⟨i, hi1, _⟩ := hm
    unfold PQ.top at this
    split_ifs at this
    omega
  · exact .inr h1

/-- C50 does not hold without the second case: if read_data of the stream whose turn it is has no data yet, nothing is offered although
another request stream has a response waiting.  The next call offers it. -/
theorem C50_fails_when_data_is_not_ready :
    lastRet demoInit (demoBind ++ [.open 0 false, .open 4 false, .submitResponse 0 [5] true, .writev 9 [] [.wouldblock], .addWrite 0 5,
      .resume 0, .submitResponse 4 [6] false, .writev 9 [] [.wouldblock]]) = some (.vecs none) ∧
    lastRet demoInit (demoBind ++ [.open 0 false, .open 4 false, .submitResponse 0 [5] true, .writev 9 [] [.wouldblock], .addWrite 0 5,
      .resume 0, .submitResponse 4 [6] false, .writev 9 [] [.wouldblock], .writev 9 [] []]) = some (.vecs (some (4, true, [[1, 3, 0, 0, 6]]))) := by
  constructor <;> decide +kernel

/-- the hypotheses of C50: a state in which there is nothing to send -/
example : lastRet demoInit (demoBind ++ [.open 0 false, .writev 9 [] []]) = some (.vecs none) := by decide +kernel

end Props
end Nghttp3
