import Verif.Spec.Codes
import Verif.Props.Sent
/-! Property theorem C57: what the calls return, and that a call that fails changes nothing. -/
namespace Nghttp3
namespace Props
open Conn
open Outq (R Frent Ans Bytes St Emit EncodeOk endsIn dataAnswers)
open Sent (Ledger Serve Permits Run Tallies Chain Documented Ended saysEnd isApi servedSince)

variable {E F : Type} {c c' : Conn E F} {encode : Encode E F} {peer : E → E → Prop}

theorem endsIn_answers (items : List Emit) : endsIn items = true ↔ ∃ a ∈ dataAnswers items, saysEnd a = true := by
  induction items with
  | nil => simp [endsIn, dataAnswers]
  | cons i t ih =>
    cases i with
    | data v eof n =>
      cases eof <;> cases n <;> simp [endsIn, dataAnswers, saysEnd, ih]
    | _ => simpa [endsIn, dataAnswers] using ih

theorem ok_code {c1 : Conn E F} {r : Ret} {n : Int} (e : (R.ok (c1, Ret.code n) : R (Conn E F × Ret)) = .ok (c', r)) : r = .code n ∧ c' = c1 := by
  obtain ⟨rfl, rfl⟩ := Prod.mk.inj (R.ok.inj e); exact ⟨rfl, rfl⟩

theorem bind_code {x : R (Conn E F)} {r : Ret} {n : Int} (e : (x.bind fun c => R.ok (c, Ret.code n)) = .ok (c', r)) : r = .code n := by
  obtain ⟨c1, _, e2⟩ := bind_ok e
  exact (ok_code e2).1

/-- C57.  Over every history of documented calls, each call about streams returns what its documentation says; and a call that returns an error
leaves the connection as it was, except nghttp3_conn_bind_qpack_streams.  Here the end of a stream counts as announced if a call or an answer of
read_data has announced it, where `log` has the answers that each call of nghttp3_conn_writev_stream used, for the streams they were used for, as
in C56. -/
theorem C57_codes (henc : EncodeOk encode) {server : Bool} {st : Settings} {e0 : E}
    (h1 : st.maxFieldSectionSize < 2 ^ 62) (h2 : st.qpackMaxDtableCapacity < 2 ^ 62) (h3 : st.qpackBlockedStreams < 2 ^ 62)
    {l : Ledger F} (h : Run encode peer (init server st e0) l c) :
    ∃ log, Tallies log l.asks ∧ (∀ x, (c.str x).isSome → ∃ items rest m, Account l c log x items rest m) ∧
      ∀ o r c', Permits l c o → isApi o = true → step encode c o = .ok (c', r) →
        ∃ n, r = .code n ∧ Documented l c log n o ∧ (n ≠ 0 → (∀ a b, o ≠ .bindQpack a b) → c' = c) := by
  obtain ⟨log, g⟩ := run_rinv henc (st := st) ⟨h1, h2, h3⟩ h
  refine ⟨log, g.tal, fun x hx => ?_, ?_⟩
  · obtain ⟨s, hs⟩ := Option.isSome_iff_exists.1 hx
    obtain ⟨items, hi⟩ := g.all x s hs
    exact ⟨items, _, _, account_of hi⟩
  intro o r c' hp ha e
  have hz : ∀ {P : Prop}, ((0 : Int) ≠ 0 → P) := fun h => absurd rfl h
  cases o with
  | bindControl id =>
    unfold step bindControl at e
    dsimp only at e
    split_ifs at e with q1 q2 q3
    · obtain ⟨rfl, rfl⟩ := ok_code e
      exact ⟨_, rfl, .inl ⟨rfl, fun k => by rw [k] at q2; cases q2⟩, fun _ _ => rfl⟩
    · obtain ⟨rfl, rfl⟩ := ok_code e
      exact ⟨_, rfl, .inr (.inl ⟨rfl, by simpa using q2, q3⟩), fun _ _ => rfl⟩
    · obtain ⟨o, _, e2⟩ := bind_ok e
      obtain ⟨rfl, rfl⟩ := ok_code e2
      exact ⟨_, rfl, .inr (.inr ⟨rfl, by simpa using q2, by simpa using q3⟩), fun k => hz k⟩
  | bindQpack a d =>
    unfold step bindQpack at e
    dsimp only at e
    split_ifs at e with q1 q2 q3
    · obtain ⟨rfl, rfl⟩ := ok_code e
      exact ⟨_, rfl, .inl ⟨rfl, fun k => by rw [k.1, k.2] at q2; simp at q2⟩, fun _ k => absurd rfl (k _ _)⟩
    · obtain ⟨rfl, rfl⟩ := ok_code e
      simp only [Bool.or_eq_true, not_or, Bool.not_eq_true, Option.isSome_eq_false_iff, Option.isNone_iff_eq_none] at q2
      exact ⟨_, rfl, .inr (.inl ⟨rfl, q2.1, q2.2, .inl q3⟩), fun _ _ => rfl⟩
    · obtain ⟨oe, _, e2⟩ := bind_ok e
      simp only [Bool.or_eq_true, not_or, Bool.not_eq_true, Option.isSome_eq_false_iff, Option.isNone_iff_eq_none] at q2 q3
      have hd : (createStream c a { ty := .qenc, out := oe }).str d = if d = a then some { ty := .qenc, out := oe } else c.str d := by
        unfold createStream; dsimp only
        by_cases k : d = a
        · rw [if_pos k, k, PQ.upd_same]
        · rw [if_neg k, PQ.upd_ne _ _ k]
      rw [hd] at e2
      split_ifs at e2 with q4 q5 q6
      · obtain ⟨rfl, rfl⟩ := ok_code e2
        exact ⟨_, rfl, .inr (.inl ⟨rfl, q2.1, q2.2, .inr (.inr q4.symm)⟩), fun _ k => absurd rfl (k _ _)⟩
      · exact absurd rfl q5
      · obtain ⟨rfl, rfl⟩ := ok_code e2
        exact ⟨_, rfl, .inr (.inl ⟨rfl, q2.1, q2.2, .inr (.inl q6)⟩), fun _ k => absurd rfl (k _ _)⟩
      · obtain ⟨o, _, e3⟩ := bind_ok e2
        obtain ⟨rfl, rfl⟩ := ok_code e3
        exact ⟨_, rfl, .inr (.inr ⟨rfl, q2.1, q2.2, q3, by simpa using q6, fun k => q4 k.symm⟩), fun k => hz k⟩
  | submitRequest id nva dr =>
    unfold step submitRequest at e
    dsimp only at e
    split_ifs at e with q1 q2
    · obtain ⟨rfl, rfl⟩ := ok_code e
      exact ⟨_, rfl, .inl ⟨rfl, q2⟩, fun _ _ => rfl⟩
    · have q2 : c.goawayRecved = false := by simpa using q2
      split at e
      · rename_i s hs
        obtain ⟨rfl, rfl⟩ := ok_code e
        exact ⟨_, rfl, .inr (.inl ⟨rfl, q2, by rw [hs]; rfl⟩), fun _ _ => rfl⟩
      · rename_i hs
        obtain rfl := bind_code e
        exact ⟨_, rfl, .inr (.inr ⟨rfl, q2, hs⟩), fun k => hz k⟩
  | submitInfo id nva =>
    unfold step submitInfo at e
    dsimp only at e
    split_ifs at e
    split at e
    · rename_i hs
      obtain ⟨rfl, rfl⟩ := ok_code e
      exact ⟨_, rfl, .inl ⟨rfl, hs⟩, fun _ _ => rfl⟩
    · rename_i s hs
      obtain rfl := bind_code e
      exact ⟨_, rfl, .inr ⟨rfl, by rw [hs]; rfl⟩, fun k => hz k⟩
  | submitResponse id nva dr =>
    unfold step submitResponse at e
    dsimp only at e
    split_ifs at e
    split at e
    · rename_i hs
      obtain ⟨rfl, rfl⟩ := ok_code e
      exact ⟨_, rfl, .inl ⟨rfl, hs⟩, fun _ _ => rfl⟩
    · rename_i s hs
      obtain rfl := bind_code e
      exact ⟨_, rfl, .inr ⟨rfl, by rw [hs]; rfl⟩, fun k => hz k⟩
  | submitTrailers id nva =>
    unfold step submitTrailers at e
    dsimp only at e
    split_ifs at e
    split at e
    · rename_i hs
      obtain ⟨rfl, rfl⟩ := ok_code e
      exact ⟨_, rfl, .inl ⟨rfl, hs⟩, fun _ _ => rfl⟩
    · rename_i s hs
      obtain ⟨items, hi⟩ := g.all id s hs
      have key : s.out.endStream = true ↔ Ended l log id := by
        rw [hi.ends, Bool.or_eq_true, endsIn_answers, (hi.req (bidi_not_uni hp.1)).2]
        unfold Ended
        simp only [List.mem_flatMap]
        constructor
        · rintro (k | ⟨a, ⟨s, k1, k2⟩, k3⟩)
          · exact .inl k
          · exact .inr ⟨s, k1, a, k2, k3⟩
        · rintro (k | ⟨s, k1, a, k2, k3⟩)
          · exact .inl k
          · exact .inr ⟨a, ⟨s, k1, k2⟩, k3⟩
      split_ifs at e with q
      · obtain ⟨rfl, rfl⟩ := ok_code e
        exact ⟨_, rfl, .inr (.inl ⟨rfl, by rw [hs]; rfl, key.1 q⟩), fun _ _ => rfl⟩
      · obtain rfl := bind_code e
        exact ⟨_, rfl, .inr (.inr ⟨rfl, by rw [hs]; rfl, fun k => q (key.2 k)⟩), fun k => hz k⟩
  | addWrite id n =>
    unfold step addWriteOffset at e
    dsimp only at e
    split at e
    · obtain ⟨rfl, rfl⟩ := ok_code e; exact ⟨_, rfl, rfl, fun k => hz k⟩
    · obtain ⟨o, _, e2⟩ := bind_ok e
      split_ifs at e2
      · obtain ⟨rfl, rfl⟩ := ok_code e2; exact ⟨_, rfl, rfl, fun k => hz k⟩
      · obtain rfl := bind_code e2; exact ⟨_, rfl, rfl, fun k => hz k⟩
      · obtain ⟨rfl, rfl⟩ := ok_code e2; exact ⟨_, rfl, rfl, fun k => hz k⟩
      · obtain rfl := bind_code e2; exact ⟨_, rfl, rfl, fun k => hz k⟩
  | addAck id n =>
    unfold step addAckOffset at e
    dsimp only at e
    split at e
    · obtain ⟨rfl, rfl⟩ := ok_code e; exact ⟨_, rfl, rfl, fun k => hz k⟩
    · obtain ⟨o, _, e2⟩ := bind_ok e
      obtain ⟨rfl, rfl⟩ := ok_code e2; exact ⟨_, rfl, rfl, fun k => hz k⟩
  | updAck id off =>
    unfold step updateAckOffset at e
    dsimp only at e
    split at e
    · rename_i hs
      obtain ⟨rfl, rfl⟩ := ok_code e
      exact ⟨_, rfl, .inr ⟨rfl, fun k => by rw [hs] at k; cases k⟩, fun k => hz k⟩
    · rename_i s hs
      obtain ⟨items, hi⟩ := g.all id s hs
      have := hi.ack
      unfold Outq.connUpdateAckOffset at e
      split_ifs at e with q
      · obtain ⟨rfl, rfl⟩ := ok_code e
        exact ⟨_, rfl, .inl ⟨rfl, by rw [hs]; rfl, by omega⟩, fun _ _ => rfl⟩
      · obtain ⟨o, _, e2⟩ := bind_ok e
        obtain ⟨rfl, rfl⟩ := ok_code e2
        exact ⟨_, rfl, .inr ⟨rfl, fun _ => by omega⟩, fun k => hz k⟩
  | block id =>
    unfold step blockStream at e
    dsimp only at e
    split at e
    · obtain ⟨rfl, rfl⟩ := ok_code e; exact ⟨_, rfl, rfl, fun k => hz k⟩
    · split_ifs at e
      · obtain rfl := bind_code e; exact ⟨_, rfl, rfl, fun k => hz k⟩
      · obtain ⟨rfl, rfl⟩ := ok_code e; exact ⟨_, rfl, rfl, fun k => hz k⟩
  | unblock id =>
    unfold step unblockStream at e
    dsimp only at e
    split at e
    · obtain ⟨rfl, rfl⟩ := ok_code e; exact ⟨_, rfl, rfl, fun k => hz k⟩
    · split_ifs at e
      · obtain rfl := bind_code e; exact ⟨_, rfl, rfl, fun k => hz k⟩
      · obtain ⟨rfl, rfl⟩ := ok_code e; exact ⟨_, rfl, rfl, fun k => hz k⟩
  | shutWr id =>
    unfold step shutdownWrite at e
    dsimp only at e
    split at e
    · obtain ⟨rfl, rfl⟩ := ok_code e; exact ⟨_, rfl, rfl, fun k => hz k⟩
    · split_ifs at e
      · obtain rfl := bind_code e; exact ⟨_, rfl, rfl, fun k => hz k⟩
      · obtain ⟨rfl, rfl⟩ := ok_code e; exact ⟨_, rfl, rfl, fun k => hz k⟩
  | resume id =>
    unfold step resumeStream at e
    dsimp only at e
    split at e
    · obtain ⟨rfl, rfl⟩ := ok_code e; exact ⟨_, rfl, rfl, fun k => hz k⟩
    · split_ifs at e
      · obtain rfl := bind_code e; exact ⟨_, rfl, rfl, fun k => hz k⟩
      · obtain ⟨rfl, rfl⟩ := ok_code e; exact ⟨_, rfl, rfl, fun k => hz k⟩
  | shutRd id =>
    unfold step shutdownRead at e
    dsimp only at e
    split_ifs at e
    · obtain ⟨rfl, rfl⟩ := ok_code e; exact ⟨_, rfl, rfl, fun k => hz k⟩
    · split at e <;> (obtain ⟨rfl, rfl⟩ := ok_code e; exact ⟨_, rfl, rfl, fun k => hz k⟩)
  | close id =>
    unfold step closeStream at e
    dsimp only at e
    split at e
    · rename_i hs
      obtain ⟨rfl, rfl⟩ := ok_code e
      exact ⟨_, rfl, .inl ⟨rfl, hs⟩, fun _ _ => rfl⟩
    · rename_i s hs
      by_cases q : (streamUni id && s.ty != .unknown) = true
      · rw [if_pos q] at e
        obtain ⟨rfl, rfl⟩ := ok_code e
        simp only [Bool.and_eq_true, bne_iff_ne, ne_eq] at q
        exact ⟨_, rfl, .inr ⟨s, hs, .inl ⟨rfl, q.1, q.2⟩⟩, fun _ _ => rfl⟩
      · rw [if_neg q] at e
        have hq : streamUni id = false ∨ s.ty = .unknown := by
          by_cases k : streamUni id = true
          · right; rw [k] at q; simpa using q
          · left; simpa using k
        obtain ⟨c1, _, e2⟩ := bind_ok e
        split_ifs at e2
        · obtain rfl := bind_code e2
          exact ⟨_, rfl, .inr ⟨s, hs, .inr ⟨rfl, hq⟩⟩, fun k => hz k⟩
        · obtain ⟨rfl, rfl⟩ := ok_code e2
          exact ⟨_, rfl, .inr ⟨s, hs, .inr ⟨rfl, hq⟩⟩, fun k => hz k⟩
  | notice => obtain rfl := bind_code e; exact ⟨_, rfl, rfl, fun k => hz k⟩
  | shutdown =>
    obtain ⟨c1, _, e2⟩ := bind_ok e
    obtain ⟨rfl, rfl⟩ := ok_code e2
    exact ⟨_, rfl, rfl, fun k => hz k⟩
  | setServerPri id pri =>
    unfold step setServerPriority at e
    dsimp only at e
    split_ifs at e with q1 q2
    · obtain ⟨rfl, rfl⟩ := ok_code e
      exact ⟨_, rfl, .inl ⟨rfl, by simpa using q2⟩, fun _ _ => rfl⟩
    · have q2 : clientBidi id = true := by simpa using q2
      split at e
      · rename_i hs
        obtain ⟨rfl, rfl⟩ := ok_code e
        exact ⟨_, rfl, .inr (.inl ⟨rfl, q2, hs⟩), fun _ _ => rfl⟩
      · rename_i s hs
        obtain rfl := bind_code e
        exact ⟨_, rfl, .inr (.inr ⟨rfl, q2, by rw [hs]; rfl⟩), fun k => hz k⟩
  | setClientPri id pri =>
    unfold step setClientPriority at e
    dsimp only at e
    split_ifs at e with q1 q2
    · obtain ⟨rfl, rfl⟩ := ok_code e
      exact ⟨_, rfl, .inl ⟨rfl, by simpa using q2⟩, fun _ _ => rfl⟩
    · have q2 : clientBidi id = true := by simpa using q2
      split at e
      · rename_i hs
        obtain ⟨rfl, rfl⟩ := ok_code e
        exact ⟨_, rfl, .inr (.inl ⟨rfl, q2, hs⟩), fun _ _ => rfl⟩
      · rename_i s hs
        obtain rfl := bind_code e
        exact ⟨_, rfl, .inr (.inr ⟨rfl, q2, by rw [hs]; rfl⟩), fun k => hz k⟩
  | setMaxClient n =>
    unfold step setMaxClientStreams at e
    dsimp only at e
    split_ifs at e
    obtain ⟨rfl, rfl⟩ := ok_code e
    exact ⟨_, rfl, rfl, fun k => hz k⟩
  | _ => cases ha

/-! ## examples -/

/-- what the last call of a permitted history returns -/
def codeAfter (enc : Encode Unit Bytes) (ops : List (Op Bytes)) (o : Op Bytes) : Option Ret :=
  match playS enc {} demoInit ops with
  | some (l, c) => if permitsB l c o then match step enc c o with | .ok (_, r) => some r | _ => none else none
  | none => none

/-- trailers after the end of the stream was announced by trailers: INVALID_STATE -/
example : codeAfter echoEnc demoSent (.submitTrailers 0 [9]) = some (.code (-102)) := by decide +kernel
/-- after read_data said EOF with NO_END_STREAM trailers are accepted; after EOF without it they are refused -/
example : codeAfter echoEnc (demoBind ++ [.open 0 false, .submitResponse 0 [5] true, .writev 9 [] [.vecs [[1]] true true]]) (.submitTrailers 0 [9]) =
  some (.code 0) := by decide +kernel
example : codeAfter echoEnc (demoBind ++ [.open 0 false, .submitResponse 0 [5] true, .writev 9 [] [.vecs [[1]] true false]]) (.submitTrailers 0 [9]) =
  some (.code (-102)) := by decide +kernel
example : codeAfter echoEnc (demoSent ++ [.close 0]) (.submitTrailers 0 [9]) = some (.code (-110)) := by decide +kernel
example : codeAfter echoEnc demoSent (.close 3) = some (.code (-605)) := by decide +kernel
example : codeAfter echoEnc demoSent (.updAck 0 3) = some (.code (-101)) := by decide +kernel

/-- nghttp3_conn_bind_qpack_streams can fail and leave the encoder stream bound: the exception of C57 -/
theorem C57_bind_qpack_half : ∃ c', step echoEnc (init true {} ()) (.bindQpack 7 7) = .ok (c', .code (-101)) ∧ c'.qenc = some 7 ∧ c'.qdec = none :=
  ⟨_, rfl, rfl, rfl⟩

end Props
end Nghttp3
