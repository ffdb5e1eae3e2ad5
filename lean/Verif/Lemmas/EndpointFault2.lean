import Verif.Lemmas.EndpointFault
/-! What has happened when nghttp3_conn_read_stream fails. -/
namespace Nghttp3
namespace Endpoint
open Outq (R Ans)
open Conn (OpOk LeavesClosed Allowed clientBidi streamUni Part UState IsUni Ty Typ Mild Begins)
open Qpack (Dec SCtx DecWF esRun esM esM_good)
open Bidi (SameEnc)
open Rfc9204 (AreInstrs Table)

variable {P : Par} {server : Bool} {st : Settings} {G : Bool × Settings}

theorem lift_fail {α : Type} {r : R α} {k : α → Res} {z : Int} (hm : Mild r) (h : lift r k = .fail z) : ∃ a, r = .ok a ∧ k a = .fail z := by
  rcases r with _ | _ | _ | a
  · cases h
  · exact absurd rfl hm.1
  · exact absurd rfl hm.2
  · exact ⟨a, rfl, h⟩

theorem after_fail {ev : List Ev} {r : Res} {z : Int} (h : r.after ev = .fail z) : r = .fail z := by
  cases r <;> first | (cases h; done) | exact h

theorem mild_priorities (id : Nat) (ev : List Bidi.Ev) (c : CC) : Mild (priorities c id ev) := by
  induction ev generalizing c with
  | nil => exact Conn.mild_ok _
  | cons a t ih =>
    cases a with
    | priority p => exact (Conn.mild_headerPriority _ _ _).bind fun _ => ih _
    | _ => exact ih _

theorem readBidi_fail {ep : Ep} {id : Nat} {src : Bytes} {fin : Bool} {z : Int} (h : readBidi P ep id src fin = .fail z) : z ∈ Bidi.faults := by
  unfold readBidi at h
  dsimp only at h
  generalize ho : Bidi.readStream _ _ _ _ _ _ = o at h
  rcases o with _ | _ | ⟨s', d', ev1, n, rest⟩ <;> dsimp only at h
  · cases h
  · cases h; exact Bidi.readStream_err ho
  · obtain ⟨c, _, h⟩ := lift_fail (mild_priorities _ _ _) h
    split at h
    · obtain ⟨_, _, h⟩ := lift_fail (Conn.mild_block _ _) h
      cases h
    · cases h

theorem release_fail (n : Nat) (f : Nat) {ep : Ep} {z : Int} (h : release P n f ep = .fail z) : z ∈ Bidi.faults ∧ ∃ m, ep.bq.top = some m := by
  induction f generalizing ep with
  | zero => cases h
  | succ f ih =>
    unfold release at h
    rcases ht : ep.bq.top with _ | m <;> rw [ht] at h <;> dsimp only at h
    · cases h
    refine ⟨?_, m, rfl⟩
    by_cases hnx : ep.dec.ctx.next < (ep.rx m).sc.ricnt
    · rw [if_pos hnx] at h; cases h
    rw [if_neg hnx] at h
    rcases hp : ep.bq.pop (ricntLess ep.rx) with _ | bq <;> rw [hp] at h <;> dsimp only at h
    · cases h
    generalize ho : Bidi.processBlocked _ _ _ _ = o at h
    rcases o with _ | _ | ⟨s', d', ev1, n', rest⟩ <;> dsimp only at h
    · cases h
    · cases h; exact Bidi.processBlocked_err ho
    obtain ⟨c, _, h⟩ := lift_fail (mild_priorities _ _ _) h
    obtain ⟨c2, _, h⟩ := lift_fail (Conn.mild_unblock _ _ _) h
    exact (ih (after_fail h)).1

theorem readQenc_fail {ep : Ep} {src : Bytes} {n : Nat} {z : Int} (h : readQenc P ep src n = .fail z) :
    (∃ d e, ep.dec.readEncoder src = .fail d e ∧ z = Bidi.qerr e) ∨ (z ∈ Bidi.faults ∧ ∃ m, ep.bq.top = some m) := by
  unfold readQenc at h
  rcases e1 : ep.dec.readEncoder src with _ | ⟨d, e⟩ | d <;> rw [e1] at h <;> dsimp only at h
  · cases h
  · cases h; exact .inl ⟨d, e, rfl, rfl⟩
  · exact .inr (release_fail (ep := { ep with dec := d }) _ _ h)

theorem readQdec_fail {ep : Ep} {src : Bytes} {n : Nat} {z : Int} (h : readQdec ep src n = .fail z) : z = Err.QPACK_DECODER_STREAM_ERROR := by
  unfold readQdec at h
  split at h <;> cases h
  rfl

theorem readControl_fail {ep : Ep} {src : Bytes} {n : Nat} {z : Int} (h : readControl P ep src n = .fail z) :
    z ∈ Control.faults ∨ (z = Err.CALLBACK_FAILURE ∧ ∃ evs, P.cb evs = false) := by
  unfold readControl at h
  generalize ho : Control.read _ _ _ = o at h
  rcases o with _ | ⟨e, k⟩ | _ | s <;> dsimp only at h
  · cases h
  · split_ifs at h
    cases h
    rcases Control.read_fault ho with k | ⟨k1, k2⟩ | ⟨x, id, p, k⟩
    · exact .inl k
    · exact .inr ⟨k1, k2⟩
    · left
      change onPri P x id p = _ at k
      unfold onPri at k
      rcases x with _ | ⟨c, rx⟩
      · cases k
      dsimp only at k
      have hm := Conn.mild_priorityUpdate c id p
      rcases hr : Conn.onPriorityUpdate c id p with _ | _ | _ | ⟨c', r⟩ <;> rw [hr] at k hm <;> try dsimp only at k
      · cases k
      · exact absurd rfl hm.1
      · exact absurd rfl hm.2
      · cases r <;> try dsimp only at k
        all_goals first | (cases k; done) | skip
        split_ifs at k with hz
        cases k
        rw [Conn.priorityUpdate_code hr hz]
        decide
  · cases h
  · rcases hx' : s.conn.ext with _ | ⟨c, rx⟩ <;> rw [hx'] at h <;> cases h

/-- the instructions that were refused cannot be completed -/
theorem Tab.hopeless {hard blocked : Nat} {fed x : Bytes} {d d' : Dec} {e : Qpack.Err} (h : Tab hard blocked fed d) (hw : DecWF d) (hx : x ≠ [])
    (hu : d.uninterrupted + x.length ≤ 128 * 1024) (hr : d.readEncoder x = .fail d' e) : Hopeless hard (fed ++ x) := by
  intro y is hi
  have hb := h.bad
  have hv := Qpack.readEncoder_view hw hb hx hu
  rw [hr] at hv
  obtain ⟨d0, k1, k2⟩ := h
  have q := Qpack.esRun_core_fail (d := { d with uninterrupted := d.uninterrupted + x.length }) (e := d0) ⟨k2.1, k2.2.1, k2.2.2.1, k2.2.2.2⟩ hv.symm
  have ha := Qpack.es_all hi (DecWF.init hard blocked) rfl []
  rw [List.append_nil, show (Dec.init hard blocked).ctx.table = {} from rfl, show (Dec.init hard blocked).ctx.hardMax = hard from rfl] at ha
  rcases ht : Table.applyAll hard {} is with _ | t
  · rfl
  exfalso
  rw [ht] at ha
  obtain ⟨d2, a1, _⟩ := ha
  rw [esRun, List.append_assoc, Machine.run_append' esM_good _ _ _ _ (DecWF.init hard blocked) (by simp), show Machine.run esM _ _ _ _ = _ from k1] at a1
  dsimp only at a1
  have hd0 : DecWF d0 := (Qpack.esRun_ctx (DecWF.init hard blocked) (by simp) k1).2.2.2.1
  rw [Machine.run_append' esM_good _ _ _ _ hd0 (by simp), show Machine.run esM _ _ _ _ = _ from q] at a1
  cases a1

end Endpoint
end Nghttp3
