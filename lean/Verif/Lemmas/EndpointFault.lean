import Verif.Lemmas.EndpointTable
import Verif.Lemmas.ControlFault
import Verif.Lemmas.ConnFault
/-! The errors of the readers, one after another. -/
namespace Nghttp3
open Outq (R)

namespace Qpack

theorem emitRes_ok {s : SCtx} {rest : List UInt8} {o : Option QNv} {e : Err} : emitRes s rest o ≠ .fail e := by
  cases o <;> exact fun h => by cases h

theorem rsBase_err {c : Ctx} {s : SCtx} {src : List UInt8} {e : Err} (h : rsBase c s src = .fail e) : e = .decompression := by
  unfold rsBase at h
  split at h
  · cases h
  · cases h; rfl
  · cases h
  · unfold rsBaseDone at h
    split_ifs at h
    cases h; rfl

theorem rsStep_err {c : Ctx} {s : SCtx} {src : List UInt8} {e : Err} (h : rsStep c s src = .fail e) : e = .decompression ∨ e = .headerTooLarge := by
  unfold rsStep at h
  split at h
  · split at h
    · cases h
    · cases h; exact .inl rfl
    · cases h
    · split at h
      · cases h; exact .inl rfl
      · cases h
  · split at h
    · cases h
    · exact .inl (rsBase_err h)
  · exact .inl (rsBase_err h)
  · split_ifs at h
    split at h <;> cases h
  · split at h
    · cases h
    · cases h; exact .inl rfl
    · cases h
    · unfold rsIndexDone at h
      split at h
      all_goals first
        | cases h
        | (split at h
           · cases h; exact .inl rfl
           · first | cases h | exact absurd h emitRes_ok)
  · split at h
    · cases h
    · cases h; exact .inl rfl
    · cases h; exact .inr rfl
    · cases h
    · cases h
    · unfold rsValueDone at h
      split at h
      · split at h
        · cases h
        · cases h; exact .inl rfl
        · exact absurd h emitRes_ok
      · split at h
        · cases h
        · cases h; exact .inl rfl
        · exact absurd h emitRes_ok
      · exact absurd h emitRes_ok
      · cases h
  · split_ifs at h

/-- the errors of nghttp3_qpack_decoder_read_request -/
def SecErr (e : Err) : Prop := e = .decompression ∨ e = .headerTooLarge ∨ e = .fatal

theorem rsLoop_err {f : Nat} {d d' : Dec} {s : SCtx} {src : List UInt8} {busy fin : Bool} {e : Err} (h : rsLoop f d s src busy fin = .fail d' e) : SecErr e := by
  have ha : ∀ {s : SCtx}, almostOk d s fin = .fail d' e → SecErr e := by
    intro s h
    unfold almostOk at h
    split_ifs at h
    · cases h; exact .inl rfl
    · split at h
      · cases h; exact .inr (.inr rfl)
      · cases h
  induction f generalizing s src busy with
  | zero => cases h
  | succ f ih =>
    unfold rsLoop at h
    split_ifs at h
    · exact ha h
    · split at h
      · cases h
      · rename_i h1
        cases h
        rcases rsStep_err h1 with k | k
        · exact .inl k
        · exact .inr (.inl k)
      · exact ih h
      · exact ha h
      · cases h
      · cases h

theorem readRequest_err {d d' : Dec} {s : SCtx} {src : List UInt8} {fin : Bool} {e : Err} (h : d.readRequest s src fin = .fail d' e) : SecErr e := by
  unfold Dec.readRequest at h
  split_ifs at h
  · cases h; exact .inr (.inr rfl)
  · exact rsLoop_err h

theorem finish_err {d d' : Dec} {rest : List UInt8} {o : Option (Option Ctx)} {e : Err} (h : d.finish rest o = .fail d' e) : e = .encoderStream := by
  unfold Dec.finish at h
  split at h <;> cases h
  rfl

theorem esStep_err {d d' : Dec} {src : List UInt8} {e : Err} (h : esStep d src = .fail d' e) : e = .encoderStream ∨ e = .headerTooLarge := by
  unfold esStep at h
  split at h
  · split at h <;> cases h
  · unfold esIndex at h
    split at h
    · cases h
    · cases h; exact .inl rfl
    · cases h
    · unfold esIndexDone at h
      split at h
      · exact .inl (finish_err h)
      · split at h
        · cases h; exact .inl rfl
        · exact .inl (finish_err h)
      · split at h
        · cases h; exact .inl rfl
        · cases h
      · split at h
        · cases h; exact .inl rfl
        · cases h
  · split at h
    · cases h
    · cases h; exact .inl rfl
    · cases h; exact .inr rfl
    · cases h
    · cases h
    · unfold esValueDone at h
      split at h
      · exact .inl (finish_err h)
      · exact .inl (finish_err h)
      · cases h

theorem readEncoder_err {d d' : Dec} {src : List UInt8} {e : Err} (hb : d.ctx.bad = false) (h : d.readEncoder src = .fail d' e) : e = .encoderStream ∨ e = .headerTooLarge := by
  have key : ∀ (f : Nat) (d : Dec) (src : List UInt8) (b : Bool), esLoop f d src b = .fail d' e → e = .encoderStream ∨ e = .headerTooLarge := by
    intro f
    induction f with
    | zero => intro d src b h; cases h
    | succ f ih =>
      intro d src b h
      unfold esLoop at h
      split_ifs at h
      split at h
      · cases h
      · rename_i h1
        cases h
        exact esStep_err h1
      · exact ih _ _ _ h
      · cases h
  unfold Dec.readEncoder at h
  rw [hb, if_neg (by simp)] at h
  split_ifs at h
  dsimp only at h
  split_ifs at h
  · cases h; exact .inl rfl
  · exact key _ _ _ _ h

end Qpack

namespace Bidi
open Http (Hs Hev State)
open Qpack (Dec SCtx)

theorem qerr_fault {e : Qpack.Err} (h : Qpack.SecErr e) : qerr e ∈ faults := by
  rcases h with rfl | rfl | rfl <;> decide

variable {c : Cfg} {room fin : Bool}

theorem decLoop_err {h : Hs} {f : Nat} {d : Dec} {s : SCtx} {http : State} {src : List UInt8} {fin : Bool} {acc ev : List Ev} {e : Int}
    (h1 : decLoop c h f d s http src fin acc = (ev, .fail e)) : e ∈ faults := by
  induction f generalizing d s http src acc with
  | zero => cases h1
  | succ f ih =>
    unfold decLoop at h1
    split at h1
    · cases h1
    · rename_i h2
      cases h1
      exact qerr_fault (Qpack.readRequest_err h2)
    · cases h1
    · cases h1
    · cases h1
    · split_ifs at h1
      · cases h1
      · split at h1
        · cases h1
        · exact ih h1
        · exact ih h1

theorem transitOr_err {s : Str} {e : Hev} {k : Str → BRes} {z : Int} (hk : ∀ s, k s = .fail z → z ∈ faults) (h : transitOr s e k = .fail z) : z ∈ faults := by
  unfold transitOr at h
  split at h
  · cases h
  · cases h; decide
  · cases h; decide
  · exact hk _ h

theorem endFrame_err {s : Str} {d : Dec} {e : Hev} {rest : List UInt8} {ev : List Ev} {n : Nat} {z : Int} : endFrame s d e rest ev n ≠ .fail z := by
  unfold endFrame
  split <;> exact fun h => by cases h

theorem sectionEnd_err {last : Bool} {s : Str} {d : Dec} {rest : List UInt8} {ev : List Ev} {n : Nat} {z : Int} : sectionEnd c last s d rest ev n ≠ .fail z := by
  unfold sectionEnd
  split
  · unfold headerError; exact fun h => by cases h
  · dsimp only
    split
    all_goals first | exact endFrame_err | exact fun h => by cases h

theorem step_err {s : Str} {d : Dec} {src : List UInt8} {z : Int} (h : step c room fin s d src = .fail z) : z ∈ faults := by
  unfold step at h
  split at h
  · split at h
    · cases h
    · cases h; decide
    · cases h
    · cases h
  · split at h
    · cases h
    · cases h; decide
    · cases h
    · unfold frameHead at h
      split_ifs at h
      · refine transitOr_err (fun s h => ?_) h
        split_ifs at h
        exact absurd h endFrame_err
      · refine transitOr_err (fun s h => ?_) h
        split_ifs at h
        · exact absurd h endFrame_err
        · cases h; decide
        · split at h <;> cases h
      · cases h; decide
  · unfold dataStep at h
    dsimp only at h
    split at h
    · cases h; decide
    · split_ifs at h
      exact absurd h endFrame_err
  · unfold headersStep at h
    dsimp only at h
    split at h
    · cases h
    · rename_i h1
      cases h
      unfold onHeaders at h1
      split_ifs at h1
      · cases h1
      · exact decLoop_err h1
    · cases h
    · split_ifs at h
      cases h; decide
    · split_ifs at h
      exact absurd h sectionEnd_err
    · split_ifs at h
      exact absurd h sectionEnd_err
  · dsimp only at h
    split_ifs at h
  · cases h

theorem almostDone_err {s : Str} {d : Dec} {ev : List Ev} {n : Nat} {z : Int} (h : almostDone fin s d ev n = .fail z) : z ∈ faults := by
  unfold almostDone at h
  by_cases hf : fin = true
  · rw [if_pos hf] at h
    split at h
    · by_cases hl : s.rv.left ≠ 0
      · rw [if_pos hl] at h
        cases h; decide
      · rw [if_neg hl] at h
        split at h
        · cases h
        · cases h; decide
        · cases h; decide
        · cases h
    · cases h
    · cases h; decide
  · rw [if_neg hf] at h
    cases h

theorem loop_err {f : Nat} {s : Str} {d : Dec} {src : List UInt8} {busy : Bool} {ev : List Ev} {n : Nat} {z : Int} (h : loop c room fin f s d src busy ev n = .fail z) : z ∈ faults := by
  induction f generalizing s d src busy ev n with
  | zero => cases h
  | succ f ih =>
    unfold loop at h
    split_ifs at h
    · exact almostDone_err h
    · split at h
      · cases h
      · rename_i h1
        cases h
        exact step_err h1
      · exact ih h
      · exact almostDone_err h
      · cases h

theorem readBidi_err {s : Str} {d : Dec} {src : List UInt8} {z : Int} (h : readBidi c room fin s d src = .fail z) : z ∈ faults := by
  unfold readBidi at h
  split_ifs at h
  exact loop_err h

theorem readStream_err {s : Str} {d : Dec} {src : List UInt8} {z : Int} (h : readStream c room fin s d src = .fail z) : z ∈ faults := by
  unfold readStream at h
  split_ifs at h
  all_goals exact readBidi_err h

theorem processBlocked_err {s : Str} {d : Dec} {z : Int} (h : processBlocked c room s d = .fail z) : z ∈ faults := by
  have key : ∀ (f : Nat) (s : Str) (d : Dec) (ev : List Ev), procLoop c room f s d ev = .fail z → z ∈ faults := by
    intro f
    induction f with
    | zero => intro s d ev h; cases h
    | succ f ih =>
      intro s d ev h
      unfold procLoop at h
      split at h
      · cases h
      · split at h
        · cases h
        · rename_i h1
          cases h
          exact readBidi_err h1
        · dsimp only at h
          split at h <;> split at h <;> first | exact ih _ _ _ h | cases h
  unfold processBlocked at h
  split at h
  · split_ifs at h
  · exact key _ _ _ _ h

end Bidi

namespace Conn

variable {E F : Type}

/-- neither NGHTTP3_ERR_STREAM_DATA_OVERFLOW nor NGHTTP3_ERR_CALLBACK_FAILURE -/
def Mild {α : Type} (r : R α) : Prop := r ≠ .overflow ∧ r ≠ .callbackFailure

theorem mild_ok {α : Type} (a : α) : Mild (R.ok a) := ⟨(fun h => by cases h), (fun h => by cases h)⟩
theorem mild_crash {α : Type} : Mild (R.crash : R α) := ⟨(fun h => by cases h), (fun h => by cases h)⟩

theorem Mild.bind {α β : Type} {r : R α} {k : α → R β} (h : Mild r) (hk : ∀ a, Mild (k a)) : Mild (r.bind k) := by
  rcases r with _ | _ | _ | a
  · exact mild_crash
  · exact absurd rfl h.1
  · exact absurd rfl h.2
  · exact hk a

local macro "mild" : tactic => `(tactic| repeat' (first | exact mild_crash | exact mild_ok _ | split))

theorem mild_schedule (c : Conn E F) (id : Nat) (s : Strm F) : Mild (scheduleStream c id s) := by
  unfold scheduleStream
  mild

theorem mild_unschedule (c : Conn E F) (id : Nat) (s : Strm F) : Mild (unscheduleStream c id s) := by
  unfold unscheduleStream
  mild

theorem mild_updatePriority (c : Conn E F) (id : Nat) (s : Strm F) (p : Http.Pri) : Mild (updatePriority c id s p) := by
  unfold updatePriority
  mild
  refine (mild_unschedule c id s).bind fun c => ?_
  dsimp only
  split
  · exact mild_schedule _ _ _
  · exact mild_ok _

theorem mild_delete (c : Conn E F) (id : Nat) (s : Strm F) : Mild (deleteStream c id s) := by
  unfold deleteStream
  mild

theorem mild_headerPriority (c : Conn E F) (id : Nat) (p : Http.Pri) : Mild (onHeaderPriority c id p) := by
  unfold onHeaderPriority
  mild
  exact (mild_updatePriority _ _ _ _).bind fun _ => mild_ok _

theorem mild_block (c : Conn E F) (id : Nat) : Mild (qpackBlock c id) := by
  unfold qpackBlock
  mild

theorem mild_unblock (c : Conn E F) (id : Nat) (b : Bool) : Mild (qpackUnblock c id none b) := by
  unfold qpackUnblock
  split
  · exact mild_crash
  split
  · exact mild_crash
  refine Mild.bind (mild_ok _) fun r => ?_
  mild
  exact (mild_delete _ _ _).bind fun _ => mild_ok _

theorem mild_open (c : Conn E F) (id : Nat) (b : Bool) : Mild (openStream c id b) := by
  unfold openStream
  mild

theorem mild_readUni (c : Conn E F) (id : Nat) (src : List UInt8) (fin : Bool) : Mild (readUni c id src fin) := by
  unfold readUni
  mild
  exact (mild_delete _ _ _).bind fun _ => mild_ok _

theorem mild_priorityUpdate (c : Conn E F) (id : Nat) (p : Http.Pri) : Mild (onPriorityUpdate c id p) := by
  unfold onPriorityUpdate
  mild
  exact (mild_updatePriority _ _ _ _).bind fun _ => mild_ok _

theorem priorityUpdate_code {c c' : Conn E F} {id : Nat} {p : Http.Pri} {e : Int} (h : onPriorityUpdate c id p = .ok (c', .code e)) (he : e ≠ 0) :
    e = Err.H3_ID_ERROR := by
  unfold onPriorityUpdate at h
  split at h
  · cases h
  split at h
  · cases h; rfl
  split at h
  · split at h
    · cases h; exact absurd rfl he
    split at h <;> cases h <;> exact absurd rfl he
  · split at h
    · cases h; exact absurd rfl he
    · generalize updatePriority _ _ _ _ = o at h
      rcases o with _ | _ | _ | c1 <;> cases h
      exact absurd rfl he

end Conn
end Nghttp3
