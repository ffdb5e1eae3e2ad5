import Verif.Lemmas.ConnWrite
/-! Every call keeps the invariant of the connection. -/
namespace Nghttp3
namespace Conn
open PQ (Mem IdxOk Heap upd upd_same upd_ne)
open Outq (R Frent Ans Bytes St)

variable {E F : Type} {w v : Prop} {c c' : Conn E F} {encode : Encode E F}

theorem step_inv (h : Inv w v c) {o : Op F} {r : Ret} (h1 : OpOk o) (h2 : w → FairWrite c o) (h3 : v → LeavesClosed c o)
    (e : step encode c o = .ok (c', r)) : Inv w v c' := by
  cases o with
  | bindControl id => exact bindControl_inv h e
  | bindQpack e' d => exact bindQpack_inv h e
  | submitRequest id nva dr => exact submitRequest_inv h e
  | submitInfo id nva => exact submitInfo_inv h h3 h1 e
  | submitResponse id nva dr => exact submitResponse_inv h h3 h1 e
  | submitTrailers id nva => exact submitTrailers_inv h h3 h1 e
  | writev k db as => exact (writevStream_inv h e).1
  | addWrite id n => exact addWriteOffset_inv h h3 h2 e
  | addAck id n => exact addAckOffset_inv h e
  | updAck id off => exact updateAckOffset_inv h e
  | block id => exact blockStream_inv h e
  | unblock id => exact unblockStream_inv h h3 e
  | shutWr id => exact shutdownWrite_inv h e
  | resume id => exact resumeStream_inv h h3 e
  | shutRd id => exact shutdownRead_inv h e
  | close id => exact closeStream_inv h e
  | notice => exact submitNotice_inv h e
  | shutdown => exact shutdown_inv h e
  | setServerPri id pri => exact setServerPriority_inv h h3 e
  | setClientPri id va => exact setClientPriority_inv h e
  | setMaxClient n => exact setMaxClientStreams_inv h e
  | «open» id empty => exact openStream_inv h e
  | uni id src fin => exact readUni_inv h e
  | priUpd id pri => exact onPriorityUpdate_inv h h3 h1 e
  | hdrPri id pri => exact (onHeaderPriority_inv h h3 h1 e).1
  | qpackBlock id => exact qpackBlock_inv h e
  | qpackUnblock id pri again => exact qpackUnblock_inv h h1.2 h1.1 h3 e
  | recvGoaway => exact recvGoaway_inv h e

theorem init_inv (server : Bool) (settings : Settings) (e : E) : Inv w v (init server settings e : Conn E F) := by
  have hm : ∀ x, ¬ Mem (⟨fun _ => 0, fun _ => 0, 0⟩ : PQ Nat) x := by
    rintro x ⟨i, h1, _⟩
    exact absurd h1 (Nat.not_lt_zero _)
  have hn : ∀ x, (init server settings e : Conn E F).str x = none := fun _ => rfl
  refine ⟨⟨⟨fun u i hi => absurd hi (Nat.not_lt_zero _), fun u x => ⟨fun h => absurd h (hm x), ?_⟩, ?_⟩, fun _ u => lvU_empty _ _ _ rfl, ?_⟩, ?_,
    ⟨[], List.nodup_nil, ?_, ?_⟩, ?_, ?_, ?_, List.Pairwise.nil, ?_, ?_, ⟨Int.le_refl _, (show (-4 : Int) % 4 = 0 by decide)⟩, ?_⟩
  · rintro ⟨s, h, _⟩; rw [hn] at h; cases h
  · intro x s h; rw [hn] at h; cases h
  · intro _ x s h; rw [hn] at h; cases h
  · intro x s h; rw [hn] at h; cases h
  · intro x
    constructor
    · intro h; cases h
    · rintro ⟨_, h⟩; rw [hn] at h; cases h
  · show 0 = if server then 0 else 0
    cases server <;> rfl
  · intro x h; cases h
  · intro x h; cases h
  · intro x h; cases h
  · intro g t h; cases h
  · constructor
    · intro h; cases h
    · intro h; exact absurd rfl h
  · intro _ x _ h; rw [hn] at h; cases h

/-- the calls of the histories of the theorems -/
def Calls (w v : Prop) (c : Conn E F) (o : Op F) : Prop := OpOk o ∧ (w → FairWrite c o) ∧ (v → LeavesClosed c o)

theorem reach_inv {c0 : Conn E F} (h0 : Inv w v c0) (h : Reach encode (Calls w v) c0 c) : Inv w v c := by
  induction h with
  | init => exact h0
  | step _ hp e ih => exact step_inv ih hp.1 hp.2.1 hp.2.2 e
  | peer e _ ih => exact ih.withEnc e

theorem hist_inv {l : List (Op F)} (h0 : Inv w v c) (h : Hist encode (Calls w v) c l c') : Inv w v c' := by
  induction h with
  | nil => exact h0
  | cons hp e _ ih => exact ih (step_inv h0 hp.1 hp.2.1 hp.2.2 e)
  | peer e _ ih => exact ih (h0.withEnc e)

theorem Reach.mono {P Q : Conn E F → Op F → Prop} {c0 : Conn E F} (hpq : ∀ c o, P c o → Q c o) (h : Reach encode P c0 c) : Reach encode Q c0 c := by
  induction h with
  | init => exact Reach.init
  | step _ hp e ih => exact Reach.step ih (hpq _ _ hp) e
  | peer e _ ih => exact Reach.peer e ih

theorem Hist.mono {P Q : Conn E F → Op F → Prop} {l : List (Op F)} (hpq : ∀ c o, P c o → Q c o) (h : Hist encode P c l c') : Hist encode Q c l c' := by
  induction h with
  | nil => exact .nil
  | cons hp e _ ih => exact .cons (hpq _ _ hp) e ih
  | peer e _ ih => exact .peer e ih

/-- a stream that exists at each call and at the end exists in the beginning -/
theorem Hist.exists_at_start {P : Conn E F → Op F → Prop} {x : Nat} {l : List (Op F)} (h : Hist encode P c l c') (hp : ∀ c o, P c o → (c.str x).isSome = true)
    (hx : (c'.str x).isSome = true) : (c.str x).isSome = true := by
  induction h with
  | nil => exact hx
  | cons g _ _ _ => exact hp _ _ g
  | peer e _ ih => exact ih hx

end Conn
end Nghttp3
