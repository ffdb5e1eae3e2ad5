import Verif.Lemmas.ConnSafe3
import Verif.Props.Sched
/-! Property theorems C49: no history of allowed calls makes an assertion fail or uses a stream that was freed. -/
namespace Nghttp3
namespace Props
open Conn
open Outq (R Frent Ans Bytes St FrentOk AnsOk EncodeOk)

variable {E F : Type} {c c' : Conn E F} {encode : Encode E F}

/-- the calls a program may make in a state: those the documentation allows, and none that makes a stream ready for sending which was
closed but still waits for QPACK -/
def Fine (c : Conn E F) (o : Op F) : Prop := OpOk o ∧ LeavesClosed c o ∧ Allowed c o

theorem init_safe {server : Bool} {st : Settings} {e0 : E} (hst : FrentOk (.settings st : Frent F)) : Safe (init server st e0 : Conn E F) := by
  refine ⟨(fun x s h => by cases h), (fun _ x s h => by cases h), (fun x s h => by cases h), fun _ => ?_, ⟨[], (fun _ h => by cases h), rfl⟩, hst⟩
  show (if server = true then 2 ^ 62 - 4 else 2 ^ 62 - 1) ≤ 2 ^ 62
  split <;> decide

theorem fine_safe (henc : EncodeOk encode) {server : Bool} {st : Settings} {e0 : E} (hst : FrentOk (.settings st : Frent F))
    (h : Reach encode Fine (init server st e0) c) : Inv False True c ∧ Safe c := by
  induction h with
  | init => exact ⟨init_inv _ _ _, init_safe hst⟩
  | peer e _ ih => exact ⟨ih.1.withEnc e, ih.2.withEnc e⟩
  | step _ hp e ih =>
    exact ⟨step_inv ih.1 hp.1 (fun g => g.elim) (fun _ => hp.2.1) e, (step_nc henc ih.1 ih.2 hp.1 hp.2.1 hp.2.2).2 _ _ e⟩

/-- C49.  In every state that a program can reach by allowed calls, in any order and on any number of streams, no allowed call makes an
assertion fail or uses a stream that was freed. -/
theorem C49_no_assertion_fails (henc : EncodeOk encode) {server : Bool} {st : Settings} {e0 : E} (hst : FrentOk (.settings st : Frent F))
    (h : Reach encode Fine (init server st e0) c) {o : Op F} (ho : Fine c o) : step encode c o ≠ .crash :=
  (step_nc henc (fine_safe henc hst h).1 (fine_safe henc hst h).2 ho.1 ho.2.1 ho.2.2).1

/-- C49.  The same for a whole history: it never crashes, whatever the calls are, if each is allowed when it is made. -/
theorem C49_history (henc : EncodeOk encode) {server : Bool} {st : Settings} {e0 : E} (hst : FrentOk (.settings st : Frent F))
    {l : List (Op F)} (hl : ∀ p o t c, l = p ++ o :: t → run encode (init server st e0) p = .ok c → Fine c o) :
    run encode (init server st e0) l ≠ .crash := by
  have key : ∀ (l p : List (Op F)) (c : Conn E F), Reach encode Fine (init server st e0) c → run encode (init server st e0) p = .ok c →
      (∀ q o t c, p ++ l = q ++ o :: t → run encode (init server st e0) q = .ok c → Fine c o) → run encode c l ≠ .crash := by
    intro l
    induction l with
    | nil => intro p c _ _ _ g; cases g
    | cons o t ih =>
      intro p c hc hp hl
      have hf : Fine c o := hl p o t c rfl hp
      unfold run
      have h1 := C49_no_assertion_fails henc hst hc hf
      rcases hs : step encode c o with _ | _ | _ | ⟨c1, r⟩
      rotate_left 3
      · show run encode c1 t ≠ .crash
        refine ih (p ++ [o]) c1 (.step hc hf hs) ?_ (by simpa using hl)
        have app : ∀ (a : List (Op F)) (x y : Conn E F), run encode x a = .ok y → run encode x (a ++ [o]) = (step encode y o).bind fun r => .ok r.1 := by
          intro a
          induction a with
          | nil => intro x y g; obtain rfl := R.ok.inj g; rfl
          | cons b u ihu =>
            intro x y g
            obtain ⟨⟨z, r'⟩, g1, g2⟩ := bind_ok g
            show (step encode x b).bind _ = _
            rw [g1]
            exact ihu z y g2
        rw [app p _ _ hp, hs]
        rfl
      · exact absurd hs h1
      · exact fun g => by cases g
      · exact fun g => by cases g
  exact key l [] _ .init rfl (by simpa using hl)

/-! ## the conditions are met by real programs, and are needed -/

/-- an encoder that copies the field section, and fails if it is empty or too long -/
def safeEnc : Encode Unit Bytes := fun _ nva => if nva = [] ∨ 2 ^ 61 ≤ nva.length then none else some ((), [0, 0], nva, [])

theorem safeEnc_ok : EncodeOk safeEnc := fun _ nva _ _ _ _ h => by
  unfold safeEnc at h
  split_ifs at h with h1
  cases h
  refine ⟨fun g => h1 (.inl g), ?_⟩
  have : ¬ 2 ^ 61 ≤ nva.length := fun g => h1 (.inr g)
  simp only [List.length_cons, List.length_nil]
  omega

/-- `Fine`, for the calls of the examples -/
def fineB (c : Conn E F) (o : Op F) : Bool :=
  match o with
  | .bindControl id => decide (id < 2 ^ 62) && id % 4 == (if c.server then 3 else 2)
  | .bindQpack e d => decide (e < 2 ^ 62) && decide (d < 2 ^ 62) && e % 4 == (if c.server then 3 else 2) && d % 4 == (if c.server then 3 else 2)
  | .submitResponse id _ _ => clientBidi id && c.server && c.qenc.isSome && (match c.str id with | some s => !s.closed | none => true)
  | .writev _ _ as => as.all fun a => match a with | .vecs v eof _ => !v.flatten.isEmpty || eof | _ => true
  | .addWrite id n => match c.str id with | some s => decide (n ≤ s.out.unsent) && !s.closed | none => true
  | .addAck id n => match c.str id with | some s => decide (s.out.ackOffset + n + s.out.unsent ≤ s.out.txOffset) | none => true
  | .block _ => true
  | .close _ => true
  | .notice => c.ctrl.isSome && !c.shutdownCommenced
  | .shutdown => c.ctrl.isSome && !c.shutdownCommenced
  | .setMaxClient n => c.server && decide (c.maxClient ≤ n)
  | .open id _ => decide (id < 2 ^ 62) && !(id % 4 == (if c.server then 3 else 2))
  | .priUpd id p => decide (p.urgency < 8) && c.server && decide (id < 2 ^ 62) && (match c.str id with | some s => !s.closed | none => true)
  | .uni id _ _ => id % 4 == (if c.server then 2 else 3) && (c.str id).isSome
  | .qpackBlock id => id % 4 == 0 && (match c.str id with | some s => !s.qblocked | none => false)
  | _ => false

theorem fineB_ok {o : Op F} (h : fineB c o = true) : Fine c o := by
  unfold fineB at h
  cases o <;> simp only [Bool.and_eq_true, decide_eq_true_eq, beq_iff_eq, Bool.false_eq_true, Bool.not_eq_true', List.all_eq_true] at h
  case bindControl => exact ⟨trivial, trivial, h.1, h.2⟩
  case bindQpack => exact ⟨trivial, trivial, h.1.1.1, h.1.1.2, h.1.2, h.2⟩
  case submitResponse id nva dr =>
    refine ⟨h.1.1.1, fun s hs => ?_, h.1.1.2, h.1.2⟩
    have := h.2; rw [hs] at this; simpa using this
  case writev k db as =>
    refine ⟨trivial, trivial, fun a ha => ?_⟩
    have := h a ha
    cases a with
    | vecs v eof b =>
      simp only [Bool.or_eq_true, Bool.not_eq_true', List.isEmpty_eq_false_iff] at this
      exact this
    | _ => trivial
  case addWrite id n =>
    refine ⟨trivial, fun s hs => ?_, fun s hs => ?_⟩
    all_goals
      rw [hs] at h
      simp only [Bool.and_eq_true, decide_eq_true_eq, Bool.not_eq_true'] at h
    · exact h.2
    · exact h.1
  case addAck id n =>
    refine ⟨trivial, trivial, fun s hs => ?_⟩
    rw [hs] at h
    simpa using h
  case block => exact ⟨trivial, trivial, trivial⟩
  case close => exact ⟨trivial, trivial, trivial⟩
  case notice => exact ⟨trivial, trivial, h.1, h.2⟩
  case shutdown => exact ⟨trivial, trivial, h.1, h.2⟩
  case setMaxClient => exact ⟨trivial, trivial, h.1, h.2⟩
  case «open» id e =>
    refine ⟨trivial, trivial, h.1, fun g => ?_⟩
    have := h.2
    unfold ownUni at g
    rw [g] at this
    simp at this
  case priUpd id p =>
    refine ⟨h.1.1.1, fun s hs => ?_, h.1.1.2, h.1.2⟩
    have := h.2; rw [hs] at this; simpa using this
  case uni id src fin => exact ⟨trivial, trivial, h.1, h.2⟩
  case qpackBlock id =>
    refine ⟨trivial, trivial, h.1, ?_⟩
    rcases hs : c.str id with _ | s
    · have := h.2; rw [hs] at this; cases this
    · have := h.2; rw [hs] at this; exact ⟨s, rfl, by simpa using this⟩

/-- the history consists of allowed calls and ends in a state with the property `P` -/
def fineThen (P : Conn Unit Bytes → Bool) (c : Conn Unit Bytes) : List (Op Bytes) → Bool
  | [] => P c
  | o :: t => fineB c o && (match step safeEnc c o with | .ok (c', _) => fineThen P c' t | _ => false)

theorem fineThen_ok {P : Conn Unit Bytes → Bool} {c0 : Conn Unit Bytes} : ∀ (l : List (Op Bytes)) {c : Conn Unit Bytes},
    Reach safeEnc Fine c0 c → fineThen P c l = true → ∃ c', Reach safeEnc Fine c0 c' ∧ P c' = true := by
  intro l
  induction l with
  | nil => intro c hc h; exact ⟨c, hc, h⟩
  | cons o t ih =>
    intro c hc h
    unfold fineThen at h
    rw [Bool.and_eq_true] at h
    obtain ⟨h1, h2⟩ := h
    rcases hs : step safeEnc c o with _ | _ | _ | ⟨c1, r⟩ <;> rw [hs] at h2
    · cases h2
    · cases h2
    · cases h2
    · exact ih (.step hc (fineB_ok h1) hs) h2

/-- a server: three requests, one announced by PRIORITY_UPDATE, one blocked by QPACK and closed, responses written and acknowledged,
a graceful shutdown -/
def demoFine : List (Op Bytes) :=
  [.bindControl 3, .bindQpack 7 11, .setMaxClient 100, .writev 9 [] [], .addWrite 3 9, .addAck 3 5, .writev 9 [] [], .addWrite 11 1, .writev 9 [] [],
   .addWrite 7 1, .priUpd 8 ⟨1, true⟩, .open 0 false, .open 4 false, .open 8 false, .submitResponse 0 [5] true, .submitResponse 8 [6] false, .notice,
   .writev 9 [] [], .writev 9 [] [.vecs [[1, 2]] true true], .addWrite 3 3, .addWrite 3 7, .writev 9 [] [.vecs [[1, 2]] true true], .addWrite 8 5, .addAck 8 5,
   .close 8, .writev 9 [] [.vecs [[1, 2]] true true], .qpackBlock 4, .close 4, .shutdown]

/-- the hypotheses of C49 hold along a history that exercises most of the interface -/
example : ∃ c, Reach safeEnc Fine (init true {} ()) c ∧ (c.shutdownCommenced && c.goaways == [12, 2 ^ 62 - 4] && c.closes == [8] && c.num == 2) = true :=
  fineThen_ok demoFine .init (by decide +kernel)

/-- the outcome of the two last calls of the attack below -/
def freesScheduled (c : Conn Unit Bytes) : Bool :=
  match step safeEnc c (.priUpd 0 ⟨1, false⟩) with
  | .ok (c1, .code 0) => c.server && (match c1.str 0 with | some s => s.qblocked | none => false) &&
      (match step safeEnc c1 (.qpackUnblock 0 none false) with | .crash => true | _ => false)
  | _ => false

/-- C49 needs the condition on closed streams, which a program cannot guarantee, as PRIORITY_UPDATE frames come from the peer: a client that
sends a header section which waits for the QPACK encoder, changes the priority after the server has queued a response and closed the stream,
and then completes the QPACK encoder stream makes the server free a stream that is still in the scheduler.  All other calls of this history
are allowed. -/
theorem C49_fails_for_closed_streams : ∃ c c1 : Conn Unit Bytes, Reach safeEnc Fine (init true {} ()) c ∧
    step safeEnc c (.priUpd 0 ⟨1, false⟩) = .ok (c1, .code 0) ∧ OpOk (.priUpd 0 ⟨1, false⟩ : Op Bytes) ∧ Allowed c (.priUpd 0 ⟨1, false⟩) ∧
    OpOk (.qpackUnblock 0 none false : Op Bytes) ∧ LeavesClosed c1 (.qpackUnblock 0 none false) ∧ Allowed c1 (.qpackUnblock 0 none false) ∧
    step safeEnc c1 (.qpackUnblock 0 none false) = .crash := by
  obtain ⟨c, h1, h2⟩ := fineThen_ok (P := freesScheduled) (c0 := init true {} ())
    [.bindControl 3, .bindQpack 7 11, .setMaxClient 10, .open 0 false, .submitResponse 0 [5] false, .qpackBlock 0, .close 0] .init (by decide +kernel)
  unfold freesScheduled at h2
  split at h2
  · rename_i c1 e1
    rw [Bool.and_eq_true, Bool.and_eq_true] at h2
    obtain ⟨⟨h3, h4⟩, h5⟩ := h2
    refine ⟨c, c1, h1, e1, (show 1 < 8 by decide), ⟨h3, by decide⟩, ⟨by decide, (fun _ g => by cases g)⟩, (fun g => absurd rfl g), ⟨by decide, ?_⟩, ?_⟩
    · rcases hs : c1.str 0 with _ | s <;> rw [hs] at h4
      · cases h4
      · exact ⟨s, rfl, h4⟩
    · rcases hs : step safeEnc c1 (.qpackUnblock 0 none false) with _ | _ | _ | r <;> rw [hs] at h5
      all_goals first | rfl | cases h5
  · cases h2

/-- the outcome of a second shutdown -/
def secondShutdown (o : Op Bytes) (c : Conn Unit Bytes) : Bool :=
  c.ctrl.isSome && c.shutdownCommenced && (match step safeEnc c o with | .crash => true | _ => false)

/-- C49 needs the condition that shutdown is called once and notices come before it: a stream that arrives after the first shutdown (and is
refused) makes a second call fail an assertion, and a notice after the shutdown always does. -/
theorem C49_fails_for_second_shutdown : ∃ c1 c2 : Conn Unit Bytes, Reach safeEnc Fine (init true {} ()) c1 ∧ Reach safeEnc Fine (init true {} ()) c2 ∧
    c1.ctrl.isSome = true ∧ c2.ctrl.isSome = true ∧ step safeEnc c1 .shutdown = .crash ∧ step safeEnc c2 .notice = .crash := by
  obtain ⟨c1, a1, a2⟩ := fineThen_ok (P := secondShutdown .shutdown) (c0 := init true {} ()) [.bindControl 3, .shutdown, .open 0 false] .init (by decide +kernel)
  obtain ⟨c2, b1, b2⟩ := fineThen_ok (P := secondShutdown .notice) (c0 := init true {} ()) [.bindControl 3, .shutdown] .init (by decide +kernel)
  unfold secondShutdown at a2 b2
  rw [Bool.and_eq_true, Bool.and_eq_true] at a2 b2
  refine ⟨c1, c2, a1, b1, a2.1.1, b2.1.1, ?_, ?_⟩
  · rcases hs : step safeEnc c1 .shutdown with _ | _ | _ | r <;> rw [hs] at a2
    all_goals first | rfl | cases a2.2
  · rcases hs : step safeEnc c2 .notice with _ | _ | _ | r <;> rw [hs] at b2
    all_goals first | rfl | cases b2.2

end Props
end Nghttp3
