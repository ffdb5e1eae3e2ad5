import Verif.Lemmas.ConnFlags
import Verif.Props.Sched
/-! Property theorems C55: what nghttp3_conn_is_stream_writable reports. -/
namespace Nghttp3
namespace Props
open Conn
open Outq (R Frent Ans Bytes St)

variable {E F : Type} {encode : Encode E F} {c c' : Conn E F}

/-- the call is allowed, and the stream exists when it is made -/
def While (x : Nat) (c : Conn E F) (o : Op F) : Prop := OpOk o ∧ ∃ s, c.str x = some s

theorem flags_run {x : Nat} (hx : clientBidi x = true) {c1 c2 : Conn E F} {l : List (Op F)} (hl : Hist encode (While x) c1 l c2)
    (hi : Inv False False c1) : ∀ {s1 s2 : Strm F}, c1.str x = some s1 → c2.str x = some s2 →
      s2.fc = Spec.flowBlocked x s1.fc l ∧ s2.shutWr = (s1.shutWr || Spec.writeShut x l) ∧ s2.closed = (s1.closed || Spec.closeCalled x l) ∧
      (s2.out.readBlocked = true → Spec.askedSinceResume x s1.out.readBlocked l = true) ∧
      (s1.out.readBlocked = true → l.all (fun o => !Spec.isResume x o) = true → s2.out.readBlocked = true) := by
  induction hl with
  | peer e _ ih => intro s1 s2 h1 h2; exact ih (hi.withEnc e) h1 h2
  | nil =>
    intro s1 s2 h1 h2
    rw [h1] at h2; cases h2
    exact ⟨rfl, by simp [Spec.writeShut], by simp [Spec.closeCalled], id, fun h _ => h⟩
  | @cons ca cb cd o t r hp he ht ih =>
    intro s1 s2 h1 h2
    have hi' := step_inv hi hp.1 (fun f => f.elim) (fun f => f.elim) he
    have hb : ∃ sb, cb.str x = some sb := Option.isSome_iff_exists.1 (ht.exists_at_start (fun _ _ g => Option.isSome_iff_exists.2 g.2) (by rw [h2]; rfl))
    obtain ⟨sb, hb⟩ := hb
    obtain ⟨k1, k2, k3, k4, k5⟩ := ih hi' hb h2
    have hT : TrF o x s1 sb := by
      rcases step_flags hi he x sb hb with ⟨g, _⟩ | ⟨s0, g, hT⟩
      · rw [h1] at g; cases g
      · rw [h1] at g; cases g; exact hT
    have hr : ∀ {b b' : Bool} {l : List (Op F)}, (b = true → b' = true) → Spec.askedSinceResume x b l = true → Spec.askedSinceResume x b' l = true := by
      intro b b' l
      induction l generalizing b b' with
      | nil => exact fun h g => h g
      | cons o t ih =>
        intro h g
        unfold Spec.askedSinceResume at g ⊢
        refine ih ?_ g
        split_ifs
        · exact id
        · simp only [Bool.or_eq_true]; exact fun g => g.imp_left h
    unfold Spec.askedSinceResume
    have same : SameF x s1 sb → Spec.isResume x o = false → Spec.isWritev o = false →
        (s2.out.readBlocked = true → Spec.askedSinceResume x (if Spec.isResume x o then false else s1.out.readBlocked || Spec.isWritev o) t = true) ∧
        (s1.out.readBlocked = true → (o :: t).all (fun o => !Spec.isResume x o) = true → s2.out.readBlocked = true) := by
      intro hs g1 g2
      rw [g1, g2]
      simp only [Bool.or_false, List.all_cons, Bool.and_eq_true]
      rw [hs.2.2.2] at k4 k5
      exact ⟨k4, fun a b => k5 a b.2⟩
    cases o with
    | block y =>
      unfold TrF at hT; dsimp only at hT
      by_cases hy : y = x
      · subst hy; rw [if_pos rfl] at hT
        obtain ⟨t1, t2, t3, t4⟩ := hT
        rw [t1] at k1; rw [t2] at k2; rw [t3] at k3; rw [t4] at k4 k5
        refine ⟨by unfold Spec.flowBlocked; simpa using k1, ?_, ?_, ?_, ?_⟩
        · rw [k2]; simp [Spec.writeShut]
        · rw [k3]; simp [Spec.closeCalled]
        · simpa [Spec.isResume, Spec.isWritev] using k4
        · simpa [Spec.isResume] using k5
      · rw [if_neg hy] at hT
        obtain ⟨k6, k7⟩ := same hT rfl rfl
        obtain ⟨t1, t2, t3, t4⟩ := hT
        rw [t1] at k1; rw [t2] at k2; rw [t3] at k3
        exact ⟨by unfold Spec.flowBlocked; rw [if_neg hy]; exact k1, by rw [k2]; simp [Spec.writeShut], by rw [k3]; simp [Spec.closeCalled], k6, k7⟩
    | unblock y =>
      unfold TrF at hT; dsimp only at hT
      by_cases hy : y = x
      · subst hy; rw [if_pos rfl] at hT
        obtain ⟨t1, t2, t3, t4⟩ := hT
        rw [t1] at k1; rw [t2] at k2; rw [t3] at k3; rw [t4] at k4 k5
        refine ⟨by unfold Spec.flowBlocked; simpa using k1, ?_, ?_, ?_, ?_⟩
        · rw [k2]; simp [Spec.writeShut]
        · rw [k3]; simp [Spec.closeCalled]
        · simpa [Spec.isResume, Spec.isWritev] using k4
        · simpa [Spec.isResume] using k5
      · rw [if_neg hy] at hT
        obtain ⟨k6, k7⟩ := same hT rfl rfl
        obtain ⟨t1, t2, t3, t4⟩ := hT
        rw [t1] at k1; rw [t2] at k2; rw [t3] at k3
        exact ⟨by unfold Spec.flowBlocked; rw [if_neg hy]; exact k1, by rw [k2]; simp [Spec.writeShut], by rw [k3]; simp [Spec.closeCalled], k6, k7⟩
    | shutWr y =>
      unfold TrF at hT; dsimp only at hT
      by_cases hy : y = x
      · subst hy; rw [if_pos rfl] at hT
        obtain ⟨t1, t2, t3, t4⟩ := hT
        rw [t1] at k1; rw [t2] at k2; rw [t3] at k3; rw [t4] at k4 k5
        refine ⟨by unfold Spec.flowBlocked; simpa using k1, ?_, ?_, ?_, ?_⟩
        · rw [k2]; simp [Spec.writeShut]
        · rw [k3]; simp [Spec.closeCalled]
        · simpa [Spec.isResume, Spec.isWritev] using k4
        · simpa [Spec.isResume] using k5
      · rw [if_neg hy] at hT
        obtain ⟨k6, k7⟩ := same hT rfl rfl
        obtain ⟨t1, t2, t3, t4⟩ := hT
        rw [t1] at k1; rw [t2] at k2; rw [t3] at k3
        exact ⟨by unfold Spec.flowBlocked; exact k1, by rw [k2]; simp [Spec.writeShut, beq_eq_false_iff_ne.2 hy], by rw [k3]; simp [Spec.closeCalled], k6, k7⟩
    | close y =>
      unfold TrF at hT; dsimp only at hT
      by_cases hy : y = x
      · subst hy; rw [if_pos rfl] at hT
        obtain ⟨t1, t2, t3, t4⟩ := hT hx
        rw [t1] at k1; rw [t2] at k2; rw [t3] at k3; rw [t4] at k4 k5
        refine ⟨by unfold Spec.flowBlocked; simpa using k1, ?_, ?_, ?_, ?_⟩
        · rw [k2]; simp [Spec.writeShut]
        · rw [k3]; simp [Spec.closeCalled]
        · simpa [Spec.isResume, Spec.isWritev] using k4
        · simpa [Spec.isResume] using k5
      · rw [if_neg hy] at hT
        obtain ⟨k6, k7⟩ := same hT rfl rfl
        obtain ⟨t1, t2, t3, t4⟩ := hT
        rw [t1] at k1; rw [t2] at k2; rw [t3] at k3
        exact ⟨by unfold Spec.flowBlocked; exact k1, by rw [k2]; simp [Spec.writeShut], by rw [k3]; simp [Spec.closeCalled, beq_eq_false_iff_ne.2 hy], k6, k7⟩
    | resume y =>
      unfold TrF at hT; dsimp only at hT
      by_cases hy : y = x
      · subst hy; rw [if_pos rfl] at hT
        obtain ⟨t1, t2, t3, t4⟩ := hT
        rw [t1] at k1; rw [t2] at k2; rw [t3] at k3; rw [t4] at k4 k5
        refine ⟨by unfold Spec.flowBlocked; simpa using k1, ?_, ?_, ?_, ?_⟩
        · rw [k2]; simp [Spec.writeShut]
        · rw [k3]; simp [Spec.closeCalled]
        · simpa [Spec.isResume, Spec.isWritev] using k4
        · simp [Spec.isResume]
      · rw [if_neg hy] at hT
        obtain ⟨k6, k7⟩ := same hT (by simp [Spec.isResume, hy]) rfl
        obtain ⟨t1, t2, t3, t4⟩ := hT
        rw [t1] at k1; rw [t2] at k2; rw [t3] at k3
        exact ⟨by unfold Spec.flowBlocked; exact k1, by rw [k2]; simp [Spec.writeShut], by rw [k3]; simp [Spec.closeCalled], k6, k7⟩
    | writev a b d =>
      obtain ⟨t1, t2, t3, t4⟩ := hT
      rw [t1] at k1; rw [t2] at k2; rw [t3] at k3
      refine ⟨by unfold Spec.flowBlocked; simpa using k1, ?_, ?_, ?_, ?_⟩
      · rw [k2]; simp [Spec.writeShut]
      · rw [k3]; simp [Spec.closeCalled]
      · intro g
        have := k4 g
        simp only [Spec.isResume, Spec.isWritev, Bool.or_true]
        exact hr (fun _ => rfl) this
      · intro g1 g2
        exact k5 (t4 hx g1) (by simpa [Spec.isResume] using g2)
    | _ =>
      have hT' : SameF x s1 sb := hT
      obtain ⟨k6, k7⟩ := same hT' rfl rfl
      obtain ⟨t1, t2, t3, t4⟩ := hT'
      rw [t1] at k1; rw [t2] at k2; rw [t3] at k3
      exact ⟨by unfold Spec.flowBlocked; exact k1, by rw [k2]; simp [Spec.writeShut], by rw [k3]; simp [Spec.closeCalled], k6, k7⟩

/-- C55.  In every history of allowed calls: let a request stream come into being, and let any calls follow while it exists.  Then
nghttp3_conn_is_stream_writable reports it as writable exactly if it is not blocked (of the calls of nghttp3_conn_block_stream and
nghttp3_conn_unblock_stream for it, the last was not the former), it was not shut down for writing, nghttp3_conn_close_stream was not called,
and it does not wait for its data source. -/
theorem C55_writable_iff {server : Bool} {st : Settings} {e0 : E} (h : Reach encode (fun _ o => OpOk o) (init server st e0) c)
    {x : Nat} (hx : clientBidi x = true) (h0 : c.str x = none) {o : Op F} (ho : OpOk o) {c1 c2 : Conn E F} {r : Ret}
    (e : step encode c o = .ok (c1, r)) {l : List (Op F)} (hl : Hist encode (While x) c1 l c2) {s1 s2 : Strm F} (h1 : c1.str x = some s1)
    (h2 : c2.str x = some s2) :
    isStreamWritable c2 x = true ↔ Spec.flowBlocked x false l = false ∧ Spec.writeShut x l = false ∧ Spec.closeCalled x l = false ∧
      s2.out.readBlocked = false := by
  have hi := reach_ok h
  have hi1 := step_inv hi ho (fun f => f.elim) (fun f => f.elim) e
  obtain ⟨k1, k2, k3, _, _⟩ := flags_run hx hl hi1 h1 h2
  obtain ⟨m1, m2, m3, _⟩ : s1.fc = false ∧ s1.shutWr = false ∧ s1.closed = false ∧ s1.out.readBlocked = false := by
    rcases step_flags hi e x s1 h1 with ⟨_, g⟩ | ⟨_, g, _⟩
    · exact g
    · rw [h0] at g; cases g
  unfold isStreamWritable
  rw [h2]
  dsimp only
  rw [k1, k2, k3, m1, m2, m3]
  cases Spec.flowBlocked x false l <;> cases Spec.writeShut x l <;> cases Spec.closeCalled x l <;> cases s2.out.readBlocked <;> simp

/-- C55.  A request stream waits for its data source only if nghttp3_conn_writev_stream, which asks it, was called after the last
nghttp3_conn_resume_stream: if it was not, the calls that name the stream decide alone whether it is writable. -/
theorem C55_after_resume {server : Bool} {st : Settings} {e0 : E} (h : Reach encode (fun _ o => OpOk o) (init server st e0) c)
    {x : Nat} (hx : clientBidi x = true) (h0 : c.str x = none) {o : Op F} (ho : OpOk o) {c1 c2 : Conn E F} {r : Ret}
    (e : step encode c o = .ok (c1, r)) {l : List (Op F)} (hl : Hist encode (While x) c1 l c2) {s1 s2 : Strm F} (h1 : c1.str x = some s1)
    (h2 : c2.str x = some s2) (hr : Spec.askedSinceResume x false l = false) :
    isStreamWritable c2 x = true ↔ Spec.flowBlocked x false l = false ∧ Spec.writeShut x l = false ∧ Spec.closeCalled x l = false := by
  rw [C55_writable_iff h hx h0 ho e hl h1 h2]
  have hi := reach_ok h
  have hi1 := step_inv hi ho (fun f => f.elim) (fun f => f.elim) e
  obtain ⟨_, _, _, k4, _⟩ := flags_run hx hl hi1 h1 h2
  have m4 : s1.out.readBlocked = false := by
    rcases step_flags hi e x s1 h1 with ⟨_, g⟩ | ⟨_, g, _⟩
    · exact g.2.2.2
    · rw [h0] at g; cases g
  rw [m4, hr] at k4
  have : s2.out.readBlocked = false := by cases hb : s2.out.readBlocked <;> simp_all
  rw [this]; simp

/-- C55.  A request stream that waits for its data source stays unwritable as long as it exists and nghttp3_conn_resume_stream is not
called for it. -/
theorem C55_waits_until_resume {server : Bool} {st : Settings} {e0 : E} (h : Reach encode (fun _ o => OpOk o) (init server st e0) c)
    {x : Nat} (hx : clientBidi x = true) {s : Strm F} (h0 : c.str x = some s) (hw : s.out.readBlocked = true) {c2 : Conn E F} {l : List (Op F)}
    (hl : Hist encode (While x) c l c2) (hn : l.all (fun o => !Spec.isResume x o) = true) : isStreamWritable c2 x = false := by
  unfold isStreamWritable
  rcases h2 : c2.str x with _ | s2
  · rfl
  · obtain ⟨_, _, _, _, k5⟩ := flags_run hx hl (reach_ok h) h0 h2
    dsimp only
    rw [k5 hw hn]; simp

/-- C55.  When read_data answers NGHTTP3_ERR_WOULDBLOCK for the stream that is being written, the stream waits for its data source. -/
theorem C55_wouldblock_waits {id k : Nat} {s : Strm F} (h0 : c.str id = some s) (hb : clientBidi id = true) (hq : c.qenc ≠ some id)
    {t : List (Frent F)} (hf : s.out.frq = .data :: t)
    (hu : s.out.unsent < Outq.MIN_UNSENT_BYTES) {as : List Ans} {rr : Option (Nat × Bool × List Bytes)}
    (e : connWritev encode c id k (.wouldblock :: as) = .ok (c', rr)) : isStreamWritable c' id = false := by
  unfold connWritev at e
  rw [h0] at e
  dsimp only at e
  by_cases hrb : s.out.readBlocked = true
  · have : c' = c := fill_rb (by unfold connWritev; rw [h0]; exact e) h0 hrb
    subst this
    unfold isStreamWritable; rw [h0]; dsimp only; rw [hrb]; simp
  rw [if_neg hrb] at e
  obtain ⟨c1, e1, e2⟩ := bind_ok e
  have hu' : streamUni id = false := by unfold clientBidi at hb; unfold streamUni; simp at hb; simp [hb]
  have h1 : ∃ s1, c1.str id = some s1 ∧ s1.out.readBlocked = true := by
    unfold fillStream at e1
    rw [if_neg (by rw [hu']; simp)] at e1
    split at e1
    · rw [hf] at e1; simp at e1
    · rename_i qid hqq
      split at e1
      · cases e1
      · obtain ⟨⟨e', o1, o2, em⟩, e3, e4⟩ := bind_ok e1
        have hne : id ≠ qid := fun g => hq (by rw [hqq, g])
        obtain rfl := R.ok.inj e4
        refine ⟨{ s with out := o1 }, ?_, ?_⟩
        · rw [set_ne _ _ _ _ hne, set_str]
        · dsimp only
          unfold Outq.fillOutq at e3
          rw [hf] at e3
          rw [Outq.fillLoop] at e3
          rw [if_neg (by omega)] at e3
          dsimp only at e3
          have hwd : Outq.writeData s.out .wouldblock = .ok ({ s.out with readBlocked := true }, false) := by
            unfold Outq.writeData; rw [if_neg hrb]
          change ((Outq.writeData s.out .wouldblock).bind _ : R _) = _ at e3
          rw [hwd] at e3
          obtain ⟨_, g⟩ := Prod.mk.inj (R.ok.inj e3)
          obtain ⟨g, _⟩ := Prod.mk.inj g
          rw [← g]
  obtain ⟨s1, h1, hb1⟩ := h1
  obtain ⟨q, e3, e4⟩ := bind_ok e2
  have : c' = c1 := by
    rcases q with _ | q
    · dsimp only at e4
      rw [h1] at e4
      obtain ⟨x, _, e5⟩ := bind_ok e4
      exact (Prod.mk.inj (R.ok.inj e5)).1.symm
    · exact (Prod.mk.inj (R.ok.inj e4)).1.symm
  subst this
  unfold isStreamWritable; rw [h1]; dsimp only; rw [hb1]; simp

/-- the answer after a history -/
def writableAfter (l : List (Op Bytes)) (x : Nat) : Option Bool :=
  match Conn.run demoEnc demoInit l with
  | .ok c => some (isStreamWritable c x)
  | _ => none

/-- a response with a data source that has nothing yet -/
def demoWait : List (Op Bytes) := demoBind ++ [.open 0 false, .submitResponse 0 [5] true, .writev 9 [] [.wouldblock]]

/-- C55, the cases occur: unknown, new, blocked, unblocked, waiting, resumed, shut down, closed while QPACK holds it. -/
theorem C55_witness :
    writableAfter demoBind 0 = some false ∧ writableAfter (demoBind ++ [.open 0 false]) 0 = some true ∧
    writableAfter (demoBind ++ [.open 0 false, .block 0]) 0 = some false ∧
    writableAfter (demoBind ++ [.open 0 false, .block 0, .unblock 0]) 0 = some true ∧
    writableAfter demoWait 0 = some false ∧ writableAfter (demoWait ++ [.unblock 0]) 0 = some false ∧
    writableAfter (demoWait ++ [.resume 0]) 0 = some true ∧
    writableAfter (demoBind ++ [.open 0 false, .shutWr 0, .unblock 0, .resume 0]) 0 = some false ∧
    writableAfter (demoBind ++ [.open 0 false, .qpackBlock 0, .close 0]) 0 = some false := by
  refine ⟨?_, ?_, ?_, ?_, ?_, ?_, ?_, ?_, ?_⟩ <;> decide +kernel

end Props
end Nghttp3
