import Verif.Props.Safety
import Verif.Props.Priority
/-! Property theorems C43 and C29 (the GOAWAY frames that are sent): graceful shutdown. -/
namespace Nghttp3
namespace Props
open Conn
open Outq (R Frent Ans Bytes St FrentOk AnsOk EncodeOk)

variable {E F : Type} {c c' : Conn E F} {encode : Encode E F}

/-- the calls of the theorems below -/
abbrev AnyCall (_ : Conn E F) (o : Op F) : Prop := OpOk o

theorem any_step {c1 : Conn E F} (h : Inv False False c) {o : Op F} {r : Ret} (ho : OpOk o) (e : step encode c o = .ok (c1, r)) : Inv False False c1 :=
  step_inv h ho (fun g => g.elim) (fun g => g.elim) e

theorem any_hist {l : List (Op F)} (hh : Hist encode AnyCall c l c') (h : Inv False False c) : Inv False False c' := by
  induction hh with
  | nil => exact h
  | cons hp e _ ih => exact ih (any_step h hp e)
  | peer e _ ih => exact ih (h.withEnc e)

/-- what one call does to the fields that matter here -/
theorem glob_down (h : Inv False False c) {o : Op F} {r : Ret} (e : step encode c o = .ok (c', r)) :
    c'.server = c.server ∧ c'.txGoaway ≤ c.txGoaway ∧ (c.goawayQueued = true → c'.goawayQueued = true) ∧
    (c.goawayRecved = true → c'.goawayRecved = true) ∧ (c.ctrl.isSome = true → c'.ctrl = c.ctrl) ∧
    (c'.shutdownCommenced = true ↔ c.shutdownCommenced = true ∨ o = .shutdown) ∧ (o = .shutdown → c.ctrl.isSome = true) ∧
    (c.shutdownCommenced = true → c'.shutdownCommenced = true) := by
  have hg := step_glob h e
  have same : glob c' = glob c → o ≠ .shutdown → _ := fun (g : glob c' = glob c) (ho : o ≠ .shutdown) =>
    (show c'.server = c.server ∧ c'.txGoaway ≤ c.txGoaway ∧ (c.goawayQueued = true → c'.goawayQueued = true) ∧
      (c.goawayRecved = true → c'.goawayRecved = true) ∧ (c.ctrl.isSome = true → c'.ctrl = c.ctrl) ∧
      (c'.shutdownCommenced = true ↔ c.shutdownCommenced = true ∨ o = .shutdown) ∧ (o = .shutdown → c.ctrl.isSome = true) ∧
      (c.shutdownCommenced = true → c'.shutdownCommenced = true) by
      unfold glob at g; injection g; simp_all)
  cases o with
  | bindControl id =>
    rcases hg with g | ⟨g1, g⟩
    · exact same g (by simp)
    · unfold glob at g; injection g; simp_all
  | bindQpack a d =>
    rcases hg with g | ⟨g1, g2, g | g⟩
    · exact same g (by simp)
    · unfold glob at g; injection g; simp_all
    · unfold glob at g; injection g; simp_all
  | notice =>
    obtain ⟨i, _, g2, g⟩ := hg
    unfold glob at g; injection g; simp_all
  | shutdown =>
    obtain ⟨i, _, g2, g⟩ := hg
    have hc : c.ctrl.isSome = true := by
      change shutdown c = _ at e
      unfold shutdown queueGoaway at e
      cases hq : c.ctrl with
      | none => rw [if_pos (by rw [hq]; rfl)] at e; cases e
      | some i => rfl
    unfold glob at g; injection g; simp_all
  | setMaxClient n =>
    obtain ⟨_, g⟩ := hg
    unfold glob at g; injection g; simp_all
  | «open» id b =>
    rcases hg with g | ⟨_, _, _, g⟩
    · exact same g (by simp)
    · unfold glob at g; injection g; simp_all
  | priUpd id p =>
    rcases hg with g | ⟨_, _, _, g⟩
    · exact same g (by simp)
    · unfold glob at g; injection g; simp_all
  | uni id s f =>
    obtain ⟨a, b, d, g, _⟩ := hg
    unfold glob at g; injection g; simp_all
  | recvGoaway =>
    have g : glob c' = { glob c with goawayRecved := true } := hg
    unfold glob at g; injection g; simp_all
  | _ => exact same hg (by simp)

theorem hist_down {l : List (Op F)} (hh : Hist encode AnyCall c l c') (h : Inv False False c) :
    c'.server = c.server ∧ c'.txGoaway ≤ c.txGoaway ∧ (c.goawayQueued = true → c'.goawayQueued = true) ∧
    (c.goawayRecved = true → c'.goawayRecved = true) ∧ (c.ctrl.isSome = true → c'.ctrl = c.ctrl) ∧
    (c'.shutdownCommenced = true ↔ c.shutdownCommenced = true ∨ Op.shutdown ∈ l) ∧
    ((c.shutdownCommenced = true → c.ctrl.isSome = true) → c'.shutdownCommenced = true → c'.ctrl.isSome = true) := by
  induction hh with
  | nil => simp
  | peer e _ ih => exact ih (h.withEnc e)
  | cons hp e _ ih =>
    obtain ⟨a1, a2, a3, a4, a5, a6, a7, a8⟩ := glob_down h e
    obtain ⟨b1, b2, b3, b4, b5, b6, b7⟩ := ih (any_step h hp e)
    refine ⟨b1.trans a1, Nat.le_trans b2 a2, fun g => b3 (a3 g), fun g => b4 (a4 g), fun g => ?_, ?_, fun k => b7 fun g => ?_⟩
    · have := a5 g
      rw [b5 (by rw [this]; exact g), this]
    · rw [b6, a6, List.mem_cons, or_assoc]
      exact or_congr_right (or_congr_left ⟨fun g => g.symm, fun g => g.symm⟩)
    · rcases a6.1 g with g | g
      · rw [a5 (k g)]; exact k g
      · rw [a5 (a7 g)]; exact a7 g

/-! ## C43: nghttp3_conn_is_drained -/

/-- everything that was queued on the stream has been written -/
def AllWritten (s : Strm F) : Prop := s.out.frq = [] ∧ s.out.outq.length ≤ s.out.outqIdx

theorem allWritten_iff {s : Strm F} : (Outq.writeDone s.out && s.out.frq.isEmpty) = true ↔ AllWritten s := by
  unfold Outq.writeDone AllWritten
  simp only [Bool.and_eq_true, Bool.or_eq_true, List.isEmpty_iff, decide_eq_true_eq]
  constructor
  · rintro ⟨h | h, h2⟩
    · exact ⟨h2, by rw [beq_iff_eq] at h; omega⟩
    · exact ⟨h2, h⟩
  · rintro ⟨h1, h2⟩
    exact ⟨.inr h2, h1⟩

/-- C43.  On a server nghttp3_conn_is_drained never fails; it says yes exactly if nghttp3_conn_shutdown was called, no request stream exists,
and everything queued on the control stream, in particular every GOAWAY frame, has been written. -/
theorem C43_drained {st : Settings} {e0 : E} {l : List (Op F)} (h : Hist encode AnyCall (init true st e0) l c) :
    ∃ b, isDrained c = some b ∧
      (b = true ↔ Op.shutdown ∈ l ∧ (∀ x, x % 4 = 0 → c.str x = none) ∧ ∃ i s, c.ctrl = some i ∧ c.str i = some s ∧ AllWritten s) := by
  have h0 : Inv False False (init true st e0 : Conn E F) := init_inv _ _ _
  have hi := any_hist h h0
  obtain ⟨d1, _, _, _, _, d6, d7⟩ := hist_down h h0
  have hs : c.server = true := d1
  have d6' : c.shutdownCommenced = true ↔ Op.shutdown ∈ l := by
    rw [d6]; exact ⟨fun g => g.elim (fun g => by cases g) id, .inr⟩
  have d7' := d7 (fun g => by cases g)
  obtain ⟨ll, hn, hm, hc⟩ := hi.cnt
  rw [hs, if_pos rfl] at hc
  have hnum : c.num = 0 ↔ ∀ x, x % 4 = 0 → c.str x = none := by
    rw [hc]
    constructor
    · intro g x hx
      have : ll = [] := List.length_eq_zero_iff.1 g
      by_contra hne
      have := (hm x).2 ⟨bidi_iff.2 hx, by cases hq : c.str x with | none => exact absurd hq hne | some _ => rfl⟩
      simp_all
    · intro g
      rcases ll with _ | ⟨x, t⟩
      · rfl
      · have := (hm x).1 List.mem_cons_self
        rw [g x (bidi_iff.1 this.1)] at this
        exact absurd this.2 (by simp)
  unfold isDrained
  rw [if_neg (by rw [hs]; decide)]
  by_cases g1 : c.shutdownCommenced = false
  · rw [if_pos g1]
    refine ⟨false, rfl, (fun g => by cases g), fun ⟨g, _⟩ => ?_⟩
    rw [d6'.2 g] at g1; cases g1
  rw [if_neg g1]
  have g1' : c.shutdownCommenced = true := by simpa using g1
  by_cases g2 : c.num ≠ 0
  · rw [if_pos g2]
    exact ⟨false, rfl, (fun g => by cases g), fun ⟨_, g, _⟩ => absurd (hnum.2 g) g2⟩
  rw [if_neg g2]
  obtain ⟨i, hci⟩ := Option.isSome_iff_exists.1 (d7' g1')
  obtain ⟨_, s, hsi, _⟩ := hi.tctrl i hci
  have e : (match c.ctrl with
    | none => none
    | some id => match c.str id with | none => none | some s => some (Outq.writeDone s.out && s.out.frq.isEmpty)) =
      some (Outq.writeDone s.out && s.out.frq.isEmpty) := by rw [hci]; dsimp only; rw [hsi]
  refine ⟨_, e, ?_⟩
  rw [allWritten_iff]
  constructor
  · intro g
    exact ⟨d6'.1 g1', hnum.1 (by simpa using g2), i, s, hci, hsi, g⟩
  · rintro ⟨_, _, j, t, k1, k2, k3⟩
    rw [hci] at k1; cases k1
    rw [hsi] at k2; cases k2
    exact k3

theorem reach_server {server : Bool} {st : Settings} {e0 : E} (h : Reach encode AnyCall (init server st e0) c) : c.server = server := by
  induction h with
  | init => rfl
  | step h0 _ e ih => rw [(glob_down (reach_ok h0) e).1]; exact ih
  | peer e _ ih => exact ih

/-- C43.  The number of streams that a server keeps is the number of its request streams. -/
theorem C43_count {st : Settings} {e0 : E} (h : Reach encode AnyCall (init true st e0) c) :
    ∃ l : List Nat, l.Nodup ∧ (∀ x, x ∈ l ↔ x % 4 = 0 ∧ (c.str x).isSome = true) ∧ c.num = l.length := by
  have hi : Inv False False c := reach_ok h
  have hs : c.server = true := reach_server h
  obtain ⟨ll, hn, hm, hc⟩ := hi.cnt
  rw [hs, if_pos rfl] at hc
  exact ⟨ll, hn, fun x => by rw [hm, bidi_iff], hc⟩

/-- C43.  stream_close is called exactly for the request streams that a call removes, once each; a stream is removed only by
nghttp3_conn_close_stream, or, if it was closed while it waited for QPACK, when the wait is over. -/
theorem C43_stream_close {server : Bool} {st : Settings} {e0 : E} (h : Reach encode AnyCall (init server st e0) c) {o : Op F} {r : Ret}
    (ho : OpOk o) (e : step encode c o = .ok (c', r)) :
    ∃ l, c'.closes = l ++ c.closes ∧ l.length ≤ 1 ∧
      (∀ x, x % 4 = 0 → (x ∈ l ↔ (c.str x).isSome = true ∧ c'.str x = none)) ∧
      (∀ x ∈ l, x % 4 = 0 ∧ (o = .close x ∨ ∃ s p, c.str x = some s ∧ s.closed = true ∧ o = .qpackUnblock x p false)) := by
  have hl := step_life (reach_ok h) ho e
  cases hl with
  | same h1 h2 =>
    refine ⟨[], h2, by decide, fun x hx => ⟨(fun g => by cases g), fun ⟨g1, g2⟩ => ?_⟩, (fun x g => by cases g)⟩
    have := h1 x (bidi_iff.2 hx)
    rw [g1, g2] at this; cases this
  | made x ho hx h0 h0' h1 h2 =>
    refine ⟨[], h2, by decide, fun y hy => ⟨(fun g => by cases g), fun ⟨g1, g2⟩ => ?_⟩, (fun x g => by cases g)⟩
    by_cases hxy : y = x
    · subst hxy; rw [h0] at g1; cases g1
    · have := h1 y hxy (bidi_iff.2 hy)
      rw [g1, g2] at this; cases this
  | gone x s0 ho hx h0 h0' h1 h2 =>
    refine ⟨[x], h2, by simp, fun y hy => ⟨fun g => ?_, fun ⟨g1, g2⟩ => ?_⟩, fun y hy => ?_⟩
    · obtain rfl := List.mem_singleton.1 g
      exact ⟨by rw [h0]; rfl, h0'⟩
    · by_cases hxy : y = x
      · subst hxy; simp
      · have := h1 y hxy (bidi_iff.2 hy)
        rw [g1, g2] at this; cases this
    · obtain rfl := List.mem_singleton.1 hy
      refine ⟨bidi_iff.1 hx, ?_⟩
      rcases ho with ho | ⟨k, p, ho⟩
      · exact .inl ho
      · exact .inr ⟨s0, p, h0, k, ho⟩

/-! ## C29: the GOAWAY frames that are sent -/

/-- the call adds a GOAWAY frame with this identifier at the end of the control stream -/
def Queues (c c' : Conn E F) (g : Nat) : Prop :=
  ∃ i s s', c.ctrl = some i ∧ c.str i = some s ∧ c'.str i = some s' ∧ s'.out.frq = s.out.frq ++ [.goaway g]

theorem queueGoaway_queues {g : Nat} (e : queueGoaway c g = .ok c') : Queues c c' g ∧ c'.txGoaway = g ∧ c'.goawayQueued = true ∧ g ≤ c.txGoaway := by
  have hg := glob_queueGoaway e
  unfold queueGoaway at e
  split_ifs at e with h1 h2
  obtain ⟨c1, e1, e2⟩ := bind_ok e
  obtain rfl := R.ok.inj e2
  refine ⟨?_, rfl, rfl, by omega⟩
  unfold ctrlFrame at e1
  split at e1
  · cases e1
  · rename_i i hi
    split at e1
    · cases e1
    · rename_i s hs
      obtain rfl := R.ok.inj e1
      exact ⟨i, s, _, hi, hs, set_str _ _ _, rfl⟩

/-- the identifier of the GOAWAY frame of a shutdown notice, or of a shutdown -/
def IsGoaway (c : Conn E F) (o : Op F) (g : Nat) : Prop :=
  (o = .notice ∧ g = if c.server then 2 ^ 62 - 4 else 2 ^ 62 - 1) ∨
  (o = .shutdown ∧ g = if c.server then min (2 ^ 62 - 4) (c.maxBidi + 4).toNat else 0)

theorem goaway_step {o : Op F} {r : Ret} (ho : o = .notice ∨ o = .shutdown) (e : step encode c o = .ok (c', r)) :
    ∃ g, Queues c c' g ∧ IsGoaway c o g ∧ c'.txGoaway = g ∧ c'.goawayQueued = true ∧ g ≤ c.txGoaway ∧ r = .code 0 := by
  rcases ho with rfl | rfl
  · change submitNotice c = _ at e
    obtain ⟨c1, e1, e2⟩ := bind_ok e
    obtain ⟨rfl, rfl⟩ := Prod.mk.inj (R.ok.inj e2)
    obtain ⟨k1, k2, k3, k4⟩ := queueGoaway_queues e1
    exact ⟨_, k1, .inl ⟨rfl, rfl⟩, k2, k3, k4, rfl⟩
  · change shutdown c = _ at e
    obtain ⟨c1, e1, e2⟩ := bind_ok e
    obtain ⟨rfl, rfl⟩ := Prod.mk.inj (R.ok.inj e2)
    obtain ⟨k1, k2, k3, k4⟩ := queueGoaway_queues e1
    exact ⟨_, k1, .inr ⟨rfl, rfl⟩, k2, k3, k4, rfl⟩

theorem queues_inj {g g' : Nat} (h : Queues c c' g) (h' : Queues c c' g') : g = g' := by
  obtain ⟨i, s, s', a1, a2, a3, a4⟩ := h
  obtain ⟨j, t, t', b1, b2, b3, b4⟩ := h'
  rw [a1] at b1; cases b1
  rw [a2] at b2; cases b2
  rw [a3] at b3; cases b3
  have := a4.symm.trans b4
  simpa using this

/-- C29.  A shutdown notice, or a shutdown, that succeeds queues exactly one GOAWAY frame.  Its identifier is a request stream identifier on
a server; and whatever happens in between, a later one is never larger. -/
theorem C29_sent_not_increasing {server : Bool} {st : Settings} {e0 : E} {c1 c2 c3 c4 : Conn E F}
    (h : Reach encode AnyCall (init server st e0) c1) {o1 o2 : Op F} {r1 r2 : Ret} (h1 : o1 = .notice ∨ o1 = .shutdown)
    (h2 : o2 = .notice ∨ o2 = .shutdown) (e1 : step encode c1 o1 = .ok (c2, r1)) {l : List (Op F)} (hh : Hist encode AnyCall c2 l c3)
    (e2 : step encode c3 o2 = .ok (c4, r2)) :
    ∃ g1 g2, Queues c1 c2 g1 ∧ Queues c3 c4 g2 ∧ g2 ≤ g1 ∧ (c1.server = true → g1 % 4 = 0 ∧ g2 % 4 = 0) := by
  have i1 := reach_ok h
  have i2 : Inv False False c2 := any_step i1 (by rcases h1 with rfl | rfl <;> trivial) e1
  have i3 := any_hist hh i2
  obtain ⟨g1, a1, a2, a3, a4, a5, _⟩ := goaway_step h1 e1
  obtain ⟨g2, b1, b2, b3, b4, b5, _⟩ := goaway_step h2 e2
  obtain ⟨d1, d2, _⟩ := hist_down hh i2
  have sv1 := (glob_down i1 e1).1
  have mod : ∀ {c : Conn E F} {o : Op F} {g : Nat}, Inv False False c → IsGoaway c o g → c.server = true → g % 4 = 0 := by
    intro c o g hi hg hs
    have := hi.mb
    rcases hg with ⟨_, rfl⟩ | ⟨_, rfl⟩ <;> rw [hs, if_pos rfl] <;> omega
  exact ⟨g1, g2, a1, b1, by omega, fun hs => ⟨mod i1 a2 hs, mod i3 b2 (by rw [d1, sv1]; exact hs)⟩⟩

/-- C29.  The GOAWAY frame of nghttp3_conn_shutdown promises to process every request stream that exists: their identifiers are below the
one that is sent (unless the identifier is the largest one a GOAWAY frame of a server can hold). -/
theorem C29_shutdown_covers {st : Settings} {e0 : E} (h : Reach encode AnyCall (init true st e0) c) {r : Ret}
    (e : step encode c .shutdown = .ok (c', r)) : ∃ g, Queues c c' g ∧ ∀ x, x % 4 = 0 → (c.str x).isSome = true → x < g ∨ g = 2 ^ 62 - 4 := by
  have i1 := reach_ok h
  have hsv := reach_server h
  obtain ⟨g, a1, a2, _⟩ := goaway_step (.inr rfl) e
  refine ⟨g, a1, fun x hx hl => ?_⟩
  have := i1.mbl hsv x (bidi_iff.2 hx) hl
  rcases a2 with ⟨k, _⟩ | ⟨_, rfl⟩
  · cases k
  · rw [hsv, if_pos rfl]; omega

/-- C29.  Once a server has queued a GOAWAY frame with identifier `g`, every request stream from `g` on that the peer opens later is refused,
in any state reached later, and a PRIORITY_UPDATE for such a stream creates nothing. -/
theorem C29_later_refused {st : Settings} {e0 : E} {c1 c2 c3 : Conn E F} (h : Reach encode AnyCall (init true st e0) c1) {o : Op F} {r : Ret}
    (ho : o = .notice ∨ o = .shutdown) (e : step encode c1 o = .ok (c2, r)) {l : List (Op F)} (hh : Hist encode AnyCall c2 l c3) :
    ∃ g, Queues c1 c2 g ∧ ∀ x, g ≤ x → rejects c3 x = true ∧ (c3.str x = none → ∀ p c4 r', step encode c3 (.priUpd x p) = .ok (c4, r') → c4 = c3) := by
  have i1 := reach_ok h
  have i2 : Inv False False c2 := any_step i1 (by rcases ho with rfl | rfl <;> trivial) e
  obtain ⟨g, a1, a2, a3, a4, _⟩ := goaway_step ho e
  obtain ⟨d1, d2, d3, _⟩ := hist_down hh i2
  refine ⟨g, a1, fun x hx => ?_⟩
  have hr : rejects c3 x = true := by
    unfold rejects
    rw [d3 a4, Bool.true_and]
    exact decide_eq_true (by omega)
  refine ⟨hr, fun hn p c4 r' e4 => ?_⟩
  change onPriorityUpdate c3 x p = _ at e4
  unfold onPriorityUpdate at e4
  rw [hn] at e4
  dsimp only at e4
  rw [if_pos hr] at e4
  split_ifs at e4
  · exact (Prod.mk.inj (R.ok.inj e4)).1.symm
  · exact (Prod.mk.inj (R.ok.inj e4)).1.symm

/-- C29.  After a GOAWAY frame was received no new request can be submitted: in any later state nghttp3_conn_submit_request returns
NGHTTP3_ERR_CONN_CLOSING and changes nothing. -/
theorem C29_no_request_after_goaway {server : Bool} {st : Settings} {e0 : E} {c1 c2 : Conn E F} (h : Reach encode AnyCall (init server st e0) c)
    {r : Ret} (e : step encode c .recvGoaway = .ok (c1, r)) {l : List (Op F)} (hh : Hist encode AnyCall c1 l c2) {x : Nat} {nva : F} {dr : Bool}
    {c3 : Conn E F} {r' : Ret} (e3 : step encode c2 (.submitRequest x nva dr) = .ok (c3, r')) : c3 = c2 ∧ r' = .code Err.CONN_CLOSING := by
  have i1 : Inv False False c1 := any_step (reach_ok h) (show OpOk (.recvGoaway) from trivial) e
  have hr : c1.goawayRecved = true := by
    change recvGoaway c = _ at e
    obtain ⟨rfl, _⟩ := Prod.mk.inj (R.ok.inj e); rfl
  have h2 : c2.goawayRecved = true := (hist_down hh i1).2.2.2.1 hr
  change submitRequest c2 x nva dr = _ at e3
  unfold submitRequest at e3
  rw [if_pos h2] at e3
  split_ifs at e3
  obtain ⟨rfl, rfl⟩ := Prod.mk.inj (R.ok.inj e3)
  exact ⟨rfl, rfl⟩

/-- C29.  The first nghttp3_conn_shutdown of an allowed history works, after any number of shutdown notices, on servers and clients. -/
theorem C29_first_shutdown_works (henc : EncodeOk encode) {server : Bool} {st : Settings} {e0 : E} (hst : FrentOk (.settings st : Frent F))
    (h : Reach encode Fine (init server st e0) c) (hc : c.ctrl.isSome = true) (hn : c.shutdownCommenced = false) :
    ∃ c', step encode c .shutdown = .ok (c', .code 0) ∧ c'.shutdownCommenced = true := by
  have h1 := C49_no_assertion_fails henc hst h (o := .shutdown) ⟨trivial, trivial, hc, hn⟩
  change shutdown c ≠ _ at h1
  change ∃ c', shutdown c = _ ∧ _
  unfold shutdown at h1 ⊢
  generalize (if c.server then min (2 ^ 62 - 4) (c.maxBidi + 4).toNat else 0) = g at h1 ⊢
  unfold queueGoaway ctrlFrame at h1 ⊢
  split_ifs at h1 ⊢
  · exact absurd rfl h1
  · exact absurd rfl h1
  · split
    · rename_i k; rw [k] at hc; cases hc
    · rename_i i k
      split
      · rename_i k2
        exfalso
        revert h1
        split
        · rename_i k3; rw [k3] at hc; cases hc
        · rename_i j k3
          rw [k] at k3; cases k3
          rw [k2]
          exact fun g => g rfl
      · exact ⟨_, rfl, rfl⟩

/-! ## examples -/

/-- what nghttp3_conn_is_drained says at the end of a history -/
def drainedAfter (l : List (Op Bytes)) : Option Bool :=
  match run demoEnc demoInit l with
  | .ok c => isDrained c
  | _ => none

/-- a graceful shutdown: a notice, the shutdown while a request is open, its response; drained when it is closed and GOAWAY is written -/
def demoShutdown : List (Op Bytes) :=
  demoBind ++ [.open 0 false, .notice, .writev 9 [] [], .addWrite 3 10, .shutdown, .submitResponse 0 [5] false, .writev 9 [] [], .addWrite 3 3]

example : lastRet demoInit (demoBind ++ [.open 0 false, .notice, .writev 9 [] [], .addWrite 3 10, .shutdown, .writev 9 [] []]) = some (.vecs (some (3, false, [[7, 1, 4]]))) := by
  decide +kernel
example : drainedAfter demoShutdown = some false := by decide +kernel
example : drainedAfter (demoShutdown ++ [.writev 9 [] [], .addWrite 0 5, .close 0]) = some true := by decide +kernel
/-- not drained before GOAWAY is written -/
example : drainedAfter (demoBind ++ [.shutdown]) = some false := by decide +kernel
/-- a stream opened after GOAWAY 4 is refused -/
example : (match run demoEnc demoInit demoShutdown with | .ok c => rejects c 4 && !rejects c 0 | _ => false) = true := by decide +kernel

end Props
end Nghttp3
