import Verif.Lemmas.EndpointBridge
import Verif.Lemmas.EndpointLives
import Verif.Props.Shutdown
/-! A connection that goes away; streams whose reading side was shut down. -/
namespace Nghttp3

namespace Bidi
open Qpack (Dec)

/-- nothing but deferred_consume -/
def OnlyDeferred (ev : List Ev) : Prop := ∀ e ∈ ev, ∃ n, e = .deferredConsume n

theorem OnlyDeferred.app {a b : List Ev} (h : OnlyDeferred a) (h' : OnlyDeferred b) : OnlyDeferred (a ++ b) := fun e g => by
  rcases List.mem_append.1 g with g | g
  · exact h e g
  · exact h' e g

theorem OnlyDeferred.nil : OnlyDeferred [] := fun _ g => by cases g

theorem OnlyDeferred.def (n : Nat) : OnlyDeferred (deferred n) := fun e g => by
  unfold deferred at g
  split_ifs at g
  · cases g
  · exact ⟨n, List.mem_singleton.1 g⟩

theorem OnlyDeferred.noClose {a : List Ev} (h : OnlyDeferred a) : Ev.streamClose ∉ a := fun g => by
  obtain ⟨n, hn⟩ := h _ g
  cases hn

variable {c : Cfg}

theorem readStream_shut {room fin : Bool} {s : Str} {d : Dec} {src : Bytes} {s' : Str} {d' : Dec} {ev : List Ev} {n : Nat} {rest : Bytes}
    (hs : s.shutRd = true) (e : readStream c room fin s d src = .ok s' d' ev n rest) : s'.shutRd = true ∧ ev = [] := by
  unfold readStream readBidi at e
  by_cases h : src = [] ∧ fin = false
  · rw [if_pos h] at e; cases e; exact ⟨hs, rfl⟩
  rw [if_neg h] at e
  have : (if fin then { s with eof := true } else s).shutRd = true := by split_ifs <;> exact hs
  rw [if_pos this] at e
  cases e
  exact ⟨this, rfl⟩

theorem procLoop_shut (room : Bool) (f : Nat) (s : Str) (d : Dec) (ev : List Ev) (hs : s.shutRd = true) (hv : OnlyDeferred ev) {s' : Str} {d' : Dec} {ev' : List Ev}
    {n : Nat} {rest : Bytes} (e : procLoop c room f s d ev = .ok s' d' ev' n rest) : s'.shutRd = true ∧ OnlyDeferred ev' := by
  induction f generalizing s ev with
  | zero => unfold procLoop at e; cases e
  | succ f ih =>
    unfold procLoop at e
    rcases hin : s.inq with _ | ⟨b, t⟩ <;> rw [hin] at e <;> dsimp only at e
    · cases e; exact ⟨hs, hv⟩
    have hr : readBidi c room (decide (t = []) && s.eof) s d b.data = .ok s d [] b.data.length [] := by unfold readBidi; rw [if_pos hs]
    rw [hr] at e
    dsimp only at e
    have hv' : OnlyDeferred (ev ++ [] ++ deferred b.data.length) := (hv.app .nil).app (.def _)
    rw [if_pos rfl] at e
    by_cases hb : s.blocked = true
    · rw [if_pos hb] at e; cases e; exact ⟨hs, hv'⟩
    · rw [if_neg hb] at e
      exact ih { s with inq := t } _ hs hv' e

theorem processBlocked_shut {room : Bool} {s : Str} {d : Dec} (hs : s.shutRd = true) (hg : s.gone = false) {s' : Str} {d' : Dec} {ev : List Ev} {n : Nat} {rest : Bytes}
    (hi : Inv s d) (hb : s.blocked = false)
    (e : processBlocked c room s d = .ok s' d' ev n rest) :
    (s'.gone = false ∧ s'.shutRd = true ∧ OnlyDeferred ev) ∨ (s'.gone = true ∧ ∃ ev1, ev = ev1 ++ [.streamClose] ∧ OnlyDeferred ev1) := by
  unfold processBlocked at e
  have hw := procLoop_wait (c := c) room (s.inq.length + 1) s d [] hi hb
  rcases e1 : procLoop c room (s.inq.length + 1) s d [] with _ | z | ⟨s1, d1, ev1, n1, r1⟩ <;> rw [e1] at e hw <;> dsimp only at e hw
  · cases e
  · cases e
  obtain ⟨k1, k2⟩ := procLoop_shut room _ s d [] hs .nil e1
  split_ifs at e
  · cases e
    exact .inr ⟨rfl, ev1 ++ deferred (bufferedLen s1.inq), rfl, k2.app (.def _)⟩
  · cases e
    exact .inl ⟨hw.2.1.trans hg, k1, k2⟩

end Bidi

namespace Endpoint
open Outq (R)
open Conn (clientBidi streamUni)
open Props (Fine Queues goaway_step)

variable {P : Par} {K : Bidi.Cfg} {Q : Bool → List Http.Field → Prop} {S : Prop}

/-- what is seen of a stream from some time on, if its reading side is shut down then -/
def Silent (b : Option Bidi.Str) (ev : List Bidi.Ev) : Prop :=
  (Bidi.OnlyDeferred ev ∧ ∃ s, b = some s ∧ s.shutRd = true) ∨ ∃ e1 e2, ev = e1 ++ .streamClose :: e2 ∧ Bidi.OnlyDeferred e1

theorem Move.silent {a b : Option Bidi.Str} {g : List (Bytes × Bool)} {e : List Bidi.Ev} {u : Int} (m : Move K Q S a g e u b) {ev : List Bidi.Ev} (h : Silent a ev) : Silent b (ev ++ e) := by
  rcases h with ⟨h1, s, rfl, hs⟩ | ⟨e1, e2, rfl, h1⟩
  · cases m with
    | recv s d b room fin src s' d' _ n rest hi k =>
      obtain ⟨k1, k2⟩ := Bidi.readStream_shut (s := { s with priFixed := b }) hs k
      subst k2
      exact .inl ⟨h1.app .nil, _, rfl, k1⟩
    | woken s d b room s' d' _ n rest hi hg hb hn k =>
      rcases Bidi.processBlocked_shut (s := { s with blocked := false, priFixed := b }) hs hg (Bidi.inv_of hi.inv rfl rfl rfl rfl rfl) rfl k with ⟨k1, k2, k3⟩ | ⟨k1, ev1, rfl, k3⟩
      · exact .inl ⟨h1.app k3, s', by rw [k1]; rfl, k2⟩
      · exact .inr ⟨ev ++ ev1, [], by rw [List.append_assoc], h1.app k3⟩
    | shut s _ => exact .inl ⟨h1.app .nil, _, rfl, rfl⟩
    | closed s d s' d' _ n rest hi hg k =>
      unfold Bidi.closeStream at k
      split_ifs at k
      · cases k
        exact .inl ⟨h1.app .nil, { s with closed := true }, by rw [show ({ s with closed := true } : Bidi.Str).gone = false from hg]; rfl, hs⟩
      · cases k
        refine .inr ⟨ev ++ Bidi.deferred (Bidi.bufferedLen s.inq), [], ?_, h1.app (.def _)⟩
        unfold Bidi.delete
        rw [List.nil_append, List.append_assoc]
  · exact .inr ⟨e1, e2 ++ e, by rw [List.append_assoc]; rfl, h1⟩

theorem Chain.silent {a b : Option Bidi.Str} {g : List (Bytes × Bool)} {e : List Bidi.Ev} {u : Int} (m : Chain K Q S a g e u b) {s : Bidi.Str} (ha : a = some s) (hs : s.shutRd = true) :
    Silent b e := by
  induction m with
  | refl => exact .inl ⟨.nil, s, ha, hs⟩
  | step _ m ih => exact m.silent ih

theorem Silent.lives {b : Option Bidi.Str} {ev : List Bidi.Ev} (h : Silent b ev) : ∃ (e : List Bidi.Ev) (r : List (List Bidi.Ev)), Bidi.lives ev = e :: r ∧ Bidi.OnlyDeferred e := by
  rcases h with ⟨h, _⟩ | ⟨e1, e2, rfl, h⟩
  · exact ⟨ev, [], Bidi.lives_plain h.noClose, h⟩
  · have h1 := Bidi.lives_append (done := []) (cur := e1) (Bidi.lives_plain h.noClose) (.streamClose :: e2) [] (Bidi.lives e2) (by rw [Bidi.lives, if_pos rfl])
    rw [List.append_nil] at h1
    exact ⟨e1, _, h1, h⟩

/-! ### histories -/

theorem hist_det {server : Bool} {st : Settings} {l : Log} {ep ep' : Ep} (h : Hist P server st l ep) (h' : Hist P server st l ep') : ep = ep' := by
  induction h generalizing ep' with
  | init =>
    generalize hl : ([] : Log) = L at h'
    cases h' with
    | init => rfl
    | step => simp at hl
  | @step l ep1 ep2 o r ev h1 h2 h3 ih =>
    generalize hl : l ++ [(o, r, ev)] = L at h'
    cases h' with
    | init => simp at hl
    | step k1 k2 k3 =>
      obtain ⟨rfl, hy⟩ := List.append_inj' hl rfl
      obtain rfl := ih k1
      cases hy
      rw [h3] at k3
      cases k3
      rfl

theorem hist_snoc {server : Bool} {st : Settings} {l : Log} {o : Call} {r : Conn.Ret} {ev : List Ev} {ep' : Ep} (h : Hist P server st (l ++ [(o, r, ev)]) ep') :
    ∃ ep, Hist P server st l ep ∧ Permitted ep o ∧ step P ep o = .ok ep' r ev := by
  generalize hl : l ++ [(o, r, ev)] = L at h
  cases h with
  | init => simp at hl
  | step h1 h2 h3 =>
    obtain ⟨rfl, hy⟩ := List.append_inj' hl rfl
    cases hy
    exact ⟨_, h1, h2, h3⟩

theorem hist_prefix {server : Bool} {st : Settings} {l l' : Log} {ep' : Ep} (h : Hist P server st (l ++ l') ep') : ∃ ep, Hist P server st l ep := by
  induction l' using List.reverseRecOn generalizing ep' with
  | nil => rw [List.append_nil] at h; exact ⟨_, h⟩
  | append_singleton l' y ih =>
    rw [← List.append_assoc] at h
    obtain ⟨o, r, ev⟩ := y
    obtain ⟨ep, h1, _⟩ := hist_snoc h
    exact ih h1

/-- a history with a call in the middle -/
theorem hist_split {server : Bool} {st : Settings} {l l' : Log} {o : Call} {r : Conn.Ret} {ev : List Ev} {ep' : Ep} (h : Hist P server st (l ++ (o, r, ev) :: l') ep') :
    ∃ ep1 ep2, Hist P server st l ep1 ∧ Permitted ep1 o ∧ step P ep1 o = .ok ep2 r ev ∧ Hist P server st (l ++ [(o, r, ev)]) ep2 := by
  have h' : Hist P server st ((l ++ [(o, r, ev)]) ++ l') ep' := by rwa [List.append_assoc]
  obtain ⟨ep2, h2⟩ := hist_prefix h'
  obtain ⟨ep1, k1, k2, k3⟩ := hist_snoc h2
  exact ⟨ep1, ep2, k1, k2, k3, h2⟩

/-! ### GOAWAY -/

theorem Path.rejects {t g u : Bool} {a b : CC} (h : Path t g u a b) (x : Nat) : Conn.rejects b x = Conn.rejects a x := by
  induction h with
  | refl => rfl
  | op _ hi ho _ e _ _ ih =>
    rw [← ih]
    exact rejects_same hi (by rintro rfl; exact absurd ho.1 (by decide)) (by rintro rfl; exact absurd ho.1 (by decide)) e x
  | enc _ _ ih => exact ih

theorem goaway_op {o : Call} (h : o = .notice ∨ o = .shutdown) {ep ep' : Ep} {r : Conn.Ret} {ev : List Ev} (e : step P ep o = .ok ep' r ev) :
    ∃ op : Conn.Op Fld, (op = .notice ∨ op = .shutdown) ∧ (o = .shutdown → op = .shutdown) ∧ Conn.step encode ep.c op = .ok (ep'.c, r) := by
  rcases h with rfl | rfl
  · exact ⟨.notice, .inl rfl, (fun g => by cases g), (step_op rfl e).1⟩
  · exact ⟨.shutdown, .inr rfl, fun _ => rfl, (step_op rfl e).1⟩

/-- A server refuses a stream only after a GOAWAY frame that says so. -/
theorem rejects_hist (hP : ParOk P) {server : Bool} {st : Settings} (hst : SettingsOk st) {l : Log} {ep : Ep} (h : Hist P server st l ep) {x : Nat}
    (hr : Conn.rejects ep.c x = true) :
    ∃ (l1 : Log) (o : Call) (r : Conn.Ret) (ev : List Ev) (ep1 ep2 : Ep) (g : Nat), l1 ++ [(o, r, ev)] <+: l ∧ (o = .notice ∨ o = .shutdown) ∧ Hist P server st l1 ep1 ∧
      Hist P server st (l1 ++ [(o, r, ev)]) ep2 ∧ Queues ep1.c ep2.c g ∧ g ≤ x := by
  induction h with
  | init => cases hr
  | @step l ep ep' o r ev h1 h2 h3 ih =>
    by_cases ho : o = .notice ∨ o = .shutdown
    · obtain ⟨op, k1, _, k2⟩ := goaway_op ho h3
      obtain ⟨g, a1, a2, a3, a4, _⟩ := goaway_step k1 k2
      refine ⟨l, o, r, ev, ep, ep', g, List.prefix_rfl, ho, h1, .step h1 h2 h3, a1, ?_⟩
      unfold Conn.rejects at hr
      rw [a3, Bool.and_eq_true, decide_eq_true_eq] at hr
      exact hr.2
    · have same : Conn.rejects ep.c x = true := by
        rcases hop : opOn ep o with _ | op
        · rcases (opOn_none hop).2 with ⟨id, src, fin, rfl⟩ | ⟨n, rfl⟩
          · obtain ⟨k1, k2⟩ := h2 id src fin rfl
            obtain ⟨⟨m, k3, k4⟩, _⟩ := read_path hP (hist_einv hP hst h1) (hist_sync hP hst h1) k1 k2 h3
            rw [← k3.rejects x, ← k4.rejects x]; exact hr
          · change Res.ok _ _ _ = _ at h3
            cases h3
            exact hr
        · obtain ⟨e1, _⟩ := step_op hop h3
          rw [← rejects_same (hist_einv hP hst h1).core.c _ _ e1 x]
          · exact hr
          · rintro rfl
            have := (opOn_some hop).2
            cases o <;> simp [Call.op, noDb] at this
            exact ho (.inl rfl)
          · rintro rfl
            have := (opOn_some hop).2
            cases o <;> simp [Call.op, noDb] at this
            exact ho (.inr rfl)
      obtain ⟨l1, o1, r1, ev1, ep1, ep2, g, b1, b2⟩ := ih same
      exact ⟨l1, o1, r1, ev1, ep1, ep2, g, b1.trans (List.prefix_append _ _), b2⟩

end Endpoint
end Nghttp3
