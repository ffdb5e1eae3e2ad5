import Verif.Props.Writes
import Verif.Props.Priority
/-! Property theorems C74: the priorities that a server decides on, in a whole connection. -/
namespace Nghttp3
namespace Props
open Endpoint
open Outq (R Ans)
open Http (Pri)
open Conn (clientBidi sendable getStreamPriority)
open EpDemo

variable {P : Par} {server : Bool} {st : Settings}

/-- In this log the server has set the priority of stream `x` to `p`, with success, and after that it has neither closed the stream nor set
another priority.  Any other calls may follow, and any received data. -/
def Decided (L : Log) (x : Nat) (p : Pri) : Prop :=
  ∃ l ev l', L = l ++ (Call.setServerPri x p, Conn.Ret.code 0, ev) :: l' ∧ Call.close x ∉ l'.map Prod.fst ∧ ∀ q, Call.setServerPri x q ∉ l'.map Prod.fst

theorem no_close {l : Log} {x : Nat} (hcl : Call.close x ∉ l.map Prod.fst) : Spec.closeCalled x (calls l) = false := by
  rw [Bool.eq_false_iff]
  intro g
  unfold Spec.closeCalled calls at g
  rw [List.any_eq_true] at g
  obtain ⟨op, g1, g2⟩ := g
  obtain ⟨z, g3, g4⟩ := List.mem_filterMap.1 g1
  refine hcl (List.mem_map.2 ⟨z, g3, ?_⟩)
  cases op with
  | close id =>
    have : id = x := by simpa using g2
    subst this
    generalize z.1 = o at g4
    cases o <;> cases g4
    rfl
  | _ => cases g2

theorem no_set {l : Log} {x : Nat} {ops : List (Conn.Op Fld)} (hb : (ops.filter fun q => !received q).map noDb = calls l)
    (hn : ∀ q, Call.setServerPri x q ∉ l.map Prod.fst) : ∀ q, Conn.Op.setServerPri x q ∉ ops := by
  intro q hq
  have : noDb (.setServerPri x q : Conn.Op Fld) ∈ (ops.filter fun q => !received q).map noDb := List.mem_map.2 ⟨_, List.mem_filter.2 ⟨hq, rfl⟩, rfl⟩
  rw [hb] at this
  obtain ⟨z, g3, g4⟩ := List.mem_filterMap.1 this
  generalize hz : z.1 = o at g4
  cases o <;> cases g4
  exact hn q (List.mem_map.2 ⟨z, g3, hz⟩)

/-- a priority that the server has set is kept by any call and any received frame, whatever the stream -/
theorem decided_run {x : Nat} (hx : clientBidi x = true) {c1 c2 : CC} {l : List (Conn.Op Fld)} (hl : Conn.Hist Endpoint.encode (While x) c1 l c2)
    (hi : Conn.Inv False False c1) (hn : ∀ q, Conn.Op.setServerPri x q ∉ l) : ∀ {s1 s2 : Conn.Strm Fld}, c1.str x = some s1 → c2.str x = some s2 →
    s1.srvPri = true → s2.pri = s1.pri := by
  induction hl with
  | nil => intro s1 s2 h1 h2 _; rw [h1] at h2; cases h2; rfl
  | peer e _ ih => intro s1 s2 h1 h2 hs; exact ih (hi.withEnc e) hn h1 h2 hs
  | @cons ca cb cd o t r hp he ht ih =>
    intro s1 s2 h1 h2 hs
    have hb : ∃ sb, cb.str x = some sb := Option.isSome_iff_exists.1 (ht.exists_at_start (fun _ _ g => by obtain ⟨s, g⟩ := g.2; rw [g]; rfl) (by rw [h2]; rfl))
    obtain ⟨sb, hb⟩ := hb
    have hk : sb.pri = s1.pri ∧ sb.srvPri = true := by
      have := Conn.step_pri hi hp.1 hx (fun f => f.elim) he hb
      rw [h1] at this
      cases this with
      | same _ _ _ g _ => exact ⟨g.1, g.2.1.trans hs⟩
      | server p _ _ _ _ _ => exact absurd List.mem_cons_self (hn p)
      | update _ _ _ g => rw [hs] at g; cases g
      | header _ _ _ _ _ _ g => rw [hs] at g; cases g
    exact (ih (any_step hi hp.1 he) (fun q hq => hn q (List.mem_cons_of_mem _ hq)) hb h2 hk.2).trans hk.1

theorem set_decided {c0 c1 : CC} {x : Nat} {p : Pri} (hi : Conn.Inv False False c0) (hf : Fine c0 (.setServerPri x p))
    (e' : Conn.step Endpoint.encode c0 (.setServerPri x p) = .ok (c1, .code 0)) :
    clientBidi x = true ∧ ∃ s, c1.str x = some s ∧ s.closed = false ∧ s.pri = p ∧ s.srvPri = true := by
  have e : Conn.setServerPriority c0 x p = .ok (c1, .code 0) := e'
  have hx : clientBidi x = true := by
    unfold Conn.setServerPriority at e
    split_ifs at e with g1 g2
    · cases e
    simpa using g2
  rcases hs0 : c0.str x with _ | s0
  · exfalso
    unfold Conn.setServerPriority at e
    rw [hs0] at e
    split_ifs at e <;> cases e
  have hcl0 : s0.closed = false := hf.2.1 s0 hs0
  obtain ⟨_, s1, hs1, hc1⟩ := open_run hx (c1 := c0) (c2 := c1) (.cons (P := AnyCall) hf.1 e' .nil) hi rfl hs0 hcl0
  have hp1 : s1.pri = p ∧ s1.srvPri = true := by
    have := Conn.step_pri hi hf.1 hx (fun f => f.elim) e' hs1
    rw [hs0] at this
    cases this with
    | same _ _ _ _ g => exact ((g p).1 rfl).elim
    | server _ _ _ g1 g2 _ => exact ⟨g1, g2⟩
    | header _ _ _ _ g => rcases g with g | ⟨_, g⟩ <;> cases g
  exact ⟨hx, s1, hs1, hc1, hp1⟩

theorem decided (hP : ParOk P) (hst : SettingsOk st) {L : Log} {ep : Ep} {x : Nat} {p : Pri} (h : Hist P server st L ep) (hd : Decided L x p) :
    clientBidi x = true ∧ ∃ s, ep.c.str x = some s ∧ s.closed = false ∧ s.pri = p := by
  obtain ⟨l, ev, l', rfl, hcl, hn⟩ := hd
  have h' : Hist P server st ((l ++ [(Call.setServerPri x p, Conn.Ret.code 0, ev)]) ++ l') ep := by rwa [List.append_assoc]
  obtain ⟨ep1, h1, ops, b2, b3⟩ := suffix_bridge hP hst l' h'
  obtain ⟨ep0, h0, a2, a3⟩ := hist_snoc h1
  have hi0 : Conn.Inv False False ep0.c := reach_ok ((hist_reach hP hst h0).mono fun _ _ g => g.1)
  have hi1 : Conn.Inv False False ep1.c := reach_ok ((hist_reach hP hst h1).mono fun _ _ g => g.1)
  have hop : opOn ep0 (.setServerPri x p) = some (.setServerPri x p) := rfl
  obtain ⟨hx, s1, hs1, hc1, hp1⟩ := set_decided hi0 (permitted_fine hop a2) (step_op hop a3).1
  have b3' : (ops.filter fun q => !received q).map noDb = calls l' := b3
  have hcl' : Spec.closeCalled x ops = false := by
    obtain ⟨_, _, g3, _⟩ := flags_calls x ops
    rw [b3'] at g3
    exact g3.trans (no_close hcl)
  obtain ⟨k1, s2, k2, k3⟩ := open_run hx (b2.mono fun _ _ h => h.1) hi1 hcl' hs1 hc1
  exact ⟨hx, s2, k2, k3, (decided_run hx k1 hi1 (no_set b3' hn) hs1 k2 hp1.2).trans hp1.1⟩

/-- C74.  After nghttp3_conn_set_server_stream_priority has succeeded, nghttp3_conn_get_stream_priority gives that priority until the server
closes the stream or sets another one: header fields, PRIORITY_UPDATE frames, and whatever else the client sends on any stream in any order,
have no effect on it. -/
theorem C74_server_decides (P : Par) (server : Bool) (st : Settings) (L : Log) (ep : Ep) (x : Nat) (p : Pri) (hP : ParOk P) (hst : SettingsOk st)
    (h : Hist P server st L ep) (hd : Decided L x p) : getStreamPriority ep.c x = .ok p := by
  obtain ⟨hx, s, h1, _, h2⟩ := decided hP hst h hd
  unfold getStreamPriority
  rw [if_neg (by rw [hx]; decide), h1, ← h2]

/-- C74.  If the server has made stream `x` more urgent than stream `y`, the connection does not offer `y` for writing as long as `x` can send
something: the client cannot turn the order round. -/
theorem C74_order (P : Par) (server : Bool) (st : Settings) (L : Log) (ep ep' : Ep) (x y : Nat) (p q : Pri) (hP : ParOk P) (hst : SettingsOk st)
    (h : Hist P server st L ep) (hx : Decided L x p) (hy : Decided L y q) (hpq : p.urgency < q.urgency) (k : Nat) (as : List Ans) (fin : Bool)
    (vs : List Bidi.Bytes) (ev : List Endpoint.Ev) (e : Endpoint.step P ep (.writev k as) = .ok ep' (.vecs (some (y, fin, vs))) ev) :
    ∀ s, ep.c.str x = some s → sendable s = false := by
  obtain ⟨bx, s, hs, hc, hsp⟩ := decided hP hst h hx
  obtain ⟨bY, t, ht, _, htp⟩ := decided hP hst h hy
  intro s' hs'
  rw [hs] at hs'; cases hs'
  obtain ⟨⟨t', ht', _, _, g⟩, _⟩ := C67_offered P server st L ep ep' k as y fin vs ev hP hst h bY e
  rw [ht] at ht'; cases ht'
  rw [Bool.eq_false_iff]
  intro hsd
  have := g x s hs bx hc hsd
  rw [hsp, htp] at this
  omega

/-! ## example -/

/-- a reader of priority field values that looks at the third byte only: `u=7` -/
def EpDemo.urgencyPar : Par := { pp := fun p b => some { p with urgency := (b.getD 2 0x33).toNat % 8 }, cb := fun _ => true }
theorem EpDemo.urgencyPar_ok : ParOk urgencyPar := by
  intro p b q _ h
  cases h
  exact Nat.mod_lt _ (by decide)

/-- a server gets two requests; … -/
def EpDemo.twoRequests : List Call := [.bindControl 3, .bindQpack 7 11, .setMaxClient 10, .read 2 [0, 4, 0] false, .read 0 plainRequest true, .read 4 plainRequest true]
/-- … a PRIORITY_UPDATE frame asks for urgency 7 for the second one; … -/
def EpDemo.lessUrgent : Call := .read 2 [0x80, 0x0f, 0x07, 0x00, 4, 4, 0x75, 0x3d, 0x37] false
/-- … it answers both, and sends what is on its control stream and its QPACK encoder stream -/
def EpDemo.answerTwo : List Call := [.submitResponse 0 ok200 false, .submitResponse 4 ok200 false, .writev 9 [], .addWrite 3 17, .writev 9 [], .addWrite 11 1, .writev 9 [], .addWrite 7 1]

/-- the priority of stream 4, and the streams that the next call offers -/
def EpDemo.offer4 (r : Ep × Log) : Option Pri × List Nat :=
  (match getStreamPriority r.1.c 4 with | .ok p => some p | .error _ => none,
   match Endpoint.step urgencyPar r.1 (.writev 9 []) with
   | .ok _ (.vecs (some v)) _ => [v.1]
   | _ => [])

/-- checks `Decided` -/
def EpDemo.decidedB (x : Nat) (p : Pri) : Log → Bool
  | [] => false
  | z :: t => ((match z.1, z.2.1 with | .setServerPri y q, .code n => decide (y = x ∧ q = p ∧ n = 0) | _, _ => false) &&
      t.all fun w => match w.1 with | .close y => !decide (y = x) | .setServerPri y _ => !decide (y = x) | _ => true) || decidedB x p t

theorem EpDemo.decidedB_ok {x : Nat} {p : Pri} : ∀ {L : Log}, decidedB x p L = true → Decided L x p
  | [], h => by cases h
  | z :: t, h => by
    unfold decidedB at h
    rw [Bool.or_eq_true, Bool.and_eq_true] at h
    rcases h with ⟨h1, h2⟩ | h
    · obtain ⟨o, r, ev⟩ := z
      dsimp only at h1
      split at h1
      · rename_i y q n e1 e2
        rw [decide_eq_true_eq] at h1
        obtain ⟨rfl, rfl, rfl⟩ := h1
        rw [List.all_eq_true] at h2
        refine ⟨[], ev, t, by rw [List.nil_append], fun g => ?_, fun q' g => ?_⟩ <;>
        · obtain ⟨w, g1, g2⟩ := List.mem_map.1 g
          have := h2 w g1
          rw [g2] at this
          simp at this
      · cases h1
    · obtain ⟨l, ev, l', rfl, h2⟩ := decidedB_ok h
      exact ⟨z :: l, ev, l', rfl, h2⟩

set_option maxRecDepth 100000 in
/-- C74 is about such histories: without the server's decision the PRIORITY_UPDATE frame has effect and stream 0 is offered; after the server
has decided on both, the frame has none, and stream 4 is offered. -/
theorem C74_example :
    (makeCalls urgencyPar (twoRequests ++ [lessUrgent] ++ answerTwo) (init true someSettings)).map offer4 = some (some ⟨7, false⟩, [0]) ∧
    ∃ (L : Log) (ep ep' : Ep) (vs : List Bidi.Bytes) (ev : List Endpoint.Ev), Hist urgencyPar true someSettings L ep ∧ Decided L 4 ⟨1, false⟩ ∧ Decided L 0 ⟨2, false⟩ ∧ lessUrgent ∈ L.map Prod.fst ∧
      Endpoint.step urgencyPar ep (.writev 9 []) = .ok ep' (.vecs (some (4, true, vs))) ev := by
  refine ⟨by decide +kernel, ?_⟩
  have k : (makeCalls urgencyPar (twoRequests ++ [.setServerPri 4 ⟨1, false⟩, .setServerPri 0 ⟨2, false⟩, lessUrgent] ++ answerTwo) (init true someSettings)).map
      (fun r => decidedB 4 ⟨1, false⟩ r.2 && decidedB 0 ⟨2, false⟩ r.2 && (r.2.any fun z => match z.1 with
        | .read u b f => decide (u = 2 ∧ b = [0x80, 0x0f, 0x07, 0x00, 4, 4, 0x75, 0x3d, 0x37] ∧ f = false)
        | _ => false) &&
        match Endpoint.step urgencyPar r.1 (.writev 9 []) with
        | .ok _ (.vecs (some v)) _ => decide (v.1 = 4 ∧ v.2.1 = true)
        | _ => false) = some true := by decide +kernel
  rcases hm : makeCalls urgencyPar (twoRequests ++ [.setServerPri 4 ⟨1, false⟩, .setServerPri 0 ⟨2, false⟩, lessUrgent] ++ answerTwo) (init true someSettings) with _ | ⟨ep, L⟩
  · rw [hm] at k; cases k
  rw [hm] at k
  injection k with k
  simp only [Bool.and_eq_true] at k
  obtain ⟨⟨⟨k1, k2⟩, k3⟩, k4⟩ := k
  have hh := makeCalls_hist _ .init hm
  rw [List.nil_append] at hh
  rw [List.any_eq_true] at k3
  obtain ⟨z, z1, z2⟩ := k3
  split at z2
  · rename_i u b f hz
    rw [decide_eq_true_eq] at z2
    obtain ⟨rfl, rfl, rfl⟩ := z2
    split at k4
    · rename_i ep' v ev he
      obtain ⟨id, fin, vs⟩ := v
      rw [decide_eq_true_eq] at k4
      obtain ⟨rfl, rfl⟩ := k4
      exact ⟨L, ep, ep', vs, ev, hh, decidedB_ok k1, decidedB_ok k2, List.mem_map.2 ⟨z, z1, hz⟩, he⟩
    · cases k4
  · cases z2

end Props
end Nghttp3
