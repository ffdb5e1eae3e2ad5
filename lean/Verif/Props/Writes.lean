import Verif.Lemmas.EndpointAlive
import Verif.Props.Offer
import Verif.Props.Kept
/-! Property theorems C67: scheduling and writability of the request streams of a whole connection, which gets bytes on any streams in between. -/
namespace Nghttp3
namespace Props
open Endpoint
open Outq (R Ans)
open Conn (clientBidi sendable requireSchedule names isStreamWritable)
open EpDemo

variable {P : Par} {server : Bool} {st : Settings}

theorem hist_reach (hP : ParOk P) (hst : SettingsOk st) {l : Log} {ep : Ep} (h : Hist P server st l ep) :
    Conn.Reach Endpoint.encode Fine (Endpoint.init server st).c ep.c := by
  obtain ⟨ops, k, _⟩ := hist_bridge hP hst h
  exact conn_hist_reach .init k

theorem writev_call {ep ep' : Ep} {k : Nat} {as : List Ans} {r : Conn.Ret} {ev : List Endpoint.Ev} (e : Endpoint.step P ep (.writev k as) = .ok ep' r ev) :
    Conn.writevStream Endpoint.encode ep.c k ep.dec.writeDecoder.2 as = .ok (ep'.c, r) := (step_op (o := .writev k as) rfl e).1

/-- C67.  After any history of a connection: the request stream that nghttp3_conn_writev_stream offers has something to send, there are bytes
or the end of the stream in the offer, no request stream that may send and has something to send is more urgent, and the control stream and the
QPACK streams have no unsent bytes or are blocked. -/
theorem C67_offered (P : Par) (server : Bool) (st : Settings) (l : Log) (ep ep' : Ep) (k : Nat) (as : List Ans) (id : Nat) (fin : Bool) (vs : List Bidi.Bytes)
    (ev : List Endpoint.Ev) (hP : ParOk P) (hst : SettingsOk st) (h : Hist P server st l ep) (hb : clientBidi id = true)
    (e : Endpoint.step P ep (.writev k as) = .ok ep' (.vecs (some (id, fin, vs))) ev) :
    (∃ s, ep.c.str id = some s ∧ requireSchedule s = true ∧ (vs ≠ [] ∨ fin = true) ∧
      ∀ x t, ep.c.str x = some t → clientBidi x = true → t.closed = false → sendable t = true → s.pri.urgency ≤ t.pri.urgency) ∧
    Quiet ep'.c ep'.c.ctrl ∧ Quiet ep'.c ep'.c.qdec ∧ Quiet ep'.c ep'.c.qenc := by
  have hr := (hist_reach hP hst h).mono (Q := fun _ o => Conn.OpOk o) fun _ _ g => g.1
  exact ⟨C34_most_urgent hr hb (writev_call e), C34_critical_first hr hb (writev_call e)⟩

/-- C67.  When nghttp3_conn_writev_stream, with room for a vector, offers nothing: the control stream and the QPACK streams have no unsent bytes
or are blocked, and either no request stream that the application has not closed can send anything, or the stream whose turn it was has none. -/
theorem C67_nothing_offered (P : Par) (server : Bool) (st : Settings) (l : Log) (ep ep' : Ep) (k : Nat) (as : List Ans) (ev : List Endpoint.Ev) (hP : ParOk P)
    (hst : SettingsOk st) (h : Hist P server st l ep) (hk : 0 < k) (e : Endpoint.step P ep (.writev k as) = .ok ep' (.vecs none) ev) :
    (Quiet ep'.c ep'.c.ctrl ∧ Quiet ep'.c ep'.c.qdec ∧ Quiet ep'.c ep'.c.qenc) ∧
    ((∀ x s, x % 4 = 0 → ep'.c.str x = some s → s.closed = false → sendable s = false) ∨
      ∃ id s, Conn.nextTx ep.c = some id ∧ ep'.c.str id = some s ∧ NoBytes s.out) :=
  C50_nothing_offered ((hist_reach hP hst h).mono fun _ _ g => g.1) hk (writev_call e)

/-- the call does not name the stream, and is not a report of received data, which may concern any stream -/
def Elsewhere (x : Nat) (o : Call) : Prop := ∃ op, o.op = some op ∧ names op x = false

/-- C67.  After nghttp3_conn_block_stream or nghttp3_conn_shutdown_stream_write for a request stream, whatever was received before, it is not
offered until data is received or a call names it. -/
theorem C67_blocked (P : Par) (server : Bool) (st : Settings) (l l' : Log) (o : Call) (r : Conn.Ret) (ev : List Endpoint.Ev) (ep ep' : Ep) (x : Nat) (hP : ParOk P)
    (hst : SettingsOk st) (hx : clientBidi x = true) (ho : o = .block x ∨ o = .shutWr x) (hl : ∀ y ∈ l', Elsewhere x y.1)
    (h : Hist P server st (l ++ (o, r, ev) :: l') ep) (k : Nat) (as : List Ans) (fin : Bool) (vs : List Bidi.Bytes) (ev' : List Endpoint.Ev) :
    Endpoint.step P ep (.writev k as) ≠ .ok ep' (.vecs (some (x, fin, vs))) ev' := by
  intro e
  obtain ⟨ep1, ep2, h1, h2, h3, h4⟩ := hist_split h
  have h' : Hist P server st ((l ++ [(o, r, ev)]) ++ l') ep := by rwa [List.append_assoc]
  have key : ∀ (l' : Log), (∀ y ∈ l', Elsewhere x y.1) → ∀ {ep : Ep}, Hist P server st ((l ++ [(o, r, ev)]) ++ l') ep →
      ∃ ops, Conn.Hist Endpoint.encode (fun _ o => Conn.OpOk o ∧ names o x = false) ep2.c ops ep.c := by
    intro l'
    induction l' using List.reverseRecOn with
    | nil =>
      intro _ ep h
      rw [List.append_nil] at h
      obtain rfl := hist_det h4 h
      exact ⟨[], .nil⟩
    | append_singleton l' y ih =>
      intro hl ep h
      obtain ⟨o', r', ev1⟩ := y
      rw [← List.append_assoc] at h
      obtain ⟨ep3, k1, k2, k3⟩ := hist_snoc h
      obtain ⟨ops, k4⟩ := ih (fun y hy => hl y (by simp [hy])) k1
      obtain ⟨op, m1, m2⟩ := hl (o', r', ev1) (by simp)
      rcases hop : opOn ep3 o' with _ | op'
      · rw [(opOn_none hop).1] at m1; cases m1
      · refine ⟨ops ++ [op'], conn_hist_trans k4 (.cons ⟨(permitted_fine hop k2).1, ?_⟩ (step_op hop k3).1 .nil)⟩
        have := (opOn_some hop).2
        rw [m1] at this; cases this
        rw [← m2]
        cases op' <;> rfl
  obtain ⟨ops, hops⟩ := key l' hl h'
  have hr := (hist_reach hP hst h1).mono (Q := fun _ o => Conn.OpOk o) fun _ _ g => g.1
  rcases ho with rfl | rfl
  · exact C34_not_offered_after_block hr hx (.inl rfl) (step_op (o := .block x) rfl h3).1 hops (writev_call e)
  · exact C34_not_offered_after_block hr hx (.inr rfl) (step_op (o := .shutWr x) rfl h3).1 hops (writev_call e)

/-- the parts of a history in which the stream comes into being and is not closed -/
theorem writable_run (hP : ParOk P) (hst : SettingsOk st) {l l' : Log} {y : Call × Conn.Ret × List Endpoint.Ev} {ep0 ep1 ep : Ep} {x : Nat} (hx : clientBidi x = true)
    (h0 : Hist P server st l ep0) (hn : ep0.c.str x = none) (h1 : Hist P server st (l ++ [y]) ep1) (hs : (ep1.c.str x).isSome = true)
    (h : Hist P server st (l ++ y :: l') ep) (hcl : Spec.closeCalled x (calls l') = false) :
    ∃ s, ep.c.str x = some s ∧ s.closed = false ∧ s.fc = Spec.flowBlocked x false (calls l') ∧ s.shutWr = Spec.writeShut x (calls l') ∧
      (s.out.readBlocked = true → Spec.askedSinceResume x false (calls l') = true) := by
  obtain ⟨o, r, ev⟩ := y
  obtain ⟨ep0', a1, a2, a3⟩ := hist_snoc h1
  obtain rfl := hist_det h0 a1
  have hf := fresh_step hP hst h0 a2 a3 hn
  have h' : Hist P server st ((l ++ [(o, r, ev)]) ++ l') ep := by rwa [List.append_assoc]
  obtain ⟨ep1', b1, ops, b2, b3⟩ := suffix_bridge hP hst l' h'
  obtain rfl := hist_det h1 b1
  obtain ⟨s1, hs⟩ := Option.isSome_iff_exists.1 hs
  obtain ⟨f1, f2, f3, f4⟩ := hf s1 hs
  have hi : Conn.Inv False False ep1.c := reach_ok ((hist_reach hP hst h1).mono fun _ _ g => g.1)
  obtain ⟨g1, g2, g3, g4, _⟩ := flags_calls x ops
  have b3' : (ops.filter fun q => !received q).map noDb = calls l' := b3
  rw [b3'] at g1 g2 g3 g4
  obtain ⟨k1, s, k2, k3⟩ := open_run hx (b2.mono fun _ _ h => h.1) hi (g3.trans hcl) hs f3
  obtain ⟨m1, m2, _, m4, _⟩ := flags_run hx k1 hi hs k2
  refine ⟨s, k2, k3, ?_, ?_, fun hb => ?_⟩
  · rw [m1, f1, g1]
  · rw [m2, f2, g2]; rfl
  · have := m4 hb; rwa [f4, g4] at this

/-- C67.  Let a request stream come into being by some call, be it the submission of a request or the arrival of data, and let any calls and any
received data follow, with the stream not closed by the application.  If nghttp3_conn_writev_stream, which asks for data, was not called after
the last nghttp3_conn_resume_stream for it, then nghttp3_conn_is_stream_writable reports it as writable exactly if it was not blocked (of the
calls of nghttp3_conn_block_stream and nghttp3_conn_unblock_stream for it, the last was not the former) and not shut down for writing.  What
is received makes no difference. -/
theorem C67_writable (P : Par) (server : Bool) (st : Settings) (l l' : Log) (y : Call × Conn.Ret × List Endpoint.Ev) (ep0 ep1 ep : Ep) (x : Nat) (hP : ParOk P)
    (hst : SettingsOk st) (hx : clientBidi x = true) (h0 : Hist P server st l ep0) (hn : ep0.c.str x = none) (h1 : Hist P server st (l ++ [y]) ep1)
    (hs : (ep1.c.str x).isSome = true) (h : Hist P server st (l ++ y :: l') ep) (hcl : Spec.closeCalled x (calls l') = false)
    (hr : Spec.askedSinceResume x false (calls l') = false) :
    isStreamWritable ep.c x = true ↔ Spec.flowBlocked x false (calls l') = false ∧ Spec.writeShut x (calls l') = false := by
  obtain ⟨s, k1, k2, k3, k4, k5⟩ := writable_run hP hst hx h0 hn h1 hs h hcl
  have hb : s.out.readBlocked = false := by
    cases hb : s.out.readBlocked
    · rfl
    · rw [k5 hb] at hr; cases hr
  unfold isStreamWritable
  rw [k1]
  dsimp only
  rw [k2, k3, k4, hb]
  cases Spec.flowBlocked x false (calls l') <;> cases Spec.writeShut x (calls l') <;> simp

/-- C67.  In any case a stream that is blocked or shut down for writing is not reported as writable. -/
theorem C67_not_writable (P : Par) (server : Bool) (st : Settings) (l l' : Log) (y : Call × Conn.Ret × List Endpoint.Ev) (ep0 ep1 ep : Ep) (x : Nat) (hP : ParOk P)
    (hst : SettingsOk st) (hx : clientBidi x = true) (h0 : Hist P server st l ep0) (hn : ep0.c.str x = none) (h1 : Hist P server st (l ++ [y]) ep1)
    (hs : (ep1.c.str x).isSome = true) (h : Hist P server st (l ++ y :: l') ep) (hcl : Spec.closeCalled x (calls l') = false)
    (hr : Spec.flowBlocked x false (calls l') = true ∨ Spec.writeShut x (calls l') = true) : isStreamWritable ep.c x = false := by
  obtain ⟨s, k1, k2, k3, k4, _⟩ := writable_run hP hst hx h0 hn h1 hs h hcl
  unfold isStreamWritable
  rw [k1]
  dsimp only
  rw [k3, k4]
  rcases hr with hr | hr <;> rw [hr] <;> simp

/-- C67.  The request stream exists as long as the application does not close it: neither the end of the stream, nor an error of the peer, nor
anything else that is received removes it. -/
theorem C67_stays (P : Par) (server : Bool) (st : Settings) (l l' : Log) (y : Call × Conn.Ret × List Endpoint.Ev) (ep0 ep1 ep : Ep) (x : Nat) (hP : ParOk P)
    (hst : SettingsOk st) (hx : clientBidi x = true) (h0 : Hist P server st l ep0) (hn : ep0.c.str x = none) (h1 : Hist P server st (l ++ [y]) ep1)
    (hs : (ep1.c.str x).isSome = true) (h : Hist P server st (l ++ y :: l') ep) (hcl : Call.close x ∉ l'.map Prod.fst) : (ep.c.str x).isSome = true := by
  have : Spec.closeCalled x (calls l') = false := by
    rw [Bool.eq_false_iff]
    intro g
    unfold Spec.closeCalled calls at g
    rw [List.any_eq_true] at g
    obtain ⟨op, g1, g2⟩ := g
    obtain ⟨z, g3, g4⟩ := List.mem_filterMap.1 g1
    refine hcl (List.mem_map.2 ⟨z, g3, ?_⟩)
    cases op with
    | close id =>
      have : id = x := by simpa using g2
      subst this
      generalize z.1 = o at g4
      cases o <;> cases g4
      rfl
    | _ => cases g2
  obtain ⟨s, k1, _⟩ := writable_run hP hst hx h0 hn h1 hs h this
  rw [k1]; rfl

/-- C67.  A client has no request stream that it did not submit, whatever it receives, and no connection ever has a server-initiated
bidirectional stream. -/
theorem C67_streams (P : Par) (server : Bool) (st : Settings) (l : Log) (ep : Ep) (x : Nat) (hP : ParOk P) (hst : SettingsOk st) (h : Hist P server st l ep)
    (hs : (ep.c.str x).isSome = true) :
    (server = false → x % 4 = 0 → ∃ nva dr, Call.submitRequest x nva dr ∈ l.map Prod.fst) ∧ x % 4 ≠ 1 := by
  constructor
  · rintro rfl hx
    obtain ⟨ops, k1, k2⟩ := hist_bridge hP hst h
    obtain ⟨nva, dr, k3⟩ := C41_client_requests (k1.mono fun _ _ g => g.1) hx hs
    have : noDb (.submitRequest x nva dr) ∈ (ops.filter fun q => !received q).map noDb := List.mem_map.2 ⟨_, List.mem_filter.2 ⟨k3, rfl⟩, rfl⟩
    rw [k2] at this
    obtain ⟨z, g3, g4⟩ := List.mem_filterMap.1 this
    generalize hz : z.1 = o at g4
    cases o <;> cases g4
    exact ⟨_, _, List.mem_map.2 ⟨z, g3, hz⟩⟩
  · intro hx
    have := C41_no_server_bidi (c := ep.c) (server := server) (e0 := Qpack.Enc.init st.qpackEncoderMaxDtableCapacity) encode_ok (st := sentSettings server st) ⟨hst.1, hst.2.1, hst.2.2.2⟩ (hist_reach hP hst h) hx
    rw [this] at hs; cases hs

/-! ## examples -/

theorem makeCalls_calls (t : List Call) {ep ep' : Ep} {l : Log} (e : makeCalls P t ep = some (ep', l)) : calls l = t.filterMap Call.op := by
  induction t generalizing ep l with
  | nil => cases e; rfl
  | cons o t ih =>
    unfold makeCalls at e
    split_ifs at e
    rcases hs : step P ep o with _ | _ | ⟨ep1, r, ev⟩ <;> rw [hs] at e
    · cases e
    · cases e
    dsimp only at e
    rcases hm : makeCalls P t ep1 with _ | ⟨ep2, l2⟩ <;> rw [hm] at e
    · cases e
    cases e
    have := ih hm
    unfold calls at this ⊢
    rw [List.filterMap_cons, List.filterMap_cons, this]

/-- a request that does not use the dynamic table -/
def EpDemo.plainRequest : Bidi.Bytes := [1, 8, 0, 0, 0xd1, 0xc1, 0xd7, 0x50, 1, 0x61]
def EpDemo.ok200 : List Qpack.Nv := [{ name := [58, 115, 116, 97, 116, 117, 115], value := [50, 48, 48] }]
/-- a server gets two requests, makes the second one urgent, answers both, and sends what is on its control stream and its QPACK streams -/
def EpDemo.twoCalls : List Call := [.bindControl 3, .bindQpack 7 11, .read 0 plainRequest true, .read 4 plainRequest true, .setServerPri 4 ⟨1, false⟩, .submitResponse 0 ok200 false,
  .submitResponse 4 ok200 false, .writev 9 [], .addWrite 3 17, .writev 9 [], .addWrite 11 1, .writev 9 [], .addWrite 7 1]
/-- which stream the next call offers -/
def EpDemo.nextOffer (r : Ep × Log) : List (Nat × Bool × List (List UInt8)) :=
  match step anyPar r.1 (.writev 9 []) with
  | .ok _ (.vecs (some v)) _ => [v]
  | _ => []

set_option maxRecDepth 100000 in
/-- C67 is about such histories: the urgent stream is offered first; after it was written, the other one, unless it was blocked; then nothing -/
theorem C67_example :
    (makeCalls anyPar twoCalls (init true someSettings)).map nextOffer = some [(4, true, [[1, 3, 0, 0, 0xd9]])] ∧
    (makeCalls anyPar (twoCalls ++ [.writev 9 [], .addWrite 4 5]) (init true someSettings)).map nextOffer = some [(0, true, [[1, 3, 0, 0, 0xd9]])] ∧
    (makeCalls anyPar (twoCalls ++ [.writev 9 [], .addWrite 4 5, .block 0]) (init true someSettings)).map nextOffer = some [] := by
  refine ⟨?_, ?_, ?_⟩ <;> decide +kernel

set_option maxRecDepth 100000 in
/-- … and so are these: a stream that the arrival of a request has brought into being is blocked and unblocked while more data arrives -/
theorem C67_example_writable : ∃ (l l' : Log) (y : Call × Conn.Ret × List Endpoint.Ev) (ep0 ep1 ep : Ep), Hist anyPar true someSettings l ep0 ∧ ep0.c.str 0 = none ∧
    Hist anyPar true someSettings (l ++ [y]) ep1 ∧ (ep1.c.str 0).isSome = true ∧ Hist anyPar true someSettings (l ++ y :: l') ep ∧
    calls l' = [.block 0, .unblock 0, .block 4] ∧ isStreamWritable ep.c 0 = true := by
  rcases h0 : makeCalls anyPar [.bindControl 3, .bindQpack 7 11] (init true someSettings) with _ | ⟨ep0, l⟩
  · have : (makeCalls anyPar [.bindControl 3, .bindQpack 7 11] (init true someSettings)).isSome = true := by decide +kernel
    rw [h0] at this; cases this
  have k0 : (makeCalls anyPar [.bindControl 3, .bindQpack 7 11] (init true someSettings)).map (fun r => (r.1.c.str 0).isNone) = some true := by decide +kernel
  have k1 : ((makeCalls anyPar [.bindControl 3, .bindQpack 7 11] (init true someSettings)).bind fun r => makeCalls anyPar [.read 0 (plainRequest.take 5) false] r.1).map
      (fun r => ((r.1.c.str 0).isSome, r.2.length)) = some (true, 1) := by decide +kernel
  have k2 : ((makeCalls anyPar [.bindControl 3, .bindQpack 7 11] (init true someSettings)).bind fun r =>
      (makeCalls anyPar [.read 0 (plainRequest.take 5) false] r.1).bind fun r => makeCalls anyPar [.block 0, .read 0 (plainRequest.drop 5) true, .unblock 0, .block 4] r.1).map
      (fun r => isStreamWritable r.1.c 0) = some true := by decide +kernel
  rw [h0] at k0 k1 k2
  rw [Option.bind_some] at k1 k2
  rcases h1 : makeCalls anyPar [.read 0 (plainRequest.take 5) false] ep0 with _ | ⟨ep1, l1⟩ <;> rw [h1] at k1 k2
  · cases k1
  rw [Option.bind_some] at k2
  rcases h2 : makeCalls anyPar [.block 0, .read 0 (plainRequest.drop 5) true, .unblock 0, .block 4] ep1 with _ | ⟨ep, l2⟩ <;> rw [h2] at k2
  · cases k2
  injection k0 with k0
  injection k1 with k1
  injection k2 with k2
  simp only [Prod.mk.injEq] at k1
  obtain ⟨y, rfl⟩ := List.length_eq_one_iff.1 k1.2
  have a0 := makeCalls_hist _ .init h0
  rw [List.nil_append] at a0
  have a1 := makeCalls_hist _ a0 h1
  have a2 := makeCalls_hist _ a1 h2
  rw [List.append_assoc] at a2
  exact ⟨l, l2, y, ep0, ep1, ep, a0, Option.isNone_iff_eq_none.1 k0, a1, k1.1, a2, makeCalls_calls _ h2, k2⟩

end Props
end Nghttp3
