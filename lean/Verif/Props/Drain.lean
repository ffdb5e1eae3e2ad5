import Verif.Lemmas.EndpointShut
import Verif.Props.Lives
/-! C64: the graceful shutdown of a whole connection; streams whose reading side is shut down. -/
namespace Nghttp3
namespace Props
open Endpoint EpDemo Bidi Http
open Conn (clientBidi)

/-- the call queues a GOAWAY frame with identifier `g` on the control stream -/
def GoesAway (P : Par) (server : Bool) (st : Settings) (log : Log) (x : Call × Conn.Ret × List Endpoint.Ev) (g : Nat) : Prop :=
  (x.1 = .notice ∨ x.1 = .shutdown) ∧
    ∃ ep ep', Hist P server st log ep ∧ Hist P server st (log ++ [x]) ep' ∧ Queues ep.c ep'.c g

/-- C64.  Every shutdown notice and every shutdown of a connection queues exactly one GOAWAY frame; the one of a server has the identifier of
a request stream. -/
theorem C64_goaway (P : Par) (server : Bool) (st : Settings) (log : Log) (x : Call × Conn.Ret × List Endpoint.Ev) (ep : Ep) (hP : ParOk P) (hst : SettingsOk st)
    (h : Hist P server st (log ++ [x]) ep) (hx : x.1 = .notice ∨ x.1 = .shutdown) :
    ∃ g, GoesAway P server st log x g ∧ (∀ g', GoesAway P server st log x g' → g' = g) ∧ (server = true → clientBidi g = true) := by
  obtain ⟨o, r, ev⟩ := x
  obtain ⟨ep1, h1, h2, h3⟩ := hist_snoc h
  obtain ⟨op, k1, _, k2⟩ := goaway_op hx h3
  obtain ⟨g, a1, a2, _⟩ := goaway_step k1 k2
  refine ⟨g, ⟨hx, ep1, ep, h1, h, a1⟩, ?_, fun hs => ?_⟩
  · rintro g' ⟨_, e1, e2, b1, b2, b3⟩
    obtain rfl := hist_det h1 b1
    obtain rfl := hist_det h b2
    exact queues_inj b3 a1
  · have he := hist_einv hP hst h1
    have hmb := he.core.c.inv.mb
    have hsv : ep1.c.server = true := by rw [server_hist he]; exact hs
    rw [Conn.bidi_iff]
    rcases a2 with ⟨_, rfl⟩ | ⟨_, rfl⟩ <;> rw [hsv, if_pos rfl] <;> omega

/-- C64.  The identifiers of the GOAWAY frames of a connection never increase. -/
theorem C64_not_increasing (P : Par) (server : Bool) (st : Settings) (log later : Log) (x y : Call × Conn.Ret × List Endpoint.Ev) (g g' : Nat) (hP : ParOk P)
    (hst : SettingsOk st) (h1 : GoesAway P server st log x g) (h2 : GoesAway P server st (log ++ x :: later) y g') : g' ≤ g := by
  obtain ⟨hx, ep1, ep2, a1, a2, a3⟩ := h1
  obtain ⟨hy, ep3, ep4, b1, b2, b3⟩ := h2
  obtain ⟨o, r, ev⟩ := x
  obtain ⟨o', r', ev'⟩ := y
  have b1' : Hist P server st ((log ++ [(o, r, ev)]) ++ later) ep3 := by rwa [List.append_assoc]
  obtain ⟨e2, c1, ops, c2, _⟩ := suffix_bridge hP hst later b1'
  obtain rfl := hist_det a2 c1
  obtain ⟨e1, d1, _, d3⟩ := hist_snoc a2
  obtain rfl := hist_det a1 d1
  obtain ⟨e3, f1, _, f3⟩ := hist_snoc b2
  obtain rfl := hist_det b1 f1
  obtain ⟨op, k1, _, k2⟩ := goaway_op hx d3
  obtain ⟨op', k1', _, k2'⟩ := goaway_op hy f3
  obtain ⟨n, m1, _, m3, _⟩ := goaway_step k1 k2
  obtain ⟨n', m1', _, _, _, m5', _⟩ := goaway_step k1' k2'
  obtain ⟨ops0, k0, _⟩ := hist_bridge hP hst a2
  have i2 : Conn.Inv False False ep2.c := any_hist (k0.mono fun _ _ h => h.1) (Conn.init_inv _ _ _)
  have := (hist_down (c2.mono fun _ _ h => h.1) i2).2.1
  rw [queues_inj a3 m1, queues_inj b3 m1']
  omega

/-- C64, server.  The GOAWAY frame of nghttp3_conn_shutdown covers every request stream that exists (unless its identifier is the largest one
that a GOAWAY frame of a server can hold). -/
theorem C64_shutdown_covers (P : Par) (st : Settings) (log : Log) (r : Conn.Ret) (ev : List Endpoint.Ev) (ep : Ep) (g : Nat) (hP : ParOk P)
    (hst : SettingsOk st) (hep : Hist P true st log ep) (h : GoesAway P true st log (.shutdown, r, ev) g) (id : Nat) (hid : clientBidi id = true)
    (hex : (ep.c.str id).isSome = true) : id < g ∨ g = 2 ^ 62 - 4 := by
  obtain ⟨hx, ep1, ep2, a1, a2, a3⟩ := h
  obtain rfl := hist_det hep a1
  obtain ⟨e1, d1, _, d3⟩ := hist_snoc a2
  obtain rfl := hist_det hep d1
  obtain ⟨ops, k1, _⟩ := hist_bridge hP hst hep
  obtain ⟨op, k2, k3, k4⟩ := goaway_op hx d3
  rw [k3 rfl] at k4
  obtain ⟨g', b1, b2⟩ := C29_shutdown_covers (conn_hist_reach .init (k1.mono fun _ _ h => h.1)) k4
  rw [queues_inj a3 b1]
  exact b2 id (Conn.bidi_iff.1 hid) hex

/-- C64, server.  Once a GOAWAY frame with identifier `g` is queued, nothing of a request stream from `g` on that does not exist yet reaches
the application any more: such a stream is refused with H3_REQUEST_REJECTED, as often as the peer opens it. -/
theorem C64_refused (P : Par) (st : Settings) (log later : Log) (x : Call × Conn.Ret × List Endpoint.Ev) (ep ep' : Ep) (g : Nat) (hP : ParOk P)
    (hst : SettingsOk st) (h : GoesAway P true st log x g) (hep : Hist P true st log ep) (hep' : Hist P true st (log ++ x :: later) ep') (id : Nat)
    (hid : clientBidi id = true) (hg : g ≤ id) (hnew : ep.c.str id = none) : ∀ life ∈ lives (later.events id), life = [] ∨ RefusedLife life := by
  obtain ⟨hx, ep1, ep2, a1, a2, a3⟩ := h
  obtain rfl := hist_det hep a1
  obtain ⟨o, r, ev⟩ := x
  have hep'' : Hist P true st ((log ++ [(o, r, ev)]) ++ later) ep' := by rwa [List.append_assoc]
  obtain ⟨e1, d1, d2, d3⟩ := hist_snoc a2
  obtain rfl := hist_det hep d1
  obtain ⟨op, k2, k3, k4⟩ := goaway_op hx d3
  obtain ⟨ops, k1, _⟩ := hist_bridge hP hst hep
  have hr : Conn.Reach encode AnyCall (init true st).c ep.c := conn_hist_reach .init (k1.mono fun _ _ h => h.1)
  have hrej : ∀ (l1 : Log) (ep3 : Ep), Hist P true st (log ++ [(o, r, ev)] ++ l1) ep3 → Conn.rejects ep3.c id = true := by
    intro l1 ep3 h3
    obtain ⟨e2, c1, ops2, c2, _⟩ := suffix_bridge hP hst l1 h3
    obtain rfl := hist_det a2 c1
    obtain ⟨g', m1, m2⟩ := C29_later_refused hr k2 k4 (c2.mono fun _ _ h => h.1)
    rw [queues_inj a3 m1] at hg
    exact (m2 id hg).1
  obtain ⟨e2, f1, f2⟩ := suffix_chain hP hst hid later hep''
  obtain rfl := hist_det a2 f1
  have hnew2 : (ep2.c.str id).isSome = false := by
    rw [isSome_keep (keep_neutral (hist_einv hP hst hep).core.c (by rcases k2 with rfl | rfl <;> trivial) (by rcases k2 with rfl | rfl <;> trivial) k4 hid), hnew]
    rfl
  obtain ⟨done, cur, hl⟩ := f2.lives (view_none hnew2)
  have key : ∀ s e, Lived (cfg P (init true st).c id) (QL P true st (log ++ [(o, r, ev)]) later id) s e → RefusedLife e := by
    rintro s e ⟨rf, req, hq, hp⟩
    rcases hq with ⟨_, rfl, l1, ep3, _, q2, q3⟩ | ⟨q, _⟩
    · rcases request_life rfl hp with ⟨_, k⟩ | ⟨q4, _⟩
      · exact k
      · rw [q4] at q3
        rw [hrej l1 ep3 q2] at q3
        cases q3
    · cases q
  intro life hm
  rw [hl.eq] at hm
  rcases List.mem_append.1 hm with hm | hm
  · obtain ⟨s, hs⟩ := hl.old _ hm
    exact .inr (key s _ hs)
  · obtain rfl := List.mem_singleton.1 hm
    rcases hv : view ep'.c ep'.rx id with _ | s
    · exact .inl (hl.none hv)
    · exact .inr (key s _ (hl.some s hv))

/-- C64, server.  A request stream is refused only if a GOAWAY frame with an identifier not above its own had been queued before; every other
life of a stream shows a well-formed request, the beginning of one, or the beginning of a malformed one (C63). -/
theorem C64_refused_only_then (P : Par) (st : Settings) (log : Log) (ep : Ep) (hP : ParOk P) (hst : SettingsOk st) (h : Hist P true st log ep) (id : Nat)
    (hid : clientBidi id = true) :
    ∀ life ∈ lives (log.events id),
      LifeOk (RequestSoFar st.enableConnectProtocol) (CompleteRequest st.enableConnectProtocol) life ∨
      (RefusedLife life ∧ ∃ (log1 : Log) (x : Call × Conn.Ret × List Endpoint.Ev) (g : Nat), log1 ++ [x] <+: log ∧ GoesAway P true st log1 x g ∧ g ≤ id) := by
  obtain ⟨done, cur, hl⟩ := (hist_chain hP hst hid h).lives rfl
  have key : ∀ s e, Lived (cfg P (init true st).c id) (QL P true st [] log id) s e →
      LifeOk (RequestSoFar st.enableConnectProtocol) (CompleteRequest st.enableConnectProtocol) e ∨
      (RefusedLife e ∧ ∃ (log1 : Log) (x : Call × Conn.Ret × List Endpoint.Ev) (g : Nat), log1 ++ [x] <+: log ∧ GoesAway P true st log1 x g ∧ g ≤ id) := by
    rintro s e ⟨rf, req, hq, hp⟩
    rcases hq with ⟨_, rfl, l1, ep3, q1, q2, q3⟩ | ⟨q, _⟩
    · rcases request_life rfl hp with ⟨q4, k⟩ | ⟨_, k⟩
      · rw [q4] at q3
        obtain ⟨l2, o, r, ev, e1, e2, g, b1, b2, b3, b4, b5, b6⟩ := rejects_hist hP hst q2 q3.symm
        exact .inr ⟨k, l2, (o, r, ev), g, b1.trans q1, ⟨b2, e1, e2, b3, b4, b5⟩, b6⟩
      · exact .inl k
    · cases q
  intro life hm
  rw [hl.eq] at hm
  rcases List.mem_append.1 hm with hm | hm
  · obtain ⟨s, hs⟩ := hl.old _ hm
    exact key s _ hs
  · obtain rfl := List.mem_singleton.1 hm
    rcases hv : view ep.c ep.rx id with _ | s
    · rw [hl.none hv]
      exact .inl (.progress (fun _ g => by cases g) .start)
    · exact key s _ (hl.some s hv)

/-- C64, server.  nghttp3_conn_is_drained never fails; it says yes exactly if nghttp3_conn_shutdown was called, no request stream exists, and
everything queued on the control stream, in particular every GOAWAY frame, has been written. -/
theorem C64_drained (P : Par) (st : Settings) (log : Log) (ep : Ep) (hP : ParOk P) (hst : SettingsOk st) (h : Hist P true st log ep) :
    ∃ b, Conn.isDrained ep.c = some b ∧
      (b = true ↔ (∃ r ev, (Call.shutdown, r, ev) ∈ log) ∧ (∀ id, clientBidi id = true → ep.c.str id = none) ∧
        ∃ i s, ep.c.ctrl = some i ∧ ep.c.str i = some s ∧ AllWritten s) := by
  obtain ⟨ops, k1, k2⟩ := hist_bridge hP hst h
  obtain ⟨b, e, hb⟩ := C43_drained (k1.mono fun _ _ h => h.1 : Conn.Hist encode AnyCall (init true st).c ops ep.c)
  refine ⟨b, e, hb.trans (and_congr ?_ (and_congr ?_ Iff.rfl))⟩
  · have hm : Conn.Op.shutdown ∈ ops ↔ (Conn.Op.shutdown : Conn.Op Fld) ∈ (ops.filter fun q => !received q).map noDb := by
      rw [List.mem_map]
      constructor
      · intro g; exact ⟨.shutdown, List.mem_filter.2 ⟨g, rfl⟩, rfl⟩
      · rintro ⟨q, g1, g2⟩
        cases q <;> simp [noDb] at g2
        exact (List.mem_filter.1 g1).1
    rw [hm, k2, List.mem_filterMap]
    constructor
    · rintro ⟨⟨o, r, ev⟩, g1, g2⟩
      cases o <;> simp [Call.op] at g2
      exact ⟨r, ev, g1⟩
    · rintro ⟨r, ev, g⟩
      exact ⟨_, g, rfl⟩
  · exact forall_congr' fun x => by rw [Conn.bidi_iff]

/-- C64.  After nghttp3_conn_shutdown_stream_read nothing of the stream reaches the application any more, up to its stream_close; only
deferred_consume may be called, for bytes that were buffered. -/
theorem C64_shutdown_stream_read (P : Par) (server : Bool) (st : Settings) (log later : Log) (r : Conn.Ret) (ev : List Endpoint.Ev) (ep ep' : Ep) (hP : ParOk P)
    (hst : SettingsOk st) (id : Nat) (hid : clientBidi id = true) (hep : Hist P server st log ep) (hex : (ep.c.str id).isSome = true)
    (h : Hist P server st (log ++ (.shutRd id, r, ev) :: later) ep') :
    ∃ (life : List Bidi.Ev) (rest : List (List Bidi.Ev)), lives (later.events id) = life :: rest ∧ ∀ e ∈ life, ∃ n, e = .deferredConsume n := by
  obtain ⟨ep1, ep2, a1, _, a3, a4⟩ := hist_split h
  obtain rfl := hist_det hep a1
  have h' : Hist P server st ((log ++ [(.shutRd id, r, ev)]) ++ later) ep' := by rwa [List.append_assoc]
  obtain ⟨e2, f1, f2⟩ := suffix_chain hP hst hid later h'
  obtain rfl := hist_det a4 f1
  have he := hist_einv hP hst hep
  have hs : (ep2.c.str id).isSome = true ∧ (ep2.rx id).shutRd = true := by
    change shutRd ep id = _ at a3
    unfold shutRd at a3
    rcases e1 : Conn.shutdownRead ep.c id with _ | _ | _ | ⟨c', r1⟩ <;> rw [e1] at a3 <;> dsimp only [lift] at a3
    · cases a3
    · cases a3
    · cases a3
    have e1' : Conn.step encode ep.c (.shutRd id) = .ok (c', r1) := e1
    have hk := isSome_keep (keep_neutral he.core.c (o := .shutRd id) trivial trivial e1' hid)
    rw [if_neg (by rw [hid]; simp)] at a3
    by_cases h2 : ((ep.c.str id).isSome && (ep.rx id).shutRd) = true
    · rw [if_pos h2] at a3
      cases a3
      exact ⟨hk.trans hex, (Bool.and_eq_true _ _ ▸ h2).2⟩
    rw [if_neg h2] at a3
    generalize ep.dec.cancelStream id = o at a3
    rcases o with _ | d
    · cases a3
    dsimp only at a3
    cases a3
    dsimp only
    rw [if_pos hex, PQ.upd_same]
    exact ⟨hk.trans hex, rfl⟩
  exact (f2.silent (view_some hs.1) hs.2).lives

/-! ## example -/

theorem goesAway_tx {P : Par} {server : Bool} {st : Settings} {log : Log} {x : Call × Conn.Ret × List Endpoint.Ev} {g : Nat} {ep : Ep}
    (h : GoesAway P server st log x g) (hep : Hist P server st (log ++ [x]) ep) : ep.c.txGoaway = g := by
  obtain ⟨hx, ep1, ep2, a1, a2, a3⟩ := h
  obtain rfl := hist_det hep a2
  obtain ⟨o, r, ev⟩ := x
  obtain ⟨e1, d1, _, d3⟩ := hist_snoc a2
  obtain rfl := hist_det a1 d1
  obtain ⟨op, k2, _, k4⟩ := goaway_op hx d3
  obtain ⟨g', m1, _, m3, _⟩ := goaway_step k2 k4
  rw [m3]; exact queues_inj m1 a3

/-- a server that gets a request -/
def EpDemo.served : List Call := [.bindControl 3, .bindQpack 7 11, .read 2 inserts false, .read 0 request true]
/-- after its shutdown: a request on a new stream, everything is written, the first request is over, and the new stream too -/
def EpDemo.afterwards : List Call := [.read 4 request true, .writev 9 [], .addWrite 3 20, .close 0, .close 4]
/-- the application does not want the rest of a request -/
def EpDemo.unwanted : List Call :=
  [.bindControl 3, .bindQpack 7 11, .read 2 inserts false, .read 0 request false, .shutRd 0, .read 0 [0, 1, 65] true, .close 0]

set_option maxRecDepth 100000 in
/-- C64 is about such histories: GOAWAY has identifier 4, stream 4 is refused, and at the end the connection is drained; nothing of a DATA
frame is reported after nghttp3_conn_shutdown_stream_read -/
theorem C64_example :
    (∃ (log later : Log) (x : Call × Conn.Ret × List Endpoint.Ev) (ep ep' : Ep), GoesAway anyPar true someSettings log x 4 ∧ Hist anyPar true someSettings log ep ∧
      ep.c.str 4 = none ∧ Hist anyPar true someSettings (log ++ x :: later) ep' ∧ loudLives 4 (ep', later) = [[.stopSending 0x010b, .resetStream 0x010b], []] ∧
      Conn.isDrained ep'.c = some true) ∧
    (makeCalls anyPar unwanted (init true someSettings)).map (fun r => (loudLives 0 r).map List.length) = some [6, 0] := by
  refine ⟨?_, by decide +kernel⟩
  rcases h1 : makeCalls anyPar served (init true someSettings) with _ | ⟨ep, log⟩
  · have : (makeCalls anyPar served (init true someSettings)).isSome = true := by decide +kernel
    rw [h1] at this; cases this
  have k1 : (makeCalls anyPar served (init true someSettings)).bind (fun r => (makeCalls anyPar [.shutdown] r.1).map fun q => (q.2.length, q.1.c.txGoaway)) = some (1, 4) := by
    decide +kernel
  have k0 : (makeCalls anyPar served (init true someSettings)).map (fun r => (r.1.c.str 4).isNone) = some true := by decide +kernel
  have k2 : (makeCalls anyPar served (init true someSettings)).bind (fun r => (makeCalls anyPar [.shutdown] r.1).bind fun q => (makeCalls anyPar afterwards q.1).map fun t =>
      (loudLives 4 t, Conn.isDrained t.1.c)) = some ([[.stopSending 0x010b, .resetStream 0x010b], []], some true) := by decide +kernel
  rw [h1] at k0 k1 k2
  dsimp only [Option.bind_some, Option.map_some] at k0 k1 k2
  rcases h2 : makeCalls anyPar [.shutdown] ep with _ | ⟨ep2, l2⟩ <;> rw [h2] at k1 k2
  · cases k1
  dsimp only [Option.bind_some, Option.map_some] at k1 k2
  obtain ⟨x, rfl⟩ : ∃ x, l2 = [x] := List.length_eq_one_iff.1 (by injection k1 with k1; exact (Prod.mk.inj k1).1)
  rcases h3 : makeCalls anyPar afterwards ep2 with _ | ⟨ep', later⟩ <;> rw [h3] at k2
  · cases k2
  have a1 : Hist anyPar true someSettings log ep := by simpa using makeCalls_hist _ .init h1
  have a2 := makeCalls_hist _ a1 h2
  have a3 := makeCalls_hist _ a2 h3
  have hx : x.1 = .shutdown := by
    obtain ⟨o, r, ev⟩ := x
    unfold makeCalls at h2
    split_ifs at h2
    split at h2
    · unfold makeCalls at h2
      simp at h2
      exact h2.2.1.symm
    · cases h2
  obtain ⟨g, b1, _⟩ := C64_goaway anyPar true someSettings log x ep2 anyPar_ok someSettings_ok a2 (.inr hx)
  have hg := goesAway_tx b1 a2
  injection k1 with k1
  rw [(Prod.mk.inj k1).2] at hg
  subst hg
  injection k2 with k2
  obtain ⟨q1, q2⟩ := Prod.mk.inj k2
  exact ⟨log, later, x, ep, ep', b1, a1, by simpa using k0, by rw [List.append_assoc] at a3; exact a3, q1, q2⟩

end Props
end Nghttp3
