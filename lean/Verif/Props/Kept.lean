import Verif.Lemmas.EndpointKept
import Verif.Props.Ctrl
import Verif.Props.Sent
import Verif.Props.Codes
import Verif.Props.CtlEnd
/-! Property theorems C66: what a whole connection sends, and what a peer that is a whole connection too is told by its control stream. -/
namespace Nghttp3
namespace Props
open Endpoint
open Outq (R Frent Ans Emit endsIn)
open Sent (Ledger Serve Tallies Documented isApi)
open Control (toReport bare feed start)
open CtlEnd (announced priorityUpdates)
open EpDemo

/-- the settings that a connection sends: only a server announces the extended CONNECT method -/
def sentSettings (server : Bool) (st : Settings) : Settings := { st with enableConnectProtocol := server && st.enableConnectProtocol }

theorem account_same {c : CC} {L L' : Ledger Fld} (h : SameBooks c L L') {log : List (Serve Fld)} {x : Nat} (hx : (c.str x).isSome = true) {items : List Emit}
    {rest : List (Frent Fld)} {m : Outq.Marked} (ha : Account L' c log x items rest m) : Account L c log x items rest m := by
  have e := h.at_ x hx
  refine ⟨ha.wire, by rw [← e]; exact ha.bytes, by rw [← e]; exact ha.acked, by rw [← e]; exact ha.request, by rw [← e]; exact ha.control, ha.encoder, ha.decoder, ha.other⟩

/-- C66.  C56 for a whole connection.  In any history of a connection that gets bytes on any streams, in which the transport takes no more than
it was offered and acknowledges no more than it took: there is a log of what each call of nghttp3_conn_writev_stream used, such that the field
sections were encoded one after the other, the encoder being changed in between only by the decoder stream and the SETTINGS of the peer, and
every stream carries what `Account` says: its bytes are those of the frames that the calls asked for, in order, each once. -/
theorem C66_sent (P : Par) (server : Bool) (st : Settings) (L : Ledger Fld) (l : Log) (ep : Ep) (hP : ParOk P) (hst : SettingsOk st) (h : Kept P server st L l ep) :
    ∃ log, Tallies log L.asks ∧ Sent.Chain encode FromPeer (Qpack.Enc.init st.qpackEncoderMaxDtableCapacity) (log.flatMap Serve.made) ep.c.enc ∧
      ∀ x, (ep.c.str x).isSome = true → ∃ items rest m, Account L ep.c log x items rest m := by
  obtain ⟨L', k1, k2⟩ := kept_run hP hst h
  obtain ⟨log, a1, a2, a3⟩ := C56_sent (st := sentSettings server st) encode_ok hst.1 hst.2.1 hst.2.2.2 k1
  refine ⟨log, by rw [← k2.asks]; exact a1, a2, fun x hx => ?_⟩
  obtain ⟨items, rest, m, a⟩ := a3 x hx
  exact ⟨items, rest, m, account_same k2 hx a⟩

/-- C66.  What nghttp3_conn_writev_stream offers after such a history: at most as many vectors as there is room for, none of them empty, the
bytes that come right after those taken; some if any are left; and fin only if all submitted frames are served, the application has announced
the end, and the vectors complete the stream. -/
theorem C66_offered (P : Par) (server : Bool) (st : Settings) (L : Ledger Fld) (l : Log) (ep ep' : Ep) (k : Nat) (as : List Ans) (x : Nat) (fin : Bool) (vs : List Bytes)
    (ev : List Endpoint.Ev) (hP : ParOk P) (hst : SettingsOk st) (h : Kept P server st L l ep) (hq : Permitted ep (.writev k as)) (ha : ∀ a ∈ as, Outq.AnsOk a)
    (e : Endpoint.step P ep (.writev k as) = .ok ep' (.vecs (some (x, fin, vs))) ev) :
    ∃ L', Kept P server st L' (l ++ [(.writev k as, .vecs (some (x, fin, vs)), ev)]) ep' ∧ (L'.at x).offered = vs.flatten ∧
      ∃ log items rest m, Account L' ep'.c log x items rest m ∧ vs.length ≤ k ∧ (∀ v ∈ vs, v ≠ []) ∧
        ((L'.at x).taken.length < m.length → vs ≠ []) ∧
        (fin = true → rest = [] ∧ ((L'.at x).closed = true ∨ endsIn items = true) ∧ (L'.at x).taken ++ vs.flatten = m.map Prod.fst) := by
  obtain ⟨L0, k1, k2⟩ := kept_run hP hst h
  have hp : Sent.Permits L ep.c (.writev k ep.dec.writeDecoder.2 as) := ⟨trivial, ha⟩
  obtain ⟨e1, _⟩ := step_op (o := .writev k as) rfl e
  obtain ⟨log, l', rfl, b2, _, _, items, rest, m, b3, b4⟩ := C56_offered (st := sentSettings server st) encode_ok hst.1 hst.2.1 hst.2.2.2 k1 (k2.permits hp) e1
  rw [note_same k2] at b2 b3 b4
  exact ⟨_, .step h hq (fun op ho => by cases ho; exact hp) e, b2, log, items, rest, m, b3, b4⟩

/-- C66.  C57 for a whole connection: what the calls return, and that a call that fails changes nothing. -/
theorem C66_codes (P : Par) (server : Bool) (st : Settings) (L : Ledger Fld) (l : Log) (ep : Ep) (hP : ParOk P) (hst : SettingsOk st) (h : Kept P server st L l ep) :
    ∃ log, Tallies log L.asks ∧ (∀ x, (ep.c.str x).isSome = true → ∃ items rest m, Account L ep.c log x items rest m) ∧
      ∀ o op r ep' ev, opOn ep o = some op → Sent.Permits L ep.c op → isApi op = true → Endpoint.step P ep o = .ok ep' r ev →
        ∃ n, r = .code n ∧ Documented L ep.c log n op ∧ (n ≠ 0 → (∀ a b, o ≠ .bindQpack a b) → ep'.c = ep.c) := by
  obtain ⟨L', k1, k2⟩ := kept_run hP hst h
  obtain ⟨log, a1, a2, a3⟩ := C57_codes (st := sentSettings server st) encode_ok hst.1 hst.2.1 hst.2.2.2 k1
  refine ⟨log, by rw [← k2.asks]; exact a1, fun x hx => ?_, fun o op r ep' ev ho hp ha e => ?_⟩
  · obtain ⟨items, rest, m, a⟩ := a2 x hx
    exact ⟨items, rest, m, account_same k2 hx a⟩
  · obtain ⟨n, b1, b2, b3⟩ := a3 op r ep'.c (k2.permits hp) ha (step_op ho e).1
    refine ⟨n, b1, ?_, fun hn hb => b3 hn fun a b g => ?_⟩
    · have hend : ∀ id, (ep.c.str id).isSome = true → (Sent.Ended L' log id ↔ Sent.Ended L log id) := by
        intro id hid
        unfold Sent.Ended
        rw [k2.at_ id hid]
      cases op with
      | submitTrailers id nva =>
        rcases b2 with b2 | ⟨c1, c2, c3⟩ | ⟨c1, c2, c3⟩
        · exact .inl b2
        · exact .inr (.inl ⟨c1, c2, (hend id c2).1 c3⟩)
        · exact .inr (.inr ⟨c1, c2, fun g => c3 ((hend id c2).2 g)⟩)
      | updAck id off =>
        rcases b2 with ⟨c1, c2, c3⟩ | ⟨c1, c2⟩
        · exact .inl ⟨c1, c2, by rw [← k2.at_ id c2]; exact c3⟩
        · exact .inr ⟨c1, fun g => by rw [← k2.at_ id g]; exact c2 g⟩
      | _ => exact b2
    · subst g
      cases o with
      | bindQpack a' b' => exact hb _ _ rfl
      | _ => cases ho

theorem peer_of_local {server : Bool} {x : Nat} (h : Conn.localUni server x = true) : Conn.peerUni (!server) x := by
  unfold Conn.localUni at h
  unfold Conn.peerUni
  cases server <;> simp [Conn.clientUni, Conn.serverUni] at h ⊢ <;> exact h

/-- the receiver's side of C58 -/
theorem arrived_chunks {P : Par} {server : Bool} {l : Log} {ep : Ep} {chunks : List Bytes} (hj : CJ P server l ep chunks) {x : Nat} (hx : Conn.peerUni server x) {bs : Bytes}
    (h : l.arrived x = 0 :: bs) : chunks.flatten = bs := by
  refine control_bytes hj (u := x) ⟨hx, [0], ⟨0, by decide, rfl, by omega, ?_⟩, h⟩
  simp [Spec.bigEndian]

/-- C66.  Two whole connections.  Take any history of a sender, and let `x` be its control stream; any history of a peer whose callbacks
succeed, and which on `x` has received a first part of what the sender's transport took, in whatever pieces, and whatever has happened on
other streams at both ends; the priority updates asked for are no longer than 8 bytes, and the peer's parser reads them.  Then the peer's
application has been told a first part of what the sender announced: its settings, then the shutdowns in the order in which they were asked
for.  If no frame is left to be served, and all bytes have arrived, it has been told everything. -/
theorem C66_control (P P' : Par) (server : Bool) (st st' : Settings) (L : Ledger Fld) (l l' : Log) (a b : Ep) (x : Nat) (hP : ParOk P) (hP' : ParOk P') (hst : SettingsOk st)
    (hst' : SettingsOk st') (h : Kept P server st L l a) (hx : a.c.ctrl = some x) (hcb : ∀ ev, P'.cb ev = true)
    (hpri : ∀ p ∈ priorityUpdates (L.at x).submitted, p.2.length ≤ 8 ∧ (p.2 ≠ [] → (P'.pp ⟨3, false⟩ p.2).isSome = true))
    (h' : Endpoint.Hist P' (!server) st' l' b) (hne : l'.arrived x ≠ []) (harr : l'.arrived x <+: (L.at x).taken) :
    l'.reports.map toReport <+: announced server (sentSettings server st) (L.at x).submitted ∧
    ∃ log items rest m, Account L a.c log x items rest m ∧
      (rest = [] → l'.arrived x = m.map Prod.fst → l'.reports.map toReport = announced server (sentSettings server st) (L.at x).submitted) := by
  obtain ⟨L', k1, k2⟩ := kept_run hP hst h
  obtain ⟨chunks, hj⟩ := hist_cj hP' hst' h'
  have hinv := (hist_einv hP hst h.hist).core.c.inv
  have hsv := server_hist (hist_einv hP hst h.hist)
  have hloc := (hinv.tctrl x hx).1
  rw [hsv] at hloc
  have hex : (a.c.str x).isSome = true := by
    obtain ⟨s, hs, _⟩ := (hinv.tctrl x hx).2
    rw [hs]; rfl
  obtain ⟨log0, items0, s0, _, hacc, dn, tl, bs0, _, _, k3, _⟩ := ctl_bytes (st := sentSettings server st) encode_ok hst.1 hst.2.1 hst.2.2.2 k1 hx
  have hpre := (harr.trans (List.prefix_append _ (L.at x).offered)).trans (account_same k2 hex hacc).bytes
  rw [k3] at hpre
  obtain ⟨bs, hbs⟩ : ∃ bs, l'.arrived x = 0 :: bs := by
    generalize l'.arrived x = w at hpre hne
    rcases w with _ | ⟨y, bs⟩
    · exact absurd rfl hne
    · rw [(List.cons_prefix_cons.1 hpre).1]; exact ⟨bs, rfl⟩
  have hfl := arrived_chunks hj (peer_of_local hloc) hbs
  obtain ⟨e, hrun⟩ := hj.run
  have hb := k2.at_ x hex
  obtain ⟨s, c1, c2, log, items, rest, m, c3, c4⟩ := C58_control (st := sentSettings server st) encode_ok hst.1 hst.2.1 hst.2.2.2 k1 hx (bare (env P')) hcb
    (by
      rw [hb]
      intro p hp
      obtain ⟨d1, d2⟩ := hpri p hp
      refine ⟨d1, fun y => ⟨(), ?_⟩⟩
      unfold Spec.Control.priorityUpdate
      by_cases hn : p.2 = []
      · rw [if_pos hn]; rfl
      · rw [if_neg hn]
        have := d2 hn
        rw [show (bare (env P')).parsePri p.2 = P'.pp ⟨3, false⟩ p.2 from rfl]
        rcases hq : P'.pp ⟨3, false⟩ p.2 with _ | q
        · rw [hq] at this; cases this
        · rfl) noEnc () chunks hj.ne (by rw [hfl, ← hbs, hb]; exact harr) (.inr (by rw [hrun]; simp))
  rw [hrun] at c1
  injection c1 with c1
  have hrep : l'.reports = s.conn.ev := by rw [hj.rep, ← c1]; rfl
  rw [hrep]
  rw [hb] at c2
  refine ⟨c2, log, items, rest, m, account_same k2 hex c3, fun hr hm => ?_⟩
  rw [hfl, ← hbs] at c4
  rw [← hb]
  exact (c4 hr hm).1

/-- C66.  When nghttp3_conn_is_drained says that a server is drained, a client that has received all bytes taken by the server's transport for
the control stream has been told everything that was announced, the last GOAWAY frame included - whatever has happened on all streams of both
connections. -/
theorem C66_drained (P P' : Par) (st st' : Settings) (L : Ledger Fld) (l l' : Log) (a b : Ep) (hP : ParOk P) (hP' : ParOk P') (hst : SettingsOk st) (hst' : SettingsOk st')
    (h : Kept P true st L l a) (hd : Conn.isDrained a.c = some true) (hcb : ∀ ev, P'.cb ev = true) (h' : Endpoint.Hist P' false st' l' b) :
    ∃ x, a.c.ctrl = some x ∧ (l'.arrived x = (L.at x).taken → l'.reports.map toReport = announced true (sentSettings true st) (L.at x).submitted) := by
  obtain ⟨L', k1, k2⟩ := kept_run hP hst h
  obtain ⟨chunks, hj⟩ := hist_cj hP' hst' h'
  obtain ⟨x, hx, hall⟩ := C58_drained (S := Unit) (st := sentSettings true st) encode_ok hst.1 hst.2.1 hst.2.2.2 k1 hd
  refine ⟨x, hx, fun harr => ?_⟩
  have hinv := (hist_einv hP hst h.hist).core.c.inv
  have hsv := server_hist (hist_einv hP hst h.hist)
  have hloc := (hinv.tctrl x hx).1
  rw [hsv] at hloc
  have hex : (a.c.str x).isSome = true := by
    obtain ⟨s, hs, _⟩ := (hinv.tctrl x hx).2
    rw [hs]; rfl
  have hb := k2.at_ x hex
  have ht : ∃ bs, (L'.at x).taken = 0 :: bs := by
    obtain ⟨log, items, s', hs', _, dn, tl, bs, _, _, _, _, k8, _⟩ := ctl_bytes (st := sentSettings true st) encode_ok hst.1 hst.2.1 hst.2.2.2 k1 hx
    unfold Conn.isDrained at hd
    rw [hsv, if_neg (by decide)] at hd
    split_ifs at hd
    · cases hd
    · cases hd
    rw [hx] at hd
    dsimp only at hd
    rw [hs'] at hd
    dsimp only at hd
    obtain ⟨d1, _⟩ := Bool.and_eq_true_iff.1 (Option.some.inj hd)
    exact ⟨bs, k8 d1⟩
  obtain ⟨bs, hbs⟩ := ht
  have hfl := arrived_chunks hj (peer_of_local (server := true) hloc) (bs := bs) (by rw [harr, ← hb]; exact hbs)
  obtain ⟨e, hrun⟩ := hj.run
  obtain ⟨s, c1, c2⟩ := hall (bare (env P')) hcb noEnc () chunks hj.ne (by rw [hfl, hbs])
  rw [hrun] at c1
  injection c1 with c1
  have hrep : l'.reports = s.conn.ev := by rw [hj.rep, ← c1]; rfl
  rw [hrep, ← hb]
  exact c2

/-! ## example -/

def EpDemo.keepsB (L : Ledger Fld) (ep : Ep) : Call → Bool
  | .addWrite id n => (ep.c.str id).isNone || decide (n ≤ (L.at id).offered.length)
  | _ => true

theorem keepsB_ok {L : Ledger Fld} {ep : Ep} {o : Call} (h1 : allowedB ep o = true) (h2 : keepsB L ep o = true) (op : Conn.Op Fld) (ho : opOn ep o = some op) :
    Sent.Permits L ep.c op := by
  refine ⟨(permitted_fine ho (allowedB_ok h1)).1, ?_⟩
  cases o with
  | addWrite id n =>
    cases ho
    simp only [keepsB, Bool.or_eq_true, Option.isNone_iff_eq_none, decide_eq_true_eq] at h2
    intro g
    rcases h2 with h2 | h2
    · rw [h2] at g; cases g
    · exact h2
  | writev k as =>
    cases ho
    simp only [allowedB, List.isEmpty_iff] at h1
    subst h1
    intro a g; cases g
  | read a b c => cases ho
  | setMaxConc n => cases ho
  | addAck id n => cases h1
  | updAck id n => cases h1
  | setClientPri id v => cases h1
  | _ => cases ho; trivial

def EpDemo.keepCalls (P : Par) : List Call → Ledger Fld → Ep → Option (Ledger Fld × Ep × Log)
  | [], L, ep => some (L, ep, [])
  | o :: t, L, ep =>
    if allowedB ep o && keepsB L ep o then
      match step P ep o with
      | .ok ep' r ev => (keepCalls P t (note L ep o r) ep').map fun p => (p.1, p.2.1, (o, r, ev) :: p.2.2)
      | _ => none
    else none

theorem keepCalls_kept {P : Par} {server : Bool} {st : Settings} (t : List Call) {L L' : Ledger Fld} {l l' : Log} {ep ep' : Ep} (h : Kept P server st L l ep)
    (e : keepCalls P t L ep = some (L', ep', l')) : Kept P server st L' (l ++ l') ep' := by
  induction t generalizing L l l' ep with
  | nil => cases e; rw [List.append_nil]; exact h
  | cons o t ih =>
    unfold keepCalls at e
    split_ifs at e with ha
    obtain ⟨a1, a2⟩ := Bool.and_eq_true_iff.1 ha
    rcases hs : step P ep o with _ | _ | ⟨ep1, r, ev⟩ <;> rw [hs] at e
    · cases e
    · cases e
    dsimp only at e
    rcases hm : keepCalls P t (note L ep o r) ep1 with _ | ⟨L2, ep2, l2⟩ <;> rw [hm] at e
    · cases e
    cases e
    have := ih (.step h (allowedB_ok a1) (keepsB_ok a1 a2) hs) hm
    rwa [List.append_assoc] at this

/-- a server gets a request, shuts down, refuses another one, and sends everything it has on its control stream, in two pieces -/
def EpDemo.drainCalls : List Call := served ++ [.shutdown, .read 4 request true, .writev 9 [], .addWrite 3 5, .writev 9 [], .addWrite 3 15, .close 0, .close 4]
/-- a client gets these bytes, in three pieces, and others between them -/
def EpDemo.drainBytes : Bytes := [0, 4, 14, 6, 255, 255, 255, 255, 255, 255, 255, 255, 1, 80, 0, 7, 1, 7, 1, 4]
def EpDemo.drainReads : List Call := [.bindControl 2, .read 3 (drainBytes.take 7) false, .read 7 [2] false, .read 3 ((drainBytes.drop 7).take 11) false, .read 3 (drainBytes.drop 18) false]

set_option maxRecDepth 100000 in
/-- C66 is about such histories; the client is told of the settings and the shutdown -/
theorem C66_example : ∃ (L : Ledger Fld) (l l' : Log) (a b : Ep), Kept anyPar true someSettings L l a ∧ Conn.isDrained a.c = some true ∧ a.c.ctrl = some 3 ∧
    Endpoint.Hist anyPar false someSettings l' b ∧ l'.arrived 3 = (L.at 3).taken ∧ (L.at 3).taken = drainBytes ∧
    announced true (sentSettings true someSettings) (L.at 3).submitted = [.settings (CtlEnd.seen true someSettings), .shutdown 4] := by
  rcases h1 : keepCalls anyPar drainCalls {} (init true someSettings) with _ | ⟨L, a, l⟩
  · have : (keepCalls anyPar drainCalls {} (init true someSettings)).isSome = true := by decide +kernel
    rw [h1] at this; cases this
  rcases h2 : makeCalls anyPar drainReads (init false someSettings) with _ | ⟨b, l'⟩
  · have : (makeCalls anyPar drainReads (init false someSettings)).isSome = true := by decide +kernel
    rw [h2] at this; cases this
  have k1 : (keepCalls anyPar drainCalls {} (init true someSettings)).map (fun r => (Conn.isDrained r.2.1.c, r.2.1.c.ctrl, (r.1.at 3).taken)) = some (some true, some 3, drainBytes) := by
    decide +kernel
  have k2 : (makeCalls anyPar drainReads (init false someSettings)).map (fun r => r.2.arrived 3) = some drainBytes := by decide +kernel
  have k3 : (keepCalls anyPar drainCalls {} (init true someSettings)).map (fun r => announced true (sentSettings true someSettings) (r.1.at 3).submitted) =
      some [.settings (CtlEnd.seen true someSettings), .shutdown 4] := by decide +kernel
  rw [h1] at k1 k3
  rw [h2] at k2
  injection k1 with k1
  injection k2 with k2
  injection k3 with k3
  simp only [Prod.mk.injEq] at k1
  exact ⟨L, l, l', a, b, by simpa using keepCalls_kept _ .init h1, k1.1, k1.2.1, by simpa using makeCalls_hist _ .init h2, k2.trans k1.2.2.symm, k1.2.2, k3⟩

end Props
end Nghttp3
