import Verif.Lemmas.EndpointTable
import Verif.Props.Kept
/-! Property theorems C69: what a whole connection tells the QPACK encoder of the peer. -/
namespace Nghttp3
namespace Props
open Endpoint Feedback
open Outq (R Frent Ans Emit itemsBytes itemBytes)
open Sent (Ledger Serve Tallies)
open EpDemo
open Conn (run_rinv itemsBytes_cons_fst)

theorem raws_fst (bs : List Outq.Bytes) : (itemsBytes (bs.map Emit.raw)).map Prod.fst = bs.flatten := by
  induction bs with
  | nil => rfl
  | cons b t ih =>
    rw [List.map_cons, itemsBytes_cons_fst, ih, List.flatten_cons]
    congr 1
    simp [itemBytes, Outq.own, Function.comp_def]

theorem tallies_dec {F : Type} {log : List (Serve F)} {asks : List (Outq.Bytes × List Ans)} (h : Tallies log asks) : log.flatMap Serve.dec = asks.flatMap Prod.fst := by
  obtain ⟨h1, h2⟩ := h
  induction log generalizing asks with
  | nil => cases asks with
    | nil => rfl
    | cons => cases h1
  | cons e t ih => cases asks with
    | nil => cases h1
    | cons a u =>
      rw [List.flatMap_cons, List.flatMap_cons, (h2 (e, a) List.mem_cons_self).2, ih (by simpa using h1) fun p hp => h2 p (List.mem_cons_of_mem _ hp)]

theorem dec_bytes {P : Par} {server : Bool} {st : Settings} {L : Ledger Fld} {l : Log} {ep : Ep} {x : Nat} (hP : ParOk P) (hst : SettingsOk st) (h : Kept P server st L l ep)
    (hx : ep.c.qdec = some x) : ∃ log items m, Account L ep.c log x items [] m ∧ m.map Prod.fst = 3 :: asked L := by
  obtain ⟨L', k1, k2⟩ := kept_run hP hst h
  obtain ⟨log, g⟩ := run_rinv encode_ok (st := sentSettings server st) ⟨hst.1, hst.2.1, hst.2.2.2⟩ k1
  have hsome : (ep.c.str x).isSome = true := by
    obtain ⟨s, hs, _⟩ := (g.inv.tqdec x hx).2
    rw [hs]; rfl
  obtain ⟨s, hs⟩ := Option.isSome_iff_exists.1 hsome
  obtain ⟨items, hi⟩ := g.all x s hs
  obtain ⟨bs, b1, b2, b3⟩ := hi.dec hx
  have ha := account_same k2 hsome (account_of hi)
  rw [b3] at ha
  refine ⟨log, items, _, ha, ?_⟩
  rw [b1, itemsBytes_cons_fst, raws_fst, b2, tallies_dec g.tal]
  unfold asked
  rw [k2.asks]; rfl

/-- C69.  Any history of a connection whose QPACK decoder stream is `x`, in which the transport takes no more than it was offered.  There are
instructions `said`, those on the stream, and `waiting`, those that the next call of nghttp3_conn_writev_stream puts there, such that

- the stream carries its type, 0x03, and the bytes of `said`, of which the transport has taken a first part and was offered the next (`Account`),
- all instructions are fair: no section is acknowledged that needs no entry of the dynamic table, or one that has not arrived, and no Insert Count
  Increment is 0 or goes beyond the entries that have arrived,
- the encoder that gets all of them knows of all entries that have arrived,
- the acknowledged sections are, in order, those of the `done` sections that need the dynamic table; for each stream, those are as many as ended
  with end_headers or end_trailers, and at most one more for each time the stream was reset because its section was malformed,
- the cancelled streams are those on which nghttp3_conn_shutdown_stream_read was called, in the order of calls, each at most as often as it was
  called and at least once. -/
theorem C69_said (P : Par) (server : Bool) (st : Settings) (L : Ledger Fld) (l : Log) (ep : Ep) (x : Nat) (hP : ParOk P) (hst : SettingsOk st) (h : Kept P server st L l ep)
    (hx : ep.c.qdec = some x) :
    ∃ (said waiting : List Said) (done : List (Nat × Nat)) (bytes : Feedback.Bytes),
      (∃ log items m, Account L ep.c log x items [] m ∧ m.map Prod.fst = 3 :: bytes) ∧ AreSaid said bytes ∧ AreSaid waiting ep.dec.writeDecoder.2 ∧
      AllFair ep.dec.ctx.next 0 (said ++ waiting) ∧ known (said ++ waiting) = ep.dec.ctx.next ∧
      acks (said ++ waiting) = (done.filter fun p => p.2 != 0) ∧
      (∀ id, l.count sectionEnds id ≤ (ofStr done id).length ∧ (ofStr done id).length ≤ l.count sectionEnds id + l.count sectionBad id) ∧
      (cancelled (said ++ waiting)).Sublist l.shut ∧ ∀ id ∈ l.shut, id ∈ cancelled (said ++ waiting) := by
  obtain ⟨said, pend, done, s⟩ := kept_spoken hP hst h
  obtain ⟨inc, w1, w2, w3, w4, w5, w6, w7, w8⟩ := write_said s.wait s.le s.kn
  have hca : said ++ (pend ++ inc) = said ++ pend ++ inc := by rw [List.append_assoc]
  refine ⟨said, pend ++ inc, done, asked L, dec_bytes hP hst h hx, s.told, w1, ?_, ?_, ?_, fun id => ⟨s.dn id, s.up id⟩, ?_, ?_⟩
  · rw [hca]; exact allFair_append.2 ⟨s.fair, w6⟩
  · rw [hca, known_append]; exact w5
  · rw [hca, acks_append, w7, List.append_nil]; exact s.acks
  · rw [hca, cancelled_append, w8, List.append_nil]; exact s.sub
  · rw [hca, cancelled_append, w8, List.append_nil]; exact s.all

/-- C69 (what has arrived).  In any history: if the bytes that have arrived on the peer's stream `u` begin with the stream type 2 and `bs` follows,
then `bs` is a sequence of encoder instructions, of which none is refused, and a rest that does not contain a complete instruction; the
dynamic table, with the count of insertions of which C69_said speaks, is what RFC 9204 says these instructions make. -/
theorem C69_table (P : Par) (server : Bool) (st : Settings) (l : Log) (ep : Ep) (u : Nat) (p bs : Feedback.Bytes) (hP : ParOk P) (hst : SettingsOk st) (h : Endpoint.Hist P server st l ep)
    (hu : Conn.peerUni server u) (hp : Spec.IsVarint 2 p) (ha : l.arrived u = p ++ bs) :
    ∃ is bytes rest t, bs = bytes ++ rest ∧ Rfc9204.AreInstrs is bytes ∧ (∀ i enc r, rest = enc ++ r → ¬ Rfc9204.Instr.Is i enc) ∧
      Rfc9204.Table.applyAll st.qpackMaxDtableCapacity {} is = some t ∧ t = ep.dec.ctx.table ∧ t.inserted = ep.dec.ctx.next := by
  obtain ⟨fed, hf, d0, t1, t2⟩ := hist_tab hP hst h
  obtain ⟨chunks, hj⟩ := hist_cj hP hst h
  obtain ⟨ty, k1, k2⟩ := typed hj hu hp ha
  have : ty = .qenc := by
    rcases k2 with k2 | ⟨k2, _⟩
    · cases k2; rfl
    · omega
  subst this
  obtain ⟨q, m1, m2⟩ := hf.con u k1
  rw [ha] at m2
  obtain rfl := (isVarint_unique hp m1 m2).2.2
  obtain ⟨is, y, rest, n1, n2, n3, n4⟩ := Qpack.es_parse _ bs (Nat.le_refl _) (Qpack.DecWF.init st.qpackMaxDtableCapacity st.qpackBlockedStreams) rfl
  obtain ⟨n5, _⟩ := n4 d0 t1
  exact ⟨is, y, rest, _, n1, n2, n3, n5, by rw [t2.1], by rw [t2.1]; rfl⟩

/-- C69 (nothing has arrived).  As long as no stream of the peer has the type 2, the dynamic table is empty. -/
theorem C69_table_none (P : Par) (server : Bool) (st : Settings) (l : Log) (ep : Ep) (hP : ParOk P) (hst : SettingsOk st) (h : Endpoint.Hist P server st l ep)
    (hu : ∀ u, ¬ HasType server l u 2) : ep.dec.ctx.table = {} ∧ ep.dec.ctx.next = 0 := by
  obtain ⟨fed, hf, d0, t1, t2⟩ := hist_tab hP hst h
  obtain ⟨chunks, hj⟩ := hist_cj hP hst h
  have : fed = [] := hf.none fun u g => hu u (by
    obtain ⟨p, m1, m2⟩ := hf.con u g
    exact ⟨hj.peer _ _ g, p, _, m1, m2⟩)
  subst this
  have : d0 = Qpack.Dec.init st.qpackMaxDtableCapacity st.qpackBlockedStreams := by
    unfold Qpack.esRun Machine.run Machine.loop at t1
    rw [if_pos ⟨rfl, rfl⟩] at t1
    cases t1; rfl
  rw [this] at t2
  rw [t2.1]
  exact ⟨rfl, rfl⟩

/-- C69 (nothing is kept back).  A call of nghttp3_conn_writev_stream that gets to the decoder stream (`Sent.reached`: there is room, nothing is
offered on the control stream, and the decoder stream may be written) puts there all that the decoder has to say; a call that does not get there
leaves it to the next one. -/
theorem C69_flush (P : Par) (server : Bool) (st : Settings) (L : Ledger Fld) (l : Log) (ep ep' : Ep) (k : Nat) (as : List Ans) (r : Conn.Ret) (ev : List Endpoint.Ev)
    (hP : ParOk P) (hst : SettingsOk st) (h : Kept P server st L l ep) (e : Endpoint.step P ep (.writev k as) = .ok ep' r ev) :
    (Sent.reached ep.c k r = true → ep'.dec.writeDecoder.2 = [] ∧ asked (note L ep (.writev k as) r) = asked L ++ ep.dec.writeDecoder.2) ∧
    (Sent.reached ep.c k r = false → ep'.dec = ep.dec ∧ asked (note L ep (.writev k as) r) = asked L) := by
  obtain ⟨said, pend, done, s⟩ := kept_spoken hP hst h
  obtain ⟨inc, w1, w2, w3, w4, _⟩ := write_said s.wait s.le s.kn
  change writev ep k as = _ at e
  unfold writev at e
  rcases e1 : Conn.writevStream encode ep.c k ep.dec.writeDecoder.2 as with _ | _ | _ | ⟨c', r1⟩ <;> rw [e1] at e <;> dsimp only [lift] at e
  · cases e
  · cases e
  · cases e
  cases e
  rw [asked_writev, ← flushes_reached (hist_einv hP hst h.hist).core.c.inv e1]
  by_cases hfl : flushes ep.c k = true
  · rw [hfl, if_pos rfl, if_pos rfl]
    refine ⟨fun _ => ⟨?_, rfl⟩, fun g => by cases g⟩
    change ep.dec.writeDecoder.1.writeDecoder.2 = []
    unfold Qpack.Dec.writeDecoder at w2 w3 w4 ⊢
    rw [if_neg (by rw [w4, w3]; exact Nat.lt_irrefl _)]
    exact w2
  · rw [if_neg hfl, if_neg hfl, List.append_nil]
    exact ⟨fun g => absurd g hfl, fun _ => ⟨rfl, rfl⟩⟩

/-! ## example -/

/-- a server gets a request that waits for a table entry, the entry, gives up another request, and writes; the transport takes the decoder stream's
first two bytes -/
def EpDemo.heardCalls : List Call :=
  [.bindControl 3, .bindQpack 7 11, .read 0 request true, .read 2 inserts false, .shutRd 4, .writev 9 [], .addWrite 3 17, .writev 9 [], .addWrite 11 2, .writev 9 []]

set_option maxRecDepth 100000 in
/-- C69 is about such histories; here the section of stream 0 is acknowledged and stream 4 is cancelled -/
theorem C69_example : ∃ (L : Ledger Fld) (l : Log) (ep : Ep), Kept anyPar true someSettings L l ep ∧ ep.c.qdec = some 11 ∧ (L.at 11).taken = [3, 128] ∧ (L.at 11).offered = [68] ∧
    asked L = [128, 68] ∧ l.count sectionEnds 0 = 1 ∧ l.shut = [4] ∧ ep.dec.ctx.next = 1 ∧ l.arrived 2 = [2] ++ [0x3f, 0xe1, 0x1f, 0xc0, 1, 0x61] := by
  rcases h1 : keepCalls anyPar heardCalls {} (init true someSettings) with _ | ⟨L, ep, l⟩
  · have : (keepCalls anyPar heardCalls {} (init true someSettings)).isSome = true := by decide +kernel
    rw [h1] at this; cases this
  have k1 : (keepCalls anyPar heardCalls {} (init true someSettings)).map (fun r => (r.2.1.c.qdec, (r.1.at 11).taken, (r.1.at 11).offered)) = some (some 11, [3, 128], [68]) := by
    decide +kernel
  have k2 : (keepCalls anyPar heardCalls {} (init true someSettings)).map (fun r => (asked r.1, r.2.2.count sectionEnds 0, r.2.2.shut, r.2.1.dec.ctx.next)) =
      some ([128, 68], 1, [4], 1) := by
    decide +kernel
  have k3 : (keepCalls anyPar heardCalls {} (init true someSettings)).map (fun r => r.2.2.arrived 2) = some [2, 0x3f, 0xe1, 0x1f, 0xc0, 1, 0x61] := by decide +kernel
  rw [h1] at k1 k2 k3
  injection k3 with k3
  injection k1 with k1
  injection k2 with k2
  simp only [Prod.mk.injEq] at k1 k2
  exact ⟨L, l, ep, by simpa using keepCalls_kept _ .init h1, k1.1, k1.2.1, k1.2.2, k2.1, k2.2.1, k2.2.2.1, k2.2.2.2, k3⟩

end Props
end Nghttp3
