import Verif.Props.EncPeer
import Verif.Lemmas.EncPair
/-! Property theorems C76: the dynamic tables of two whole connections, and what the field sections of one mean to the other. -/
namespace Nghttp3
namespace Props
open Endpoint
open Sent (Ledger Serve Tallies)
open Qpack (ESys EncOp Enc EncOut Nv Sec NvFits made asMade)
open Conn (itemsBytes_cons_fst)
open EpDemo

/-- what belongs on the encoder stream after its type: the bytes of the encoder for every field section, in order -/
def encoderBytes (log : List (Serve Fld)) : List UInt8 := (log.flatMap Serve.made).flatMap (·.enc)

/-- a section is outstanding if it needs no entry of the dynamic table, or is neither acknowledged nor cancelled -/
def Outstanding (s : ESys) (q : (Nat × List Nv) × EncOut) : Prop := q.2.ricnt = 0 ∨ ⟨q.1.1, q.2.ricnt, q.2.base, q.2.reps, q.1.2⟩ ∈ s.secs

/-- What holds between an endpoint `a` that sends field sections and its peer `b`.  `s` is the state of the encoder with its history, `qs` the
sections made, `all` the bytes of the encoder, `H` and `Hd` the limits of the tables, `arrived` what has arrived of `all`.
* `behind`: `b` has at most the entries that `a` has made;
* `agree`: if all has arrived, `b` has received all entries, and each one that `a` still has is also in the table of `b`, under the same number;
* `accepts`: what comes next on the encoder stream is accepted (nghttp3_qpack_decoder_read_encoder), up to the limit on the bytes read in between;
* `reads`: an outstanding section all of whose entries have arrived is read as the fields that were encoded;
* `waits`: an outstanding section for which entries are missing is blocked, it is no error.
The last two for limits that give the same maximum number of entries, and unless the buffer of the decoder stream has overflowed. -/
structure Agree (a b : Ep) (s : ESys) (qs : List ((Nat × List Nv) × EncOut)) (all arrived : List UInt8) (H Hd : Nat) : Prop where
  behind : b.dec.ctx.next ≤ a.c.enc.ctx.next
  agree : arrived = all → b.dec.ctx.next = a.c.enc.ctx.next ∧
    ∀ n e, a.c.enc.ctx.get n = some e → ∃ e', b.dec.ctx.get n = some e' ∧ e'.name = e.name ∧ e'.value = e.value
  accepts : ∀ more, arrived ++ more <+: all → b.dec.uninterrupted + more.length ≤ 128 * 1024 → ∃ d, b.dec.readEncoder more = .ok d
  reads : H / 32 = Hd / 32 → b.dec.dbufOverflow = false → ∀ q ∈ qs, Outstanding s q → q.2.ricnt ≤ b.dec.ctx.next →
    ∃ d sc got, b.dec.readSection (Qpack.SCtx.init q.1.1) ((asMade q).pre ++ (asMade q).lines) true = (got, .final d sc) ∧
      got.map (fun x => (x.name, x.value, x.never)) = q.1.2.map (fun nv => (nv.name, nv.value, nv.never))
  waits : H / 32 = Hd / 32 → ∀ q ∈ qs, Outstanding s q → b.dec.ctx.next < q.2.ricnt → q.2.ricnt ≤ b.dec.ctx.next + H / 32 →
    ∃ sc rest, b.dec.readSection (Qpack.SCtx.init q.1.1) ((asMade q).pre ++ (asMade q).lines) true = ([], .blocked b.dec sc rest)

theorem agree_of {a b : Ep} {H Hd B : Nat} {ops : List EncOp} {s : ESys} {fed rest : List UInt8} (hH : H ≤ QInt.INT_MAX) (hd : H ≤ Hd) (hr : (ESys.init H).run ops = .ok s)
    (hfit : ∀ x ∈ made (ESys.init H) ops, ∀ nv ∈ x.1.2, NvFits nv) (hmax : s.inserted ≤ QInt.INT_MAX) (ha : s.e.core = a.c.enc.core)
    (hw : b.dec.ctx.bad = false → Qpack.DecWF b.dec) (ht : Tab Hd B fed b.dec) (hb : (made (ESys.init H) ops).flatMap (·.2.ebuf) = fed ++ rest) :
    Agree a b s (made (ESys.init H) ops) (fed ++ rest) fed H Hd := by
  have hbad := ht.bad
  obtain ⟨d0, t1, t2⟩ := ht
  have hp := Qpack.pair_at hH hd hr hfit hmax (hw hbad) t1 t2 hb
  have hx : s.e.ctx = a.c.enc.ctx := by show s.e.core.ctx = a.c.enc.core.ctx; rw [ha]
  obtain ⟨D, g1, g2, g3, g4⟩ := hp.trans
  refine ⟨?_, fun he => ?_, fun more hm hu => ?_, fun h32 hov q hq ho hn => ?_, fun h32 q hq ho hn hwin => ?_⟩
  · rw [← hx, ← g2.next]
    exact (Qpack.esRun_ctx hp.wf (by simp) g1).1.next
  · have h0 : rest = [] := by simpa using he
    subst h0
    dsimp only at g1
    rw [Qpack.esRun, Machine.run_eq Qpack.esM_good hp.wf (by simp), if_pos ⟨rfl, rfl⟩] at g1
    cases g1
    refine ⟨by rw [← hx, g2.next], fun n e h => ?_⟩
    rw [← hx] at h
    obtain ⟨y, k1, k2, k3, _⟩ := g2.get hp.sys.inv.ctx hp.wf.ctx.toCtxB h
    exact ⟨y, k1, k2, k3⟩
  · obtain ⟨tl, rfl⟩ := (List.prefix_append_right_inj fed).1 hm
    obtain ⟨d', _, k, _⟩ := Qpack.readEncoder_run hp.wf hbad g1 hu
    exact ⟨d', k⟩
  · obtain ⟨E0, m, hf⟩ := hp.flies (Qpack.toFly q) (List.mem_map_of_mem hq)
    obtain ⟨w1, w2⟩ := (hf.pos rfl).wf
    have hadv := Qpack.fly_adv hp hf rfl ho (Nat.le_trans hn (Nat.le_add_right _ _)) (by rw [hp.dhard]; exact h32.symm) (Qpack.toFly q).rem.length
    rw [List.take_length, List.drop_length] at hadv
    have hrun := Qpack.readSection_run hp.wf.ctx hbad (Qpack.toFly q).s (Qpack.toFly q).rem true w1 w2
    rcases hadv with ⟨s', acc', r1, r2, r3, _⟩ | ⟨s', rr, r1, r2, r3, _⟩
    · obtain ⟨l, q1, q2⟩ := Qpack.ok_pre r1
      rw [q1] at hrun
      obtain ⟨u1, u2, u3, u4⟩ := r3 rfl
      have hgot : l = q.1.2.map Nv.toQNv := (q2.symm.trans u4)
      have hfin : ∃ d, Qpack.almostOk b.dec s' true = .final d s' := by
        unfold Qpack.almostOk
        rw [if_pos rfl, if_neg (by simp [u1])]
        by_cases h0 : s'.ricnt = 0
        · rw [if_neg (by simp [h0])]; exact ⟨_, rfl⟩
        · rw [if_pos h0]
          unfold Qpack.Dec.writeSectionAck
          rw [hov, if_neg (by simp)]
          exact ⟨_, rfl⟩
      obtain ⟨d, hfin⟩ := hfin
      refine ⟨d, s', l, ?_, ?_⟩
      · rw [← hfin]; exact hrun
      · rw [hgot, List.map_map]; rfl
    · exact absurd hn (by have := r3; show ¬ q.2.ricnt ≤ _; exact Nat.not_le.2 r3)
  · obtain ⟨E0, m, hf⟩ := hp.flies (Qpack.toFly q) (List.mem_map_of_mem hq)
    obtain ⟨w1, w2⟩ := (hf.pos rfl).wf
    have hadv := Qpack.fly_adv hp hf rfl ho hwin (by rw [hp.dhard]; exact h32.symm) (Qpack.toFly q).rem.length
    rw [List.take_length, List.drop_length] at hadv
    have hrun := Qpack.readSection_run hp.wf.ctx hbad (Qpack.toFly q).s (Qpack.toFly q).rem true w1 w2
    rcases hadv with ⟨s', acc', r1, r2, r3, r4, _⟩ | ⟨s', rr, r1, r2, r3, _⟩
    · exact absurd hn (Nat.not_lt.2 (r4 (Or.inl (r3 rfl).1)))
    · refine ⟨s', rr, ?_⟩
      have : (Qpack.toFly q).got = [] := rfl
      rw [this] at r1
      rw [r1] at hrun
      exact hrun

/-- the bytes of the encoder stream -/
theorem encoder_carries {ks : List (Sent.Made Fld)} {m : Outq.Marked} (h : Carries (.streamType 2 :: ks.map fun k => .raw k.enc) m) :
    ∃ b, Spec.IsVarint 2 b ∧ m.map Prod.fst = b ++ ks.flatMap (·.enc) := by
  obtain ⟨parts, h, rfl⟩ := h
  cases h with
  | @cons _ p _ ps h1 h2 =>
    obtain ⟨b, hb, rfl⟩ := h1
    refine ⟨b, hb, ?_⟩
    rw [List.flatten_cons, List.map_append]
    congr 1
    · simp [Outq.own, Function.comp_def]
    · induction ks generalizing ps with
      | nil => cases h2; rfl
      | cons k t ih =>
        cases h2 with
        | @cons _ q _ qs g1 g2 =>
          obtain rfl : q = Outq.own k.enc := g1
          rw [List.flatten_cons, List.map_append, ih g2, List.flatMap_cons]
          congr 1
          simp [Outq.own, Function.comp_def]

/-- C76.  A connection that sends (`server` or not), any history, with the QPACK encoder stream `x`; and its peer, any history, to which of the
encoder stream nothing else has come than a first part of what was written there.  If the limit of the encoder's table is at most that of the peer's
decoder, and the fields are within the limits of the decoder, then `Agree`: the tables do, and so do the field sections. -/
theorem C76_tables (P : Par) (server : Bool) (st : Settings) (L : Ledger Fld) (l : Log) (ep : Ep) (x : Nat) (hP : ParOk P) (hst : SettingsOk st) (h : Kept P server st L l ep)
    (hx : ep.c.qenc = some x) (hmax : ep.c.enc.ctx.next ≤ QInt.INT_MAX) :
    ∃ (log : List (Serve Fld)) (ops : List EncOp) (s : ESys) (fed : List UInt8) (r : Settings),
      Tallies log L.asks ∧ (∀ x, (ep.c.str x).isSome = true → ∃ items rest m, Account L ep.c log x items rest m) ∧
      Story server st l ep ops s fed r ∧ (made (ESys.init st.qpackEncoderMaxDtableCapacity) ops).map asMade = log.flatMap Serve.made ∧
      ((∀ m ∈ log.flatMap Serve.made, ∀ nv ∈ m.nva.2, NvFits nv) →
        ∀ (P' : Par) (st' : Settings) (l' : Log) (ep' : Ep), ParOk P' → SettingsOk st' → Endpoint.Hist P' (!server) st' l' ep' →
          st.qpackEncoderMaxDtableCapacity ≤ st'.qpackMaxDtableCapacity →
          (∀ u, HasType (!server) l' u 2 → l'.arrived u <+: (L.at x).taken ++ (L.at x).offered) →
          ∃ arrived, ((∀ u p bs, Conn.peerUni (!server) u → Spec.IsVarint 2 p → l'.arrived u = p ++ bs → bs = arrived) ∧ ((∀ u, ¬ HasType (!server) l' u 2) → arrived = [])) ∧
            Agree ep ep' s (made (ESys.init st.qpackEncoderMaxDtableCapacity) ops) (encoderBytes log) arrived st.qpackEncoderMaxDtableCapacity st'.qpackMaxDtableCapacity) := by
  obtain ⟨log, ops, s, fed, r, a1, a2, a3, a4⟩ := C75_sections P server st L l ep hP hst h
  refine ⟨log, ops, s, fed, r, a1, a2, a3, a4, fun hfit P' st' l' ep' hP' hst' h' hcap harr => ?_⟩
  have hsome : (ep.c.str x).isSome = true := by
    obtain ⟨t, ht, _⟩ := ((hist_einv hP hst h.hist).core.c.inv.tqenc x hx).2
    rw [ht]; rfl
  obtain ⟨items, rst, m, hacc⟩ := a2 x hsome
  obtain ⟨hi, _⟩ := hacc.encoder hx
  obtain ⟨b, hb, hmb⟩ := encoder_carries (hi ▸ hacc.wire)
  have hpre : (L.at x).taken ++ (L.at x).offered <+: b ++ encoderBytes log := hmb ▸ hacc.bytes
  obtain ⟨fed', hf, htab⟩ := hist_tab hP' hst' h'
  obtain ⟨chunks, hj⟩ := hist_cj hP' hst' h'
  have hmade : (made (ESys.init st.qpackEncoderMaxDtableCapacity) ops).flatMap (·.2.ebuf) = encoderBytes log := by
    unfold encoderBytes
    rw [← a4, List.flatMap_map]; rfl
  have hin : fed' <+: encoderBytes log := by
    by_cases hu : ∃ u, Conn.IsUni ep'.c .qenc u
    · obtain ⟨u, hu⟩ := hu
      obtain ⟨p, m1, m2⟩ := hf.con u hu
      obtain ⟨t, ht⟩ := (harr u ⟨hj.peer _ _ hu, p, fed', m1, m2⟩).trans hpre
      rw [m2, List.append_assoc] at ht
      have := (isVarint_unique m1 hb ht).2.2
      exact ⟨t, this⟩
    · rw [hf.none (by simpa using hu)]
      exact List.nil_prefix
  obtain ⟨rest, hrest⟩ := hin
  refine ⟨fed', ⟨fun u p bs hu hp ha => ?_, fun hu => ?_⟩, ?_⟩
  · obtain ⟨ty, k1, k2⟩ := typed hj hu hp ha
    have : ty = .qenc := by
      rcases k2 with k2 | ⟨k2, _⟩
      · cases k2; rfl
      · omega
    subst this
    obtain ⟨q', m1, m2⟩ := hf.con u k1
    rw [ha] at m2
    exact (isVarint_unique hp m1 m2).2.2
  · exact hf.none fun u g => hu u (by
      obtain ⟨p, m1, m2⟩ := hf.con u g
      exact ⟨hj.peer _ _ g, p, _, m1, m2⟩)
  · rw [← hrest]
    have hfit' : ∀ q ∈ made (ESys.init st.qpackEncoderMaxDtableCapacity) ops, ∀ nv ∈ q.1.2, NvFits nv := by
      intro q hq
      exact hfit (asMade q) (a4 ▸ List.mem_map_of_mem hq)
    have hs := Qpack.esys_reach a3.run
    refine agree_of (by have := hst.2.2.1; unfold QInt.INT_MAX; omega) hcap a3.run hfit' ?_ a3.core (dec_wf (hist_einv hP' hst' h')) htab (hmade.trans hrest.symm)
    rw [hs.ins, show s.e.ctx = ep.c.enc.ctx by show s.e.core.ctx = ep.c.enc.core.ctx; rw [a3.core]]
    exact hmax

/-- a server that has got the encoder stream of `taught` except the last byte, and one that has got all of it, and then the request -/
def EpDemo.halfTold : List Call := [.bindControl 3, .bindQpack 7 11, .read 6 [2, 0x3f, 0xe1] false, .read 6 [0x1f, 0xc0, 1] false, .read 0 [1, 3, 2, 0x80, 0x10] false]
def EpDemo.fullyTold : List Call := halfTold ++ [.read 6 [97] false]

/-- the entries made, the streams that may block; the bytes taken from the encoder stream, the names and values in the table -/
def EpDemo.sentView (r : Ledger Fld × Ep × Log) : List Nat × List (List UInt8) :=
  ([r.2.1.c.enc.ctx.next, r.2.1.c.enc.numBlocked], ((r.1.at 6).taken ++ (r.1.at 6).offered) :: r.2.1.c.enc.ctx.ents.flatMap fun e => [e.name, e.value])

/-- the entries received, the streams that wait; what has arrived on the encoder stream, the names and values in the table -/
def EpDemo.gotView (r : Ep × Log) : List Nat × List (List UInt8) :=
  ([r.1.dec.ctx.next, r.1.bq.len], r.2.arrived 6 :: r.1.dec.ctx.ents.flatMap fun e => [e.name, e.value])

set_option maxRecDepth 100000 in
/-- C76 is about such histories: the entry `:authority: a` is in the sender's table, at the peer while a byte is missing no entry has been received
and the request waits, and then the entry is there -/
theorem C76_example : ∃ (L : Ledger Fld) (l l1 l2 : Log) (a b1 b2 : Ep), Kept anyPar false someSettings L l a ∧ a.c.qenc = some 6 ∧
    sentView (L, a, l) = ([1, 1], [[2, 63, 225, 31, 192, 1, 97], [58, 97, 117, 116, 104, 111, 114, 105, 116, 121], [97]]) ∧
    Endpoint.Hist anyPar true someSettings l1 b1 ∧ gotView (b1, l1) = ([0, 1], [[2, 63, 225, 31, 192, 1]]) ∧
    Endpoint.Hist anyPar true someSettings l2 b2 ∧ gotView (b2, l2) = ([1, 0], [[2, 63, 225, 31, 192, 1, 97], [58, 97, 117, 116, 104, 111, 114, 105, 116, 121], [97]]) := by
  have k1 : (keepCalls anyPar taught {} (init false someSettings)).map (fun r => (sentView r, r.2.1.c.qenc)) =
    some (([1, 1], [[2, 63, 225, 31, 192, 1, 97], [58, 97, 117, 116, 104, 111, 114, 105, 116, 121], [97]]), some 6) := by decide +kernel
  have k2 : (makeCalls anyPar halfTold (init true someSettings)).map gotView = some ([0, 1], [[2, 63, 225, 31, 192, 1]]) := by decide +kernel
  have k3 : (makeCalls anyPar fullyTold (init true someSettings)).map gotView =
    some ([1, 0], [[2, 63, 225, 31, 192, 1, 97], [58, 97, 117, 116, 104, 111, 114, 105, 116, 121], [97]]) := by decide +kernel
  rcases h1 : keepCalls anyPar taught {} (init false someSettings) with _ | ⟨L, a, l⟩
  · rw [h1] at k1; cases k1
  rcases h2 : makeCalls anyPar halfTold (init true someSettings) with _ | ⟨b1, l1⟩
  · rw [h2] at k2; cases k2
  rcases h3 : makeCalls anyPar fullyTold (init true someSettings) with _ | ⟨b2, l2⟩
  · rw [h3] at k3; cases k3
  rw [h1] at k1
  rw [h2] at k2
  rw [h3] at k3
  injection k1 with k1
  injection k2 with k2
  injection k3 with k3
  exact ⟨L, l, l1, l2, a, b1, b2, by simpa using keepCalls_kept _ .init h1, congrArg Prod.snd k1, congrArg Prod.fst k1,
    by simpa using makeCalls_hist _ .init h2, k2, by simpa using makeCalls_hist _ .init h3, k3⟩

end Props
end Nghttp3
