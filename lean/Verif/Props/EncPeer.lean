import Verif.Lemmas.EncJoint
import Verif.Props.Kept
import Verif.Props.Feedback
import Verif.Spec.EncRun
import Verif.Lemmas.EncCap
import Verif.Props.QpackDec
/-! Property theorems C75: the QPACK encoder inside a whole connection does what the decoder stream and the SETTINGS of the peer dictate, and
keeps to what they allow. -/
namespace Nghttp3
namespace Props
open Endpoint
open Sent (Ledger Serve Tallies)
open Qpack (ESys EncOp Enc Sec Spells Allowed NoShortcut instrs caps blocks made asMade)
open Control (bare feed start)
open EpDemo

/-- What is known of the encoder of a connection: it has the history `ops`, which leads to the state `s`.
* `run`, `core`: `ops` starts from a new encoder and leads to this one (up to the state of the reader of the decoder stream);
* `cut`, `said`: the decoder instructions in it are exactly those that the bytes `fed` spell, in order and each once;
* `limits`: limits are set as the settings `r` say;
* `stream`: `fed` is all that has arrived on the stream of the peer with the type 3, and nothing without such a stream;
* `told`: `r` are the settings reported to the application, once they are; without a control stream of the peer they are 0. -/
structure Story (server : Bool) (st : Settings) (l : Log) (ep : Ep) (ops : List EncOp) (s : ESys) (fed : List UInt8) (r : Settings) : Prop where
  run : (ESys.init st.qpackEncoderMaxDtableCapacity).run ops = .ok s
  core : s.e.core = ep.c.enc.core
  cut : NoShortcut ops
  said : Spells (instrs ops) fed
  limits : Allowed r.qpackMaxDtableCapacity r.qpackBlockedStreams ops
  stream : (∀ u p bs, Conn.peerUni server u → Spec.IsVarint 3 p → l.arrived u = p ++ bs → bs = fed) ∧ ((∀ u, ¬ HasType server l u 3) → fed = [])
  told : (∀ x, Control.Ev.settings x ∈ l.reports → x = r) ∧ ((∀ u, ¬ HasType server l u 0) → r.qpackMaxDtableCapacity = 0 ∧ r.qpackBlockedStreams = 0)

theorem limits_blocks (ops : List EncOp) : limits ops = blocks ops := by
  induction ops with
  | nil => rfl
  | cons a t ih =>
    cases a <;> first | exact congrArg (_ :: ·) ih | exact ih

/-- the settings of the peer that the connection goes by are those it has reported; without a control stream, the defaults -/
theorem told_settings {P : Par} {server : Bool} {st : Settings} {l : Log} {ep : Ep} (hP : ParOk P) (hst : SettingsOk st) (h : Endpoint.Hist P server st l ep) :
    (∀ x, Control.Ev.settings x ∈ l.reports → x = ep.ctl.conn.remote) ∧ ((∀ u, ¬ HasType server l u 0) → ep.ctl.conn.remote.qpackMaxDtableCapacity = 0 ∧ ep.ctl.conn.remote.qpackBlockedStreams = 0) := by
  obtain ⟨chunks, hj⟩ := hist_cj hP hst h
  obtain ⟨e, hrun⟩ := hj.run
  have hph := Control.feed_ph _ _ (show Control.Ph (start server noEnc ()) from .before rfl rfl rfl rfl) hrun
  constructor
  · intro x hx
    rw [hj.rep] at hx
    rcases hph with ⟨_, b, _, _⟩ | ⟨_, b, _, _⟩ | ⟨_, y, ids, b, _, _, z⟩
    · rw [show ep.ctl.conn.ev = [] from b] at hx; cases hx
    · rw [show ep.ctl.conn.ev = [] from b] at hx; cases hx
    · rw [show ep.ctl.conn.ev = _ from b] at hx
      simp at hx
      subst hx
      exact z
  · intro hu
    have : chunks = [] := hj.none fun u g => hu u (by
      obtain ⟨p, m1, m2⟩ := hj.con u g
      exact ⟨hj.peer _ _ g, p, _, m1, m2⟩)
    subst this
    rw [Control.feed] at hrun
    injection hrun with hrun
    have h1 : ep.ctl.conn.remote = (ep.ctl.recast e ()).conn.remote := rfl
    rw [h1, ← hrun]
    exact ⟨rfl, rfl⟩

theorem story_of {P : Par} {server : Bool} {st : Settings} {l : Log} {ep : Ep} (hP : ParOk P) (hst : SettingsOk st) (h : Endpoint.Hist P server st l ep)
    {fed : List UInt8} {is : List (List UInt8 × Qpack.DOpc × Nat)} {p : List UInt8} {ss : List (Sent.Made Fld)} (he : EncHist server st.qpackEncoderMaxDtableCapacity l ep fed is p ss) :
    ∃ (ops : List EncOp) (s : ESys), Story server st l ep ops s fed ep.ctl.conn.remote ∧ (made (ESys.init st.qpackEncoderMaxDtableCapacity) ops).map asMade = ss := by
  obtain ⟨hf, h1, h2, ops, s, hr⟩ := he
  obtain ⟨chunks, hj⟩ := hist_cj hP hst h
  refine ⟨ops, s, ⟨hr.run, hr.trk.core, hr.cut, ⟨is, p, h1, hr.ins.symm, h2, hr.trk.rd.unfinished⟩, ⟨hr.cap, hr.blk⟩, ⟨?_, ?_⟩, told_settings hP hst h⟩, hr.sec⟩
  · intro u q bs hu hp ha
    obtain ⟨ty, k1, k2⟩ := typed hj hu hp ha
    have : ty = .qdec := by
      rcases k2 with k2 | ⟨k2, _⟩
      · cases k2; rfl
      · omega
    subst this
    obtain ⟨q', m1, m2⟩ := hf.con u k1
    rw [ha] at m2
    exact (isVarint_unique hp m1 m2).2.2
  · intro hu
    exact hf.none fun u g => hu u (by
      obtain ⟨p, m1, m2⟩ := hf.con u g
      exact ⟨hj.peer _ _ g, p, _, m1, m2⟩)

/-- C75 (the history of the encoder).  In any history of a connection, the QPACK encoder (without the state of the reader of the decoder stream)
is one with a history `ops` in which the decoder instructions are exactly those that the bytes of the peer's decoder stream spell, `fed`, in order
and each once; in which a limit of the dynamic table and of blocked streams is set only if SETTINGS of the peer say so, to what they say; and in
which no entry is taken for received otherwise (`Story`). -/
theorem C75_history (P : Par) (server : Bool) (st : Settings) (l : Log) (ep : Ep) (hP : ParOk P) (hst : SettingsOk st) (h : Endpoint.Hist P server st l ep) :
    ∃ (ops : List EncOp) (s : ESys) (fed : List UInt8) (r : Settings), Story server st l ep ops s fed r := by
  obtain ⟨fed, is, p, ss, he⟩ := hist_enc hP hst h
  obtain ⟨ops, s, h1, _⟩ := story_of hP hst h he
  exact ⟨ops, s, fed, _, h1⟩

/-- C75 (the sections).  In any history that sends, the history `ops` of the encoder is such that also its field sections are exactly those made for
what the connection sends (`Account`, C66), in order, each with the bytes sent: on its stream and on the encoder stream. -/
theorem C75_sections (P : Par) (server : Bool) (st : Settings) (L : Ledger Fld) (l : Log) (ep : Ep) (hP : ParOk P) (hst : SettingsOk st) (h : Kept P server st L l ep) :
    ∃ (log : List (Serve Fld)) (ops : List EncOp) (s : ESys) (fed : List UInt8) (r : Settings),
      Tallies log L.asks ∧ (∀ x, (ep.c.str x).isSome = true → ∃ items rest m, Account L ep.c log x items rest m) ∧
      Story server st l ep ops s fed r ∧ (made (ESys.init st.qpackEncoderMaxDtableCapacity) ops).map asMade = log.flatMap Serve.made := by
  obtain ⟨L', log, fed, is, p, k1, k2, k3⟩ := kept_joint hP hst h
  obtain ⟨ops, s, h1, h2⟩ := story_of hP hst h.hist k3
  refine ⟨log, ops, s, fed, _, by rw [← k2.asks]; exact k1.tal, fun x hx => ?_, h1, h2⟩
  obtain ⟨t, ht⟩ := Option.isSome_iff_exists.1 hx
  obtain ⟨items, hi⟩ := k1.all x t ht
  exact ⟨items, _, _, account_same k2 hx (account_of hi)⟩

/-- C75 (blocked streams).  In any history that sends, of the field sections made for what the connection sends, those that are neither acknowledged
nor cancelled (by what the peer's decoder stream says) and refer to entries that the peer has not said to have received are on at most as many streams
as the SETTINGS of the peer allow (and at most 100): on none before SETTINGS say so. -/
theorem C75_blocked (P : Par) (server : Bool) (st : Settings) (L : Ledger Fld) (l : Log) (ep : Ep) (hP : ParOk P) (hst : SettingsOk st) (h : Kept P server st L l ep) :
    ∃ (log : List (Serve Fld)) (ops : List EncOp) (s : ESys) (fed : List UInt8) (r : Settings),
      Tallies log L.asks ∧ (∀ x, (ep.c.str x).isSome = true → ∃ items rest m, Account L ep.c log x items rest m) ∧
      Story server st l ep ops s fed r ∧ (made (ESys.init st.qpackEncoderMaxDtableCapacity) ops).map asMade = log.flatMap Serve.made ∧
      ((s.secs.filter fun x => decide (s.known < x.ricnt)).map Sec.id).dedup.length ≤ min 100 r.qpackBlockedStreams ∧ s.known ≤ s.inserted := by
  obtain ⟨log, ops, s, fed, r, a1, a2, a3, a4⟩ := C75_sections P server st L l ep hP hst h
  refine ⟨log, ops, s, fed, r, a1, a2, a3, a4, ?_, (C19_known_never_ahead _ ops s a3.run).2.1⟩
  refine C15_limit_respected _ _ ops (fun n hn => ?_) s a3.run
  rw [limits_blocks, a3.limits.2] at hn
  split_ifs at hn
  · cases hn
  · rw [List.mem_singleton.1 hn]

theorem capped_chain {M : Nat} {e e' : Enc} {ms : List (Sent.Made Fld)} (h : Qpack.Capped M e) (hw : Qpack.EInv e) (hc : Sent.Chain encode (fun _ _ => False) e ms e') :
    ∀ m ∈ ms, ∃ ins : List Qpack.EIns, m.enc = ins.flatMap Qpack.EIns.bytes ∧ ∀ n, Qpack.EIns.setCap n ∈ ins → n ≤ M := by
  induction hc with
  | nil => intro m hm; cases hm
  | @cons e e1 e2 m t he _ ih =>
    unfold Endpoint.encode at he
    obtain ⟨o, ho, hp⟩ := Qpack.encode_ok hw m.nva.1 m.nva.2
    rw [ho] at he
    dsimp only at he
    split_ifs at he
    simp only [Option.some.injEq, Prod.mk.injEq] at he
    obtain ⟨rfl, _, _, h4⟩ := he
    obtain ⟨k1, k2⟩ := h.encode hw ho
    intro m' hm
    rcases List.mem_cons.1 hm with rfl | hm
    · exact ⟨o.ins, h4.symm, k2⟩
    · exact ih k1 hp.inv m' hm
  | peer hf => exact hf.elim

/-- C75 (the dynamic table).  In any history the entries of the encoder's dynamic table, in the sizes of RFC 9204 section 3.2.1, fit in what the
SETTINGS of the peer allow, and whatever sections are encoded next, the encoder stream gets no instruction to set a capacity above that: nothing
before SETTINGS say so. -/
theorem C75_capacity (P : Par) (server : Bool) (st : Settings) (l : Log) (ep : Ep) (hP : ParOk P) (hst : SettingsOk st) (h : Endpoint.Hist P server st l ep) :
    ∃ r : Settings, (ep.c.enc.ctx.ents.map fun x => rfcSize x.name x.value).sum ≤ r.qpackMaxDtableCapacity ∧
      (∀ e' ms, Sent.Chain encode (fun _ _ => False) ep.c.enc ms e' → ∀ m ∈ ms, ∃ ins : List Qpack.EIns, m.enc = ins.flatMap Qpack.EIns.bytes ∧
        ∀ n, Qpack.EIns.setCap n ∈ ins → n ≤ r.qpackMaxDtableCapacity) ∧
      (∀ x, Control.Ev.settings x ∈ l.reports → x = r) ∧ ((∀ u, ¬ HasType server l u 0) → r.qpackMaxDtableCapacity = 0 ∧ r.qpackBlockedStreams = 0) := by
  obtain ⟨ops, s, fed, r, b1, b2, b3, b4, b5, b6, b8, b9⟩ := C75_history P server st l ep hP hst h
  have hc0 : Qpack.Capped r.qpackMaxDtableCapacity s.e := by
    refine Qpack.capped_run ops (Qpack.esys_init st.qpackEncoderMaxDtableCapacity) (fun n hn => ?_) ⟨Nat.zero_le _, Nat.zero_le _, fun g => by cases g⟩ b1
    rw [b5.1] at hn
    split_ifs at hn
    · cases hn
    · rw [List.mem_singleton.1 hn]
  have hx : s.e.ctx = ep.c.enc.ctx := by show s.e.core.ctx = ep.c.enc.core.ctx; rw [b2]
  have hc : Qpack.Capped r.qpackMaxDtableCapacity ep.c.enc := by
    refine ⟨hx ▸ hc0.size, hx ▸ hc0.max, fun g => ?_⟩
    have h1 : s.e.pending = ep.c.enc.pending := by show s.e.core.pending = ep.c.enc.core.pending; rw [b2]
    have h2 : s.e.lastUpd = ep.c.enc.lastUpd := by show s.e.core.lastUpd = ep.c.enc.core.lastUpd; rw [b2]
    rw [← h2]
    exact hc0.last (h1.trans g)
  have hw := (hist_einv hP hst h).core.c.enc.inv
  refine ⟨r, ?_, fun e' ms hm => capped_chain hc hw hm, b8, b9⟩
  have := hc.size
  rw [hw.ctx.size, spaces_eq] at this
  exact this

/-- C75 (references).  In any history that sends, the entries that the sections which are neither acknowledged nor cancelled (by what the peer's
decoder stream says) refer to are in the dynamic table, and what each line of such a section refers to still denotes the field it was made for. -/
theorem C75_entries (P : Par) (server : Bool) (st : Settings) (L : Ledger Fld) (l : Log) (ep : Ep) (hP : ParOk P) (hst : SettingsOk st) (h : Kept P server st L l ep) :
    ∃ (log : List (Serve Fld)) (ops : List EncOp) (s : ESys) (fed : List UInt8) (r : Settings),
      Tallies log L.asks ∧ (∀ x, (ep.c.str x).isSome = true → ∃ items rest m, Account L ep.c log x items rest m) ∧
      Story server st l ep ops s fed r ∧ (made (ESys.init st.qpackEncoderMaxDtableCapacity) ops).map asMade = log.flatMap Serve.made ∧
      ∀ x ∈ s.secs, (∀ rep ∈ x.reps, ∀ a ∈ rep.refs, ∃ ent, ep.c.enc.ctx.get a = some ent ∧ ent.absidx = a) ∧
        List.Forall₂ (fun rep nv => rep.denotes ep.c.enc.ctx nv) x.reps x.nvs := by
  obtain ⟨log, ops, s, fed, r, a1, a2, a3, a5⟩ := C75_sections P server st L l ep hP hst h
  have hx : s.e.ctx = ep.c.enc.ctx := by show s.e.core.ctx = ep.c.enc.core.ctx; rw [a3.core]
  refine ⟨log, ops, s, fed, r, a1, a2, a3, a5, fun x hm => ⟨fun rep hr a ha => ?_, ?_⟩⟩
  · obtain ⟨ent, k1, _, k3⟩ := C14_referenced_entries_stay _ ops s a3.run x hm rep hr a ha
    exact ⟨ent, hx ▸ k1, k3⟩
  · rw [← hx]; exact C14_sections_keep_their_meaning _ ops s a3.run x hm

/-- a client learns that 4096 bytes and 200 blocked streams are allowed, sends three requests, of which the first adds an entry to the dynamic table;
the server acknowledges the first section and begins another instruction -/
def EpDemo.taught : List Call :=
  [.bindControl 2, .bindQpack 6 10, .read 3 [0, 4, 6, 1, 0x50, 0] false, .read 3 [7, 0x40] false, .read 3 [200] false,
    .submitRequest 0 [{ name := [58, 97, 117, 116, 104, 111, 114, 105, 116, 121], value := [97] }] false,
    .writev 9 [], .addWrite 2 17, .writev 9 [], .addWrite 10 1, .writev 9 [], .addWrite 6 1, .writev 9 [], .addWrite 6 6, .writev 9 []]
def EpDemo.taughtAck : List Call := taught ++ [.read 11 [3] false, .read 11 [0x80, 0x7f] false]

/-- what is known of the encoder: blocked streams, known received count, insertions, the peer's limit of blocked streams, the capacity; and the bytes
of the decoder stream -/
def EpDemo.encView (r : Ledger Fld × Ep × Log) : List Nat × List UInt8 :=
  ([r.2.1.c.enc.numBlocked, r.2.1.c.enc.krcnt, r.2.1.c.enc.ctx.next, r.2.1.ctl.conn.remote.qpackBlockedStreams, r.2.1.c.enc.ctx.maxCap], r.2.2.arrived 11)

set_option maxRecDepth 100000 in
/-- C75 is about such histories: a section is outstanding on one stream, and afterwards its entry is known to be there -/
theorem C75_example : ∃ (L L' : Ledger Fld) (l l' : Log) (a b : Ep), Kept anyPar false someSettings L l a ∧ encView (L, a, l) = ([1, 0, 1, 200, 4096], []) ∧
    Kept anyPar false someSettings L' l' b ∧ encView (L', b, l') = ([0, 1, 1, 200, 4096], [3, 0x80, 0x7f]) := by
  have k1 : (keepCalls anyPar taught {} (init false someSettings)).map encView = some ([1, 0, 1, 200, 4096], []) := by decide +kernel
  have k2 : (keepCalls anyPar taughtAck {} (init false someSettings)).map encView = some ([0, 1, 1, 200, 4096], [3, 0x80, 0x7f]) := by decide +kernel
  rcases h1 : keepCalls anyPar taught {} (init false someSettings) with _ | ⟨L, a, l⟩
  · rw [h1] at k1; cases k1
  rcases h2 : keepCalls anyPar taughtAck {} (init false someSettings) with _ | ⟨L', b, l'⟩
  · rw [h2] at k2; cases k2
  rw [h1] at k1
  rw [h2] at k2
  injection k1 with k1
  injection k2 with k2
  exact ⟨L, L', l, l', a, b, by simpa using keepCalls_kept _ .init h1, k1, by simpa using keepCalls_kept _ .init h2, k2⟩

end Props
end Nghttp3
