import Verif.Lemmas.CtlEnd
import Verif.Spec.CtlEnd
/-! Property theorem C58: the control stream from end to end, over all histories of calls at the sender and all packetisations at the receiver. -/
namespace Nghttp3
namespace Props
open Conn
open Outq (R Frent Ans Bytes St Emit FrentOk EncodeOk EmitOk itemsBytes itemBytes own)
open Sent (Book Ledger Made Serve Serves Run)
open Spec.Control
open CtlEnd (seen announced priorityUpdates)

variable {E F S : Type} {c : Conn.Conn E F} {encode : Encode E F} {peer : E → E → Prop}

/-- the receiver reads the frames of `dn`, or a first part of their bytes -/
theorem ctl_read (env : Control.Env S) (hcb : ∀ l, env.cb l = true) {server : Bool} {st : Settings} (e1 : Qpack.Enc) (y0 : S)
    {dn rest tl : List (Frent F)} (hsub : dn ++ rest = .settings st :: tl) (hg : (gids tl).Pairwise (· ≥ ·)) (hm : server = true → ∀ g ∈ gids tl, g % 4 = 0)
    (htl : ∀ f ∈ tl, (∃ id, f = .goaway id) ∨ ∃ id v, f = .priorityUpdate 0x0f0700 id v ∧ server = false)
    (hpri : ∀ id v, .priorityUpdate 0x0f0700 id v ∈ tl → v.length ≤ 8 ∧ ∀ y, ∃ y', priorityUpdate env.parsePri env.onPri y id v = .ok y')
    {a b : Bytes} (hb : EncodesAll (dn.map frameOf) (a ++ b)) :
    ∃ s, Control.runI env (Control.start (!server) e1 y0) a = .ok s ∧ s.conn.ev.map Control.toReport <+: announced server st (.settings st :: tl) ∧
      (rest = [] → b = [] → s.conn.ev.map Control.toReport = announced server st (.settings st :: tl) ∧
        (priorityUpdates (.settings st :: tl)).foldlM (fun y p => priorityUpdate env.parsePri env.onPri y p.1 p.2) y0 = .ok s.conn.ext) := by
  have hmem : ∀ {id v}, Frame.priorityUpdate id v ∈ dn.map frameOf → Frent.priorityUpdate 0x0f0700 id v ∈ tl := by
    intro id v hi
    obtain ⟨f, hf, hf2⟩ := List.mem_map.1 hi
    have hf3 : f ∈ Frent.settings st :: tl := by rw [← hsub]; exact List.mem_append_left _ hf
    rcases List.mem_cons.1 hf3 with rfl | hf3
    · cases hf2
    · rcases htl f hf3 with ⟨i, rfl⟩ | ⟨i, w, rfl, -⟩
      · cases hf2
      · cases hf2; exact hf3
  have hid := Control.ideal_frames hcb (!server) e1 y0 hb (fun id v hi => (hpri id v (hmem hi)).1)
  have hacc : ∃ y', outcome (!server) (Control.priOf env) [] y0 (dn.map frameOf) = .accepted (dn.map frameOf) y' ∧
      (rest = [] → (priorityUpdates (.settings st :: tl)).foldlM (fun y p => priorityUpdate env.parsePri env.onPri y p.1 p.2) y0 = .ok y') := by
    rcases dn with _ | ⟨f, dn⟩
    · refine ⟨y0, by rw [List.map_nil, outcome], fun hr => ?_⟩
      rw [hr] at hsub; cases hsub
    · obtain ⟨rfl, hsub'⟩ := List.cons.inj (show f :: (dn ++ rest) = _ from hsub)
      clear hsub
      rename' hsub' => hsub
      have hfr : ∀ f ∈ dn, (∃ id, f = .goaway id) ∨ ∃ id v, f = .priorityUpdate 0x0f0700 id v ∧ server = false :=
        fun f hf => htl f (by rw [← hsub]; exact List.mem_append_left _ hf)
      have hgi : ∀ (dn : List (Frent F)), (∀ f ∈ dn, (∃ id, f = .goaway id) ∨ ∃ id v, f = .priorityUpdate 0x0f0700 id v ∧ server = false) →
          Control.goawayIds (dn.map frameOf) = gids dn ∧ Control.updatesOf (dn.map frameOf) = priorityUpdates dn := by
        intro dn
        induction dn with
        | nil => intro _; exact ⟨rfl, rfl⟩
        | cons f t ih =>
          intro h
          obtain ⟨k1, k2⟩ := ih fun f hf => h f (List.mem_cons_of_mem _ hf)
          rcases h f List.mem_cons_self with ⟨i, rfl⟩ | ⟨i, w, rfl, -⟩
          · exact ⟨congrArg (i :: ·) k1, k2⟩
          · exact ⟨k1, congrArg ((i, w) :: ·) k2⟩
      obtain ⟨k1, k2⟩ := hgi dn hfr
      have hsub2 : gids tl = gids dn ++ gids rest := by rw [← hsub, gids_append]
      obtain ⟨y', h1, h2⟩ := Control.outcome_ok (server := server) (Control.priOf env) (dn.map frameOf) [.settings (Control.ivsOf st)] y0 (by simp)
        (by
          intro f hf
          obtain ⟨f, hf', rfl⟩ := List.mem_map.1 hf
          clear hf
          rename' hf' => hf
          rcases hfr f hf with ⟨i, rfl⟩ | ⟨i, w, rfl, hs⟩
          · intro hs
            refine hm hs i ?_
            rw [hsub2]
            refine List.mem_append_left _ ?_
            exact List.mem_filterMap.2 ⟨_, hf, rfl⟩
          · exact hs)
        (by
          show (Control.goawayIds (dn.map frameOf)).Pairwise _
          rw [k1]
          rw [hsub2] at hg
          exact (List.pairwise_append.1 hg).1)
        (fun id v hi => (hpri id v (hmem (List.mem_cons_of_mem _ hi))).2)
      refine ⟨y', ?_, fun hr => ?_⟩
      · have hv : verdict (!server) [] (.settings (Control.ivsOf st)) = none := by
          unfold verdict
          dsimp only
          rw [if_neg (by simp), if_pos (Control.ivs_ok _ _)]
        show outcome (!server) (Control.priOf env) [] y0 (.settings (Control.ivsOf st) :: dn.map frameOf) = _
        rw [outcome, hv]
        · exact h1
        · intro _ _ g; cases g
      · rw [hr, List.append_nil] at hsub
        subst hsub
        rw [k2] at h2
        exact h2
  have hrep : reports (!server) (dn.map frameOf) <+: announced server st (.settings st :: tl) ∧
      (rest = [] → reports (!server) (dn.map frameOf) = announced server st (.settings st :: tl)) := by
    have key : ∀ (dn : List (Frent F)), (∀ f ∈ dn, (∃ id, f = .goaway id) ∨ ∃ id v, f = .priorityUpdate 0x0f0700 id v ∧ server = false) →
        reports (!server) (dn.map frameOf) = (gids dn).map .shutdown := by
      intro dn
      induction dn with
      | nil => intro _; rfl
      | cons f t ih =>
        intro h
        have k1 := ih fun f hf => h f (List.mem_cons_of_mem _ hf)
        rcases h f List.mem_cons_self with ⟨i, rfl⟩ | ⟨i, w, rfl, -⟩
        · exact congrArg (Report.shutdown i :: ·) k1
        · exact k1
    have kan : ∀ dn : List (Frent F), announced server st (.settings st :: dn) = .settings (seen server st) :: (gids dn).map .shutdown := by
      intro dn
      unfold announced
      congr 1
      induction dn with
      | nil => rfl
      | cons f t ih =>
        cases f with
        | goaway id => exact congrArg (Report.shutdown id :: ·) ih
        | _ => exact ih
    rcases dn with _ | ⟨f, dn⟩
    · exact ⟨List.nil_prefix, fun hr => by rw [hr] at hsub; cases hsub⟩
    · obtain ⟨rfl, hsub'⟩ := List.cons.inj (show f :: (dn ++ rest) = _ from hsub)
      clear hsub
      rename' hsub' => hsub
      have hfr : ∀ f ∈ dn, (∃ id, f = .goaway id) ∨ ∃ id v, f = .priorityUpdate 0x0f0700 id v ∧ server = false :=
        fun f hf => htl f (by rw [← hsub]; exact List.mem_append_left _ hf)
      have e : reports (!server) ((.settings st :: dn).map frameOf) = .settings (seen server st) :: (gids dn).map .shutdown := by
        rw [← key dn hfr]
        show Report.settings (settingsOf (!server) (Control.ivsOf st)) :: _ = _
        rw [Control.ivs_settings]; rfl
      rw [e, kan]
      refine ⟨?_, fun hr => ?_⟩
      · rw [← hsub, gids_append, List.map_append]
        exact List.prefix_append (_ :: _) _
      · rw [hr, List.append_nil] at hsub; rw [hsub]
  obtain ⟨y', hy, hfold⟩ := hacc
  rw [hy] at hid
  obtain ⟨c', hrun, hview⟩ := hid
  obtain ⟨s1, r1, r2⟩ := Control.runI_prefix (Control.inv_start ..) hrun
  refine ⟨s1, r1, ?_, fun hr hb0 => ?_⟩
  · have := r2.map Control.toReport
    rw [hview.ev] at this
    exact this.trans hrep.1
  · rw [hb0, List.append_nil, r1] at hrun
    obtain rfl := Machine.Out.ok.inj hrun
    exact ⟨hview.ev.trans (hrep.2 hr), by rw [hview.ext]; exact hfold hr⟩

/-- what the control stream carries, up to and including what is still to be sent -/
theorem ctl_bytes (henc : EncodeOk encode) {server : Bool} {st : Settings} {e0 : E}
    (h1 : st.maxFieldSectionSize < 2 ^ 62) (h2 : st.qpackMaxDtableCapacity < 2 ^ 62) (h3 : st.qpackBlockedStreams < 2 ^ 62)
    {l : Ledger F} (h : Run encode peer (init server st e0) l c) {x : Nat} (hx : c.ctrl = some x) :
    ∃ log items s, c.str x = some s ∧ Account l c log x items s.out.frq (itemsBytes items) ∧
      ∃ (dn tl : List (Frent F)) (bs : Bytes), (l.at x).submitted = .settings st :: tl ∧ dn ++ s.out.frq = .settings st :: tl ∧
      (itemsBytes items).map Prod.fst = 0 :: bs ∧ EncodesAll (dn.map frameOf) bs ∧ (Outq.writeDone s.out = true → (l.at x).taken = 0 :: bs) ∧
      (gids tl).Pairwise (· ≥ ·) ∧ (server = true → ∀ g ∈ gids tl, g % 4 = 0) ∧
      ∀ f ∈ tl, (∃ id, f = .goaway id) ∨ ∃ id v, f = .priorityUpdate 0x0f0700 id v ∧ server = false := by
  have hc := run_ctl henc (st := st) ⟨h1, h2, h3⟩ h
  obtain ⟨log, g⟩ := run_rinv henc (st := st) ⟨h1, h2, h3⟩ h
  obtain ⟨s, hs⟩ := Option.isSome_iff_exists.1 (crit_some g.inv hx)
  obtain ⟨items, hi⟩ := g.all x s hs
  obtain ⟨tl, t1, t2, t3⟩ := hc.some x hx
  obtain ⟨t, i1, i2⟩ := hi.ctl hx
  have hctl : ∀ f ∈ (l.at x).submitted, CtlFrent f := by
    rw [t1]
    intro f hf
    rcases List.mem_cons.1 hf with rfl | hf
    · trivial
    · rcases t3 f hf with ⟨i, rfl⟩ | ⟨i, w, rfl, -⟩
      · trivial
      · rfl
  obtain ⟨dn, d1, d2⟩ := serves_frames i2 rfl hctl (fun i hi' => hi.ok i (by rw [i1]; exact List.mem_cons_of_mem _ hi'))
  have hbs : (itemsBytes items).map Prod.fst = 0 :: (itemsBytes t).map Prod.fst := by
    rw [i1, itemsBytes_cons_fst]; rfl
  refine ⟨log, items, s, hs, account_of hi, dn, tl, (itemsBytes t).map Prod.fst, t1, by rw [← d1, t1], hbs, d2, fun hd => ?_, ?_, ?_, t3⟩
  · have hu := unsent_done hi.inv hd
    have hl := (sinv_taken hi).1
    rw [← hbs]
    have hp : (l.at x).taken <+: (itemsBytes items).map Prod.fst := (List.prefix_append _ _).trans hi.pre
    refine hp.eq_of_length ?_
    rw [List.length_map]; omega
  · rw [t2, List.pairwise_reverse]
    exact g.inv.gsort
  · intro hsv i hi'
    rw [t2] at hi'
    exact hc.mod hsv i (List.mem_reverse.1 hi')

/-- the priority updates asked for are ones that the receiver takes: no longer than its buffer, and neither its parser nor it refuses them -/
def TakesUpdates (env : Control.Env S) (asked : List (Frent F)) : Prop :=
  ∀ p ∈ priorityUpdates asked, p.2.length ≤ 8 ∧ ∀ y, ∃ y', priorityUpdate env.parsePri env.onPri y p.1 p.2 = .ok y'

/-- feeding the receiver, once it is known how it would read -/
theorem ctl_feed (env : Control.Env S) {server : Bool} (e1 : Qpack.Enc) (y0 : S) {chunks : List Bytes} (hne : ∀ d ∈ chunks, d ≠ [])
    (hnc : server = true ∨ Control.feed env (Control.start (!server) e1 y0) chunks ≠ .crash) {s : Control.St S}
    (h : Control.runI env (Control.start (!server) e1 y0) chunks.flatten = .ok s) :
    Control.feed env (Control.start (!server) e1 y0) chunks = .ok s := by
  rcases server with _ | _
  · rw [Control.feed_eq_ideal _ _ hne (Control.inv_start ..) (hnc.resolve_left (by simp)), h]
    intro c _ g; rw [h] at g; cases g
  · exact (Control.feed_client _ _ hne (Control.inv_start false e1 y0) rfl).trans h

/-- C58.  Let an endpoint have any history of calls that keeps to the documentation (as in C56), and `x` be its control stream.  Let its peer,
whose callbacks succeed and which takes the priority updates asked for, receive on it, after the stream type, any first part of the bytes taken
by the transport, in any packets (a server being fed must not run into the failing assertion of C47).  Then no call reports an error, and the
peer has been told a first part of what was announced: the settings, then the shutdowns in the order in which they were asked for.  If no frame
is left to be served and all bytes made of them have arrived, it has been told everything, and has applied all priority updates, in order. -/
theorem C58_control (henc : EncodeOk encode) {server : Bool} {st : Settings} {e0 : E}
    (h1 : st.maxFieldSectionSize < 2 ^ 62) (h2 : st.qpackMaxDtableCapacity < 2 ^ 62) (h3 : st.qpackBlockedStreams < 2 ^ 62)
    {l : Ledger F} (h : Run encode peer (init server st e0) l c) {x : Nat} (hx : c.ctrl = some x)
    (env : Control.Env S) (hcb : ∀ l, env.cb l = true) (hpri : TakesUpdates env (l.at x).submitted) (e1 : Qpack.Enc) (y0 : S)
    (chunks : List Bytes) (hne : ∀ d ∈ chunks, d ≠ []) (htaken : 0 :: chunks.flatten <+: (l.at x).taken)
    (hnc : server = true ∨ Control.feed env (Control.start (!server) e1 y0) chunks ≠ .crash) :
    ∃ s, Control.feed env (Control.start (!server) e1 y0) chunks = .ok s ∧
      s.conn.ev.map Control.toReport <+: announced server st (l.at x).submitted ∧
      ∃ log items rest m, Account l c log x items rest m ∧
        (rest = [] → 0 :: chunks.flatten = m.map Prod.fst → s.conn.ev.map Control.toReport = announced server st (l.at x).submitted ∧
          (priorityUpdates (l.at x).submitted).foldlM (fun y p => priorityUpdate env.parsePri env.onPri y p.1 p.2) y0 = .ok s.conn.ext) := by
  obtain ⟨log, items, s, -, hacc, dn, tl, bs, k1, k2, k3, k4, -, k5, k6, k7⟩ := ctl_bytes henc h1 h2 h3 h hx
  have hpre := (htaken.trans (List.prefix_append _ (l.at x).offered)).trans hacc.bytes
  rw [k3] at hpre
  obtain ⟨b, hb⟩ := (List.cons_prefix_cons.1 hpre).2
  obtain ⟨s', r1, r2, r3⟩ := ctl_read env hcb e1 y0 k2 k5 k6 k7
    (fun id v hi => hpri (id, v) (by rw [k1]; exact List.mem_filterMap.2 ⟨_, List.mem_cons_of_mem _ hi, rfl⟩)) (a := chunks.flatten) (b := b)
    (by rw [hb]; exact k4)
  refine ⟨s', ctl_feed env e1 y0 hne hnc r1, by rw [k1]; exact r2, log, items, _, _, hacc, fun hr hall => ?_⟩
  rw [k1]
  refine r3 hr ?_
  rw [k3, ← hb] at hall
  have := (List.cons.inj hall).2
  exact List.append_right_eq_self.1 this.symm

/-- C58 (drained).  When nghttp3_conn_is_drained says that a server is drained, a client that has received all bytes taken by the transport for
the control stream, in any packets, has been told everything that was announced, the last GOAWAY frame included. -/
theorem C58_drained (henc : EncodeOk encode) {st : Settings} {e0 : E}
    (h1 : st.maxFieldSectionSize < 2 ^ 62) (h2 : st.qpackMaxDtableCapacity < 2 ^ 62) (h3 : st.qpackBlockedStreams < 2 ^ 62)
    {l : Ledger F} (h : Run encode peer (init true st e0) l c) (hd : isDrained c = some true) :
    ∃ x, c.ctrl = some x ∧ ∀ (env : Control.Env S), (∀ l, env.cb l = true) → ∀ (e1 : Qpack.Enc) (y0 : S) (chunks : List Bytes),
      (∀ d ∈ chunks, d ≠ []) → 0 :: chunks.flatten = (l.at x).taken →
      ∃ s, Control.feed env (Control.start false e1 y0) chunks = .ok s ∧
        s.conn.ev.map Control.toReport = announced true st (l.at x).submitted := by
  have hsv := (run_ctl henc (st := st) ⟨h1, h2, h3⟩ h).sv
  unfold isDrained at hd
  rw [hsv, if_neg (by decide)] at hd
  split_ifs at hd
  · cases hd
  · cases hd
  split at hd
  · cases hd
  rename_i x hx
  split at hd
  · cases hd
  rename_i s hs
  obtain ⟨d1, d2⟩ := Bool.and_eq_true_iff.1 (Option.some.inj hd)
  refine ⟨x, hx, fun env hcb e1 y0 chunks hne hall => ?_⟩
  obtain ⟨log, items, s', hs', hacc, dn, tl, bs, k1, k2, k3, k4, k8, k5, k6, k7⟩ := ctl_bytes henc h1 h2 h3 h hx
  obtain rfl := Option.some.inj (hs.symm.trans hs')
  have hfrq : s.out.frq = [] := List.isEmpty_iff.1 d2
  rw [k8 d1] at hall
  obtain ⟨s', r1, r2, r3⟩ := ctl_read env hcb e1 y0 k2 k5 k6 k7
    (fun id v hi => by rcases k7 _ hi with ⟨i, g⟩ | ⟨_, _, _, g⟩ <;> cases g) (a := chunks.flatten) (b := [])
    (by rw [List.append_nil, (List.cons.inj hall).2]; exact k4)
  exact ⟨s', ctl_feed env (server := true) e1 y0 hne (.inl rfl) r1, by rw [k1]; exact (r3 hfrq rfl).1⟩

/-! ## concrete cases -/

/-- a server shuts down while no stream is open; the transport takes everything -/
def demoDrain : List (Op Bytes) := demoBind ++ [.shutdown, .writev 9 [] [], .addWrite 3 3]

/-- the server is drained and the transport has taken these bytes of the control stream -/
def drainedWith (bs : Bytes) : Bool :=
  match playS echoEnc {} demoInit demoDrain with
  | some (l, c) => decide (isDrained c = some true) && decide ((l.at 3).taken = bs) && decide (c.ctrl = some 3)
  | none => false

/-- the hypotheses of `C58_drained` are met, and its conclusion says that a client that gets the bytes in these packets is told the
settings and the shutdown -/
example : ∃ (l : Ledger Bytes) (c : Conn.Conn Unit Bytes), Run echoEnc (fun _ _ => False) (init true {} ()) l c ∧ isDrained c = some true ∧ c.ctrl = some 3 ∧
    0 :: [[4], [6, 6, 0, 1], [0, 7, 0, 7, 1, 0]].flatten = (l.at 3).taken := by
  have h : drainedWith [0, 4, 6, 6, 0, 1, 0, 7, 0, 7, 1, 0] = true := by decide +kernel
  unfold drainedWith at h
  split at h
  · rename_i l c hp
    obtain ⟨h1, h2⟩ := Bool.and_eq_true_iff.1 h
    obtain ⟨h0, h1⟩ := Bool.and_eq_true_iff.1 h1
    exact ⟨l, c, playS_run _ .init hp, of_decide_eq_true h0, of_decide_eq_true h2, (of_decide_eq_true h1).symm⟩
  · cases h

/-- what the receiver is told -/
def toldBy (server : Bool) (chunks : List Bytes) : Option (List Report × List (Nat × Nat)) :=
  match Control.feed demo (Control.start server (Qpack.Enc.init 4096) []) chunks with
  | .ok s => some (s.conn.ev.map Control.toReport, s.conn.ext)
  | _ => none

example : toldBy false [[4], [6, 6, 0, 1], [0, 7, 0, 7, 1, 0]] =
    some ([.settings { h3Datagram := false, maxFieldSectionSize := 0, qpackEncoderMaxDtableCapacity := 4096 }, .shutdown 0], []) := by decide +kernel

/-- a client sends a request, asks for two priority updates, and shuts down in between -/
def demoClient : List (Op Bytes) :=
  [.bindControl 2, .bindQpack 6 10, .submitRequest 0 [5] false, .setClientPri 0 [117, 61, 53], .shutdown, .setClientPri 0 [117, 61, 49],
   .writev 9 [] [], .addWrite 2 30]

def clientBytes : Bytes := [4, 6, 6, 0, 1, 0, 7, 0, 128, 15, 7, 0, 4, 0, 117, 61, 53, 7, 1, 0, 128, 15, 7, 0, 4, 0, 117, 61, 49]

/-- the transport has taken these bytes, and these priority updates were asked for -/
def clientWith (bs : Bytes) : Bool :=
  match playS echoEnc {} (init false {} ()) demoClient with
  | some (l, c) => decide ((l.at 2).taken = bs) && decide (c.ctrl = some 2) &&
      decide (priorityUpdates (l.at 2).submitted = [(0, [117, 61, 53]), (0, [117, 61, 49])])
  | none => false

/-- the hypotheses of `C58_control` are met by this client and a server that records the updates, whatever the packets in which
a first part of the bytes arrives -/
example : ∃ (l : Ledger Bytes) (c : Conn.Conn Unit Bytes), Run echoEnc (fun _ _ => False) (init false {} ()) l c ∧ c.ctrl = some 2 ∧
    TakesUpdates demo (l.at 2).submitted ∧ (∀ l, demo.cb l = true) ∧ 0 :: clientBytes = (l.at 2).taken := by
  have h : clientWith (0 :: clientBytes) = true := by decide +kernel
  unfold clientWith at h
  split at h
  · rename_i l c hp
    obtain ⟨h1, h2⟩ := Bool.and_eq_true_iff.1 h
    obtain ⟨h0, h1⟩ := Bool.and_eq_true_iff.1 h1
    refine ⟨l, c, playS_run _ .init hp, of_decide_eq_true h1, ?_, fun _ => rfl, (of_decide_eq_true h0).symm⟩
    intro p hpp
    rw [of_decide_eq_true h2] at hpp
    simp only [List.mem_cons, List.not_mem_nil, or_false] at hpp
    rcases hpp with rfl | rfl
    · exact ⟨by decide, fun y => ⟨_, rfl⟩⟩
    · exact ⟨by decide, fun y => ⟨_, rfl⟩⟩
  · cases h

/-- a first part of the bytes, in two packets; and all of them, in one -/
example : toldBy true [clientBytes.take 3, (clientBytes.drop 3).take 13] =
    some ([.settings { maxFieldSectionSize := 0, qpackEncoderMaxDtableCapacity := 4096 }], []) := by decide +kernel
example : toldBy true [clientBytes] =
    some ([.settings { maxFieldSectionSize := 0, qpackEncoderMaxDtableCapacity := 4096 }, .shutdown 0], [(0, 5), (0, 1)]) := by decide +kernel

end Props
end Nghttp3
