import Verif.Lemmas.EndpointCtrl
import Verif.Lemmas.Feedback5
import Verif.Props.QpackWire
/-! The QPACK encoder stream of the peer in histories of a whole connection. -/
namespace Nghttp3
namespace Endpoint
open Outq (R Ans)
open Sent (Ledger)
open Conn (OpOk LeavesClosed Allowed clientBidi streamUni Part UState IsUni Ty Typ)
open Qpack (Dec SCtx DecWF esRun)
open Bidi (SameEnc)

variable {P : Par} {server : Bool} {st : Settings}

/-- what was passed on of the streams of a type -/
structure Fed (t : Ty) (v : Nat) (l : Log) (ep : Ep) (fed : Bytes) : Prop where
  con : ∀ u, IsUni ep.c t u → ∃ p, Spec.IsVarint v p ∧ l.arrived u = p ++ fed
  none : (∀ u, ¬ IsUni ep.c t u) → fed = []

theorem fed_op {t : Ty} {v : Nat} (ht : t ≠ .unknown) {l : Log} {ep ep' : Ep} {chunks : List Bytes} (hi : Conn.Inv False True ep.c) (hj : Conn.UniInv ep.c) (h : CJ P server l ep chunks)
    {fed : Bytes} (hf : Fed t v l ep fed) {o : Call} {op : Conn.Op Fld}
    (ho : opOn ep o = some op) (hok : OpOk op) {r : Conn.Ret} {ev : List Ev} (e : step P ep o = .ok ep' r ev) : Fed t v (l ++ [(o, r, ev)]) ep' fed := by
  obtain ⟨e1, e2⟩ := step_op ho e
  have hrec := (opOn_some ho).1
  have hpart := Conn.step_part hi hok (by rintro id src fin rfl; cases hrec) (by rintro id rfl; cases hrec) e1
  obtain ⟨hj', hfl, _⟩ := Conn.uniInv_step hi hj hok e1
  have hgo : ∀ u, Conn.Goes op r u → o = .close u ∧ r = .code 0 := by
    rintro u ⟨rfl, hr⟩
    refine ⟨?_, hr⟩
    cases o <;> first | (cases ho; rfl) | cases ho
  have hno : ∀ u, ¬ Conn.Goes op r u → arrive u (l.arrived u) (o, r, ev) = l.arrived u := by
    intro u hu
    cases o with
    | read a b c => cases ho
    | close id =>
      dsimp only [arrive]
      rw [if_neg]
      rintro ⟨rfl, hr⟩
      cases ho
      exact hu ⟨rfl, hr⟩
    | _ => rfl
  have hgone : ∀ u, Conn.peerUni server u → Conn.Goes op r u → ep'.c.str u = .none := by
    rintro u hu ⟨rfl, rfl⟩
    exact Conn.close_uni (h.st u hu) e1
  refine ⟨fun u g => ?_, fun hn => ?_⟩
  · have g0 := hpart.isUni (hj'.uni _ u g) g
    rw [arrived_snoc, hno u ?_]
    · exact hf.con u g0
    · intro hg
      obtain ⟨s, k, _⟩ := g
      rw [hgone u (h.peer _ _ g0) hg] at k; cases k
  · refine hf.none fun u g => ?_
    have := hfl _ (hj.flag t u ht g)
    obtain ⟨x, hx⟩ := hj'.ex _ this
    exact hn x hx

theorem fed_other {t : Ty} {v : Nat} {l : Log} {ep ep' : Ep} {chunks : List Bytes} (hj : Conn.UniInv ep.c) (hj' : Conn.UniInv ep'.c)
    (h : CJ P server l ep chunks) {fed : Bytes} (hf : Fed t v l ep fed) {id : Nat} {src : Bytes} {fin : Bool} {r : Conn.Ret} {ev : List Ev}
    (h1 : streamUni id = false ∨ src = []) (h2 : Still ep.c ep'.c) : Fed t v (l ++ [(.read id src fin, r, ev)]) ep' fed := by
  have harr : ∀ u, Log.arrived (l ++ [(.read id src fin, r, ev)]) u = if id = u then l.arrived u ++ src else l.arrived u := fun u => arrived_snoc _ _ _
  have hsame : ∀ u, Conn.peerUni server u → Log.arrived (l ++ [(.read id src fin, r, ev)]) u = l.arrived u := by
    intro u hu
    rw [harr]
    split_ifs with hx
    · subst hx
      rcases h1 with h1 | h1
      · rw [peer_uni hu] at h1; cases h1
      · rw [h1, List.append_nil]
    · rfl
  refine ⟨fun u g => ?_, fun hn => hf.none fun u g => hn u ((still_isUni h2 (hj.uni _ u g)).2 g)⟩
  have g0 := (still_isUni h2 (hj'.uni _ u g)).1 g
  rw [hsame u (h.peer _ _ g0)]
  exact hf.con u g0

theorem fed_uni {t : Ty} {v : Nat} (ht : t ≠ .unknown) (hv : ∀ z, Typ z t → z = v) {l : Log} {ep ep' : Ep} {chunks : List Bytes} (hj : Conn.UniInv ep.c) (hj' : Conn.UniInv ep'.c)
    (h : CJ P server l ep chunks) {fed : Bytes} (hf : Fed t v l ep fed) {id : Nat} {src : Bytes} {fin fin' : Bool} {r r1 : Conn.Ret} {ev : List Ev} {c1 c2 : CC}
    (hp : Conn.peerUni server id) (h1 : Still ep.c c1) (h2 : Conn.readUni c1 id src fin' = .ok (c2, r1)) (h3 : ∀ z, r1 = .code z → z = 0) (h4 : Still c2 ep'.c) :
    (∀ x, r1 = .route (some (t, x)) → Fed t v (l ++ [(.read id src fin, r, ev)]) ep' (fed ++ x)) ∧
    ((∀ x, r1 ≠ .route (some (t, x))) → Fed t v (l ++ [(.read id src fin, r, ev)]) ep' fed) := by
  have harr : ∀ u, Log.arrived (l ++ [(.read id src fin, r, ev)]) u = if id = u then l.arrived u ++ src else l.arrived u := fun u => arrived_snoc _ _ _
  have hid := peer_uni hp
  have hb := h1.state hid (fun k => k) (h.st id hp)
  have hpas := Conn.passes hb h2 h3
  have hfr : ∀ t u, u ≠ id → streamUni u = true → (IsUni ep'.c t u ↔ IsUni ep.c t u) := by
    intro t u hx hu
    rw [still_isUni h4 hu, ← still_isUni h1 hu]
    unfold IsUni
    rw [hpas.fr u hx]
  have har1 : Log.arrived (l ++ [(.read id src fin, r, ev)]) id = l.arrived id ++ src := by rw [harr, if_pos rfl]
  have har2 : ∀ u, u ≠ id → Log.arrived (l ++ [(.read id src fin, r, ev)]) u = l.arrived u := fun u hx => by rw [harr, if_neg (fun k => hx k.symm)]
  have hkeep : ∀ t, IsUni ep.c t id → IsUni ep'.c t id := by
    intro t g
    obtain ⟨s, k1, k2, k3⟩ := (still_isUni h1 hid).2 g
    rw [still_isUni h4 hid, (hpas.old s k1 k2).1]
    exact ⟨s, k1, k2, k3⟩
  have hfirst : ∀ u, u = id → IsUni ep'.c t u → ¬ IsUni ep.c t u → ∃ p y, Spec.IsVarint v p ∧ l.arrived u ++ src = p ++ y ∧ fed = [] ∧
      r1 = if y = [] then .route .none else .route (some (t, y)) := by
    rintro u rfl g hold
    have g1 := (still_isUni h4 hid).1 g
    have hun : ∀ t, ¬ IsUni c1 t u := by
      rintro t ⟨s, k1, k2, k3⟩
      obtain ⟨s', m1, m2, m3⟩ := g1
      rw [(hpas.old s k1 k2).1, k1] at m1
      cases m1
      exact hold ((still_isUni h1 hid).1 ⟨s, k1, k2, m3⟩)
    obtain ⟨z, p, y, a1, a2, a3, a4⟩ := hpas.new _ g1 hun
    obtain rfl := hv z a2
    refine ⟨p, y, a1, a3, ?_, a4 ht⟩
    refine hf.none fun w gw => ?_
    by_cases hw : w = u
    · subst hw; exact hold gw
    · exact hw (hj'.one t _ _ ht ((hfr _ w hw (hj.uni _ _ gw)).2 gw) g)
  constructor
  · rintro x rfl
    obtain ⟨g1, _, hxne⟩ := hpas.given _ _ rfl
    have gc : IsUni ep'.c t id := (still_isUni h4 hid).2 g1
    refine ⟨fun u g => ?_, fun hn => absurd gc (hn id)⟩
    obtain rfl := hj'.one t _ _ ht g gc
    rw [har1]
    by_cases hold : IsUni ep.c t u
    · obtain ⟨p, a1, a2⟩ := hf.con u hold
      obtain ⟨s, k1, k2, k3⟩ := (still_isUni h1 hid).2 hold
      have hsrc : x = src := by
        by_cases hs : src = []
        · exfalso
          subst hs
          have := h2
          unfold Conn.readUni at this
          rw [if_neg (fun k => by rw [if_pos k] at this; cases this)] at this
          rw [k1] at this
          dsimp only at this
          split_ifs at this with z1
          · cases this
          · unfold Conn.deliverUni at this
            rw [k3] at this
            cases t <;> dsimp only at this
            all_goals
              first
                | exact absurd rfl ht
                | (split_ifs at this
                   · cases this
                   · cases this
                     exact hxne rfl)
        · have := (hpas.old s k1 k2).2 (by rw [k3]; exact ht) hs
          rw [k3] at this
          injection this with this
          injection this with this
          exact (Prod.mk.inj this).2
      exact ⟨p, a1, by rw [a2, hsrc, List.append_assoc]⟩
    · obtain ⟨p, y, a1, a3, hch, a4⟩ := hfirst u rfl g hold
      refine ⟨p, a1, ?_⟩
      rw [a3, hch]
      split_ifs at a4
      · cases a4
      · injection a4 with a4
        injection a4 with a4
        rw [(Prod.mk.inj a4).2]; rfl
  · intro hx
    refine ⟨fun u g => ?_, fun hn => hf.none fun u g => ?_⟩
    · by_cases hux : u = id
      · have hold' := hux
        subst hux
        rw [har1]
        by_cases hold : IsUni ep.c t u
        · obtain ⟨p, a1, a2⟩ := hf.con u hold
          obtain ⟨s, k1, k2, k3⟩ := (still_isUni h1 hid).2 hold
          have hs : src = [] := by
            by_contra hs
            have := (hpas.old s k1 k2).2 (by rw [k3]; exact ht) hs
            rw [k3] at this
            exact hx _ this
          exact ⟨p, a1, by rw [a2, hs, List.append_nil]⟩
        · obtain ⟨p, y, a1, a3, hch, a4⟩ := hfirst u rfl g hold
          refine ⟨p, a1, ?_⟩
          rw [a3, hch]
          by_cases hy : y = []
          · rw [hy]
          · rw [if_neg hy] at a4
            exact absurd a4 (hx _)
      · rw [har2 u hux]
        exact hf.con u ((hfr _ u hux (hj'.uni _ _ g)).1 g)
    · by_cases hux : u = id
      · subst hux; exact hn u (hkeep _ g)
      · exact hn u ((hfr _ u hux (hj.uni _ _ g)).2 g)

/-- the decoder has read `fed` -/
def Tab (hard blocked : Nat) (fed : Bytes) (d : Dec) : Prop := ∃ d0, esRun (Dec.init hard blocked) fed false = .ok d0 ∧ Qpack.Core d d0

theorem Tab.same {hard blocked : Nat} {fed : Bytes} {d d' : Dec} (h : Tab hard blocked fed d) (hs : SameEnc d d') : Tab hard blocked fed d' := by
  obtain ⟨d0, h1, h2⟩ := h
  exact ⟨d0, h1, hs.1.trans h2.1, hs.2.1.trans h2.2.1, hs.2.2.1.trans h2.2.2.1, hs.2.2.2.trans h2.2.2.2⟩

theorem Tab.bad {hard blocked : Nat} {fed : Bytes} {d : Dec} (h : Tab hard blocked fed d) : d.ctx.bad = false := by
  obtain ⟨d0, h1, h2⟩ := h
  rw [h2.1]
  exact (Qpack.esRun_ctx (DecWF.init _ _) (by simp) h1).2.2.1

theorem Tab.read {hard blocked : Nat} {fed x : Bytes} {d d' : Dec} (h : Tab hard blocked fed d) (hw : DecWF d) (e : d.readEncoder x = .ok d') : Tab hard blocked (fed ++ x) d' := by
  have hb := h.bad
  by_cases hx : x = []
  · have hre : d.readEncoder x = .ok d := by unfold Dec.readEncoder; rw [hb, hx]; rfl
    rw [hre] at e
    cases e
    rw [hx, List.append_nil]; exact h
  by_cases hu : d.uninterrupted + x.length ≤ 128 * 1024
  · have hv := Qpack.readEncoder_view hw hb hx hu
    rw [e] at hv
    obtain ⟨d0, k1, k2⟩ := h
    obtain ⟨e', q1, q2⟩ := Qpack.esRun_core (d := { d with uninterrupted := d.uninterrupted + x.length }) (e := d0) ⟨k2.1, k2.2.1, k2.2.2.1, k2.2.2.2⟩ hv.symm
    exact ⟨e', Qpack.esRun_then (DecWF.init _ _) k1 q1, q2⟩
  · unfold Dec.readEncoder at e
    rw [hb, if_neg (by simp), if_neg hx] at e
    dsimp only at e
    rw [if_pos (by omega)] at e
    cases e

theorem hist_able (hP : ParOk P) (hst : SettingsOk st) {l : Log} {ep : Ep} (h : Hist P server st l ep) : AllAble ep.dec ep.rx := by
  have : ∃ (L : Ledger Fld) (said pend : _) (done : _), Spoken (asked L) l ep said pend done := by
    induction h with
    | init => exact ⟨_, _, _, _, spoken_init⟩
    | @step l ep ep' o r ev h1 h2 h3 ih =>
      obtain ⟨L, said, pend, done, ih⟩ := ih
      obtain ⟨a, b, c, k⟩ := spoken_step hP (hist_einv hP hst h1) ih h2 h3
      exact ⟨_, a, b, c, k⟩
  obtain ⟨_, _, _, _, k⟩ := this
  exact k.able

theorem readBidi_samedec {ep ep' : Ep} {id : Nat} {src : Bytes} {fin : Bool} {r : Conn.Ret} {ev : List Ev} (ha : AllAble ep.dec ep.rx)
    (e : readBidi P ep id src fin = .ok ep' r ev) : SameEnc ep.dec ep'.dec := by
  unfold readBidi at e
  dsimp only at e
  have h1 := Bidi.readStream_hears (cfg P ep.c id) (room ep.c ep.bq) fin (s := { ep.rx id with priFixed := fixedPri ep.c id }) src (ha id)
  generalize Bidi.readStream _ _ _ _ _ _ = o at e h1
  rcases o with _ | _ | ⟨s', d', ev1, n', rest⟩ <;> dsimp only at e
  · cases e
  · cases e
  obtain ⟨ev2, h0, t, h1, _⟩ := h1
  have hf := h1.same
  rcases e1 : priorities ep.c id ev1 with _ | _ | _ | c1 <;> rw [e1] at e <;> dsimp only [lift] at e
  · cases e
  · cases e
  · cases e
  split_ifs at e
  · rcases e2 : Conn.qpackBlock c1 id with _ | _ | _ | ⟨c2, r2⟩ <;> rw [e2] at e <;> dsimp only at e
    · cases e
    · cases e
    · cases e
    cases e; exact hf
  · cases e; exact hf

theorem release_samedec (n : Nat) (f : Nat) {ep ep' : Ep} {r : Conn.Ret} {ev : List Ev} (ha : AllAble ep.dec ep.rx) (e : release P n f ep = .ok ep' r ev) :
    SameEnc ep.dec ep'.dec := by
  induction f generalizing ep ev with
  | zero => cases e
  | succ f ih =>
    unfold release at e
    rcases ht : ep.bq.top with _ | m <;> rw [ht] at e <;> dsimp only at e
    · cases e; exact .refl _
    by_cases hnx : ep.dec.ctx.next < (ep.rx m).sc.ricnt
    · rw [if_pos hnx] at e; cases e; exact .refl _
    rw [if_neg hnx] at e
    rcases hp : ep.bq.pop (ricntLess ep.rx) with _ | bq <;> rw [hp] at e <;> dsimp only at e
    · cases e
    have h1 := Bidi.processBlocked_hears (cfg P ep.c m) (room ep.c bq) (s := { ep.rx m with blocked := false, priFixed := fixedPri ep.c m }) (ha m)
    generalize Bidi.processBlocked _ _ _ _ = o at e h1
    rcases o with _ | _ | ⟨s', d', ev1, n', rest⟩ <;> dsimp only at e
    · cases e
    · cases e
    obtain ⟨ev0, h0, h1⟩ := h1
    rw [List.nil_append] at h0
    subst h0
    obtain ⟨t1, hf⟩ := Fb.heard (rx := ep.rx) ha h1 rfl
    obtain ⟨t, h1, _⟩ := h1
    have hs := h1.same
    rcases e1 : priorities ep.c m ev1 with _ | _ | _ | c1 <;> rw [e1] at e <;> dsimp only [lift] at e
    · cases e
    · cases e
    · cases e
    rcases e2 : Conn.qpackUnblock c1 m none s'.blocked with _ | _ | _ | ⟨c2, r2⟩ <;> rw [e2] at e <;> dsimp only at e
    · cases e
    · cases e
    · cases e
    generalize ho : release P n f _ = o at e
    rcases o with _ | _ | ⟨ep2, r2, ev2⟩
    · cases e
    · cases e
    dsimp only [Res.after] at e
    injection e with e3 e4 e5
    subst e3 e4 e5
    exact hs.trans (ih (ep := { ep with c := c2, rx := _, dec := d', bq := _ }) hf.able ho)

theorem readQenc_reads {ep ep' : Ep} {src : Bytes} {n : Nat} {r : Conn.Ret} {ev : List Ev} (ha : AllAble ep.dec ep.rx) (e : readQenc P ep src n = .ok ep' r ev) :
    ∃ d, ep.dec.readEncoder src = .ok d ∧ SameEnc d ep'.dec := by
  unfold readQenc at e
  rcases e1 : ep.dec.readEncoder src with _ | ⟨d, z⟩ | d <;> rw [e1] at e <;> dsimp only at e
  · cases e
  · cases e
  have hq := Qpack.readEncoder_quiet e1
  exact ⟨d, rfl, release_samedec (ep := { ep with dec := d }) n _ (fun id => (ha id).mono hq.next) e⟩

theorem op_same {ep ep' : Ep} {o : Call} {op : Conn.Op Fld} (ho : opOn ep o = some op) {r : Conn.Ret} {ev : List Ev} (e : step P ep o = .ok ep' r ev) :
    SameEnc ep.dec ep'.dec := by
  have plain : ∀ {q : Conn.Op Fld}, plain ep q = .ok ep' r ev → SameEnc ep.dec ep'.dec := by
    intro q e
    unfold Endpoint.plain at e
    rcases e1 : Conn.step encode ep.c q with _ | _ | _ | ⟨c', r1⟩ <;> rw [e1] at e <;> dsimp only [lift] at e
    · cases e
    · cases e
    · cases e
    cases e
    exact .refl _
  cases o with
  | read a b c => cases ho
  | setMaxConc n => cases ho
  | submitRequest id nva dr =>
    change submitRequest P ep id nva dr = _ at e
    unfold submitRequest at e
    rcases e1 : Conn.submitRequest ep.c id (id, nva) dr with _ | _ | _ | ⟨c', r1⟩ <;> rw [e1] at e <;> dsimp only [lift] at e
    · cases e
    · cases e
    · cases e
    cases e; exact .refl _
  | close id =>
    change close ep id = _ at e
    unfold close at e
    rcases e1 : Conn.closeStream ep.c id with _ | _ | _ | ⟨c', r1⟩ <;> rw [e1] at e <;> dsimp only [lift] at e
    · cases e
    · cases e
    · cases e
    split_ifs at e
    · unfold Bidi.closeStream at e
      split_ifs at e <;> cases e <;> exact .refl _
    · cases e; exact .refl _
  | shutRd id =>
    change shutRd ep id = _ at e
    unfold shutRd at e
    rcases e1 : Conn.shutdownRead ep.c id with _ | _ | _ | ⟨c', r1⟩ <;> rw [e1] at e <;> dsimp only [lift] at e
    · cases e
    · cases e
    · cases e
    split_ifs at e
    · cases e; exact .refl _
    · cases e; exact .refl _
    all_goals
      rcases e2 : ep.dec.cancelStream id with _ | d <;> rw [e2] at e <;> cases e
      exact cancel_same e2
  | writev k as =>
    change writev ep k as = _ at e
    unfold writev at e
    rcases e1 : Conn.writevStream encode ep.c k ep.dec.writeDecoder.2 as with _ | _ | _ | ⟨c', r1⟩ <;> rw [e1] at e <;> dsimp only [lift] at e
    · cases e
    · cases e
    · cases e
    cases e
    dsimp only
    split_ifs
    · exact write_same _
    · exact .refl _
  | _ => exact plain e

theorem typ_qenc (z : Nat) (h : Typ z .qenc) : z = 2 := by
  rcases h with h | ⟨_, h⟩
  · unfold Conn.uniType at h
    split at h <;> first | rfl | cases h
  · cases h

theorem dec_wf {G : Bool × Settings} {ep : Ep} (h : EInv G ep) (hb : ep.dec.ctx.bad = false) : DecWF ep.dec :=
  h.core.r.sys.dec.resolve_left (by
    change ¬ ep.dec.ctx.bad = true
    rw [hb]; simp)

/-- in any history the decoder has read the peer's encoder stream, without the stream type -/
theorem hist_tab (hP : ParOk P) (hst : SettingsOk st) {l : Log} {ep : Ep} (h : Hist P server st l ep) :
    ∃ fed, Fed .qenc 2 l ep fed ∧ Tab st.qpackMaxDtableCapacity st.qpackBlockedStreams fed ep.dec := by
  induction h with
  | init =>
    refine ⟨[], ⟨fun u g => ?_, fun _ => rfl⟩, Dec.init _ _, ?_, rfl, rfl, rfl, rfl⟩
    · obtain ⟨s, g, _⟩ := g; cases g
    · unfold esRun Machine.run Machine.loop
      rw [if_pos ⟨rfl, rfl⟩]
  | @step l ep ep' o r ev h1 h2 h3 ih =>
    obtain ⟨fed, hf, ht⟩ := ih
    obtain ⟨chunks, hj⟩ := hist_cj hP hst h1
    have hi := hist_einv hP hst h1
    have hi' := hist_einv hP hst (.step h1 h2 h3)
    have ha := hist_able hP hst h1
    rcases ho : opOn ep o with _ | op
    · obtain ⟨_, ⟨id, src, fin, rfl⟩ | ⟨n, rfl⟩⟩ := opOn_none ho
      · obtain ⟨k1, k2⟩ := h2 id src fin rfl
        cases read_uni hP hi (hist_sync hP hst h1) k1 k2 h3 with
        | other g1 g2 g3 g4 =>
          refine ⟨fed, fed_other hi.core.c.uni hi'.core.c.uni hj hf g1 g2, ?_⟩
          rcases g4 with g4 | ⟨ep1, fin1, r1, ev1, m1, m2, m3⟩
          · rw [g4]; exact ht
          · have hb : AllAble ep1.dec ep1.rx := by
              intro i
              rw [m1]
              rcases m2 i with m2 | m2 <;> rw [m2]
              · exact ha i
              · exact Qpack.able_init _ _
            have := readBidi_samedec hb m3
            rw [m1] at this
            exact ht.same this
        | uni hp g1 g2 g3 g4 g5 g6 g7 =>
          rw [server_hist hi] at hp
          obtain ⟨f1, f2⟩ := fed_uni (r := r) (ev := ev) (fin := fin) (by simp) typ_qenc hi.core.c.uni hi'.core.c.uni hj hf hp g1 g2 g3 g4
          obtain ⟨ep1, n, r1, ev1, q1, q2, q3, q4, q5, q6⟩ := g6
          rename_i c1 c2 fin' r2
          by_cases hx : ∃ x, r2 = .route (some (.qenc, x))
          · obtain ⟨x, hx⟩ := hx
            obtain ⟨d, w1, w2⟩ := readQenc_reads (by rw [q1, q2]; exact ha) (q4 x hx)
            rw [q1] at w1
            exact ⟨fed ++ x, f1 x hx, (ht.read (dec_wf hi ht.bad) w1).same w2⟩
          · have hx : ∀ x, r2 ≠ .route (some (.qenc, x)) := fun x g => hx ⟨x, g⟩
            refine ⟨fed, f2 hx, ?_⟩
            rw [q5 hx]; exact ht
      · change Res.ok _ _ _ = _ at h3
        cases h3
        exact ⟨fed, ⟨fun u g => by rw [arrived_snoc]; exact hf.con u g, hf.none⟩, ht.same ⟨rfl, rfl, rfl, rfl⟩⟩
    · exact ⟨fed, fed_op (by simp) hi.core.c.inv hi.core.c.uni hj hf ho (permitted_fine ho h2).1 h3, ht.same (op_same ho h3)⟩

end Endpoint
end Nghttp3
