import Verif.Lemmas.EndpointUni
import Verif.Props.Control
import Verif.Props.Uni
/-! The control stream of the peer in histories of a whole connection. -/
namespace Nghttp3
namespace Endpoint
open Outq (R Ans)
open Conn (OpOk LeavesClosed Allowed clientBidi streamUni Part UState IsUni)
open Control (bare feed start)

variable {P : Par} {server : Bool} {st : Settings}

theorem arrived_snoc (l : Log) (x : Call × Conn.Ret × List Ev) (u : Nat) : Log.arrived (l ++ [x]) u = arrive u (l.arrived u) x := by
  unfold Log.arrived
  rw [List.foldl_append]; rfl

theorem reports_snoc (l : Log) (x : Call × Conn.Ret × List Ev) : Log.reports (l ++ [x]) = l.reports ++ x.2.2.filterMap ctlOf := by
  unfold Log.reports
  rw [List.flatMap_append]; simp

theorem peer_uni {u : Nat} (h : Conn.peerUni server u) : streamUni u = true := by
  unfold Conn.peerUni at h
  unfold streamUni
  cases server <;> simp at h ⊢ <;> omega

/-- the encoder that is not looked at -/
def noEnc : Qpack.Enc := Qpack.Enc.init 0

structure CJ (P : Par) (server : Bool) (l : Log) (ep : Ep) (chunks : List Bytes) : Prop where
  ne : ∀ c ∈ chunks, c ≠ []
  run : ∃ e, feed (bare (env P)) (start server noEnc ()) chunks = .ok (ep.ctl.recast e ())
  rep : l.reports = ep.ctl.conn.ev
  st : ∀ u, Conn.peerUni server u → UState (l.arrived u) (ep.c.str u)
  peer : ∀ t u, IsUni ep.c t u → Conn.peerUni server u
  con : ∀ u, IsUni ep.c .control u → ∃ p, Spec.IsVarint 0 p ∧ l.arrived u = p ++ chunks.flatten
  none : (∀ u, ¬ IsUni ep.c .control u) → chunks = []

theorem step_noctl {ep ep' : Ep} {o : Call} {op : Conn.Op Fld} (ho : opOn ep o = some op) {r : Conn.Ret} {ev : List Ev} (e : step P ep o = .ok ep' r ev) :
    ev.filterMap ctlOf = [] := by
  have plain : ∀ {q : Conn.Op Fld}, plain ep q = .ok ep' r ev → ev.filterMap ctlOf = [] := by
    intro q e
    unfold Endpoint.plain at e
    rcases e1 : Conn.step encode ep.c q with _ | _ | _ | ⟨c', r1⟩ <;> rw [e1] at e <;> dsimp only [lift] at e
    · cases e
    · cases e
    · cases e
    cases e
    rfl
  cases o with
  | read a b c => cases ho
  | setMaxConc n => cases ho
  | submitRequest id nva dr =>
    change submitRequest P ep id nva dr = _ at e
    unfold submitRequest at e
    rcases e1 : Conn.submitRequest ep.c id (id, nva) dr with _ | _ | _ | ⟨c', r1⟩ <;> rw [e1] at e <;> dsimp only [lift] at e
    · cases e
    · cases e
    · cases e
    cases e; rfl
  | close id =>
    change close ep id = _ at e
    unfold close at e
    rcases e1 : Conn.closeStream ep.c id with _ | _ | _ | ⟨c', r1⟩ <;> rw [e1] at e <;> dsimp only [lift] at e
    · cases e
    · cases e
    · cases e
    split_ifs at e
    · generalize Bidi.closeStream _ _ = q at e
      rcases q with _ | _ | _ <;> cases e
      exact ctlOf_str _ _
    · cases e; rfl
  | shutRd id =>
    change shutRd ep id = _ at e
    unfold shutRd at e
    rcases e1 : Conn.shutdownRead ep.c id with _ | _ | _ | ⟨c', r1⟩ <;> rw [e1] at e <;> dsimp only [lift] at e
    · cases e
    · cases e
    · cases e
    split_ifs at e
    · cases e; rfl
    · cases e; rfl
    all_goals
      generalize ep.dec.cancelStream id = q at e
      rcases q with _ | d <;> cases e
      rfl
  | writev k as =>
    change writev ep k as = _ at e
    unfold writev at e
    rcases e1 : Conn.writevStream encode ep.c k ep.dec.writeDecoder.2 as with _ | _ | _ | ⟨c', r1⟩ <;> rw [e1] at e <;> dsimp only [lift] at e
    · cases e
    · cases e
    · cases e
    cases e
    rfl
  | _ => exact plain e

/-- calls of the application -/
theorem cj_op {l : Log} {ep ep' : Ep} {chunks : List Bytes} (hi : Conn.Inv False True ep.c) (hj : Conn.UniInv ep.c) (h : CJ P server l ep chunks) {o : Call} {op : Conn.Op Fld}
    (ho : opOn ep o = some op) (hok : OpOk op) {r : Conn.Ret} {ev : List Ev} (e : step P ep o = .ok ep' r ev) : CJ P server (l ++ [(o, r, ev)]) ep' chunks := by
  obtain ⟨e1, e2⟩ := step_op ho e
  have hev := step_noctl ho e
  have hrec := (opOn_some ho).1
  have hpart := Conn.step_part hi hok (by rintro id src fin rfl; cases hrec) (by rintro id rfl; cases hrec) e1
  obtain ⟨hj', hfl, _⟩ := Conn.uniInv_step hi hj hok e1
  /- when the stream is removed, the bytes are forgotten -/
  have hgo : ∀ u, Conn.Goes op r u → o = .close u ∧ r = .code 0 := by
    rintro u ⟨rfl, hr⟩
    refine ⟨?_, hr⟩
    cases o <;> first | (cases ho; rfl) | cases ho
  have hno : ∀ u, ¬ Conn.Goes op r u → arrive u (l.arrived u) (o, r, ev) = l.arrived u := by
    intro u hu
    cases o with
    | read a b c => cases ho
    | close id =>
      dsimp only [arrive]
      rw [if_neg]
      rintro ⟨rfl, hr⟩
      cases ho
      exact hu ⟨rfl, hr⟩
    | _ => rfl
  have hgone : ∀ u, Conn.peerUni server u → Conn.Goes op r u → ep'.c.str u = none := by
    rintro u hu ⟨rfl, rfl⟩
    exact Conn.close_uni (h.st u hu) e1
  refine ⟨h.ne, by rw [e2]; exact h.run, by rw [reports_snoc, hev, List.append_nil, e2]; exact h.rep, fun u hu => ?_, fun t u g => h.peer t u (hpart.isUni (hj'.uni t u g) g), fun u g => ?_, fun hn => ?_⟩
  · rw [arrived_snoc]
    by_cases hg : Conn.Goes op r u
    · rw [hgone u hu hg]
      obtain ⟨rfl, rfl⟩ := hgo u hg
      show arrive u _ _ = []
      dsimp only [arrive]
      rw [if_pos ⟨rfl, rfl⟩]
    · rw [hno u hg]
      exact hpart.state (peer_uni hu) hg (h.st u hu)
  · have g0 := hpart.isUni (hj'.uni _ u g) g
    rw [arrived_snoc, hno u ?_]
    · exact h.con u g0
    · intro hg
      obtain ⟨s, k, _⟩ := g
      rw [hgone u (h.peer _ _ g0) hg] at k; cases k
  · refine h.none fun u g => ?_
    have := hfl _ (hj.flag .control u (by simp) g)
    obtain ⟨x, hx⟩ := hj'.ex _ this
    exact hn x hx

/-- received data -/
theorem cj_read {l : Log} {ep ep' : Ep} {chunks : List Bytes} (hsv : ep.c.server = server) (hj : Conn.UniInv ep.c) (hj' : Conn.UniInv ep'.c) (h : CJ P server l ep chunks) {id : Nat} {src : Bytes} {fin : Bool} {r : Conn.Ret} {ev : List Ev}
    (e : UniRead P ep ep' id src ev) : ∃ chunks', CJ P server (l ++ [(.read id src fin, r, ev)]) ep' chunks' := by
  have harr : ∀ u, Log.arrived (l ++ [(.read id src fin, r, ev)]) u = if id = u then l.arrived u ++ src else l.arrived u := fun u => arrived_snoc _ _ _
  have hrep : Log.reports (l ++ [(.read id src fin, r, ev)]) = l.reports ++ ev.filterMap ctlOf := reports_snoc _ _
  cases e with
  | other h1 h2 h3 _ =>
    have hsame : ∀ u, Conn.peerUni server u → Log.arrived (l ++ [(.read id src fin, r, ev)]) u = l.arrived u := by
      intro u hu
      rw [harr]
      split_ifs with hx
      · subst hx
        rcases h1 with h1 | h1
        · rw [peer_uni hu] at h1; cases h1
        · rw [h1, List.append_nil]
      · rfl
    refine ⟨chunks, h.ne, by rw [h3.1]; exact h.run, by rw [hrep, h3.2, List.append_nil, h3.1]; exact h.rep, fun u hu => ?_,
      fun t u g => h.peer t u ((still_isUni h2 (hj'.uni t u g)).1 g), fun u g => ?_, fun hn => h.none fun u g => hn u ((still_isUni h2 (hj.uni _ u g)).2 g)⟩
    · rw [hsame u hu]; exact h2.state (peer_uni hu) (fun k => k) (h.st u hu)
    · have g0 := (still_isUni h2 (hj'.uni _ u g)).1 g
      rw [hsame u (h.peer _ _ g0)]
      exact h.con u g0
  | @uni c1 c2 fin' r1 hp h1 h2 h3 h4 h5 _ =>
    rw [hsv] at hp
    have hid := peer_uni hp
    have hb := h1.state hid (fun k => k) (h.st id hp)
    have hpas := Conn.passes hb h2 h3
    have hst : ∀ u, Conn.peerUni server u → UState (Log.arrived (l ++ [(.read id src fin, r, ev)]) u) (ep'.c.str u) := by
      intro u hu
      refine h4.state (peer_uni hu) (fun k => k) ?_
      rw [harr]
      split_ifs with hx
      · subst hx; exact hpas.st
      · rw [hpas.fr u (fun k => hx k.symm)]
        exact h1.state (peer_uni hu) (fun k => k) (h.st u hu)
    have hfr : ∀ t u, u ≠ id → streamUni u = true → (IsUni ep'.c t u ↔ IsUni ep.c t u) := by
      intro t u hx hu
      rw [still_isUni h4 hu, ← still_isUni h1 hu]
      unfold IsUni
      rw [hpas.fr u hx]
    have hpeer : ∀ t u, IsUni ep'.c t u → Conn.peerUni server u := by
      intro t u g
      by_cases hx : u = id
      · subst hx; exact hp
      · exact h.peer t u ((hfr t u hx (hj'.uni t u g)).1 g)
    have har1 : Log.arrived (l ++ [(.read id src fin, r, ev)]) id = l.arrived id ++ src := by rw [harr, if_pos rfl]
    have har2 : ∀ u, u ≠ id → Log.arrived (l ++ [(.read id src fin, r, ev)]) u = l.arrived u := fun u hx => by rw [harr, if_neg (fun k => hx k.symm)]
    /- a stream that had its type keeps it -/
    have hkeep : ∀ t, IsUni ep.c t id → IsUni ep'.c t id := by
      intro t g
      obtain ⟨s, k1, k2, k3⟩ := (still_isUni h1 hid).2 g
      rw [still_isUni h4 hid, (hpas.old s k1 k2).1]
      exact ⟨s, k1, k2, k3⟩
    rcases h5 with ⟨x, rfl, e0, y0, s, hrd, hctl, hev⟩ | ⟨hx, hid1, hid2⟩
    · /- control stream -/
      obtain ⟨g1, _, hxne⟩ := hpas.given _ _ rfl
      have gc : IsUni ep'.c .control id := (still_isUni h4 hid).2 g1
      obtain ⟨er, hrun⟩ := h.run
      obtain ⟨e', hrd'⟩ := Control.read_agree _ x er s hrd
      have hev' := Control.read_grows _ x s hrd
      refine ⟨chunks ++ [x], ?_, ⟨e', ?_⟩, ?_, hst, hpeer, fun u g => ?_, fun hn => absurd gc (hn id)⟩
      · intro c hc
        rcases List.mem_append.1 hc with hc | hc
        · exact h.ne c hc
        · obtain rfl := List.mem_singleton.1 hc; exact hxne
      · rw [Control.feed_snoc _ _ _ _ hrun, hctl]
        exact hrd'
      · rw [hrep, hev, hctl, h.rep]
        exact List.prefix_iff_eq_append.1 hev'
      · obtain rfl := hj'.one .control _ _ (by simp) g gc
        rw [har1, List.flatten_append, List.flatten_singleton]
        by_cases hold : IsUni ep.c .control u
        · obtain ⟨p, a1, a2⟩ := h.con u hold
          obtain ⟨s, k1, k2, k3⟩ := (still_isUni h1 hid).2 hold
          have hsrc : x = src := by
            by_cases hs : src = []
            · exfalso
              subst hs
              have := h2
              unfold Conn.readUni at this
              rw [if_neg (fun k => by rw [if_pos k] at this; cases this)] at this
              rw [k1] at this
              dsimp only at this
              split_ifs at this with z1
              · cases this
              · unfold Conn.deliverUni at this
                rw [k3] at this
                dsimp only at this
                split_ifs at this
                · cases this
                · cases this
                  exact hxne rfl
            · have := (hpas.old s k1 k2).2 (by rw [k3]; simp) hs
              rw [k3] at this
              injection this with this
              injection this with this
              exact (Prod.mk.inj this).2
          exact ⟨p, a1, by rw [a2, hsrc, List.append_assoc]⟩
        · have hun : ∀ t, ¬ IsUni c1 t u := by
            rintro t ⟨s, k1, k2, k3⟩
            obtain ⟨s', m1, m2, m3⟩ := g1
            rw [(hpas.old s k1 k2).1, k1] at m1
            cases m1
            exact hold ((still_isUni h1 hid).1 ⟨s, k1, k2, m3⟩)
          obtain ⟨v, p, y, a1, a2, a3, a4⟩ := hpas.new _ g1 hun
          have hch : chunks = [] := by
            refine h.none fun w gw => ?_
            by_cases hw : w = u
            · subst hw; exact hold gw
            · exact hw (hj'.one .control _ _ (by simp) ((hfr _ w hw (hj.uni _ _ gw)).2 gw) g)
          have hv : v = 0 := by
            rcases a2 with a2 | ⟨_, a2⟩
            · unfold Conn.uniType at a2
              split at a2 <;> first | rfl | cases a2
            · cases a2
          subst hv
          refine ⟨p, a1, ?_⟩
          rw [a3, hch]
          have a4 := a4 (by simp)
          split_ifs at a4
          · cases a4
          · injection a4 with a4
            injection a4 with a4
            rw [(Prod.mk.inj a4).2]; rfl
    · /- other streams -/
      refine ⟨chunks, h.ne, by rw [hid1]; exact h.run, by rw [hrep, hid2, List.append_nil, hid1]; exact h.rep, hst, hpeer, fun u g => ?_, fun hn => h.none fun u g => ?_⟩
      · by_cases hux : u = id
        · subst hux
          rw [har1]
          by_cases hold : IsUni ep.c .control u
          · obtain ⟨p, a1, a2⟩ := h.con u hold
            obtain ⟨s, k1, k2, k3⟩ := (still_isUni h1 hid).2 hold
            have hs : src = [] := by
              by_contra hs
              have := (hpas.old s k1 k2).2 (by rw [k3]; simp) hs
              rw [k3] at this
              exact hx _ this
            exact ⟨p, a1, by rw [a2, hs, List.append_nil]⟩
          · have g1 := (still_isUni h4 hid).1 g
            have hun : ∀ t, ¬ IsUni c1 t u := by
              rintro t ⟨s, k1, k2, k3⟩
              obtain ⟨s', m1, m2, m3⟩ := g1
              rw [(hpas.old s k1 k2).1, k1] at m1
              cases m1
              exact hold ((still_isUni h1 hid).1 ⟨s, k1, k2, m3⟩)
            obtain ⟨v, p, y, a1, a2, a3, a4⟩ := hpas.new _ g1 hun
            have hch : chunks = [] := by
              refine h.none fun w gw => ?_
              by_cases hw : w = u
              · subst hw; exact hold gw
              · exact hw (hj'.one .control _ _ (by simp) ((hfr _ w hw (hj.uni _ _ gw)).2 gw) g)
            have hv : v = 0 := by
              rcases a2 with a2 | ⟨_, a2⟩
              · unfold Conn.uniType at a2
                split at a2 <;> first | rfl | cases a2
              · cases a2
            subst hv
            refine ⟨p, a1, ?_⟩
            rw [a3, hch]
            have a4 := a4 (by simp)
            by_cases hy : y = []
            · rw [hy]; rfl
            · rw [if_neg hy] at a4
              exact absurd a4 (hx _)
        · rw [har2 u hux]
          exact h.con u ((hfr _ u hux (hj'.uni _ _ g)).1 g)
      · by_cases hux : u = id
        · subst hux; exact hn u (hkeep _ g)
        · exact hn u ((hfr _ u hux (hj.uni _ _ g)).2 g)

theorem hist_cj (hP : ParOk P) (hst : SettingsOk st) {l : Log} {ep : Ep} (h : Hist P server st l ep) : ∃ chunks, CJ P server l ep chunks := by
  induction h with
  | init =>
    have hno : ∀ t u, ¬ IsUni (init server st).c t u := by
      rintro t u ⟨s, g, _⟩; cases g
    exact ⟨[], (fun c g => by cases g), ⟨_, rfl⟩, rfl, fun u _ => rfl, fun t u g => absurd g (hno t u), fun u g => absurd g (hno _ u), fun _ => rfl⟩
  | @step l ep ep' o r ev h1 h2 h3 ih =>
    obtain ⟨chunks, ih⟩ := ih
    have hi := hist_einv hP hst h1
    have hi' := hist_einv hP hst (.step h1 h2 h3)
    rcases ho : opOn ep o with _ | op
    · obtain ⟨_, ⟨id, src, fin, rfl⟩ | ⟨n, rfl⟩⟩ := opOn_none ho
      · obtain ⟨k1, k2⟩ := h2 id src fin rfl
        exact cj_read (server_hist hi) hi.core.c.uni hi'.core.c.uni ih (read_uni hP hi (hist_sync hP hst h1) k1 k2 h3)
      · change Res.ok _ _ _ = _ at h3
        cases h3
        refine ⟨chunks, ih.ne, ih.run, by rw [reports_snoc]; simpa using ih.rep, fun u hu => by rw [arrived_snoc]; exact ih.st u hu, ih.peer, fun u g => by rw [arrived_snoc]; exact ih.con u g, ih.none⟩
    · exact ⟨chunks, cj_op hi.core.c.inv hi.core.c.uni ih ho (permitted_fine ho h2).1 h3⟩

end Endpoint
end Nghttp3
