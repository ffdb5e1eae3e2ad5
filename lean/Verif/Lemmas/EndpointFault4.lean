import Verif.Lemmas.EndpointFault3
import Verif.Props.Ctrl
import Verif.Props.Control
/-! Violations that nghttp3_conn_read_stream is sure to report. -/
namespace Nghttp3
namespace Endpoint
open Outq (R Ans)
open Conn (OpOk LeavesClosed Allowed clientBidi streamUni Part UState IsUni Ty Typ Mild Begins)
open Rfc9204 (AreInstrs Table)
open Qpack (Dec SCtx DecWF esRun esM esM_good)

variable {P : Par} {server : Bool} {st : Settings}

/-- the connection is the same, except for this stream -/
def But (a b : CC) (id : Nat) : Prop := ∃ o, b = { a with str := PQ.upd a.str id o }

theorem But.refl (a : CC) (id : Nat) : But a a id := by
  refine ⟨a.str id, ?_⟩
  have : PQ.upd a.str id (a.str id) = a.str := by
    funext x
    by_cases h : x = id
    · subst h; exact PQ.upd_same _ _ _
    · exact PQ.upd_ne _ _ h
  rw [this]

theorem But.trans {a b c : CC} {id : Nat} (h : But a b id) (h' : But b c id) : But a c id := by
  obtain ⟨o, rfl⟩ := h
  obtain ⟨o', rfl⟩ := h'
  refine ⟨o', ?_⟩
  have : PQ.upd (PQ.upd a.str id o) id o' = PQ.upd a.str id o' := by
    funext x
    by_cases h : x = id
    · subst h; rw [PQ.upd_same, PQ.upd_same]
    · rw [PQ.upd_ne _ _ h, PQ.upd_ne _ _ h, PQ.upd_ne _ _ h]
  dsimp only
  rw [this]

theorem but_create (a : CC) {id : Nat} (h : clientBidi id = false) (s : Conn.Strm Fld) : But a (Conn.createStream a id s) id := by
  refine ⟨some s, ?_⟩
  unfold Conn.createStream
  rw [h, Bool.and_false]
  rfl

/-- a call for a stream of the peer gets to nghttp3_conn_read_uni -/
theorem enter_uni (hP : ParOk P) (hst : SettingsOk st) {l : Log} {ep : Ep} (h : Hist P server st l ep) {id : Nat} {src : Bytes} {fin : Bool}
    (hid : id < 2 ^ 62) (hpu : Conn.peerUni server id) (hne : src ≠ [] ∨ (fin = true ∧ l.arrived id ≠ [])) :
    ∃ c' s, c'.str id = some s ∧ Conn.peerUni c'.server id ∧ Still ep.c c' ∧ EInv (server, (init server st).c.settings) { ep with c := c' } ∧ UState (l.arrived id) (c'.str id) ∧
      read P ep id src fin = (readUni P { ep with c := c' } id src fin).after [] ∧ But ep.c c' id := by
  have hi := hist_einv hP hst h
  have hsrv : ep.c.server = server := server_hist hi
  have hown : ¬ Conn.ownUni ep.c.server id := by
    rw [hsrv]
    unfold Conn.ownUni
    unfold Conn.peerUni at hpu
    cases server <;> simp at hpu ⊢ <;> omega
  have hu : streamUni id = true := peer_uni hpu
  obtain ⟨chunks, hj⟩ := hist_cj hP hst h
  have hcb : clientBidi id = false := by
    unfold Conn.peerUni at hpu
    unfold clientBidi
    cases server <;> simp at hpu ⊢ <;> omega
  obtain ⟨c', s, e1, hs, hbut⟩ : ∃ c' s, Conn.openStream ep.c id (src.isEmpty && fin) = .ok (c', .code 0) ∧ c'.str id = some s ∧ But ep.c c' id := by
    unfold Conn.openStream
    rw [if_neg (by simpa using hid)]
    have hst0 := hj.st id hpu
    rcases h0 : ep.c.str id with _ | s <;> rw [h0] at hst0 <;> dsimp only
    · have hne : (src.isEmpty && fin) = false := by
        rcases hne with g | ⟨_, g⟩
        · cases src
          · exact absurd rfl g
          · rfl
        · exact absurd hst0 g
      rw [hsrv, hne]
      unfold Conn.peerUni at hpu
      cases server
      · rw [if_neg (by simp)] at hpu
        rw [if_neg (by simp), if_pos (by unfold Conn.serverUni; simpa using hpu), if_neg (by simp)]
        exact ⟨_, _, rfl, PQ.upd_same _ _ _, but_create _ hcb _⟩
      · rw [if_pos rfl] at hpu
        rw [if_pos rfl, hcb, if_neg (by simp), if_neg (by unfold Conn.clientUni; simp [hpu]), if_neg (by simp)]
        exact ⟨_, _, rfl, PQ.upd_same _ _ _, but_create _ hcb _⟩
    · refine ⟨ep.c, s, ?_, h0, .refl _ _⟩
      rw [hsrv]
      unfold Conn.peerUni at hpu
      cases server
      · rw [if_neg (by simp)] at hpu
        rw [if_neg (by simp), if_neg (by unfold Conn.serverUni; simp [hpu])]
      · rw [if_pos rfl] at hpu
        rw [if_neg (by unfold Conn.clientUni; simp [hpu]), if_neg (by simp)]
  have e1' : Conn.step encode ep.c (.open id (src.isEmpty && fin)) = .ok (c', .code 0) := e1
  have hp1 : Still ep.c c' := path_part (t := true) (g := true) (.one hi.core.c (o := .open id (src.isEmpty && fin)) ⟨rfl, trivial, trivial, hid, hown⟩ (fun k => by cases k) e1' (dir_open e1))
  have h1 := opened_einv (P := P) hi hid hown e1 (by rw [hs]; rfl)
  have ho : opened P ep id c' = { ep with c := c' } := by unfold opened; rw [hcb, Bool.and_false]; rfl
  refine ⟨c', s, hs, ?_, hp1, ho ▸ h1, hp1.state hu (fun k => k) (hj.st id hpu), ?_, hbut⟩
  · rw [(step_sameC hi.core.c e1').1, hsrv]; exact hpu
  · rw [read_eq, e1]
    dsimp only [lift]
    rw [if_neg (by simp), if_neg (by rw [hs]; simp)]
    have hoe : openEv ep id = [] := by unfold openEv; rw [hcb, Bool.and_false]; rfl
    rw [ho, hoe]
    unfold rest
    rw [if_neg ?_, if_pos hu]
    rcases hne with g | ⟨g, _⟩
    · cases src <;> simp at g ⊢
    · rw [g]; simp

theorem typ_of_critical {v : Nat} (h : critical v) : ∃ t, Conn.uniType v = some t ∧ t ≠ .unknown := by
  rcases h with rfl | rfl | rfl
  · exact ⟨.control, rfl, by simp⟩
  · exact ⟨.qenc, rfl, by simp⟩
  · exact ⟨.qdec, rfl, by simp⟩

theorem typ_det {v : Nat} {t t' : Ty} (h : Conn.uniType v = some t) (hc : critical v) (h' : Typ v t') : t' = t := by
  rcases h' with h' | ⟨h', _⟩
  · rw [h] at h'; exact (Option.some.inj h').symm
  · unfold critical at hc; omega

/-- the type of a stream in the log is the type of the stream in the connection -/
theorem has_isUni {l : Log} {ep : Ep} {chunks : List Bytes} (hj : CJ P server l ep chunks) {u v : Nat} {t : Ty} (hv : critical v) (ht : Conn.uniType v = some t)
    (h : HasType server l u v) : IsUni ep.c t u := by
  obtain ⟨hp, p, y, h1, h2⟩ := h
  obtain ⟨ty, k1, k2⟩ := typed hj hp h1 h2
  rwa [typ_det ht hv k2] at k1

theorem begins_same {v w : Nat} {a x : Bytes} (h1 : Begins v a) (h2 : Begins w (a ++ x)) : v = w := by
  obtain ⟨p, y, k1, rfl⟩ := h1
  obtain ⟨q, z, m1, m2⟩ := h2
  exact (Props.isVarint_unique k1 m1 (r' := z) (by rw [← m2, List.append_assoc])).1

theorem must_push (hP : ParOk P) (hst : SettingsOk st) {l : Log} {ep : Ep} (h : Hist P server st l ep) {id : Nat} {src : Bytes} {fin : Bool}
    (hid : id < 2 ^ 62) (hpu : Conn.peerUni server id) (hb : Begins 1 (l.arrived id ++ src)) : read P ep id src fin = .fail Err.H3_STREAM_CREATION_ERROR := by
  obtain ⟨chunks, hj⟩ := hist_cj hP hst h
  have hno : ¬ Begins 1 (l.arrived id) := by
    rintro ⟨p, y, k1, k2⟩
    obtain ⟨ty, m1, m2⟩ := typed hj hpu k1 k2
    rcases m2 with m2 | ⟨m2, _⟩
    · cases m2
    · omega
  have hne : src ≠ [] := fun k => hno (by rwa [k, List.append_nil] at hb)
  obtain ⟨c', s, k1, k2, k3, k4, k5, k6, _⟩ := enter_uni hP hst h (fin := fin) hid hpu (.inl hne)
  rw [k1] at k5
  have hid0 : s.ident = false := by
    by_contra hc
    have hc : s.ident = true := by simpa using hc
    obtain ⟨v, p, y, m1, m2, m3⟩ := k5.2.1 hc
    have : v = 1 := begins_same ⟨p, y, m1, m3⟩ hb
    subst this
    exact hno ⟨p, y, m1, m3⟩
  rw [k6]
  unfold readUni
  rw [show Conn.readUni _ id src fin = _ from Conn.uni_refused k2 k1 k5 hid0 hne hb (.inl rfl)]
  rfl

theorem must_second (hP : ParOk P) (hst : SettingsOk st) {l : Log} {ep : Ep} (h : Hist P server st l ep) {id u v : Nat} {src : Bytes} {fin : Bool}
    (hid : id < 2 ^ 62) (hpu : Conn.peerUni server id) (hv : critical v) (hb : Begins v (l.arrived id ++ src)) (hu : HasType server l u v) (hne : u ≠ id) :
    read P ep id src fin = .fail Err.H3_STREAM_CREATION_ERROR := by
  obtain ⟨chunks, hj⟩ := hist_cj hP hst h
  obtain ⟨t, ht, htn⟩ := typ_of_critical hv
  have hi := hist_einv hP hst h
  have hU := has_isUni hj hv ht hu
  have hno : ¬ Begins v (l.arrived id) := by
    rintro ⟨p, y, k1, k2⟩
    exact hne (hi.core.c.uni.one t _ _ htn hU (has_isUni hj hv ht ⟨hpu, p, y, k1, k2⟩))
  have hne : src ≠ [] := fun k => hno (by rwa [k, List.append_nil] at hb)
  obtain ⟨c', s, k1, k2, k3, k4, k5, k6, _⟩ := enter_uni hP hst h (fin := fin) hid hpu (.inl hne)
  rw [k1] at k5
  have hid0 : s.ident = false := by
    by_contra hc
    have hc : s.ident = true := by simpa using hc
    obtain ⟨v', p, y, m1, m2, m3⟩ := k5.2.1 hc
    have : v' = v := begins_same ⟨p, y, m1, m3⟩ hb
    subst this
    exact hno ⟨p, y, m1, m3⟩
  have hf := k4.core.c.uni.flag t u htn ((still_isUni k3 (hi.core.c.uni.uni _ _ hU)).2 hU)
  rw [k6]
  unfold readUni
  rw [show Conn.readUni _ id src fin = _ from Conn.uni_refused k2 k1 k5 hid0 hne hb (.inr ⟨t, ht, hf⟩)]
  rfl

/-- what the peer sends on the only stream of its type gets to the reader of that type -/
theorem must_deliver (hP : ParOk P) (hst : SettingsOk st) {l : Log} {ep : Ep} (h : Hist P server st l ep) {id v : Nat} {src : Bytes} {fin : Bool}
    (hid : id < 2 ^ 62) (hpu : Conn.peerUni server id) (hv : critical v) {t : Ty} (ht : Conn.uniType v = some t) {p y : Bytes} (hp : Spec.IsVarint v p)
    (ha : l.arrived id ++ src = p ++ y) (hone : ∀ u, u ≠ id → ¬ HasType server l u v) (hsome : (src ≠ [] ∧ y ≠ []) ∨ (fin = true ∧ HasType server l id v)) :
    ∃ c' c1 x, Still ep.c c' ∧ EInv (server, (init server st).c.settings) { ep with c := c1 } ∧ Conn.readUni c' id src fin = .ok (c1, Conn.deliverUni t x fin) ∧
      read P ep id src fin = (readUni P { ep with c := c' } id src fin).after [] := by
  obtain ⟨chunks, hj⟩ := hist_cj hP hst h
  have hi := hist_einv hP hst h
  have htn : t ≠ .unknown := by rintro rfl; unfold Conn.uniType at ht; split at ht <;> cases ht
  have hne : src ≠ [] ∨ (fin = true ∧ l.arrived id ≠ []) := by
    rcases hsome with ⟨g, _⟩ | ⟨g1, _, p', y', g2, g3⟩
    · exact .inl g
    · refine .inr ⟨g1, ?_⟩
      rw [g3]
      have := isVarint_pos g2
      intro k
      rw [List.append_eq_nil_iff] at k
      rw [k.1] at this; simp at this
  obtain ⟨c', s, k1, k2, k3, k4, k5, k6, _⟩ := enter_uni hP hst h (fin := fin) hid hpu hne
  rw [k1] at k5
  have hcu : ∀ {c1 : CC} {r1 : Conn.Ret}, Conn.readUni c' id src fin = .ok (c1, r1) → EInv (server, (init server st).c.settings) { ep with c := c1 } := by
    intro c1 r1 e'
    have hc' : CInv c' := k4.core.c
    have e' : Conn.step encode c' (.uni id src fin) = .ok (c1, r1) := e'
    have hs := step_sameC hc' e'
    have hc := cinv_step hc' (o := .uni id src fin) trivial trivial ⟨k2, by rw [k1]; rfl⟩ (fun y g => by cases g) e'
    exact einv_keep (ep := { ep with c := c' }) k4 hc hs (fun x hx => keep_neutral hc' (o := .uni id src fin) trivial trivial e' hx) (.refl _)
  rcases hid0 : s.ident with _ | _
  · have hno : ¬ HasType server l id v := by
      rintro ⟨_, p', y', g2, g3⟩
      exact Conn.known_not_begins (k5.2.2 hid0) v ⟨p', y', g2, g3⟩
    rcases hsome with ⟨g1, g2⟩ | ⟨_, g⟩
    · have hfl : Conn.flagOf c' t = false := by
        by_contra hc
        have hc : Conn.flagOf c' t = true := by simpa using hc
        obtain ⟨u, hu1⟩ := k4.core.c.uni.ex t hc
        have hu0 := (still_isUni k3 (k4.core.c.uni.uni t u hu1)).1 hu1
        have hpu' := hj.peer _ _ hu0
        obtain ⟨v', p', y', b1, b2, b3⟩ := route_begins (hj.st u hpu') hu0
        rw [type_inj ht b2] at b1
        by_cases hui : u = id
        · subst hui; exact hno ⟨hpu', p', y', b1, b3⟩
        · exact hone u hui ⟨hpu', p', y', b1, b3⟩
      obtain ⟨c1, m⟩ := Conn.uni_deliver (fin := fin) k2 k1 k5 hid0 g1 hp ha ht hfl g2
      exact ⟨c', c1, y, k3, hcu m, m, k6⟩
    · exact absurd g hno
  · obtain ⟨v', p', y', m1, m2, m3⟩ := k5.2.1 hid0
    have : v' = v := begins_same ⟨p', y', m1, m3⟩ ⟨p, y, hp, ha⟩
    subst this
    have hty : s.ty = t := typ_det ht hv m2
    have m : Conn.readUni c' id src fin = .ok (c', Conn.deliverUni t src fin) := by
      rw [← hty]
      refine Conn.uni_known k2 k1 hid0 ?_
      rcases hsome with ⟨g1, _⟩ | ⟨g1, _⟩
      · cases src <;> simp at g1 ⊢
      · rw [g1]; simp
    exact ⟨c', c', src, k3, hcu m, m, k6⟩

theorem must_ended (hP : ParOk P) (hst : SettingsOk st) {l : Log} {ep : Ep} (h : Hist P server st l ep) {id v : Nat} {src : Bytes}
    (hid : id < 2 ^ 62) (hpu : Conn.peerUni server id) (hv : critical v) {p y : Bytes} (hp : Spec.IsVarint v p)
    (ha : l.arrived id ++ src = p ++ y) (hone : ∀ u, u ≠ id → ¬ HasType server l u v) (hsome : (src ≠ [] ∧ y ≠ []) ∨ HasType server l id v) :
    read P ep id src true = .fail Err.H3_CLOSED_CRITICAL_STREAM := by
  obtain ⟨t, ht, htn⟩ := typ_of_critical hv
  obtain ⟨c', c1, x, _, _, k1, k2⟩ := must_deliver hP hst h (fin := true) hid hpu hv ht hp ha hone (hsome.imp_right fun g => ⟨rfl, g⟩)
  rw [k2]
  unfold readUni
  rw [show Conn.readUni _ id src true = _ from k1]
  have : Conn.deliverUni t x true = .code Err.H3_CLOSED_CRITICAL_STREAM := by
    unfold Conn.deliverUni
    split
    · exact absurd rfl htn
    · rfl
  rw [this]
  rfl

/-- what the decoder has read when the new bytes are passed on to it -/
theorem fed_bytes {l : Log} {ep : Ep} {chunks : List Bytes} (hu : Conn.UniInv ep.c) (hj : CJ P server l ep chunks) {t : Ty} {v : Nat} (ht : t ≠ .unknown)
    (hv : ∀ z, Typ z t → z = v) {fed : Bytes} (hfd : Fed t v l ep fed) {id : Nat} {src : Bytes} {fin : Bool}
    (hpu : Conn.peerUni server id) {c' c1 : CC} {x : Bytes} (k0 : Still ep.c c') (k3 : Conn.readUni c' id src fin = .ok (c1, .route (some (t, x)))) (g1 : IsUni c1 t id) (hc : Conn.UniInv c1) :
    ∃ p, Spec.IsVarint v p ∧ l.arrived id ++ src = p ++ (fed ++ x) := by
  obtain ⟨f1, _⟩ := fed_uni (l := l) (r := .code 0) (ev := []) (fin := fin) (ep' := { ep with c := c1 }) ht hv hu hc hj hfd hpu k0 k3 (fun y g => by cases g) .refl
  obtain ⟨p, a1, a2⟩ := (f1 x rfl).con id g1
  rw [arrived_snoc] at a2
  dsimp only [arrive] at a2
  rw [if_pos rfl] at a2
  exact ⟨p, a1, a2⟩

/-- Invalid instructions on the encoder stream. -/
theorem must_encoder (hP : ParOk P) (hst : SettingsOk st) {l : Log} {ep : Ep} (h : Hist P server st l ep) {id : Nat} {src : Bytes}
    (hid : id < 2 ^ 62) (hpu : Conn.peerUni server id) {p bytes rest : Bytes} (hp : Spec.IsVarint 2 p)
    (ha : l.arrived id ++ src = p ++ (bytes ++ rest)) (hone : ∀ u, u ≠ id → ¬ HasType server l u 2) {is : List Rfc9204.Instr} (hi : AreInstrs is bytes)
    (ht : Table.applyAll st.qpackMaxDtableCapacity {} is = none) :
    read P ep id src false = .fail Err.QPACK_ENCODER_STREAM_ERROR := by
  obtain ⟨fed, hfd, htb⟩ := hist_tab hP hst h
  have hinv := hist_einv hP hst h
  obtain ⟨chunks, hj⟩ := hist_cj hP hst h
  obtain ⟨d0, h1, h2⟩ := htb
  have hb := Tab.bad ⟨d0, h1, h2⟩
  have hw := dec_wf hinv hb
  have hd0 : DecWF d0 := (Qpack.esRun_ctx (DecWF.init _ _) (by simp) h1).2.2.2.1
  have hae := Qpack.es_all hi (DecWF.init st.qpackMaxDtableCapacity st.qpackBlockedStreams) rfl rest
  rw [show (Dec.init st.qpackMaxDtableCapacity st.qpackBlockedStreams).ctx.table = {} from rfl,
    show (Dec.init st.qpackMaxDtableCapacity st.qpackBlockedStreams).ctx.hardMax = st.qpackMaxDtableCapacity from rfl, ht] at hae
  obtain ⟨cx, hae⟩ := hae
  have hbs : bytes ++ rest ≠ [] := by
    intro k
    rw [k, esRun, Machine.run_eq esM_good (DecWF.init _ _) (by simp), if_pos ⟨rfl, rfl⟩] at hae
    cases hae
  have hsrc : src ≠ [] := by
    rintro rfl
    rw [List.append_nil] at ha
    have hU := has_isUni (v := 2) hj (.inr (.inl rfl)) rfl ⟨hpu, p, _, hp, ha⟩
    obtain ⟨p', q1, q2⟩ := hfd.con id hU
    rw [ha] at q2
    rw [(Props.isVarint_unique hp q1 q2).2.2, h1] at hae
    cases hae
  obtain ⟨c', c1, x, k0, hc1, k1, k2⟩ := must_deliver hP hst h (fin := false) hid hpu (.inr (.inl rfl)) rfl hp ha hone (.inl ⟨hsrc, hbs⟩)
  have k3 : Conn.readUni c' id src false = .ok (c1, .route (some (.qenc, x))) := k1
  have hu : streamUni id = true := peer_uni hpu
  have hb' : UState (l.arrived id) (c'.str id) := k0.state hu (fun k => k) (hj.st id hpu)
  obtain ⟨g1, _, g3⟩ := (Conn.passes hb' k3 (fun y g => by cases g)).given _ _ rfl
  obtain ⟨p', q1, q2⟩ := fed_bytes hinv.core.c.uni hj (by simp) typ_qenc hfd hpu k0 k3 g1 hc1.core.c.uni
  rw [ha] at q2
  have hx := (Props.isVarint_unique hp q1 q2).2.2
  rw [hx, esRun, Machine.run_append' esM_good _ _ _ _ (DecWF.init _ _) (by simp), show Machine.run esM _ _ _ _ = _ from h1] at hae
  dsimp only at hae
  have hre : ∃ d, ep.dec.readEncoder x = .fail d .encoderStream := by
    by_cases hu : ep.dec.uninterrupted + x.length ≤ 128 * 1024
    · have hv := Qpack.readEncoder_view hw hb g3 hu
      have q1 := Qpack.esRun_core_fail (d := d0) (e := { ep.dec with uninterrupted := ep.dec.uninterrupted + x.length })
        ⟨h2.1.symm, h2.2.1.symm, h2.2.2.1.symm, h2.2.2.2.symm⟩ hae
      rw [q1] at hv
      rcases hre : ep.dec.readEncoder x with _ | ⟨d, e⟩ | d <;> rw [hre] at hv <;> cases hv
      exact ⟨d, rfl⟩
    · unfold Dec.readEncoder
      rw [hb, if_neg (by simp), if_neg g3]
      dsimp only
      rw [if_pos (by omega)]
      exact ⟨_, rfl⟩
  obtain ⟨d, hre⟩ := hre
  rw [k2]
  unfold readUni
  rw [show Conn.readUni _ id src false = _ from k3]
  dsimp only [lift]
  unfold readQenc
  rw [show Dec.readEncoder _ x = _ from hre]
  rfl

open Spec.Control in
/-- the first frame that is not allowed decides -/
theorem outcome_refused {S : Type} {server : Bool} {pri : S → Nat → List UInt8 → Except Int S} {past a b : List Frame} {f : Frame} {x : S} {e : Int}
    (ha : ∀ a1 g a2, a = a1 ++ g :: a2 → verdict server (past ++ a1) g = none) (hp : ∀ id fld, Frame.priorityUpdate id fld ∉ a)
    (hf : verdict server (past ++ a) f = some e) : outcome server pri past x (a ++ f :: b) = .refused (past ++ a) x e := by
  induction a generalizing past with
  | nil =>
    rw [List.append_nil] at hf ⊢
    rw [List.nil_append]
    unfold outcome
    rw [hf]
  | cons g a ih =>
    have h1 := ha [] g a rfl
    rw [List.append_nil] at h1
    have h2 := ih (past := past ++ [g]) (fun a1 g' a2 k => by
      have := ha (g :: a1) g' a2 (by rw [k]; rfl)
      rw [List.append_assoc]; exact this) (fun id fld k => hp id fld (List.mem_cons_of_mem _ k)) (by rw [List.append_assoc]; exact hf)
    rw [List.append_assoc] at h2
    rw [List.cons_append]
    unfold outcome
    rw [h1]
    cases g with
    | priorityUpdate id fld => exact absurd List.mem_cons_self (hp id fld)
    | _ => exact h2

theorem typ_control (z : Nat) (h : Typ z .control) : z = 0 := type_inj (t := .control) (v := 0) rfl h

theorem encodes_ne {f : Spec.Control.Frame} {bs : Bytes} (h : Spec.Control.Encodes f bs) : bs ≠ [] := by
  have key : ∀ {ty : Nat} {pl : Bytes}, Spec.IsFrame ty pl bs → bs ≠ [] := by
    rintro ty pl ⟨t, n, h1, _, rfl⟩ k
    simp only [List.append_eq_nil_iff] at k
    have := isVarint_pos h1
    rw [k.1.1] at this
    simp at this
  unfold Spec.Control.Encodes at h
  split at h
  · obtain ⟨_, _, h⟩ := h; exact key h
  · obtain ⟨_, _, h⟩ := h; exact key h
  · obtain ⟨_, _, h⟩ := h; exact key h
  · obtain ⟨_, _, h⟩ := h; exact key h
  · exact key h.2.2.2.2

theorem rc_crash {ep : Ep} {x : Bytes} {n : Nat} (h : Control.read (env P) (ctlStart ep) x = .crash) : readControl P ep x n = .crash := by
  unfold readControl
  rw [show Control.read (env P) { ep.ctl with conn := { ep.ctl.conn with enc := ep.c.enc, ext := some (ep.c, ep.rx) } } x = _ from h]

theorem rc_fail {G : Bool × Settings} {ep : Ep} {x : Bytes} {n : Nat} {z : Int} {k : Control.Conn Ext} (hg : Good G (readControl P ep x n)) (h : Control.read (env P) (ctlStart ep) x = .fail (z, k)) :
    readControl P ep x n = .fail z := by
  unfold readControl at hg ⊢
  rw [show Control.read (env P) { ep.ctl with conn := { ep.ctl.conn with enc := ep.c.enc, ext := some (ep.c, ep.rx) } } x = _ from h] at hg ⊢
  dsimp only at hg ⊢
  split_ifs at hg ⊢
  · exact hg.elim
  · rfl

theorem rc_stop {G : Bool × Settings} {ep : Ep} {x : Bytes} {n : Nat} {s : Int × Control.Conn Ext} {rest : Bytes} (hg : Good G (readControl P ep x n)) (h : Control.read (env P) (ctlStart ep) x = .stop s rest) : False := by
  unfold readControl at hg
  rw [show Control.read (env P) { ep.ctl with conn := { ep.ctl.conn with enc := ep.c.enc, ext := some (ep.c, ep.rx) } } x = _ from h] at hg
  exact hg.elim

theorem onPri_code {x : Ext} {id : Nat} {p : Http.Pri} {z : Int} (k : (env P).onPri x id p = .error z) : z = Err.H3_ID_ERROR := by
  change onPri P x id p = _ at k
  unfold onPri at k
  rcases x with _ | ⟨c, rx⟩
  · cases k
  dsimp only at k
  have hm := Conn.mild_priorityUpdate c id p
  rcases hr : Conn.onPriorityUpdate c id p with _ | _ | _ | ⟨c', r⟩ <;> rw [hr] at k hm <;> try dsimp only at k
  · cases k
  · exact absurd rfl hm.1
  · exact absurd rfl hm.2
  · cases r <;> try dsimp only at k
    all_goals first | (cases k; done) | skip
    split_ifs at k with hz
    cases k
    exact Conn.priorityUpdate_code hr hz

open Spec.Control Control in
/-- A frame on the control stream that is not allowed. -/
theorem must_control (hP : ParOk P) (hst : SettingsOk st) (hcb : ∀ ev, P.cb ev = true) {l : Log} {ep : Ep} (h : Hist P server st l ep) {id : Nat} {src : Bytes}
    (hid : id < 2 ^ 62) (hpu : Conn.peerUni server id) {p bs : Bytes} (hp : Spec.IsVarint 0 p)
    (ha : l.arrived id ++ src = p ++ bs) (hone : ∀ u, u ≠ id → ¬ HasType server l u 0) (hsrc : src ≠ []) {a b : List Frame} {f : Frame} (hfs : EncodesAll (a ++ f :: b) bs) {e : Int}
    (hshort : ∀ id fld, Frame.priorityUpdate id fld ∈ a ++ f :: b → fld.length ≤ 8)
    (hok : ∀ a1 g a2, a = a1 ++ g :: a2 → verdict server a1 g = none) (hnp : ∀ id fld, Frame.priorityUpdate id fld ∉ a) (hf : verdict server a f = some e) :
    read P ep id src false = .fail e ∨ server = true ∧ (read P ep id src false = .fail Err.H3_ID_ERROR ∨ read P ep id src false = .crash) := by
  have hinv := hist_einv hP hst h
  obtain ⟨chunks, hj⟩ := hist_cj hP hst h
  obtain ⟨er, hrun⟩ := hj.run
  have hfd : Fed .control 0 l ep chunks.flatten := ⟨hj.con, fun k => by rw [hj.none k]; rfl⟩
  have hbs : bs ≠ [] := by
    intro k
    rw [k] at hfs
    have : ∀ {fs : List Frame} {b : Bytes}, EncodesAll fs b → fs ≠ [] → b ≠ [] := by
      intro fs b h
      cases h with
      | nil => exact fun k => absurd rfl k
      | cons h1 h2 =>
        intro _ k
        rw [List.append_eq_nil_iff] at k
        exact encodes_ne h1 k.1
    exact this hfs (by simp) rfl
  obtain ⟨c', c1, x, k0, hc1, k1, k2⟩ := must_deliver hP hst h (fin := false) hid hpu (.inl rfl) rfl hp ha hone (.inl ⟨hsrc, hbs⟩)
  have k3 : Conn.readUni c' id src false = .ok (c1, .route (some (.control, x))) := k1
  have hb' : UState (l.arrived id) (c'.str id) := k0.state (peer_uni hpu) (fun k => k) (hj.st id hpu)
  obtain ⟨g1, _, g3⟩ := (Conn.passes hb' k3 (fun y g => by cases g)).given _ _ rfl
  obtain ⟨p', q1, q2⟩ := fed_bytes hinv.core.c.uni hj (by simp) typ_control hfd hpu k0 k3 g1 hc1.core.c.uni
  rw [ha] at q2
  have hx := (Props.isVarint_unique hp q1 q2).2.2
  have hfeed : feed (bare (env P)) (start server noEnc ()) (chunks ++ [x]) = Control.read (bare (env P)) (ep.ctl.recast er ()) x := Control.feed_snoc _ _ _ _ hrun
  have hfl : (chunks ++ [x]).flatten = bs := by rw [hx]; simp
  have hne : ∀ c ∈ chunks ++ [x], c ≠ [] := by
    intro c hc
    rcases List.mem_append.1 hc with hc | hc
    · exact hj.ne c hc
    · obtain rfl := List.mem_singleton.1 hc; exact g3
  have h27 := Props.C27_frames (bare (env P)) hcb server noEnc () (a ++ f :: b) (chunks ++ [x]) hne (by rw [hfl]; exact hfs) hshort
  rw [show outcome server _ [] () (a ++ f :: b) = _ from outcome_refused (by simpa using hok) hnp (by simpa using hf), hfeed] at h27
  dsimp only at h27
  rw [k2]
  unfold readUni
  rw [show Conn.readUni _ id src false = _ from k3]
  dsimp only [lift]
  have hgood : Control.read (env P) (ctlStart { ep with c := c1 }) x ≠ .crash → Good _ (readControl P { ep with c := c1 } x src.length) := ctl_out hP hc1 x src.length
  obtain ⟨hi8, hsb⟩ := ctl_start hc1
  have hsv : (ctlStart { ep with c := c1 }).conn.server = server := by
    obtain ⟨_, _, _, _, g, _⟩ := hc1.core.q
    exact hsb.1.1.trans g
  change (readControl P { ep with c := c1 } x src.length).after [] = _ ∨ _ ∧ ((readControl P { ep with c := c1 } x src.length).after [] = _ ∨ (readControl P { ep with c := c1 } x src.length).after [] = _)
  rcases er' : Control.read (env P) (ctlStart { ep with c := c1 }) x with _ | ⟨z, k⟩ | _ | s
  · cases server with
    | true => exact .inr ⟨rfl, .inr (by rw [rc_crash er']; rfl)⟩
    | false => exact absurd er' (Control.read_client8 _ _ hi8 g3 hsv)
  · rw [rc_fail (hgood (by rw [er']; simp)) er']
    have := Control.read_agree_fail _ x er z k hi8 er'
    rw [hsv] at this
    rcases this with ⟨k', t1⟩ | ⟨t1, y, id', pr, t2⟩
    · obtain ⟨k'', t2, _⟩ := h27 (by rw [show Control.read (bare (env P)) (ep.ctl.recast er ()) x = _ from t1]; simp)
      rw [show Control.read (bare (env P)) (ep.ctl.recast er ()) x = _ from t1] at t2
      cases t2
      exact .inl rfl
    · rw [onPri_code t2]
      exact .inr ⟨t1, .inl rfl⟩
  · exact (rc_stop (hgood (by rw [er']; simp)) er').elim
  · obtain ⟨e', t1⟩ := Control.read_agree _ x er s er'
    have t1 : Control.read (bare (env P)) (ep.ctl.recast er ()) x = _ := t1
    obtain ⟨k'', t2, _⟩ := h27 (by rw [t1]; simp)
    rw [t1] at t2
    cases t2

end Endpoint
end Nghttp3
