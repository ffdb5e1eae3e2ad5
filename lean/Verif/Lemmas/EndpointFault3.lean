import Verif.Lemmas.EndpointFault2
/-! What has happened when nghttp3_conn_read_stream fails, in a history. -/
namespace Nghttp3
namespace Endpoint
open Outq (R Ans)
open Conn (OpOk LeavesClosed Allowed clientBidi streamUni Part UState IsUni Ty Typ Mild Begins)

variable {P : Par} {server : Bool} {st : Settings}

theorem critical_of {v : Nat} {t : Ty} (h : Conn.uniType v = some t) : critical v := by
  unfold Conn.uniType at h
  split at h <;> first | (unfold critical; simp; done) | cases h

theorem type_inj {v v' : Nat} {t : Ty} (h : Conn.uniType v = some t) (h' : Typ v' t) : v' = v := by
  have key : t = .control ∧ v = 0 ∨ t = .qenc ∧ v = 2 ∨ t = .qdec ∧ v = 3 := by
    unfold Conn.uniType at h
    split at h <;> first | (cases h; simp; done) | cases h
  rcases h' with h' | ⟨_, rfl⟩
  · unfold Conn.uniType at h'
    rcases key with ⟨rfl, rfl⟩ | ⟨rfl, rfl⟩ | ⟨rfl, rfl⟩ <;> split at h' <;> first | rfl | cases h'
  · rcases key with ⟨k, _⟩ | ⟨k, _⟩ | ⟨k, _⟩ <;> cases k

theorem route_fin {c c' : CC} {id : Nat} {src : Bytes} {fin : Bool} {t : Ty} {x : Bytes} (e : Conn.readUni c id src fin = .ok (c', .route (some (t, x)))) : fin = false := by
  have key : ∀ {t' : Ty} {y : Bytes}, Conn.deliverUni t' y fin = .route (some (t, x)) → fin = false := by
    intro t' y h
    unfold Conn.deliverUni at h
    cases fin
    · rfl
    · split at h <;> first | (cases h; done) | (rw [if_pos rfl] at h; cases h)
  unfold Conn.readUni at e
  repeat' split at e
  all_goals first
    | (cases e; done)
    | (injection e with e; injection e with _ e; exact key e)
    | skip
  all_goals
    obtain ⟨_, _, e⟩ := Conn.bind_ok e
    cases e

theorem uni_len {c c' : CC} {id : Nat} {src : Bytes} {fin : Bool} {t : Ty} {x : Bytes} (e : Conn.readUni c id src fin = .ok (c', .route (some (t, x)))) : x.length ≤ src.length := by
  have key : ∀ {t' : Ty} {y : Bytes}, Conn.deliverUni t' y fin = .route (some (t, x)) → x = y := by
    intro t' y h
    unfold Conn.deliverUni at h
    split at h <;> first | (cases h; done) | (split at h <;> first | (cases h; rfl) | cases h)
  unfold Conn.readUni at e
  repeat' split at e
  all_goals first
    | (cases e; done)
    | (injection e with e; injection e with _ e; exact le_of_eq_of_le (congrArg List.length (key e)) (by first | exact Nat.le_refl _ | (rw [List.length_drop]; omega)))
    | skip
  all_goals
    obtain ⟨_, _, e⟩ := Conn.bind_ok e
    cases e

/-- the bytes begin with the type of the stream they are passed on for -/
theorem route_begins {c : CC} {id : Nat} {b : Bytes} {t : Ty} (h : UState b (c.str id)) (hu : IsUni c t id) : ∃ v p y, Spec.IsVarint v p ∧ Typ v t ∧ b = p ++ y := by
  obtain ⟨s, g1, g2, g3⟩ := hu
  rw [g1] at h
  have := h.2.1 g2
  rw [g3] at this
  exact this

theorem read_blame (hP : ParOk P) (hst : SettingsOk st) {l : Log} {ep : Ep} (h : Hist P server st l ep) {id : Nat} {src : Bytes} {fin : Bool}
    (ho : Permitted ep (.read id src fin)) {e : Int} (hf : read P ep id src fin = .fail e) : Fault P server st l ep id src fin e := by
  obtain ⟨hid, hown⟩ := ho id src fin rfl
  have hi := hist_einv hP hst h
  have hsrv : ep.c.server = server := server_hist hi
  rw [read_eq] at hf
  obtain ⟨⟨c', r1⟩, e1, hf⟩ := lift_fail (Conn.mild_open _ _ _) hf
  obtain ⟨z, rfl⟩ := open_code e1
  dsimp only at hf
  by_cases hz : z ≠ 0
  · rw [if_pos hz] at hf
    cases hf
    unfold Conn.openStream at e1
    rw [if_neg (by simpa using hid)] at e1
    rcases h0 : ep.c.str id with _ | s <;> rw [h0] at e1 <;> dsimp only at e1
    · rw [hsrv] at e1 hown
      unfold Conn.ownUni at hown
      cases server
      · rw [if_neg (by simp)] at e1
        by_cases hs : Conn.serverUni id = true
        · rw [if_pos hs] at e1
          split_ifs at e1 <;> cases e1 <;> exact absurd rfl hz
        · rw [if_neg hs] at e1
          cases e1
          refine .notYours h0 ?_ (by simp)
          unfold Conn.serverUni at hs
          unfold Conn.peerUni
          simpa using hs
      · rw [if_pos rfl] at e1
        by_cases hb : clientBidi id = true
        · rw [if_pos hb] at e1
          split at e1 <;> cases e1
          exact absurd rfl hz
        rw [if_neg hb] at e1
        by_cases hs : Conn.clientUni id = true
        · rw [hs, if_neg (by simp)] at e1
          split_ifs at e1 <;> cases e1 <;> exact absurd rfl hz
        · rw [if_pos (by simpa using hs)] at e1
          cases e1
          refine .notYours h0 ?_ (fun k => hb k.2)
          unfold Conn.clientUni at hs
          unfold Conn.peerUni
          simpa using hs
    · split_ifs at e1
      cases e1
      exact absurd rfl hz
  rw [if_neg hz] at hf
  obtain rfl : z = 0 := by simpa using hz
  have e1' : Conn.step encode ep.c (.open id (src.isEmpty && fin)) = .ok (c', .code 0) := e1
  have hp1 : Still ep.c c' := path_part (t := true) (g := true) (.one hi.core.c (o := .open id (src.isEmpty && fin)) ⟨rfl, trivial, trivial, hid, hown⟩ (fun k => by cases k) e1' (dir_open e1))
  have hsv : c'.server = ep.c.server := (step_sameC hi.core.c e1').1
  by_cases hno : (c'.str id).isNone = true
  · rw [if_pos hno] at hf; cases hf
  rw [if_neg hno] at hf
  have hsome := isSome_of_not hno
  have h1 := opened_einv (P := P) hi hid hown e1 hsome
  have hr := after_fail hf
  unfold rest at hr
  by_cases h2 : (src.isEmpty && !fin) = true
  · rw [if_pos h2] at hr; cases hr
  rw [if_neg h2] at hr
  by_cases hu : streamUni id = true
  swap
  · rw [if_neg hu] at hr
    have hu' : streamUni id = false := by simpa using hu
    exact .request e (open_kind e1 hu') (readBidi_fail hr)
  rw [if_pos hu] at hr
  have hpu : Conn.peerUni server id := by rw [← hsrv, ← hsv]; exact opened_uni hown hi e1 hu
  obtain ⟨chunks, hj⟩ := hist_cj hP hst h
  have hb : UState (l.arrived id) (c'.str id) := hp1.state hu (fun k => k) (hj.st id hpu)
  unfold readUni at hr
  obtain ⟨⟨c2, r1⟩, e2, hr⟩ := lift_fail (Conn.mild_readUni _ _ _ _) hr
  change Conn.readUni c' id src fin = _ at e2
  have hc' : CInv c' := h1.core.c
  have hclass : ∀ {t : Ty} {x : Bytes}, r1 = .route (some (t, x)) → fin = false ∧ (∀ v, Conn.uniType v = some t → Begins v (l.arrived id ++ src)) := by
    rintro t x rfl
    refine ⟨route_fin e2, fun v hv => ?_⟩
    have hpas := Conn.passes hb e2 (fun y g => by cases g)
    obtain ⟨v', p, y, a1, a2, a3⟩ := route_begins hpas.st (hpas.given _ _ rfl).1
    rw [type_inj hv a2] at a1
    exact ⟨p, y, a1, a3⟩
  cases r1 with
  | code z =>
    dsimp only at hr
    split_ifs at hr with hz'
    cases hr
    cases Conn.uni_fault hb e2 hz' with
    | cut a1 a2 a3 => exact .cutType hpu a1 a2 a3
    | push a => exact .push hpu a
    | second v t a1 a2 a3 a4 =>
      obtain ⟨u, hu1⟩ := hc'.uni.ex t a4
      have hu0 := (still_isUni hp1 (hc'.uni.uni t u hu1)).1 hu1
      have hpu' := hj.peer _ _ hu0
      obtain ⟨v', p, y, b1, b2, b3⟩ := route_begins (hj.st u hpu') hu0
      rw [type_inj a1 b2] at b1
      refine .second v u hpu (critical_of a1) a2 a3 ?_ ⟨hpu', p, y, b1, b3⟩
      rintro rfl
      exact a3 ⟨p, y, b1, b3⟩
    | ended v t a1 a2 a3 => exact .ended v hpu (critical_of a1) a2 a3
  | vecs v => cases hr
  | discard m stop => cases hr
  | route q =>
    rcases q with _ | ⟨t, y⟩
    · cases hr
    obtain ⟨hfin, hbeg⟩ := hclass rfl
    cases t with
    | unknown => cases hr
    | push => cases hr
    | control =>
      change readControl P { opened P ep id c' with c := c2 } y src.length = _ at hr
      rcases readControl_fail hr with k | ⟨rfl, k⟩
      · exact .control e hpu (hbeg 0 rfl) hfin k
      · exact .callback hpu (hbeg 0 rfl) k
    | qdec =>
      change readQdec { opened P ep id c' with c := c2 } y src.length = _ at hr
      rw [readQdec_fail hr]
      exact .decoder hpu (hbeg 3 rfl) hfin
    | qenc =>
      change readQenc P { opened P ep id c' with c := c2 } y src.length = _ at hr
      have o3 : Allowed c' (.uni id src fin) := ⟨by rw [hsv, hsrv]; exact hpu, hsome⟩
      have e' : Conn.step encode c' (.uni id src fin) = .ok (c2, .route (some (.qenc, y))) := e2
      have hc := cinv_step hc' (o := .uni id src fin) trivial trivial o3 (fun y g => by cases g) e'
      rcases readQenc_fail hr with ⟨d, er, k1, k2⟩ | ⟨k1, m, k2⟩
      · obtain ⟨fed, hfd, htb⟩ := hist_tab hP hst h
        have hne := (Conn.passes hb e2 (fun y g => by cases g)).given _ _ rfl
        have hu2 := hne.1
        obtain ⟨f1, _⟩ := fed_uni (l := l) (r := .code 0) (ev := []) (fin := fin) (ep' := { ep with c := c2 }) (by simp) typ_qenc hi.core.c.uni hc.uni hj hfd hpu hp1 e2 (fun y g => by cases g) .refl
        have hF := f1 y rfl
        obtain ⟨p, a1, a2⟩ := hF.con id hu2
        rw [arrived_snoc] at a2
        dsimp only [arrive] at a2
        rw [if_pos rfl] at a2
        by_cases hov : ep.dec.uninterrupted + y.length ≤ 128 * 1024
        · refine .encoder e p (fed ++ y) hpu a1 a2 hfin ?_ (htb.hopeless (dec_wf hi htb.bad) hne.2.2 hov k1)
          rcases Qpack.readEncoder_err htb.bad k1 with rfl | rfl
          · exact .inl k2
          · exact .inr k2
        · have hy : y.length ≤ src.length := by
            exact uni_len e2
          have : e = Err.QPACK_ENCODER_STREAM_ERROR := by
            change ep.dec.readEncoder y = _ at k1
            unfold Qpack.Dec.readEncoder at k1
            rw [htb.bad, if_neg (by simp), if_neg hne.2.2] at k1
            dsimp only at k1
            rw [if_pos (by omega)] at k1
            cases k1
            exact k2
          rw [this]
          exact .flood hpu (hbeg 2 rfl) hfin (by omega)
      · obtain ⟨M, q1, q2, _⟩ := hi.core.q
        have hm : m ∈ M := (q1.mem m).1 (PQ.top_mem k2).1
        exact .waiting e m hpu (hbeg 2 rfl) hfin ((q2 m).1 hm) k1

end Endpoint
end Nghttp3
