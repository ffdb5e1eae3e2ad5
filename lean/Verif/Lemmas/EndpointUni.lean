import Verif.Lemmas.EndpointBridge
import Verif.Lemmas.ConnArrive
import Verif.Lemmas.ControlErase
import Verif.Spec.Ctrl
/-! What a call does to the unidirectional streams of the peer and to the reader of its control stream. -/
namespace Nghttp3
namespace Endpoint
open Outq (R Ans)
open Conn (OpOk LeavesClosed Allowed clientBidi streamUni Part UState IsUni)

variable {G : Bool × Settings} {P : Par}

/-- nothing is removed -/
abbrev Still (a b : CC) : Prop := Part (fun _ => False) a b

theorem path_part {t g : Bool} {a b : CC} (h : Path t g false a b) : Still a b := by
  induction h with
  | refl => exact .refl
  | @op b c o r _ hi ho _ e _ hu ih =>
    refine ih.trans ((Conn.step_part hi.inv ho.2.1 ?_ ?_ e).mono ?_)
    · rintro id src fin rfl; cases hu rfl
    · rintro id rfl; exact Conn.bidi_iff.2 ho.2.2.2.1
    · rintro x ⟨rfl, _⟩; cases ho.1
  | enc _ _ ih => exact ih.congr rfl

theorem still_isUni {a b : CC} (h : Still a b) {t : Conn.Ty} {x : Nat} (hu : streamUni x = true) : IsUni b t x ↔ IsUni a t x := by
  refine ⟨h.isUni hu, fun ⟨s, g1, g2, g3⟩ => ?_⟩
  obtain ⟨s', k⟩ := Option.isSome_iff_exists.1 (h.fwd x hu (by rw [g1]; rfl) (fun k => k))
  rcases h.bwd x s' hu k with ⟨_, _, _, m | m⟩ | ⟨s0, m1, m2, m3, _, _⟩
  · rw [g1] at m; cases m
  · exact m.elim
  · rw [g1] at m1; cases m1
    exact ⟨s', k, m2.symm.trans g2, m3.symm.trans g3⟩

theorem ctlOf_str (id : Nat) (ev : List Bidi.Ev) : (ev.map (Ev.str id)).filterMap ctlOf = [] := by
  induction ev with
  | nil => rfl
  | cons a t ih => rw [List.map_cons, List.filterMap_cons]; exact ih

theorem ctlOf_ctl (ev : List Control.Ev) : (ev.map Ev.ctl).filterMap ctlOf = ev := by
  induction ev with
  | nil => rfl
  | cons a t ih => rw [List.map_cons, List.filterMap_cons]; simp [ctlOf, ih]

theorem openEv_ctl (ep : Ep) (id : Nat) : (openEv ep id).filterMap ctlOf = [] := by
  unfold openEv
  split_ifs <;> rfl

theorem release_evs (n : Nat) (f : Nat) {ep ep' : Ep} {r : Conn.Ret} {ev : List Ev} (e : release P n f ep = .ok ep' r ev) : ev.filterMap ctlOf = [] := by
  induction f generalizing ep ev with
  | zero => cases e
  | succ f ih =>
    unfold release at e
    rcases ht : ep.bq.top with _ | m <;> rw [ht] at e <;> dsimp only at e
    · cases e; rfl
    by_cases hnx : ep.dec.ctx.next < (ep.rx m).sc.ricnt
    · rw [if_pos hnx] at e; cases e; rfl
    rw [if_neg hnx] at e
    rcases hp : ep.bq.pop (ricntLess ep.rx) with _ | bq <;> rw [hp] at e <;> dsimp only at e
    · cases e
    generalize Bidi.processBlocked _ _ _ _ = o at e
    rcases o with _ | _ | ⟨s', d', ev1, n', rest⟩ <;> dsimp only at e
    · cases e
    · cases e
    rcases e1 : priorities ep.c m ev1 with _ | _ | _ | c1 <;> rw [e1] at e <;> dsimp only [lift] at e
    · cases e
    · cases e
    · cases e
    rcases e2 : Conn.qpackUnblock c1 m none s'.blocked with _ | _ | _ | ⟨c2, r2⟩ <;> rw [e2] at e <;> dsimp only at e
    · cases e
    · cases e
    · cases e
    generalize ho : release P n f _ = o at e
    rcases o with _ | _ | ⟨ep2, r2, ev2⟩
    · cases e
    · cases e
    dsimp only [Res.after] at e
    injection e with e3 e4 e5
    subst e3 e4 e5
    rw [List.filterMap_append, ctlOf_str, ih ho]; rfl

theorem readQenc_evs {ep ep' : Ep} {src : Bytes} {n : Nat} {r : Conn.Ret} {ev : List Ev} (e : readQenc P ep src n = .ok ep' r ev) : ev.filterMap ctlOf = [] := by
  unfold readQenc at e
  split at e
  · cases e
  · cases e
  · exact release_evs _ _ e

theorem readQdec_evs {ep ep' : Ep} {src : Bytes} {n : Nat} {r : Conn.Ret} {ev : List Ev} (e : readQdec ep src n = .ok ep' r ev) : ev.filterMap ctlOf = [] := by
  unfold readQdec at e
  split at e
  · cases e
  · cases e
  · cases e; rfl

theorem readBidi_evs {ep ep' : Ep} {id : Nat} {src : Bytes} {fin : Bool} {r : Conn.Ret} {ev : List Ev} (e : readBidi P ep id src fin = .ok ep' r ev) : ev.filterMap ctlOf = [] := by
  unfold readBidi at e
  dsimp only at e
  generalize Bidi.readStream _ _ _ _ _ _ = o at e
  rcases o with _ | _ | ⟨s', d', ev1, n, rest⟩ <;> dsimp only at e
  · cases e
  · cases e
  rcases e1 : priorities ep.c id ev1 with _ | _ | _ | c1 <;> rw [e1] at e <;> dsimp only [lift] at e
  · cases e
  · cases e
  · cases e
  split_ifs at e
  · rcases e2 : Conn.qpackBlock c1 id with _ | _ | _ | ⟨c2, r2⟩ <;> rw [e2] at e <;> dsimp only at e
    · cases e
    · cases e
    · cases e
    cases e; exact ctlOf_str _ _
  · cases e; exact ctlOf_str _ _

/-- the reader of the control stream is not used -/
def Idle (ep ep' : Ep) (ev : List Ev) : Prop := ep'.ctl = ep.ctl ∧ ev.filterMap ctlOf = []

/-- the reader of the control stream has read `x` -/
def Reads (P : Par) (ep ep' : Ep) (ev : List Ev) (x : Bytes) : Prop :=
  ∃ e y s, Control.read (env P) { ep.ctl with conn := { ep.ctl.conn with enc := e, ext := y } } x = .ok s ∧
    ep'.ctl = { s with conn := { s.conn with ext := none } } ∧ ev.filterMap ctlOf = s.conn.ev.drop ep.ctl.conn.ev.length

theorem readControl_reads {ep ep' : Ep} {src : Bytes} {n : Nat} {r : Conn.Ret} {ev : List Ev} (e : readControl P ep src n = .ok ep' r ev) : Reads P ep ep' ev src := by
  unfold readControl at e
  rcases er : Control.read (env P) { ep.ctl with conn := { ep.ctl.conn with enc := ep.c.enc, ext := some (ep.c, ep.rx) } } src with _ | ⟨z, k⟩ | _ | s <;> rw [er] at e <;> dsimp only at e
  · cases e
  · split_ifs at e
  · cases e
  · rcases hx' : s.conn.ext with _ | ⟨c, rx⟩ <;> rw [hx'] at e <;> dsimp only at e
    · cases e
    · cases e
      exact ⟨_, _, s, er, rfl, ctlOf_ctl _⟩

theorem priorities_enc {c c' : CC} {id : Nat} {evs : List Bidi.Ev} (e : priorities c id evs = .ok c') : c'.enc = c.enc := by
  induction evs generalizing c with
  | nil => cases e; rfl
  | cons a t ih =>
    cases a with
    | priority p =>
      unfold priorities at e
      rcases e1 : Conn.onHeaderPriority c id p with _ | _ | _ | ⟨c1, r1⟩ <;> rw [e1] at e <;> dsimp only [R.bind] at e
      · cases e
      · cases e
      · cases e
      have e1' : Conn.step encode c (.hdrPri id p) = .ok (c1, r1) := e1
      exact (ih e).trans (Conn.step_enc_same (fun _ _ _ k => by cases k) e1')
    | _ => exact ih e

theorem release_enc (n : Nat) (f : Nat) {ep ep' : Ep} {r : Conn.Ret} {ev : List Ev} (e : release P n f ep = .ok ep' r ev) : ep'.c.enc = ep.c.enc := by
  induction f generalizing ep ev with
  | zero => cases e
  | succ f ih =>
    unfold release at e
    rcases ht : ep.bq.top with _ | m <;> rw [ht] at e <;> dsimp only at e
    · cases e; rfl
    by_cases hnx : ep.dec.ctx.next < (ep.rx m).sc.ricnt
    · rw [if_pos hnx] at e; cases e; rfl
    rw [if_neg hnx] at e
    rcases hp : ep.bq.pop (ricntLess ep.rx) with _ | bq <;> rw [hp] at e <;> dsimp only at e
    · cases e
    generalize Bidi.processBlocked _ _ _ _ = o at e
    rcases o with _ | _ | ⟨s', d', ev1, n', rest⟩ <;> dsimp only at e
    · cases e
    · cases e
    rcases e1 : priorities ep.c m ev1 with _ | _ | _ | c1 <;> rw [e1] at e <;> dsimp only [lift] at e
    · cases e
    · cases e
    · cases e
    rcases e2 : Conn.qpackUnblock c1 m none s'.blocked with _ | _ | _ | ⟨c2, r2⟩ <;> rw [e2] at e <;> dsimp only at e
    · cases e
    · cases e
    · cases e
    have e2' : Conn.step encode c1 (.qpackUnblock m none s'.blocked) = .ok (c2, r2) := e2
    generalize ho : release P n f _ = o at e
    rcases o with _ | _ | ⟨ep2, r2, ev2⟩
    · cases e
    · cases e
    dsimp only [Res.after] at e
    injection e with e3 e4 e5
    subst e3 e4
    exact (ih ho).trans ((Conn.step_enc_same (fun _ _ _ k => by cases k) e2').trans (priorities_enc e1))

theorem readQenc_enc {ep ep' : Ep} {src : Bytes} {n : Nat} {r : Conn.Ret} {ev : List Ev} (e : readQenc P ep src n = .ok ep' r ev) : ep'.c.enc = ep.c.enc := by
  unfold readQenc at e
  split at e
  · cases e
  · cases e
  · exact (release_enc _ _ e).trans rfl

theorem readBidi_enc {ep ep' : Ep} {id : Nat} {src : Bytes} {fin : Bool} {r : Conn.Ret} {ev : List Ev} (e : readBidi P ep id src fin = .ok ep' r ev) : ep'.c.enc = ep.c.enc := by
  unfold readBidi at e
  dsimp only at e
  generalize Bidi.readStream _ _ _ _ _ _ = o at e
  rcases o with _ | _ | ⟨s', d', ev1, n, rest⟩ <;> dsimp only at e
  · cases e
  · cases e
  rcases e1 : priorities ep.c id ev1 with _ | _ | _ | c1 <;> rw [e1] at e <;> dsimp only [lift] at e
  · cases e
  · cases e
  · cases e
  split_ifs at e
  · rcases e2 : Conn.qpackBlock c1 id with _ | _ | _ | ⟨c2, r2⟩ <;> rw [e2] at e <;> dsimp only at e
    · cases e
    · cases e
    · cases e
    have e2' : Conn.step encode c1 (.qpackBlock id) = .ok (c2, r2) := e2
    cases e
    exact (Conn.step_enc_same (fun _ _ _ k => by cases k) e2').trans (priorities_enc e1)
  · cases e
    exact priorities_enc e1

/-- what happens to the QPACK encoder and to the settings of the peer: bytes of the decoder stream and of the control stream are read -/
structure EncGets (P : Par) (ep ep' : Ep) (c : CC) (r : Conn.Ret) : Prop where
  same : c.enc = ep.c.enc
  ctl : ∀ x, r = .route (some (.control, x)) → ∃ ep1 n r1 ev1, ep1.ctl = ep.ctl ∧ ep1.c = c ∧ readControl P ep1 x n = .ok ep' r1 ev1
  qdec : ∀ x, r = .route (some (.qdec, x)) → ∃ e, c.enc.readDecoder x = .ok e ∧ ep'.c.enc = e
  rest : (∀ x, r ≠ .route (some (.control, x))) → (∀ x, r ≠ .route (some (.qdec, x))) → ep'.c.enc = c.enc

theorem readQdec_reads {ep ep' : Ep} {src : Bytes} {n : Nat} {r : Conn.Ret} {ev : List Ev} (e : readQdec ep src n = .ok ep' r ev) :
    ∃ g, ep.c.enc.readDecoder src = .ok g ∧ ep'.c.enc = g := by
  unfold readQdec at e
  rcases hd : ep.c.enc.readDecoder src with _ | _ | g <;> rw [hd] at e <;> dsimp only at e
  · cases e
  · cases e
  · cases e; exact ⟨g, rfl, rfl⟩

/-- the reader of a request stream is used, if any -/
def Tame (P : Par) (ep ep' : Ep) (id : Nat) (src : Bytes) : Prop :=
  ep'.dec = ep.dec ∨ ∃ ep1 fin r ev, ep1.dec = ep.dec ∧ (∀ x, (ep1.rx x).sc = (ep.rx x).sc ∨ (ep1.rx x).sc = Qpack.SCtx.init x) ∧ readBidi P ep1 id src fin = .ok ep' r ev

/-- what gets to the QPACK decoder and encoder -/
def Gets (P : Par) (ep ep' : Ep) (c : CC) (r : Conn.Ret) : Prop :=
  ∃ ep1 n r1 ev1, ep1.dec = ep.dec ∧ ep1.rx = ep.rx ∧ ep1.c = c ∧ (∀ x, r = .route (some (.qenc, x)) → readQenc P ep1 x n = .ok ep' r1 ev1) ∧
    ((∀ x, r ≠ .route (some (.qenc, x))) → ep'.dec = ep.dec) ∧ (∀ x, r = .route (some (.qdec, x)) → readQdec ep1 x n = .ok ep' r1 ev1)

/-- a call of nghttp3_conn_read_stream, as far as unidirectional streams are concerned -/
inductive UniRead (P : Par) (ep ep' : Ep) (id : Nat) (src : Bytes) (ev : List Ev) : Prop where
  | other (h1 : streamUni id = false ∨ src = []) (h2 : Still ep.c ep'.c) (h3 : Idle ep ep' ev) (h4 : Tame P ep ep' id src) (h5 : ep'.c.enc = ep.c.enc)
  | uni {c1 c2 : CC} {fin : Bool} {r : Conn.Ret} (hp : Conn.peerUni ep.c.server id) (h1 : Still ep.c c1) (h2 : Conn.readUni c1 id src fin = .ok (c2, r)) (h3 : ∀ z, r = .code z → z = 0) (h4 : Still c2 ep'.c)
      (h5 : (∃ x, r = .route (some (.control, x)) ∧ Reads P ep ep' ev x) ∨ ((∀ x, r ≠ .route (some (.control, x))) ∧ Idle ep ep' ev)) (h6 : Gets P ep ep' c2 r) (h7 : EncGets P ep ep' c2 r)

theorem readControl_dec {ep ep' : Ep} {src : Bytes} {n : Nat} {r : Conn.Ret} {ev : List Ev} (e : readControl P ep src n = .ok ep' r ev) : ep'.dec = ep.dec := by
  unfold readControl at e
  generalize Control.read _ _ _ = o at e
  rcases o with _ | ⟨z, k⟩ | _ | s <;> dsimp only at e
  · cases e
  · split_ifs at e
  · cases e
  · rcases hx' : s.conn.ext with _ | ⟨c, rx⟩ <;> rw [hx'] at e <;> cases e
    rfl

theorem readQdec_dec {ep ep' : Ep} {src : Bytes} {n : Nat} {r : Conn.Ret} {ev : List Ev} (e : readQdec ep src n = .ok ep' r ev) : ep'.dec = ep.dec := by
  unfold readQdec at e
  split at e <;> cases e
  rfl

theorem opened_sc (P : Par) (ep : Ep) (id : Nat) (c' : CC) (x : Nat) :
    ((opened P ep id c').rx x).sc = (ep.rx x).sc ∨ ((opened P ep id c').rx x).sc = Qpack.SCtx.init x := by
  unfold opened
  dsimp only
  split_ifs <;> by_cases hx : x = id <;> first
    | exact .inl rfl
    | (subst hx; right; rw [PQ.upd_same]; rfl)
    | (left; rw [PQ.upd_ne _ _ hx])

theorem read_uni (hP : ParOk P) {ep : Ep} (h : EInv G ep) (hg : GoSync ep) {id : Nat} {src : Bytes} {fin : Bool} (hid : id < 2 ^ 62) (hown : ¬ Conn.ownUni ep.c.server id)
    {ep' : Ep} {r : Conn.Ret} {ev : List Ev} (e : read P ep id src fin = .ok ep' r ev) : UniRead P ep ep' id src ev := by
  rw [read_eq] at e
  rcases e1 : Conn.openStream ep.c id (src.isEmpty && fin) with _ | _ | _ | ⟨c', r1⟩ <;> rw [e1] at e <;> dsimp only [lift] at e
  · cases e
  · cases e
  · cases e
  obtain ⟨z, rfl⟩ := open_code e1
  dsimp only at e
  by_cases hz : z ≠ 0
  · rw [if_pos hz] at e; cases e
  rw [if_neg hz] at e
  obtain rfl : z = 0 := by simpa using hz
  have e1' : Conn.step encode ep.c (.open id (src.isEmpty && fin)) = .ok (c', .code 0) := e1
  have henc : c'.enc = ep.c.enc := Conn.step_enc_same (fun _ _ _ k => by cases k) e1'
  have hp1 : Still ep.c c' := path_part (t := true) (g := true) (.one h.core.c (o := .open id (src.isEmpty && fin)) ⟨rfl, trivial, trivial, hid, hown⟩ (fun k => by cases k) e1' (dir_open e1))
  have hsv : c'.server = ep.c.server := (step_sameC h.core.c e1').1
  have hg' : ep.ctl.conn.goawayRecved = c'.goawayRecved := hg.trans (step_recved h.core.c (fun k => by cases k) e1').symm
  by_cases hno : (c'.str id).isNone = true
  · rw [if_pos hno] at e
    cases e
    refine .other ?_ hp1 ⟨rfl, rfl⟩ (.inl rfl) henc
    by_cases hu : streamUni id = true
    · right
      have hpu := opened_uni hown h e1 hu
      unfold Conn.openStream at e1
      rw [if_neg (by simpa using hid)] at e1
      rcases h0 : ep.c.str id with _ | s <;> rw [h0] at e1 <;> dsimp only at e1
      · by_contra hne
        have hne : (src.isEmpty && fin) = false := by
          cases src with
          | nil => exact absurd rfl hne
          | cons a t => rfl
        rw [hne] at e1
        have hcr : ∀ c : CC, c.str = PQ.upd ep.c.str id (some {}) → c' = c → False := by
          rintro c hc rfl
          rw [hc, PQ.upd_same] at hno
          cases hno
        rw [hsv] at hpu
        unfold Conn.peerUni at hpu
        cases hs : ep.c.server
        · rw [hs, if_neg (by simp)] at hpu
          rw [hs, if_neg (by simp), if_pos (by unfold Conn.serverUni; simpa using hpu), if_neg (by simp)] at e1
          cases e1
          exact hcr _ rfl rfl
        · rw [hs, if_pos rfl] at hpu
          rw [hs, if_pos rfl, if_neg (by unfold clientBidi; simp; omega), if_neg (by unfold Conn.clientUni; simp; omega), if_neg (by simp)] at e1
          cases e1
          exact hcr _ rfl rfl
      · split_ifs at e1
        cases e1
        rw [h0] at hno; cases hno
    · left; simpa using hu
  rw [if_neg hno] at e
  have hsome := isSome_of_not hno
  have h1 : EInv G (opened P ep id c') := opened_einv h hid hown e1 hsome
  generalize ho : rest P (opened P ep id c') id src fin = o at e
  rcases o with _ | _ | ⟨ep2, r2, ev2⟩
  · cases e
  · cases e
  dsimp only [Res.after] at e
  injection e with e3 e4 e5
  subst e3 e4 e5
  have hev : ∀ l : List Control.Ev, ev2.filterMap ctlOf = l → (openEv ep id ++ ev2).filterMap ctlOf = l := by
    rintro l rfl
    rw [List.filterMap_append, openEv_ctl]; rfl
  unfold rest at ho
  by_cases h2 : (src.isEmpty && !fin) = true
  · rw [if_pos h2] at ho
    cases ho
    rw [Bool.and_eq_true, Conn.isEmpty_iff] at h2
    exact .other (.inr h2.1) hp1 ⟨rfl, hev _ rfl⟩ (.inl rfl) henc
  rw [if_neg h2] at ho
  by_cases hu : streamUni id = true
  · rw [if_pos hu] at ho
    have hpu := opened_uni hown h e1 hu
    unfold readUni at ho
    have o3 : Allowed c' (.uni id src fin) := ⟨hpu, hsome⟩
    rcases e2 : Conn.readUni (opened P ep id c').c id src fin with _ | _ | _ | ⟨c2, r1⟩ <;> rw [e2] at ho <;> dsimp only [lift] at ho
    · cases ho
    · cases ho
    · cases ho
    have e' : Conn.step encode c' (.uni id src fin) = .ok (c2, r1) := e2
    have hc' : CInv c' := h1.core.c
    have hen2 : c2.enc = ep.c.enc := (Conn.step_enc_same (fun _ _ _ k => by cases k) e').trans henc
    have hidle : ∀ {r1 : Conn.Ret}, (∀ x, r1 ≠ .route (some (.control, x))) → (∀ x, r1 ≠ .route (some (.qdec, x))) → ep2.c.enc = c2.enc → EncGets P ep ep2 c2 r1 :=
      fun g1 g2 g => ⟨hen2, fun x k => absurd k (g1 x), fun x k => absurd k (g2 x), fun _ _ => g⟩
    have hs := step_sameC hc' e'
    have hc := cinv_step hc' (o := .uni id src fin) trivial trivial o3 (fun y g => by cases g) e'
    have h3 : EInv G { opened P ep id c' with c := c2 } := einv_keep h1 hc hs (fun x hx => keep_neutral hc' (o := .uni id src fin) trivial trivial e' hx) (.refl _)
    have hg2 : GoSync { opened P ep id c' with c := c2 } := hg'.trans (step_recved hc' (fun k => by cases k) e').symm
    have hpu' : Conn.peerUni ep.c.server id := by rw [← hsv]; exact hpu
    have hrx : (opened P ep id c').rx = ep.rx := by
      have : clientBidi id = false := by
        unfold Conn.peerUni at hpu'
        unfold clientBidi
        split_ifs at hpu' <;> simp <;> omega
      unfold opened
      rw [this, Bool.and_false]; rfl
    have hq : ∀ {n : Nat} {r1 : Conn.Ret}, (∀ x, r1 ≠ .route (some (.qenc, x))) → (∀ x, r1 ≠ .route (some (.qdec, x))) → ep2.dec = ep.dec → Gets P ep ep2 c2 r1 :=
      fun g1 g2 g => ⟨{ opened P ep id c' with c := c2 }, 0, .code 0, [], rfl, hrx, rfl, fun x k => absurd k (g1 x), fun _ => g, fun x k => absurd k (g2 x)⟩
    cases r1 with
    | code z =>
      dsimp only at ho
      split_ifs at ho with hz
      cases ho
      exact .uni hpu' hp1 e2 (fun y g => by cases g; exact hz) .refl (.inr ⟨(fun x g => by cases g), rfl, hev _ rfl⟩) (hq (n := 0) (fun x g => by cases g) (fun x g => by cases g) rfl) (hidle (fun x g => by cases g) (fun x g => by cases g) rfl)
    | vecs v => exact absurd e2 uni_novecs
    | discard m stop =>
      dsimp only at ho
      cases ho
      exact .uni hpu' hp1 e2 (fun y g => by cases g) .refl (.inr ⟨(fun x g => by cases g), rfl, hev _ (by split_ifs <;> rfl)⟩) (hq (n := 0) (fun x g => by cases g) (fun x g => by cases g) rfl) (hidle (fun x g => by cases g) (fun x g => by cases g) rfl)
    | route q =>
      rcases q with _ | ⟨t, y⟩
      · dsimp only at ho
        cases ho
        exact .uni hpu' hp1 e2 (fun y g => by cases g) .refl (.inr ⟨(fun x g => by cases g), rfl, hev _ rfl⟩) (hq (n := 0) (fun x g => by cases g) (fun x g => by cases g) rfl) (hidle (fun x g => by cases g) (fun x g => by cases g) rfl)
      cases t with
      | unknown => cases ho
      | push => cases ho
      | control =>
        change readControl P { opened P ep id c' with c := c2 } y src.length = _ at ho
        have k1 := path_part (readControl_path hP h3 hg2 y _ ho).1
        obtain ⟨a1, a2, a3, a4, a5, a6⟩ := readControl_reads ho
        exact .uni hpu' hp1 e2 (fun y g => by cases g) k1 (.inl ⟨y, rfl, a1, a2, a3, a4, a5, hev _ a6⟩) (hq (n := 0) (fun x g => by cases g) (fun x g => by cases g) ((readControl_dec ho).trans rfl))
          ⟨hen2, fun x g => by cases g; exact ⟨{ opened P ep id c' with c := c2 }, _, _, _, rfl, rfl, ho⟩, (fun x g => by cases g), fun g => absurd rfl (g y)⟩
      | qenc =>
        change readQenc P { opened P ep id c' with c := c2 } y src.length = _ at ho
        exact .uni hpu' hp1 e2 (fun y g => by cases g) (path_part (readQenc_path hP h3 y _ ho)) (.inr ⟨(fun x g => by cases g), (readQenc_ctl ho).trans rfl, hev _ (readQenc_evs ho)⟩)
          ⟨{ opened P ep id c' with c := c2 }, _, _, _, rfl, hrx, rfl, (fun x g => by cases g; exact ho), (fun g => absurd rfl (g y)), (fun x g => by cases g)⟩ (hidle (fun x g => by cases g) (fun x g => by cases g) (readQenc_enc ho))
      | qdec =>
        change readQdec { opened P ep id c' with c := c2 } y src.length = _ at ho
        exact .uni hpu' hp1 e2 (fun y g => by cases g) (path_part (readQdec_path y _ ho false)) (.inr ⟨(fun x g => by cases g), (readQdec_ctl ho).trans rfl, hev _ (readQdec_evs ho)⟩)
          ⟨{ opened P ep id c' with c := c2 }, _, _, _, rfl, hrx, rfl, (fun x g => by cases g), (fun _ => (readQdec_dec ho).trans rfl), (fun x g => by cases g; exact ho)⟩
          ⟨hen2, (fun x g => by cases g), (fun x g => by cases g; exact readQdec_reads ho), fun _ g => absurd rfl (g y)⟩
  · rw [if_neg hu] at ho
    have hu' : streamUni id = false := by simpa using hu
    obtain ⟨t, ht⟩ := Option.isSome_iff_exists.1 hsome
    exact .other (.inl hu') (hp1.trans (path_part (readBidi_path hP h1 (open_kind e1 hu') ht ho false))) ⟨(readBidi_ctl ho).trans rfl, hev _ (readBidi_evs ho)⟩
      (.inr ⟨opened P ep id c', _, _, _, rfl, opened_sc P ep id c', ho⟩) ((readBidi_enc ho).trans henc)

end Endpoint
end Nghttp3
