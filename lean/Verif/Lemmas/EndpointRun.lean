import Verif.Lemmas.EndpointCtl
import Verif.Props.Safety
/-! Every permitted call keeps the invariant of a connection. -/
namespace Nghttp3
namespace Endpoint
open Outq (R Ans FrentOk EncodeOk)
open Conn (OpOk LeavesClosed Allowed Safe UniInv clientBidi streamUni)
open Qpack (DsWF Dec SCtx SysOk CtxOk)
variable {G : Bool × Settings}

theorem uni_novecs {c c' : CC} {id : Nat} {src : Bytes} {fin : Bool} {v : Option (Nat × Bool × List Bytes)} :
    Conn.readUni c id src fin ≠ .ok (c', .vecs v) := by
  intro e
  have del : ∀ (ty : Conn.Ty) (y : Bytes), Conn.deliverUni ty y fin ≠ .vecs v := by
    intro ty y g
    unfold Conn.deliverUni at g
    cases ty <;> dsimp only at g
    all_goals first | (split_ifs at g) | cases g
  unfold Conn.readUni at e
  by_cases hp : ((c.server && !Conn.clientUni id) || (!c.server && !Conn.serverUni id)) = true
  · rw [if_pos hp] at e; cases e
  rw [if_neg hp] at e
  rcases h0 : c.str id with _ | s <;> rw [h0] at e
  · cases e
  dsimp only at e
  by_cases hz : (src.isEmpty && !fin) = true
  · rw [if_pos hz] at e; cases e
  rw [if_neg hz] at e
  by_cases hid : s.ident = true
  · rw [if_pos hid] at e
    exact del _ _ (Prod.mk.inj (R.ok.inj e)).2
  rw [if_neg hid] at e
  by_cases hemp : src.isEmpty = true
  · rw [if_pos hemp] at e
    split_ifs at e
    · cases e
    · obtain ⟨c1, _, e2⟩ := Conn.bind_ok e
      cases e2
  rw [if_neg hemp] at e
  obtain ⟨w, n, hr⟩ : ∃ w n, rd s.rv src fin = .done w n := by
    cases hr : rd s.rv src fin with
    | done w n => exact ⟨w, n, rfl⟩
    | _ => rw [hr] at e; cases e
  rw [hr] at e
  dsimp only at e
  rcases hty : Conn.setUniType c s w with e' | ⟨c1, s1⟩ <;> rw [hty] at e <;> dsimp only at e
  · cases e
  by_cases hn : n = src.length
  · rw [if_pos hn] at e; cases e
  rw [if_neg hn] at e
  rcases hd : Conn.deliverUni s1.ty (src.drop n) fin with _ | _ | y | _ <;> rw [hd] at e <;> dsimp only at e
  all_goals first | (cases e; done) | skip
  exact del _ _ (by rw [hd]; exact (Prod.mk.inj (R.ok.inj e)).2)

theorem readUni_fine {P : Par} (hP : ParOk P) {ep : Ep} (h : EInv G ep) {id : Nat} {src : Bytes} {fin : Bool} (hp : Conn.peerUni ep.c.server id)
    (h0 : (ep.c.str id).isSome = true) :
    Good G (readUni P ep id src fin) ∨ (readUni P ep id src fin = .crash ∧ ep.c.server = true ∧ src ≠ [] ∧ ∀ b, readUni P ep id (src ++ [b]) fin ≠ .crash) := by
  have o3 : Allowed ep.c (.uni id src fin) := ⟨hp, h0⟩
  have hn := cinv_nc h.core.c (o := .uni id src fin) trivial trivial o3
  rcases e : Conn.readUni ep.c id src fin with _ | _ | _ | ⟨c', r⟩
  · exact absurd e hn
  · left; unfold readUni; rw [e]; trivial
  · left; unfold readUni; rw [e]; trivial
  have e' : Conn.step encode ep.c (.uni id src fin) = .ok (c', r) := e
  have hc := cinv_step h.core.c (o := .uni id src fin) trivial trivial o3 (fun y g => by cases g) e'
  have hs := step_sameC h.core.c e'
  have h1 : EInv G { ep with c := c' } := einv_keep h hc hs (fun x hx => keep_neutral h.core.c (o := .uni id src fin) trivial trivial e' hx) (.refl _)
  cases r with
  | code z =>
    left; unfold readUni; rw [e]
    unfold lift; dsimp only
    split_ifs
    · exact h1
    · trivial
  | vecs v => exact absurd e uni_novecs
  | discard n b => left; unfold readUni; rw [e]; exact h1
  | route q =>
    rcases q with _ | ⟨t, x⟩
    · left; unfold readUni; rw [e]; exact h1
    obtain ⟨x0, s0, hu, ht, hm⟩ := uni_more h.core.c.inv e
    cases t with
    | unknown => exact absurd rfl hu
    | push => exact absurd ht (hc.uni.push id)
    | control =>
      rcases readControl_fine hP h1 x x0 src.length with g | ⟨g0, g1, g2⟩
      · left; unfold readUni; rw [e]; exact g
      · right
        refine ⟨by unfold readUni; rw [e]; exact g0, hs.1.symm.trans g1, s0, fun b => ?_⟩
        unfold readUni
        rw [hm b]
        exact g2 b _
    | qenc => left; unfold readUni; rw [e]; exact readQenc_good hP h1 x _
    | qdec => left; unfold readUni; rw [e]; exact readQdec_good h1 x _

/-- what nghttp3_conn_read_stream does once it has the stream -/
def rest (P : Par) (ep : Ep) (id : Nat) (src : Bytes) (fin : Bool) : Res :=
  if src.isEmpty && !fin then .ok ep (.code 0) []
  else if Conn.streamUni id then readUni P ep id src fin
  else readBidi P ep id src fin

theorem rest_fine {P : Par} (hP : ParOk P) {ep : Ep} (h : EInv G ep) {id : Nat} {src : Bytes} {fin : Bool} (h0 : (ep.c.str id).isSome = true)
    (hb : streamUni id = false → clientBidi id = true) (hp : streamUni id = true → Conn.peerUni ep.c.server id) :
    Good G (rest P ep id src fin) ∨ (rest P ep id src fin = .crash ∧ ep.c.server = true ∧ src ≠ [] ∧ ∀ b, rest P ep id (src ++ [b]) fin ≠ .crash) := by
  unfold rest
  by_cases h1 : (src.isEmpty && !fin) = true
  · rw [if_pos h1]; exact .inl h
  rw [if_neg h1]
  by_cases h2 : streamUni id = true
  · rw [if_pos h2]
    rcases readUni_fine hP h (src := src) (fin := fin) (hp h2) h0 with g | ⟨g0, g1, g2, g3⟩
    · exact .inl g
    · refine .inr ⟨g0, g1, g2, fun b => ?_⟩
      rw [if_neg (by simp), if_pos h2]
      exact g3 b
  · rw [if_neg h2]
    obtain ⟨t, ht⟩ := Option.isSome_iff_exists.1 h0
    exact .inl (readBidi_good hP h (hb (by simpa using h2)) ht)

theorem open_kind {c c' : CC} {id : Nat} {b : Bool} (e : Conn.openStream c id b = .ok (c', .code 0)) (hu : streamUni id = false) : clientBidi id = true := by
  have hcu : Conn.clientUni id = false := by unfold streamUni at hu; unfold Conn.clientUni; simp at hu ⊢; omega
  have hsu : Conn.serverUni id = false := by unfold streamUni at hu; unfold Conn.serverUni; simp at hu ⊢; omega
  by_contra hb
  have hb : clientBidi id = false := by simpa using hb
  unfold Conn.openStream at e
  rw [hcu, hsu, hb] at e
  by_cases h1 : decide (id ≥ 2 ^ 62) = true
  · rw [if_pos h1] at e; cases e
  rw [if_neg h1] at e
  rcases h0 : c.str id with _ | s <;> rw [h0] at e <;> dsimp only at e
  · cases hs : c.server <;> rw [hs] at e <;> simp [Err.H3_STREAM_CREATION_ERROR] at e
  · cases hs : c.server <;> rw [hs] at e <;> simp at e

theorem open_code {c c' : CC} {id : Nat} {b : Bool} {r : Conn.Ret} (e : Conn.openStream c id b = .ok (c', r)) : ∃ z, r = .code z := by
  unfold Conn.openStream at e
  by_cases h1 : decide (id ≥ 2 ^ 62) = true
  · rw [if_pos h1] at e; cases e
  rw [if_neg h1] at e
  rcases h0 : c.str id with _ | s <;> rw [h0] at e <;> dsimp only at e
  · split_ifs at e
    · split at e
      · cases e
      · cases e; exact ⟨_, rfl⟩
    all_goals cases e; exact ⟨_, rfl⟩
  · split_ifs at e
    cases e; exact ⟨_, rfl⟩

theorem after_crash {ev : List Ev} {r : Res} (h : r.after ev = .crash) : r = .crash := by
  cases r with
  | crash => rfl
  | fail e => cases h
  | ok a b c => cases h

theorem read_fine {P : Par} (hP : ParOk P) {ep : Ep} (h : EInv G ep) {id : Nat} {src : Bytes} {fin : Bool} (hid : id < 2 ^ 62) (hown : ¬ Conn.ownUni ep.c.server id) :
    Good G (read P ep id src fin) ∨ (read P ep id src fin = .crash ∧ ep.c.server = true ∧ ∀ b, read P ep id (src ++ [b]) fin ≠ .crash) := by
  have o3 : ∀ b, Allowed ep.c (.open id b : Conn.Op Fld) := fun b => ⟨hid, hown⟩
  have hn := cinv_nc h.core.c (o := .open id (src.isEmpty && fin)) trivial trivial (o3 _)
  rcases e : Conn.openStream ep.c id (src.isEmpty && fin) with _ | _ | _ | ⟨c', r⟩
  · exact absurd e hn
  · left; unfold read; rw [e]; trivial
  · left; unfold read; rw [e]; trivial
  obtain ⟨z, rfl⟩ := open_code e
  have e' : Conn.step encode ep.c (.open id (src.isEmpty && fin)) = .ok (c', .code z) := e
  by_cases hz : z ≠ 0
  · left; unfold read; rw [e]; unfold lift; dsimp only; rw [if_pos hz]; trivial
  have hz0 : z = 0 := by simpa using hz
  subst hz0
  have hc := cinv_step h.core.c (o := .open id (src.isEmpty && fin)) trivial trivial (o3 _) (fun y g => by cases g) e'
  have hs := step_sameC h.core.c e'
  have hkd : KInv c'.server ep.ctl := by rw [hs.1]; exact h.core.k
  by_cases hno : (c'.str id).isNone = true
  · left; unfold read; rw [e]; unfold lift; dsimp only; rw [if_neg hz, if_pos hno]
    have hsome : (c'.str id).isSome = false := by revert hno; cases c'.str id <;> simp
    exact .of hc (create_rec h.core.c h.rc (o := .open id (src.isEmpty && fin)) trivial (.inr (.inl ⟨_, rfl⟩)) e' (Bidi.Str.new (cfg P ep.c id))
      (fun s f1 f2 => rx_new _ h.core.r.sys.ctx f1 f2) false (fun _ => by rw [hsome]; simp) (fun _ => rfl)) hkd
  have hsome : (c'.str id).isSome = true := by revert hno; cases c'.str id <;> simp
  have h1 := create_rec h.core.c h.rc (o := .open id (src.isEmpty && fin)) trivial (.inr (.inl ⟨_, rfl⟩)) e'
    (if ((ep.c.str id).isNone && clientBidi id && Conn.rejects ep.c id) = true then { Bidi.Str.new (cfg P ep.c id) with rst := .ignRest } else Bidi.Str.new (cfg P ep.c id))
    (fun s f1 f2 => by
      split_ifs
      · exact rx_reject (rx_new _ h.core.r.sys.ctx f1 f2) rfl
      · exact rx_new _ h.core.r.sys.ctx f1 f2)
    ((ep.c.str id).isNone && clientBidi id) (fun g => by rw [g, hsome]) (fun g => by rw [g, Bool.and_false])
  have h2 : EInv G { ep with c := c', rx := _ } := .of hc h1 hkd
  have hb := open_kind e
  have hp : streamUni id = true → Conn.peerUni c'.server id := fun g => by
    rw [hs.1]
    unfold streamUni at g
    unfold Conn.ownUni at hown
    unfold Conn.peerUni
    cases hsv : ep.c.server <;> rw [hsv] at hown <;> simp at hown g ⊢ <;> omega
  rcases rest_fine hP h2 (src := src) (fin := fin) hsome hb hp with g | ⟨g0, g1, g2, g3⟩
  · left; unfold read; rw [e]; unfold lift; dsimp only; rw [if_neg hz, if_neg hno]
    exact good_after g
  · right
    refine ⟨?_, hs.1.symm.trans g1, fun b g => ?_⟩
    · unfold read; rw [e]; unfold lift; dsimp only; rw [if_neg hz, if_neg hno]
      exact congrArg (Res.after _) g0
    unfold read at g
    have he : ((src ++ [b]).isEmpty && fin) = (src.isEmpty && fin) := by
      have : src.isEmpty = false := by simpa using g2
      rw [this]; simp
    rw [he, e] at g
    unfold lift at g; dsimp only at g; rw [if_neg hz, if_neg hno] at g
    exact g3 b (after_crash g)

theorem step_fine {P : Par} (hP : ParOk P) {ep : Ep} (h : EInv G ep) {o : Call} (ho : Permitted ep o) :
    Good G (step P ep o) ∨ step P ep o = .crash ∧ ∃ id src fin, o = .read id src fin ∧ ep.c.server = true ∧ ∀ b, step P ep (.read id (src ++ [b]) fin) ≠ .crash := by
  unfold Permitted at ho
  cases o with
  | read id src fin =>
    obtain ⟨h1, h2⟩ := ho id src fin rfl
    rcases read_fine hP h (src := src) (fin := fin) h1 h2 with g | ⟨g0, g1, g2⟩
    · exact .inl g
    · exact .inr ⟨g0, id, src, fin, rfl, g1, g2⟩
  | submitRequest id nva dr => exact .inl (submit_good h ho.2.2.1)
  | writev k as => exact .inl (writev_good h ho.2.2.1)
  | shutRd id => exact .inl (shutRd_good h ho.2.2.1)
  | close id => exact .inl (close_good h (ho.2.2.2 id rfl))
  | setMaxConc n => exact .inl (conc_good h n)
  | _ => exact .inl (plain_good h ho.1 ho.2.1 ho.2.2.1 trivial)

theorem init_einv {server : Bool} {st : Settings} (hst : SettingsOk st) : EInv (server, (init server st).c.settings) (init server st) := by
  have hn : ∀ x, (init server st).c.str x = none := fun x => rfl
  refine .of ⟨Conn.init_inv _ _ _, Props.init_safe (by exact ⟨hst.1, hst.2.1, hst.2.2.2⟩), Conn.init_uniInv, Props.dswf_init _, fun _ x s _ g => by cases g⟩
    ⟨⟨(fun x s _ g => by cases g), ?_⟩, ⟨[], ?_, fun x => ⟨(fun g => by cases g), fun ⟨_, s, g, _⟩ => (by cases g)⟩, by simp, rfl, rfl⟩, fun x ⟨_, s, g, _⟩ => (by cases g)⟩ ?_
  · exact Props.sys_init _ _
  · exact ⟨fun i _ hi => absurd hi (Nat.not_lt_zero _), fun i hi => absurd hi (Nat.not_lt_zero _), by simp, rfl, fun x => ⟨fun ⟨i, hi, _⟩ => absurd hi (Nat.not_lt_zero _), fun g => by cases g⟩⟩
  · exact ⟨Control.inv_idle Control.buf8 _, rfl, by show 0 < 2 ^ 62; decide, rvB_idle⟩

theorem hist_einv {P : Par} (hP : ParOk P) {server : Bool} {st : Settings} (hst : SettingsOk st) {l : Log} {ep : Ep} (h : Hist P server st l ep) : EInv (server, (init server st).c.settings) ep := by
  induction h with
  | init => exact init_einv hst
  | step h1 h2 e ih =>
    rcases step_fine hP ih h2 with g | ⟨g, _⟩
    · rw [e] at g; exact g
    · rw [e] at g; cases g

end Endpoint
end Nghttp3
