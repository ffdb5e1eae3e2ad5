import Verif.Lemmas.EndpointWake
/-! Received data keeps the invariant of a connection: the control stream. -/
namespace Nghttp3
namespace Endpoint
open Outq (R Ans FrentOk EncodeOk)
open Conn (OpOk LeavesClosed Allowed Safe UniInv clientBidi streamUni)
open Qpack (DsWF Dec SCtx SysOk CtxOk)
variable {G : Bool × Settings}

theorem pri_code {c c' : CC} {id : Nat} {p : Http.Pri} {r : Conn.Ret} (e : Conn.onPriorityUpdate c id p = .ok (c', r)) : ∃ k, r = .code k := by
  unfold Conn.onPriorityUpdate at e
  by_cases g1 : (!c.server) = true
  · rw [if_pos g1] at e; cases e
  rw [if_neg g1] at e
  by_cases g2 : (!clientBidi id || decide (Conn.ordStreamId id > c.maxClient)) = true
  · rw [if_pos g2] at e; cases e; exact ⟨_, rfl⟩
  · rw [if_neg g2] at e
    rcases h0 : c.str id with _ | s <;> rw [h0] at e <;> dsimp only at e
    · split_ifs at e
      · cases e; exact ⟨_, rfl⟩
      · split at e
        · cases e
        · cases e; exact ⟨_, rfl⟩
        · cases e; exact ⟨_, rfl⟩
    · split_ifs at e
      · cases e; exact ⟨_, rfl⟩
      · obtain ⟨c1, _, e2⟩ := Conn.bind_ok e
        cases e2; exact ⟨_, rfl⟩

/-- what the reader of the control stream keeps -/
def CtlQ (G : Bool × Settings) (ep : Ep) (k : Control.Conn Ext) : Prop :=
  k.server = ep.c.server ∧ DsWF k.enc ∧ ∃ c rx, k.ext = some (c, rx) ∧ CInv c ∧ SameC ep.c c ∧ Rec G c rx ep.bq ep.dec

theorem entry_enc {k k' : Control.Conn Ext} {i v : Nat} (e : Control.onEntry k i v = .ok k') (h : DsWF k.enc) : DsWF k'.enc ∧ k'.server = k.server ∧ k'.ext = k.ext := by
  have h1 : DsWF (k.enc.setMaxCap v) := by
    refine ⟨h.inv.setMaxCap v, ?_, ?_⟩ <;>
    · have : (k.enc.setMaxCap v).reading = k.enc.reading ∧ (k.enc.setMaxCap v).rs = k.enc.rs := by
        unfold Qpack.Enc.setMaxCap; dsimp only; split_ifs <;> exact ⟨rfl, rfl⟩
      rw [this.1, this.2]
      first | exact h.rd | exact h.idle
  have h2 : DsWF (k.enc.setMaxBlocked (min 100 v)) := ⟨h.inv.setMaxBlocked _, h.rd, h.idle⟩
  unfold Control.onEntry at e
  split_ifs at e
  all_goals
    injection e with e
    subst e
    first | exact ⟨h, rfl, rfl⟩ | exact ⟨h1, rfl, rfl⟩ | exact ⟨h2, rfl, rfl⟩

theorem ctl_stable {P : Par} (hP : ParOk P) (ep : Ep) : Control.StableP (env P) (CtlQ G ep) where
  recved _ h := h
  rep _ _ h := h
  entry k i v k' h e := by
    obtain ⟨k1, k2, k3⟩ := entry_enc e h.2.1
    obtain ⟨h1, _, h3⟩ := h
    exact ⟨k2.trans h1, k1, by rw [k3]; exact h3⟩
  goaway _ _ h := h
  push _ _ h := h
  long _ h := h
  ext k i p x h hsv hi hp e := by
    obtain ⟨h1, h2, c, rx, h3, h4, h5, h6⟩ := h
    refine ⟨h1, h2, ?_⟩
    have e : onPri P k.ext i p = .ok x := e
    rw [h3] at e
    unfold onPri at e
    dsimp only at e
    have hsv' : c.server = true := by rw [h5.1, ← h1]; exact hsv
    have hu : p.urgency < 8 := by
      rcases hp with rfl | ⟨f, hp⟩
      · show 3 < 8; omega
      · exact hP ⟨3, false⟩ f p (by show 3 < 8; omega) hp
    by_cases hb : clientBidi i = true
    · have o1 : OpOk (Conn.Op.priUpd i p : Conn.Op Fld) := hu
      have o2 : LeavesClosed c (.priUpd i p) := fun s g => h4.opn hsv' i s hb g
      have o3 : Allowed c (.priUpd i p) := ⟨hsv', hi⟩
      have hn := cinv_nc h4 o1 o2 o3
      rcases e1 : Conn.onPriorityUpdate c i p with _ | _ | _ | ⟨c', r⟩
      · exact absurd e1 hn
      · rw [e1] at e; cases e
      · rw [e1] at e; cases e
      obtain ⟨z, rfl⟩ := pri_code e1
      rw [e1] at e
      dsimp only at e
      by_cases hz : z ≠ 0
      · rw [if_pos hz] at e; cases e
      rw [if_neg hz] at e
      injection e with e
      subst e
      have e1' : Conn.step encode c (.priUpd i p) = .ok (c', .code z) := e1
      exact ⟨c', _, rfl, cinv_step h4 o1 o2 o3 (fun y g => by cases g) e1', h5.trans (step_sameC h4 e1'),
        create_rec h4 h6 o1 (.inr (.inr ⟨p, rfl⟩)) e1' _ (fun s f1 f2 => rx_new _ h6.r.sys.ctx f1 f2) _ (fun _ => rfl) (fun g => by rw [hb] at g; cases g)⟩
    · have e1 : Conn.onPriorityUpdate c i p = .ok (c, .code Err.H3_ID_ERROR) := by
        unfold Conn.onPriorityUpdate
        rw [if_neg (by rw [hsv']; simp), if_pos (by rw [eq_false_of_ne_true hb]; simp)]
      rw [e1] at e
      dsimp only at e
      rw [if_pos (by decide)] at e
      cases e

/-- the state in which the reader of the control stream starts -/
def ctlStart (ep : Ep) : Control.St Ext := { ep.ctl with conn := { ep.ctl.conn with enc := ep.c.enc, ext := some (ep.c, ep.rx) } }

theorem ctl_start {ep : Ep} (h : EInv G ep) : Control.Inv Control.P8 (ctlStart ep) ∧ Control.SB (CtlQ G ep) (ctlStart ep) := by
  have hk := h.core.k
  exact ⟨⟨hk.inv.rv, hk.inv.buf, hk.inv.buf8, hk.inv.left, hk.inv.rv0, hk.inv.role⟩,
    ⟨hk.srv, h.core.c.enc, ep.c, ep.rx, rfl, h.core.c, .refl _, h.rc⟩, hk.elem, hk.rv⟩

theorem ctl_out {P : Par} (hP : ParOk P) {ep : Ep} (h : EInv G ep) (src : Bytes) (n : Nat) (hr : Control.read (env P) (ctlStart ep) src ≠ .crash) :
    Good G (readControl P ep src n) := by
  obtain ⟨hi, hs⟩ := ctl_start h
  have ho := Control.read_prs (ctl_stable hP ep) (ctlStart ep) src hi hs
  unfold readControl
  show Good G (match Control.read (env P) (ctlStart ep) src with
    | .crash => .crash
    | .stop _ _ => .crash
    | .fail (e, k) => if k.ext.isNone then .crash else .fail e
    | .ok s => _)
  rcases e : Control.read (env P) (ctlStart ep) src with _ | ⟨z, k⟩ | _ | s <;> rw [e] at ho
  · exact absurd e hr
  · obtain ⟨_, _, c, rx, k3, _⟩ := ho
    have k3 : k.ext = _ := k3
    dsimp only
    rw [k3, if_neg (by simp)]
    trivial
  · exact ho.elim
  · obtain ⟨⟨h1, h2, c, rx, h3, h4, h5, h6⟩, h7, h8⟩ := ho
    have hi' := Control.read_real _ _ hi s e
    dsimp only
    rw [h3]
    refine .of ((h4.withEnc h2).withGoaway s.conn.goawayRecved) (rec_keep h6 ⟨rfl, rfl⟩ (.refl _) fun x _ => .refl x) ?_
    refine ⟨⟨hi'.rv, hi'.buf, hi'.buf8, hi'.left, hi'.rv0, hi'.role⟩, ?_, h7, h8⟩
    show s.conn.server = c.server
    rw [h1, h5.1]

theorem readControl_fine {P : Par} (hP : ParOk P) {ep : Ep} (h : EInv G ep) (src : Bytes) (hsrc : src ≠ []) (n : Nat) :
    Good G (readControl P ep src n) ∨ (readControl P ep src n = .crash ∧ ep.c.server = true ∧ ∀ b m, readControl P ep (src ++ [b]) m ≠ .crash) := by
  obtain ⟨hi, hs⟩ := ctl_start h
  by_cases hr : Control.read (env P) (ctlStart ep) src = .crash
  · right
    cases hsv : ep.c.server with
    | false => exact absurd hr (Control.read_client8 _ _ hi hsrc (hs.1.1.trans hsv))
    | true =>
      refine ⟨by unfold readControl; rw [show Control.read (env P) { ep.ctl with conn := { ep.ctl.conn with enc := ep.c.enc, ext := some (ep.c, ep.rx) } } src = _ from hr],
        rfl, fun b m g => ?_⟩
      have := ctl_out hP h (src ++ [b]) m (Control.read_crash _ _ hi hsrc hr b)
      rw [g] at this; exact this
  · exact .inl (ctl_out hP h src n hr)

/-- one more byte goes to the same reader -/
theorem uni_more {c c' : CC} (hi : Conn.Inv False True c) {id : Nat} {src : Bytes} {fin : Bool} {t : Conn.Ty} {x : Bytes}
    (e : Conn.readUni c id src fin = .ok (c', .route (some (t, x)))) :
    x ≠ [] ∧ src ≠ [] ∧ t ≠ .unknown ∧ Conn.IsUni c' t id ∧ ∀ b, Conn.readUni c id (src ++ [b]) fin = .ok (c', .route (some (t, x ++ [b]))) := by
  have del : ∀ (ty : Conn.Ty) (y z : Bytes), Conn.deliverUni ty y fin = .route (some (t, z)) → fin = false ∧ t = ty ∧ z = y ∧ ty ≠ .unknown := by
    intro ty y z g
    unfold Conn.deliverUni at g
    cases ty <;> dsimp only at g
    all_goals first | (split_ifs at g with hf; cases g; exact ⟨by simpa using hf, rfl, rfl, by simp⟩) | cases g
  have del' : ∀ (ty : Conn.Ty) (y : Bytes), ty ≠ .unknown → Conn.deliverUni ty y false = .route (some (ty, y)) := by
    intro ty y g
    unfold Conn.deliverUni
    cases ty <;> first | rfl | exact absurd rfl g
  unfold Conn.readUni at e ⊢
  by_cases hp : ((c.server && !Conn.clientUni id) || (!c.server && !Conn.serverUni id)) = true
  · rw [if_pos hp] at e; cases e
  rw [if_neg hp] at e
  simp only [if_neg hp]
  rcases h0 : c.str id with _ | s <;> rw [h0] at e
  · cases e
  dsimp only at e ⊢
  by_cases hz : (src.isEmpty && !fin) = true
  · rw [if_pos hz] at e; cases e
  rw [if_neg hz] at e
  have hne : ∀ b, (src ++ [b]).isEmpty = false := fun b => by simp
  by_cases hid : s.ident = true
  · rw [if_pos hid] at e
    obtain ⟨rfl, e2⟩ := Prod.mk.inj (R.ok.inj e)
    obtain ⟨rfl, rfl, rfl, hu⟩ := del _ _ _ e2
    have hs : x ≠ [] := by rintro rfl; exact hz rfl
    refine ⟨hs, hs, hu, ⟨s, h0, hid, rfl⟩, fun b => ?_⟩
    rw [if_neg (by rw [hne]; simp), if_pos hid, del' _ _ hu]
  rw [if_neg hid] at e
  by_cases hemp : src.isEmpty = true
  · rw [if_pos hemp] at e
    exfalso
    split_ifs at e
    · cases e
    · obtain ⟨c1, _, e2⟩ := Conn.bind_ok e
      cases e2
  rw [if_neg hemp] at e
  have hs : src ≠ [] := by rintro rfl; exact hemp rfl
  have hsp := rd_spec s.rv src fin (hi.sok id s h0).rvo hs
  obtain ⟨v, n, hr⟩ : ∃ v n, rd s.rv src fin = .done v n := by
    cases hr : rd s.rv src fin with
    | done v n => exact ⟨v, n, rfl⟩
    | _ => rw [hr] at e; cases e
  rw [hr] at e hsp
  dsimp only at e hsp
  obtain ⟨n0, n1, n2⟩ := hsp
  have hrb : ∀ b, rd s.rv (src ++ [b]) fin = .done v n := fun b => by
    have := n2 (src.drop n ++ [b]) fin
    rwa [← List.append_assoc, List.take_append_drop] at this
  rcases hty : Conn.setUniType c s v with e' | ⟨c1, s1⟩ <;> rw [hty] at e <;> dsimp only at e
  · cases e
  by_cases hn : n = src.length
  · rw [if_pos hn] at e; cases e
  rw [if_neg hn] at e
  rcases hd : Conn.deliverUni s1.ty (src.drop n) fin with _ | _ | _ | y <;> rw [hd] at e <;> dsimp only at e
  all_goals first | cases e | skip
  obtain ⟨rfl, rfl, rfl, hu⟩ := del _ _ _ hd
  obtain ⟨ty, rfl, _⟩ := Conn.setUniType_flag hty
  refine ⟨fun g => hn (by have := List.drop_eq_nil_iff.1 g; omega), hs, hu, ⟨_, Conn.set_str .., rfl, rfl⟩, fun b => ?_⟩
  rw [if_neg (by rw [hne]; simp), if_neg hid, if_neg (by rw [hne]; simp), hrb b]
  dsimp only
  rw [hty]
  dsimp only
  rw [if_neg (by rw [List.length_append]; simp; omega), List.drop_append_of_le_length n1, del' _ _ hu]

end Endpoint
end Nghttp3
