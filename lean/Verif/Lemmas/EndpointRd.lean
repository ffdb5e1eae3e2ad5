import Verif.Lemmas.EndpointRx
import Verif.Lemmas.BidiIface
import Verif.Spec.Endpoint
/-! Received data keeps the invariant of a connection: request streams. -/
namespace Nghttp3
namespace Endpoint
open Outq (R Ans FrentOk EncodeOk)
open Conn (OpOk LeavesClosed Allowed Safe UniInv clientBidi streamUni)
open Qpack (DsWF Dec SCtx SysOk CtxOk)
variable {G : Bool × Settings}

theorem isSome_keep {c c' : CC} {x : Nat} (h : Keep c c' x) : (c'.str x).isSome = (c.str x).isSome := by
  rcases h with ⟨h1, h2⟩ | ⟨s, s', h1, h2, _⟩ <;> rw [h1, h2] <;> rfl

theorem priorities_ok {c : CC} {id : Nat} (h : CInv c) (hb : clientBidi id = true) (h0 : (c.str id).isSome = true) (ev : List Bidi.Ev)
    (hev : ∀ p, Bidi.Ev.priority p ∈ ev → p.urgency < 8 ∧ c.server = true) :
    priorities c id ev ≠ .crash ∧ ∀ c', priorities c id ev = .ok c' → CInv c' ∧ SameC c c' ∧ ∀ x, clientBidi x = true → Keep c c' x := by
  induction ev generalizing c with
  | nil =>
    unfold priorities
    exact ⟨(fun g => by cases g), fun c' g => by cases g; exact ⟨h, .refl _, fun x _ => .refl x⟩⟩
  | cons e t ih =>
    have ht : ∀ p, Bidi.Ev.priority p ∈ t → p.urgency < 8 ∧ c.server = true := fun p g => hev p (List.mem_cons_of_mem _ g)
    have skip := ih h h0 ht
    unfold priorities
    cases e with
    | priority p =>
      obtain ⟨hp, hsv⟩ := hev p List.mem_cons_self
      dsimp only
      have h1 : OpOk (Conn.Op.hdrPri id p : Conn.Op Fld) := hp
      have h2 : LeavesClosed c (.hdrPri id p) := fun s g => h.opn hsv id s hb g
      have h3 : Allowed c (.hdrPri id p) := ⟨Conn.bidi_iff.1 hb, h0⟩
      have hn := cinv_nc h h1 h2 h3
      rcases e : Conn.onHeaderPriority c id p with _ | _ | _ | ⟨c1, r⟩
      · exact absurd e hn
      · exact ⟨(fun g => by cases g), fun c' g => by cases g⟩
      · exact ⟨(fun g => by cases g), fun c' g => by cases g⟩
      have e' : Conn.step encode c (.hdrPri id p) = .ok (c1, r) := e
      have hc1 := cinv_step h h1 h2 h3 (fun y g => by cases g) e'
      have hs1 := step_sameC h e'
      have hk : ∀ x, clientBidi x = true → Keep c c1 x := fun x hx => keep_neutral h h1 trivial e' hx
      obtain ⟨a1, a2⟩ := ih hc1 (by rw [isSome_keep (hk id hb)]; exact h0) (fun p g => ⟨(ht p g).1, by rw [hs1.1]; exact (ht p g).2⟩)
      refine ⟨a1, fun c' g => ?_⟩
      obtain ⟨b1, b2, b3⟩ := a2 c' g
      exact ⟨b1, hs1.trans b2, fun x hx => (hk x hx).trans (b3 x hx)⟩
    | _ => exact skip

theorem sinv_fixed {s : Bidi.Str} {d : Dec} (h : Bidi.SInv s d) (b : Bool) : Bidi.SInv { s with priFixed := b } d :=
  ⟨⟨h.inv.ctx, h.inv.wf, h.inv.idle, h.inv.rv, h.inv.hok, h.inv.left⟩, h.buf, h.inq, h.blk⟩

theorem room_lt {c : CC} {bq : PQ Nat} (h : room c bq = true) : bq.len < c.settings.qpackBlockedStreams := by
  unfold room at h; simpa using h

/-- a stream that waits has changed and still waits for the same entries -/
theorem rec_still {c c' : CC} {rx : Nat → Bidi.Str} {bq : PQ Nat} {d d' : Dec} {y : Nat} {r : Bidi.Str} (h : Rec G c rx bq d) (hs : SameC c c')
    (hd : Bidi.SameEnc d d') (hk : ∀ x, clientBidi x = true → Keep c c' x) (hr : r.sc = (rx y).sc)
    (hy : ∀ s', clientBidi y = true → c'.str y = some s' → Rx d' r s') : Rec G c' (PQ.upd rx y r) bq d' := by
  have hb : ∀ x, Blk c' x ↔ Blk c x := fun x => by
    by_cases hx : clientBidi x = true
    · exact (hk x hx).blk
    · exact ⟨fun g => absurd g.1 hx, fun g => absurd g.1 hx⟩
  have he : ∀ x, (PQ.upd rx y r x).sc.ricnt = (rx x).sc.ricnt := fun x => by
    by_cases hxy : x = y
    · subst hxy; rw [PQ.upd_same, hr]
    · rw [PQ.upd_ne _ _ hxy]
  refine ⟨rinv_keep (· = y) h.r (sys_same h.r.sys hd) (fun x hx g => ⟨hk x hx, PQ.upd_ne _ _ g⟩) ?_, qinv_keep h.q hs hb fun x _ => he x,
    waits_keep h.w (by rw [hd.1]) fun x hx => .inl ⟨(hb x).1 hx, he x⟩⟩
  rintro x s' hx rfl g
  rw [PQ.upd_same]; exact hy s' hx g

/-- a stream starts to wait -/
theorem rec_block {c c' : CC} {rx : Nat → Bidi.Str} {bq : PQ Nat} {d d' : Dec} {y : Nat} {r : Bidi.Str} (h : Rec G c rx bq d) (hs : SameC c c')
    (hd : Bidi.SameEnc d d') (hy : clientBidi y = true) (h0 : ∀ s, c.str y = some s → s.qblocked = false) (hk : ∀ x, clientBidi x = true → x ≠ y → Keep c c' x)
    (h1 : ∃ s', c'.str y = some s' ∧ s'.qblocked = true ∧ Rx d' r s') (hw : d'.ctx.next < r.sc.ricnt) (hr : bq.len < c.settings.qpackBlockedStreams) :
    Rec G c' (PQ.upd rx y r) (bq.push (ricntLess (PQ.upd rx y r)) y) d' := by
  obtain ⟨s', h1, h2, h3⟩ := h1
  have hb0 : ¬ Blk c y := by rintro ⟨_, s, g1, g2⟩; rw [h0 s g1] at g2; cases g2
  have hb : ∀ x, Blk c' x ↔ Blk c x ∨ x = y := fun x => by
    by_cases hxy : x = y
    · subst hxy; exact ⟨fun _ => .inr rfl, fun _ => ⟨hy, s', h1, h2⟩⟩
    · by_cases hx : clientBidi x = true
      · rw [(hk x hx hxy).blk]; exact ⟨.inl, fun g => g.resolve_right hxy⟩
      · exact ⟨fun g => absurd g.1 hx, fun g => g.elim (fun g => absurd g.1 hx) fun g => absurd g hxy⟩
  refine ⟨rinv_keep (· = y) h.r (sys_same h.r.sys hd) (fun x hx g => ⟨hk x hx g, PQ.upd_ne _ _ g⟩) ?_,
    qinv_push h.q hs hb0 hb (fun x g => PQ.upd_ne _ _ g) hr, waits_keep h.w (by rw [hd.1]) fun x hx => ?_⟩
  · rintro x t _ rfl g
    rw [h1] at g; obtain rfl := Option.some.inj g
    rw [PQ.upd_same]; exact h3
  · by_cases hxy : x = y
    · subst hxy; right; rw [PQ.upd_same]; exact hw
    · left; exact ⟨((hb x).1 hx).resolve_right hxy, by rw [PQ.upd_ne _ _ hxy]⟩

theorem readBidi_good {P : Par} (hP : ParOk P) {ep : Ep} (h : EInv G ep) {id : Nat} {src : Bytes} {fin : Bool} (hb : clientBidi id = true)
    {t : Conn.Strm Fld} (h0 : ep.c.str id = some t) : Good G (readBidi P ep id src fin) := by
  have hrx := h.core.r.str id t hb h0
  unfold readBidi
  dsimp only
  have hrd := Bidi.recv_ok (c := cfg P ep.c id) hP (room ep.c ep.bq) fin { ep.rx id with priFixed := fixedPri ep.c id } ep.dec src (sinv_fixed hrx.inv _) hrx.hu
  rcases hrd with ⟨e, hrd⟩ | ⟨s', d', ev, n, rest, hrd, ho⟩
  · rw [hrd]; trivial
  rw [hrd]
  dsimp only
  obtain ⟨p1, p2⟩ := priorities_ok h.core.c hb (by rw [h0]; rfl) ev ho.evs
  refine good_lift p1 fun c1 e1 => ?_
  obtain ⟨hc1, hs1, hk1⟩ := p2 c1 e1
  have hkd : KInv c1.server ep.ctl := by rw [hs1.1]; exact h.core.k
  obtain ⟨t1, g1, g2, g3⟩ : ∃ t1, c1.str id = some t1 ∧ t1.qblocked = t.qblocked ∧ t1.closed = t.closed := by
    rcases hk1 id hb with ⟨k, _⟩ | ⟨s, s1, k1, k2, k3, k4⟩
    · rw [h0] at k; cases k
    · rw [h0] at k1; obtain rfl := Option.some.inj k1; exact ⟨s1, k2, k3, k4⟩
  have hgone : s'.gone = false := ho.gone.trans hrx.gone
  have hclosed : s'.closed = t.closed := ho.closed.trans hrx.cl
  by_cases hbl : (!(ep.rx id).blocked && s'.blocked) = true
  · rw [if_pos hbl]
    rw [Bool.and_eq_true, Bool.not_eq_true'] at hbl
    have hq : t.qblocked = false := hrx.blk.symm.trans hbl.1
    have h3 : Allowed c1 (.qpackBlock id : Conn.Op Fld) := ⟨Conn.bidi_iff.1 hb, t1, g1, g2.trans hq⟩
    refine good_lift (cinv_nc hc1 (o := .qpackBlock id) trivial trivial h3) ?_
    rintro ⟨c2, r⟩ e2
    have e2' : Conn.step encode c1 (.qpackBlock id) = .ok (c2, r) := e2
    have hs2 := step_sameC hc1 e2'
    have hk2 : ∀ x, clientBidi x = true → x ≠ id → Keep c1 c2 x := fun x hx g =>
      keep_other hc1 (o := .qpackBlock id) trivial e2' hx g (.inr (.inr (.inr (.inr (.inl rfl)))))
    have hst : ∃ t2, c2.str id = some t2 ∧ t2.qblocked = true ∧ t2.closed = t.closed := by
      unfold Conn.qpackBlock at e2
      rw [g1] at e2
      dsimp only at e2
      rw [if_neg (by rw [g2, hq]; simp)] at e2
      obtain ⟨rfl, _⟩ := Prod.mk.inj (R.ok.inj e2)
      exact ⟨{ t1 with qblocked := true }, Conn.set_str .., rfl, g3⟩
    obtain ⟨t2, i1, i2, i3⟩ := hst
    refine .of (cinv_step hc1 (o := .qpackBlock id) trivial trivial h3 (fun y g => by cases g) e2') ?_ (by rw [hs2.1]; exact hkd)
    refine rec_block h.rc (hs1.trans hs2) ho.same hb (fun s g => by rw [h0] at g; obtain rfl := Option.some.inj g; exact hq)
      (fun x hx g => (hk1 x hx).trans (hk2 x hx g)) ⟨t2, i1, i2, ho.inv, hbl.2.trans i2.symm, hclosed.trans i3.symm, hgone, ho.hu⟩ (ho.wait hbl.1 hbl.2)
      (room_lt ((ho.room hbl.2).resolve_left (by show ¬ (ep.rx id).blocked = true; rw [hbl.1]; simp)))
  · rw [if_neg hbl]
    refine .of hc1 ?_ hkd
    rcases hq : (ep.rx id).blocked with _ | _
    · have hb' : s'.blocked = false := by rw [hq] at hbl; simpa using hbl
      have htq : t.qblocked = false := hrx.blk.symm.trans hq
      exact rec_made h.rc hs1 ho.same (fun s g => by rw [h0] at g; obtain rfl := Option.some.inj g; exact htq) (fun x hx _ => hk1 x hx) fun s1 k => by
        rw [g1] at k; obtain rfl := Option.some.inj k
        exact ⟨g2.trans htq, ho.inv, hb'.trans (g2.trans htq).symm, hclosed.trans g3.symm, hgone, ho.hu⟩
    · obtain ⟨k1, k2⟩ := ho.stay hq
      exact rec_still h.rc hs1 ho.same hk1 k2 fun s1 _ k => by
        rw [g1] at k; obtain rfl := Option.some.inj k
        exact ⟨ho.inv, k1.trans ((g2.trans (hrx.blk.symm.trans hq)).symm), hclosed.trans g3.symm, hgone, ho.hu⟩

end Endpoint
end Nghttp3
