import Verif.Lemmas.EndpointCut
import Verif.Spec.Kept
import Verif.Lemmas.EndpointLife
import Verif.Lemmas.ConnFlags
import Verif.Lemmas.ConnEnc
/-! What a call on a whole connection does to the part modelled in Model/Conn.lean: a sequence of its operations. -/
namespace Nghttp3
namespace Endpoint
open Outq (R Ans)
open Conn (OpOk LeavesClosed Allowed clientBidi streamUni)
open Qpack (Dec SCtx SysOk)

variable {G : Bool × Settings} {P : Par}

/-- the operations that received data causes -/
def received : Conn.Op Fld → Bool
  | .open _ _ | .uni _ _ _ | .priUpd _ _ | .hdrPri _ _ | .qpackBlock _ | .qpackUnblock _ _ _ | .recvGoaway => true
  | _ => false

def Received (c : CC) (o : Conn.Op Fld) : Prop := received o = true ∧ OpOk o ∧ LeavesClosed c o ∧ Allowed c o

/-- no stream is removed, or no stream is added -/
def Dir (grow : Bool) (a b : CC) : Prop := ∀ x, if grow then (a.str x).isSome = true → (b.str x).isSome = true else (b.str x).isSome = true → (a.str x).isSome = true

theorem Dir.refl (g : Bool) (a : CC) : Dir g a a := fun x => by cases g <;> exact id

/-- the operation reads from a unidirectional stream -/
def isUni : Conn.Op Fld → Bool
  | .uni _ _ _ => true
  | _ => false

/-- `un`: operations that read from a unidirectional stream may occur -/
inductive Path (ctl grow un : Bool) : CC → CC → Prop where
  | refl (a : CC) : Path ctl grow un a a
  | op {a b c : CC} {o : Conn.Op Fld} {r : Conn.Ret} (h : Path ctl grow un a b) (hi : CInv b) (ho : Received b o) (hc : o = .recvGoaway → ctl = true)
      (e : Conn.step encode b o = .ok (c, r)) (hd : Dir grow b c)
      (hu : isUni o = true → un = true := by first | exact fun _ => rfl | exact fun h => by cases h) : Path ctl grow un a c
  | enc {a b : CC} {e : Qpack.Enc} (h : Path ctl grow un a b) (he : FromPeer b.enc e) : Path ctl grow un a { b with enc := e }

theorem Path.trans {ctl g un : Bool} {a b c : CC} (h : Path ctl g un a b) (h' : Path ctl g un b c) : Path ctl g un a c := by
  induction h' with
  | refl => exact h
  | op _ hi ho hc e hd hu ih => exact .op ih hi ho hc e hd hu
  | enc _ he ih => exact .enc ih he

theorem Path.ctl {g un : Bool} {a b : CC} (h : Path false g false a b) (t : Bool) : Path t g un a b := by
  induction h with
  | refl => exact .refl _
  | op _ hi ho hc e hd hu ih => exact .op ih hi ho (fun k => by cases hc k) e hd (fun k => by cases hu k)
  | enc _ he ih => exact .enc ih he

theorem Path.any {t g un : Bool} {a b : CC} (h : Path t g false a b) : Path t g un a b := by
  induction h with
  | refl => exact .refl _
  | op _ hi ho hc e hd hu ih => exact .op ih hi ho hc e hd (fun k => by cases hu k)
  | enc _ he ih => exact .enc ih he

theorem step_recved {c c' : CC} (h : CInv c) {o : Conn.Op Fld} {r : Conn.Ret} (ho : o ≠ .recvGoaway) (e : Conn.step encode c o = .ok (c', r)) :
    c'.goawayRecved = c.goawayRecved := by
  have hg := Conn.step_glob h.inv e
  have same : ∀ {g : Conn.Glob}, Conn.glob c' = g → g.goawayRecved = c.goawayRecved → c'.goawayRecved = c.goawayRecved := by
    intro g g1 g2
    subst g1
    exact g2
  cases o with
  | bindControl id => rcases hg with g | ⟨_, g⟩ <;> exact same g rfl
  | bindQpack a b => rcases hg with g | ⟨_, _, g | g⟩ <;> exact same g rfl
  | notice => obtain ⟨_, _, _, g⟩ := hg; exact same g rfl
  | shutdown => obtain ⟨_, _, _, g⟩ := hg; exact same g rfl
  | setMaxClient n => exact same hg.2 rfl
  | «open» id b => rcases hg with g | ⟨_, _, _, g⟩ <;> exact same g rfl
  | priUpd id p => rcases hg with g | ⟨_, _, _, g⟩ <;> exact same g rfl
  | uni a b d => obtain ⟨_, _, _, g, _⟩ := hg; exact same g rfl
  | recvGoaway => exact absurd rfl ho
  | _ => exact same hg rfl

/-! ### the directions -/

theorem dir_one {c c' : CC} {id : Nat} {s s0 : Conn.Strm Fld} (g : Bool) (h : Conn.One c id s c') (h0 : c.str id = some s0) : Dir g c c' := by
  obtain ⟨sd, cy, uw, k⟩ := h.own
  have : ∀ x, (c'.str x).isSome = (c.str x).isSome := by
    intro x
    by_cases hx : x = id
    · subst hx; rw [k, h0]; rfl
    · rw [h.fr hx]
  intro x
  rw [this x]
  cases g <;> exact fun h => h

theorem dir_new {c c' : CC} {id : Nat} {s : Conn.Strm Fld} (e : c'.str = PQ.upd c.str id (some s)) : Dir true c c' := by
  intro x
  rw [if_pos rfl, e]
  intro h
  by_cases hx : x = id
  · subst hx; rw [PQ.upd_same]; rfl
  · rw [PQ.upd_ne _ _ hx]; exact h

theorem dir_delete {c c' : CC} {id : Nat} {s : Conn.Strm Fld} (e : Conn.deleteStream c id s = .ok c') : Dir false c c' := by
  intro x
  rw [if_neg (by simp), Conn.delete_str e]
  by_cases hx : x = id
  · subst hx; rw [PQ.upd_same]; intro h; cases h
  · rw [PQ.upd_ne _ _ hx]; exact fun h => h

theorem dir_hdr {c c' : CC} {id : Nat} {p : Http.Pri} {r : Conn.Ret} (g : Bool) (e : Conn.onHeaderPriority c id p = .ok (c', r)) : Dir g c c' := by
  unfold Conn.onHeaderPriority at e
  rcases h0 : c.str id with _ | s <;> rw [h0] at e <;> dsimp only at e
  · cases e
  split_ifs at e
  · obtain ⟨c1, e1, e2⟩ := Conn.bind_ok e
    obtain ⟨rfl, _⟩ := Prod.mk.inj (R.ok.inj e2)
    exact dir_one g (Conn.one_update e1) h0
  · obtain ⟨rfl, _⟩ := Prod.mk.inj (R.ok.inj e)
    exact .refl _ _

theorem dir_block {c c' : CC} {id : Nat} {r : Conn.Ret} (g : Bool) (e : Conn.qpackBlock c id = .ok (c', r)) : Dir g c c' := by
  unfold Conn.qpackBlock at e
  rcases h0 : c.str id with _ | s <;> rw [h0] at e <;> dsimp only at e
  · cases e
  split_ifs at e
  obtain ⟨rfl, _⟩ := Prod.mk.inj (R.ok.inj e)
  exact dir_one g Conn.one_set h0

theorem dir_trans {g : Bool} {a b c : CC} (h1 : Dir g a b) (h2 : Dir g b c) : Dir g a c := by
  intro x
  have k1 := h1 x
  have k2 := h2 x
  cases g
  · exact fun k => k1 (k2 k)
  · exact fun k => k2 (k1 k)

theorem dir_unblock {c c' : CC} {id : Nat} {b : Bool} {r : Conn.Ret} (e : Conn.qpackUnblock c id none b = .ok (c', r)) : Dir false c c' := by
  unfold Conn.qpackUnblock at e
  rcases h0 : c.str id with _ | s <;> rw [h0] at e <;> dsimp only at e
  · cases e
  by_cases h1 : s.qblocked = false
  · rw [if_pos h1] at e; cases e
  rw [if_neg h1] at e
  dsimp only [R.bind] at e
  have hs : (c.set id { s with qblocked := false }).str id = some { s with qblocked := false } := Conn.set_str ..
  rw [hs] at e
  dsimp only at e
  have d1 : Dir false c (c.set id { s with qblocked := false }) := dir_one _ Conn.one_set h0
  by_cases h2 : b = true
  · rw [if_pos h2] at e
    obtain ⟨rfl, _⟩ := Prod.mk.inj (R.ok.inj e)
    exact dir_trans d1 (dir_one _ Conn.one_set hs)
  rw [if_neg h2] at e
  by_cases h3 : s.closed = true
  · rw [if_pos h3] at e
    obtain ⟨c1, e1, e2⟩ := Conn.bind_ok e
    obtain ⟨rfl, _⟩ := Prod.mk.inj (R.ok.inj e2)
    exact dir_trans d1 (dir_delete e1)
  · rw [if_neg h3] at e
    obtain ⟨rfl, _⟩ := Prod.mk.inj (R.ok.inj e)
    exact d1

theorem dir_pri {c c' : CC} {id : Nat} {p : Http.Pri} {r : Conn.Ret} (e : Conn.onPriorityUpdate c id p = .ok (c', r)) : Dir true c c' := by
  unfold Conn.onPriorityUpdate at e
  by_cases g1 : (!c.server) = true
  · rw [if_pos g1] at e; cases e
  rw [if_neg g1] at e
  by_cases g2 : (!clientBidi id || decide (Conn.ordStreamId id > c.maxClient)) = true
  · rw [if_pos g2] at e; cases e; exact .refl _ _
  · rw [if_neg g2] at e
    rcases h0 : c.str id with _ | s <;> rw [h0] at e <;> dsimp only at e
    · split_ifs at e
      · cases e; exact .refl _ _
      · split at e
        · cases e
        · cases e; exact .refl _ _
        · cases e; exact dir_new rfl
    · split_ifs at e
      · cases e; exact .refl _ _
      · obtain ⟨c1, e1, e2⟩ := Conn.bind_ok e
        cases e2
        exact dir_one _ (Conn.one_update e1) h0

theorem dir_open {c c' : CC} {id : Nat} {b : Bool} {r : Conn.Ret} (e : Conn.openStream c id b = .ok (c', r)) : Dir true c c' := by
  unfold Conn.openStream at e
  by_cases h : decide (id ≥ 2 ^ 62) = true
  · rw [if_pos h] at e; cases e
  rw [if_neg h] at e
  rcases h0 : c.str id with _ | s <;> rw [h0] at e <;> dsimp only at e
  · by_cases h1 : c.server = true
    · rw [if_pos h1] at e
      by_cases h2 : clientBidi id = true
      · rw [if_pos h2] at e
        split at e
        · cases e
        · cases e; exact dir_new rfl
      · rw [if_neg h2] at e
        split_ifs at e <;> cases e <;> first | exact .refl _ _ | exact dir_new rfl
    · rw [if_neg h1] at e
      split_ifs at e <;> cases e <;> first | exact .refl _ _ | exact dir_new rfl
  · split_ifs at e <;> (cases e; exact .refl _ _)

theorem dir_uni {c c' : CC} {id : Nat} {src : Bytes} {fin : Bool} {r : Conn.Ret} (e : Conn.readUni c id src fin = .ok (c', r)) :
    Dir false c c' ∧ ∀ t y, r = .route (some (t, y)) → Dir true c c' := by
  have both : (∀ g, Dir g c c') → Dir false c c' ∧ ∀ t y, r = .route (some (t, y)) → Dir true c c' := fun h => ⟨h false, fun _ _ _ => h true⟩
  unfold Conn.readUni at e
  by_cases h0 : ((c.server && !Conn.clientUni id) || (!c.server && !Conn.serverUni id)) = true
  · rw [if_pos h0] at e; cases e
  rw [if_neg h0] at e
  rcases hs : c.str id with _ | s <;> rw [hs] at e <;> dsimp only at e
  · cases e
  by_cases h1 : (src.isEmpty && !fin) = true
  · rw [if_pos h1] at e; cases e; exact both fun g => .refl _ _
  rw [if_neg h1] at e
  by_cases h2 : s.ident = true
  · rw [if_pos h2] at e; cases e; exact both fun g => .refl _ _
  rw [if_neg h2] at e
  by_cases h3 : src.isEmpty = true
  · rw [if_pos h3] at e
    split_ifs at e
    · cases e; exact both fun g => .refl _ _
    · obtain ⟨c1, e1, e2⟩ := Conn.bind_ok e
      obtain ⟨rfl, rfl⟩ := Prod.mk.inj (R.ok.inj e2)
      exact ⟨dir_delete e1, fun t y g => by cases g⟩
  rw [if_neg h3] at e
  generalize rd s.rv src fin = o at e
  rcases o with _ | _ | rv | ⟨v, k⟩ <;> dsimp only at e
  · cases e
  · cases e; exact both fun g => .refl _ _
  · cases e; exact both fun g => dir_one g Conn.one_set hs
  rcases h4 : Conn.setUniType c s v with z | ⟨c1, s1⟩ <;> rw [h4] at e <;> dsimp only at e
  · cases e; exact both fun g => .refl _ _
  have hc1 : c1.str = c.str := by
    unfold Conn.setUniType at h4
    dsimp only at h4
    split_ifs at h4 <;> first | (cases h4; done) | (injection h4 with h4; obtain ⟨rfl, _⟩ := Prod.mk.inj h4; rfl)
  have hd : ∀ g, Dir g c (c1.set id s1) := by
    intro g
    have d1 : Dir g c c1 := fun x => by rw [hc1]; cases g <;> exact fun h => h
    exact dir_trans d1 (dir_one g Conn.one_set (by rw [hc1]; exact hs))
  by_cases h5 : k = src.length
  · rw [if_pos h5] at e; cases e; exact both hd
  rw [if_neg h5] at e
  generalize Conn.deliverUni s1.ty (src.drop k) fin = o at e
  cases o with
  | code z => cases e; exact both fun g => .refl _ _
  | _ => cases e; exact both hd

/-! ### the readers -/

theorem Path.one {ctl g un : Bool} {a b : CC} {o : Conn.Op Fld} {r : Conn.Ret} (hi : CInv a) (ho : Received a o) (hc : o = .recvGoaway → ctl = true)
    (e : Conn.step encode a o = .ok (b, r)) (hd : Dir g a b)
    (hu : isUni o = true → un = true := by first | exact fun _ => rfl | exact fun h => by cases h) : Path ctl g un a b := .op (.refl _) hi ho hc e hd hu

theorem Path.recved {g : Bool} {a b : CC} (h : Path false g false a b) : b.goawayRecved = a.goawayRecved := by
  induction h with
  | refl => rfl
  | op _ hi _ hc e _ _ ih => exact (step_recved hi (fun k => by cases hc k) e).trans ih
  | enc _ _ ih => exact ih

theorem priorities_path {c c' : CC} {id : Nat} (h : CInv c) (hb : clientBidi id = true) (h0 : (c.str id).isSome = true) (ev : List Bidi.Ev)
    (hev : ∀ p, Bidi.Ev.priority p ∈ ev → p.urgency < 8 ∧ c.server = true) (e : priorities c id ev = .ok c') (g : Bool) : Path false g false c c' := by
  induction ev generalizing c with
  | nil => unfold priorities at e; cases e; exact .refl _
  | cons e1 t ih =>
    have ht : ∀ p, Bidi.Ev.priority p ∈ t → p.urgency < 8 ∧ c.server = true := fun p g => hev p (List.mem_cons_of_mem _ g)
    unfold priorities at e
    cases e1 with
    | priority p =>
      obtain ⟨hp, hsv⟩ := hev p List.mem_cons_self
      dsimp only at e
      have h1 : OpOk (Conn.Op.hdrPri id p : Conn.Op Fld) := hp
      have h2 : LeavesClosed c (.hdrPri id p) := fun s g => h.opn hsv id s hb g
      have h3 : Allowed c (.hdrPri id p) := ⟨Conn.bidi_iff.1 hb, h0⟩
      obtain ⟨⟨c1, r⟩, e2, e3⟩ := Conn.bind_ok e
      have e' : Conn.step encode c (.hdrPri id p) = .ok (c1, r) := e2
      have hc1 := cinv_step h h1 h2 h3 (fun y g => by cases g) e'
      have hs1 := step_sameC h e'
      have hk : Keep c c1 id := keep_neutral h h1 trivial e' hb
      exact (Path.one h ⟨rfl, h1, h2, h3⟩ (fun k => by cases k) e' (dir_hdr g e2)).trans
        (ih hc1 (by rw [isSome_keep hk]; exact h0) (fun p g => ⟨(ht p g).1, by rw [hs1.1]; exact (ht p g).2⟩) e3)
    | _ => exact ih h h0 ht e

theorem readBidi_path (hP : ParOk P) {ep : Ep} (h : EInv G ep) {id : Nat} {src : Bytes} {fin : Bool} (hb : clientBidi id = true)
    {t : Conn.Strm Fld} (h0 : ep.c.str id = some t) {ep' : Ep} {r : Conn.Ret} {ev : List Ev} (e : readBidi P ep id src fin = .ok ep' r ev) (g : Bool) : Path false g false ep.c ep'.c := by
  have hrx := h.core.r.str id t hb h0
  rw [readBidi_eq rfl rfl rfl] at e
  have hrd := Bidi.recv_ok (c := cfg P ep.c id) hP (room ep.c ep.bq) fin { ep.rx id with priFixed := fixedPri ep.c id } ep.dec src (sinv_fixed hrx.inv _) hrx.hu
  rcases hrd with ⟨z, hrd⟩ | ⟨s', d', ev1, n, rest, hrd, ho⟩
  · rw [hrd] at e; cases e
  rw [hrd] at e
  unfold bidiOut at e
  dsimp only at e
  obtain ⟨p1, p2⟩ := priorities_ok h.core.c hb (by rw [h0]; rfl) ev1 ho.evs
  rcases e1 : priorities ep.c id ev1 with _ | _ | _ | c1 <;> rw [e1] at e <;> dsimp only [lift] at e
  · cases e
  · cases e
  · cases e
  obtain ⟨hc1, hs1, hk1⟩ := p2 c1 e1
  have hp := priorities_path h.core.c hb (by rw [h0]; rfl) ev1 ho.evs e1 g
  by_cases hbl : (!(ep.rx id).blocked && s'.blocked) = true
  · rw [if_pos hbl] at e
    rcases e2 : Conn.qpackBlock c1 id with _ | _ | _ | ⟨c2, r2⟩ <;> rw [e2] at e <;> dsimp only at e
    · cases e
    · cases e
    · cases e
    cases e
    rw [Bool.and_eq_true, Bool.not_eq_true'] at hbl
    have hq : t.qblocked = false := hrx.blk.symm.trans hbl.1
    obtain ⟨t1, g1, g2⟩ : ∃ t1, c1.str id = some t1 ∧ t1.qblocked = t.qblocked := by
      rcases hk1 id hb with ⟨k, _⟩ | ⟨s, s1, k1, k2, k3, k4⟩
      · rw [h0] at k; cases k
      · rw [h0] at k1; obtain rfl := Option.some.inj k1; exact ⟨s1, k2, k3⟩
    exact hp.trans (.one hc1 (o := .qpackBlock id) ⟨rfl, trivial, trivial, Conn.bidi_iff.1 hb, t1, g1, g2.trans hq⟩ (fun k => by cases k) e2 (dir_block g e2))
  · rw [if_neg hbl] at e
    cases e
    exact hp

theorem release_path (hP : ParOk P) (n : Nat) (f : Nat) {ep : Ep} (h : Core G ep) {ep' : Ep} {r : Conn.Ret} {ev : List Ev} (e : release P n f ep = .ok ep' r ev) :
    Path false false false ep.c ep'.c := by
  induction f generalizing ep ev with
  | zero => cases e
  | succ f ih =>
    unfold release at e
    rcases ht : ep.bq.top with _ | m <;> rw [ht] at e <;> dsimp only at e
    · cases e; exact .refl _
    by_cases hnx : ep.dec.ctx.next < (ep.rx m).sc.ricnt
    · rw [if_pos hnx] at e; cases e; exact .refl _
    rw [if_neg hnx] at e
    rcases hp : ep.bq.pop (ricntLess ep.rx) with _ | bq <;> rw [hp] at e <;> dsimp only at e
    · cases e
    rcases woken hP h ht hp hnx with ⟨z, hw⟩ | ⟨s', d', ev1, n', rest, hw, q1, q2⟩
    · rw [hw] at e; cases e
    rw [hw] at e
    dsimp only at e
    rcases e1 : priorities ep.c m ev1 with _ | _ | _ | c1 <;> rw [e1] at e <;> dsimp only [lift] at e
    · cases e
    · cases e
    · cases e
    obtain ⟨q3, q4⟩ := q2 c1 e1
    rcases e2 : Conn.qpackUnblock c1 m none s'.blocked with _ | _ | _ | ⟨c2, r2⟩ <;> rw [e2] at e <;> dsimp only at e
    · cases e
    · cases e
    · cases e
    have W := q4 c2 r2 e2
    obtain ⟨t, h0, hrx, hq⟩ := W.was
    have hp1 := priorities_path h.c W.bid (by rw [h0]; rfl) ev1 W.ok.evs e1 false
    obtain ⟨hc1, hs1, hk1⟩ := (priorities_ok h.c W.bid (by rw [h0]; rfl) ev1 W.ok.evs).2 c1 e1
    obtain ⟨t1, g1, g2⟩ : ∃ t1, c1.str m = some t1 ∧ t1.qblocked = t.qblocked := by
      rcases hk1 m W.bid with ⟨k, _⟩ | ⟨s, s1, k1, k2, k3, k4⟩
      · rw [h0] at k; cases k
      · rw [h0] at k1; obtain rfl := Option.some.inj k1; exact ⟨s1, k2, k3⟩
    have o1 : OpOk (Conn.Op.qpackUnblock m none s'.blocked : Conn.Op Fld) := ⟨W.bid, fun q g => by cases g⟩
    have o2 : LeavesClosed c1 (.qpackUnblock m none s'.blocked) := fun g => absurd rfl g
    have o3 : Allowed c1 (.qpackUnblock m none s'.blocked) := ⟨Conn.bidi_iff.1 W.bid, t1, g1, g2.trans hq⟩
    have hp2 : Path false false false c1 c2 := .one hc1 ⟨rfl, o1, o2, o3⟩ (fun k => by cases k) e2 (dir_unblock e2)
    generalize ho : release P n f _ = o at e
    rcases o with _ | _ | ⟨ep2, r2, ev2⟩
    · cases e
    · cases e
    dsimp only [Res.after] at e
    injection e with e3 e4 e5
    subst e3 e4
    exact (hp1.trans hp2).trans (ih W.core ho)

theorem readQenc_path (hP : ParOk P) {ep : Ep} (h : EInv G ep) (src : Bytes) (n : Nat) {ep' : Ep} {r : Conn.Ret} {ev : List Ev} (e : readQenc P ep src n = .ok ep' r ev) :
    Path false false false ep.c ep'.c := by
  unfold readQenc at e
  rcases Qpack.readEncoder_safe h.core.r.sys.dec src with ⟨d', h1, h2, h3⟩ | ⟨d', z, h1, _⟩
  · rw [h1] at e
    dsimp only at e
    obtain ⟨M, hM, hmem, hlen⟩ := h.core.q
    have hsys : SysOk d'.ctx.hardMax ⟨d', SCtx.init⟩ := ⟨h2.ctx, rfl, .inr h2, h.core.r.sys.str⟩
    exact release_path hP n _ (ep := { ep with dec := d' }) ⟨h.core.c, rinv_keep (fun _ => False) h.core.r hsys (fun x _ _ => ⟨.refl x, rfl⟩) (fun _ _ _ g => g.elim), ⟨M, hM, hmem, hlen⟩, h.core.k⟩ e
  · rw [h1] at e; cases e

theorem readQdec_path {ep : Ep} (src : Bytes) (n : Nat) {ep' : Ep} {r : Conn.Ret} {ev : List Ev} (e : readQdec ep src n = .ok ep' r ev) (g : Bool) :
    Path false g false ep.c ep'.c := by
  unfold readQdec at e
  rcases hd : ep.c.enc.readDecoder src with _ | _ | e1 <;> rw [hd] at e <;> dsimp only at e
  · cases e
  · cases e
  · cases e
    exact .enc (.refl _) (.inl ⟨src, hd⟩)

/-! ### the control stream -/

inductive Encs : Qpack.Enc → Qpack.Enc → Prop where
  | refl (a : Qpack.Enc) : Encs a a
  | snoc {a b c : Qpack.Enc} : Encs a b → FromPeer b c → Encs a c

theorem Path.encs {ctl g un : Bool} {a b : CC} (h : Path ctl g un a b) {e e' : Qpack.Enc} (hb : b.enc = e) (he : Encs e e') : Path ctl g un a { b with enc := e' } := by
  induction he with
  | refl => subst hb; exact h
  | snoc _ hf ih =>
    have k := Path.enc ih hf
    exact k

theorem entry_from {k k' : Control.Conn Ext} {i v : Nat} (e : Control.onEntry k i v = .ok k') : (k'.enc = k.enc ∨ FromPeer k.enc k'.enc) ∧ k'.goawayRecved = k.goawayRecved := by
  unfold Control.onEntry at e
  split_ifs at e
  all_goals
    injection e with e
    subst e
    first | exact ⟨.inl rfl, rfl⟩ | exact ⟨.inr (.inr (.inl ⟨_, rfl⟩)), rfl⟩ | exact ⟨.inr (.inr (.inr ⟨_, rfl⟩)), rfl⟩

/-- what the reader of the control stream has done so far -/
def CtlP (G : Bool × Settings) (ep : Ep) (k : Control.Conn Ext) : Prop :=
  CtlQ G ep k ∧ (∀ c rx, k.ext = some (c, rx) → Path false true false ep.c c ∧ c.enc = ep.c.enc) ∧ Encs ep.c.enc k.enc ∧
    (k.goawayRecved = ep.ctl.conn.goawayRecved ∨ k.goawayRecved = true)

theorem ctl_stableP (hP : ParOk P) (ep : Ep) : Control.StableP (env P) (CtlP G ep) where
  recved _ h := h
  rep _ _ h := h
  entry k i v k' h e := by
    refine ⟨(ctl_stable hP ep).entry k i v k' h.1 e, ?_, ?_, ?_⟩
    · obtain ⟨_, _, k3⟩ := entry_enc e h.1.2.1
      rw [k3]; exact h.2.1
    · rcases (entry_from e).1 with g | g
      · rw [g]; exact h.2.2.1
      · exact .snoc h.2.2.1 g
    · rw [(entry_from e).2]; exact h.2.2.2
  goaway _ _ h := ⟨h.1, h.2.1, h.2.2.1, .inr rfl⟩
  push _ _ h := h
  long _ h := h
  ext k i p y h hsv hi hp e := by
    refine ⟨(ctl_stable hP ep).ext k i p y h.1 hsv hi hp e, ?_, h.2.2⟩
    obtain ⟨⟨h1, h2, c, rx, h3, h4, h5, h6⟩, hv, _⟩ := h
    obtain ⟨hpt, hen⟩ := hv c rx h3
    intro c1 rx1 hy
    have hy : y = some (c1, rx1) := hy
    subst hy
    have e : onPri P k.ext i p = .ok (some (c1, rx1)) := e
    rw [h3] at e
    unfold onPri at e
    dsimp only at e
    have hsv' : c.server = true := by rw [h5.1, ← h1]; exact hsv
    have hu : p.urgency < 8 := by
      rcases hp with rfl | ⟨f, hp⟩
      · show 3 < 8; omega
      · exact hP ⟨3, false⟩ f p (by show 3 < 8; omega) hp
    have o1 : OpOk (Conn.Op.priUpd i p : Conn.Op Fld) := hu
    rcases e1 : Conn.onPriorityUpdate c i p with _ | _ | _ | ⟨c', r⟩
    · rw [e1] at e; cases e
    · rw [e1] at e; cases e
    · rw [e1] at e; cases e
    obtain ⟨z, rfl⟩ := pri_code e1
    rw [e1] at e
    dsimp only at e
    by_cases hz : z ≠ 0
    · rw [if_pos hz] at e; cases e
    rw [if_neg hz] at e
    injection e with e
    injection e with e
    obtain ⟨rfl, rfl⟩ := Prod.mk.inj e
    have e1' : Conn.step encode c (.priUpd i p) = .ok (c', .code z) := e1
    by_cases hb : clientBidi i = true
    · have o2 : LeavesClosed c (.priUpd i p) := fun s g => h4.opn hsv' i s hb g
      have o3 : Allowed c (.priUpd i p) := ⟨hsv', hi⟩
      exact ⟨.op hpt h4 ⟨rfl, o1, o2, o3⟩ (fun k => by cases k) e1' (dir_pri e1), (Conn.step_enc_same (fun _ _ _ k => by cases k) e1').trans hen⟩
    · have e1 : Conn.onPriorityUpdate c i p = .ok (c, .code Err.H3_ID_ERROR) := by
        unfold Conn.onPriorityUpdate
        rw [if_neg (by rw [hsv']; simp), if_pos (by rw [eq_false_of_ne_true hb]; simp)]
      rw [show Conn.onPriorityUpdate c i p = _ from e1'] at e1
      cases e1
      exact absurd (by decide) hz

/-- both views agree on whether a GOAWAY frame was received -/
def GoSync (ep : Ep) : Prop := ep.ctl.conn.goawayRecved = ep.c.goawayRecved

theorem readControl_path (hP : ParOk P) {ep : Ep} (h : EInv G ep) (hg : GoSync ep) (src : Bytes) (n : Nat) {ep' : Ep} {r : Conn.Ret} {ev : List Ev}
    (e : readControl P ep src n = .ok ep' r ev) : Path true true false ep.c ep'.c ∧ GoSync ep' := by
  obtain ⟨hi, hs⟩ := ctl_start h
  have hs' : Control.SB (CtlP G ep) (ctlStart ep) := ⟨⟨hs.1, fun c rx g => by
    have g : some (ep.c, ep.rx) = some (c, rx) := g
    injection g with g
    obtain ⟨rfl, rfl⟩ := Prod.mk.inj g
    exact ⟨.refl _, rfl⟩, .refl _, .inl rfl⟩, hs.2⟩
  have ho := Control.read_prs (ctl_stableP hP ep) (ctlStart ep) src hi hs'
  unfold readControl at e
  change (match Control.read (env P) (ctlStart ep) src with
    | .crash => Res.crash
    | .stop _ _ => Res.crash
    | .fail (e, k) => if k.ext.isNone then Res.crash else Res.fail e
    | .ok s => _) = _ at e
  rcases er : Control.read (env P) (ctlStart ep) src with _ | ⟨z, k⟩ | _ | s <;> rw [er] at ho e <;> dsimp only at e
  · cases e
  · split_ifs at e
  · cases e
  · rcases hx' : s.conn.ext with _ | ⟨c, rx⟩ <;> rw [hx'] at e <;> dsimp only at e
    · cases e
    · cases e
      obtain ⟨k1, k2, k3, k4⟩ := ho.1
      obtain ⟨hpt, hen⟩ := k2 c rx hx'
      obtain ⟨_, k5, c1, rx1, g1, g2, _⟩ := k1
      rw [hx'] at g1
      obtain ⟨rfl, rfl⟩ := Prod.mk.inj (Option.some.inj g1)
      refine ⟨?_, rfl⟩
      have hpt2 := (hpt.ctl (un := false) true).encs hen k3
      have hrc : c.goawayRecved = ep.c.goawayRecved := hpt.recved
      dsimp only
      by_cases hgo : s.conn.goawayRecved = c.goawayRecved
      · rw [hgo]; exact hpt2
      · have : s.conn.goawayRecved = true := k4.resolve_left fun k => hgo (k.trans (hg.trans hrc.symm))
        rw [this]
        exact .op hpt2 (g2.withEnc k5) (o := .recvGoaway) ⟨rfl, trivial, trivial, trivial⟩ (fun _ => rfl) rfl (fun x => by cases x <;> exact fun h => h)

theorem release_ctl (n : Nat) (f : Nat) {ep ep' : Ep} {r : Conn.Ret} {ev : List Ev} (e : release P n f ep = .ok ep' r ev) : ep'.ctl = ep.ctl := by
  induction f generalizing ep ev with
  | zero => cases e
  | succ f ih =>
    unfold release at e
    rcases ht : ep.bq.top with _ | m <;> rw [ht] at e <;> dsimp only at e
    · cases e; rfl
    by_cases hnx : ep.dec.ctx.next < (ep.rx m).sc.ricnt
    · rw [if_pos hnx] at e; cases e; rfl
    rw [if_neg hnx] at e
    rcases hp : ep.bq.pop (ricntLess ep.rx) with _ | bq <;> rw [hp] at e <;> dsimp only at e
    · cases e
    generalize Bidi.processBlocked _ _ _ _ = o at e
    rcases o with _ | _ | ⟨s', d', ev1, n', rest⟩ <;> dsimp only at e
    · cases e
    · cases e
    rcases e1 : priorities ep.c m ev1 with _ | _ | _ | c1 <;> rw [e1] at e <;> dsimp only [lift] at e
    · cases e
    · cases e
    · cases e
    rcases e2 : Conn.qpackUnblock c1 m none s'.blocked with _ | _ | _ | ⟨c2, r2⟩ <;> rw [e2] at e <;> dsimp only at e
    · cases e
    · cases e
    · cases e
    generalize ho : release P n f _ = o at e
    rcases o with _ | _ | ⟨ep2, r2, ev2⟩
    · cases e
    · cases e
    dsimp only [Res.after] at e
    injection e with e3 e4 e5
    subst e3 e4
    exact (ih ho).trans rfl

theorem readQenc_ctl {ep ep' : Ep} {src : Bytes} {n : Nat} {r : Conn.Ret} {ev : List Ev} (e : readQenc P ep src n = .ok ep' r ev) : ep'.ctl = ep.ctl := by
  unfold readQenc at e
  split at e
  · cases e
  · cases e
  · exact (release_ctl _ _ e).trans rfl

theorem readQdec_ctl {ep ep' : Ep} {src : Bytes} {n : Nat} {r : Conn.Ret} {ev : List Ev} (e : readQdec ep src n = .ok ep' r ev) : ep'.ctl = ep.ctl := by
  unfold readQdec at e
  split at e
  · cases e
  · cases e
  · cases e; rfl

theorem readBidi_ctl {ep ep' : Ep} {id : Nat} {src : Bytes} {fin : Bool} {r : Conn.Ret} {ev : List Ev} (e : readBidi P ep id src fin = .ok ep' r ev) : ep'.ctl = ep.ctl := by
  unfold readBidi at e
  dsimp only at e
  generalize Bidi.readStream _ _ _ _ _ _ = o at e
  rcases o with _ | _ | ⟨s', d', ev1, n, rest⟩ <;> dsimp only at e
  · cases e
  · cases e
  rcases e1 : priorities ep.c id ev1 with _ | _ | _ | c1 <;> rw [e1] at e <;> dsimp only [lift] at e
  · cases e
  · cases e
  · cases e
  split_ifs at e
  · rcases e2 : Conn.qpackBlock c1 id with _ | _ | _ | ⟨c2, r2⟩ <;> rw [e2] at e <;> dsimp only at e
    · cases e
    · cases e
    · cases e
    cases e; rfl
  · cases e; rfl

theorem readUni_path (hP : ParOk P) {ep : Ep} (h : EInv G ep) (hg : GoSync ep) {id : Nat} {src : Bytes} {fin : Bool} (hp : Conn.peerUni ep.c.server id) (h0 : (ep.c.str id).isSome = true)
    {ep' : Ep} {r : Conn.Ret} {ev : List Ev} (e : readUni P ep id src fin = .ok ep' r ev) : (∃ m, Path true true true ep.c m ∧ Path true false true m ep'.c) ∧ GoSync ep' := by
  unfold readUni at e
  have o3 : Allowed ep.c (.uni id src fin) := ⟨hp, h0⟩
  rcases e1 : Conn.readUni ep.c id src fin with _ | _ | _ | ⟨c', r1⟩ <;> rw [e1] at e <;> dsimp only [lift] at e
  · cases e
  · cases e
  · cases e
  have e' : Conn.step encode ep.c (.uni id src fin) = .ok (c', r1) := e1
  have hs := step_sameC h.core.c e'
  have hc := cinv_step h.core.c (o := .uni id src fin) trivial trivial o3 (fun y g => by cases g) e'
  have h1 : EInv G { ep with c := c' } := einv_keep h hc hs (fun x hx => keep_neutral h.core.c (o := .uni id src fin) trivial trivial e' hx) (.refl _)
  have hrd : Received ep.c (.uni id src fin) := ⟨rfl, trivial, trivial, o3⟩
  obtain ⟨d1, d2⟩ := dir_uni e1
  have hg' : GoSync { ep with c := c' } := hg.trans (step_recved h.core.c (fun k => by cases k) e').symm
  have st : Path true false true ep.c c' := .one h.core.c hrd (fun k => by cases k) e' d1
  cases r1 with
  | code z => dsimp only at e; split_ifs at e; cases e; exact ⟨⟨_, .refl _, st⟩, hg'⟩
  | vecs v => exact absurd e1 uni_novecs
  | discard m stop => dsimp only at e; cases e; exact ⟨⟨_, .refl _, st⟩, hg'⟩
  | route q =>
    rcases q with _ | ⟨t, y⟩
    · dsimp only at e; cases e; exact ⟨⟨_, .refl _, st⟩, hg'⟩
    have st' : Path true true true ep.c c' := .one h.core.c hrd (fun k => by cases k) e' (d2 t y rfl)
    cases t with
    | unknown => cases e
    | push => cases e
    | control =>
      obtain ⟨k1, k2⟩ := readControl_path hP h1 hg' y _ e
      exact ⟨⟨_, st'.trans k1.any, .refl _⟩, k2⟩
    | qenc =>
      have k := readQenc_path hP h1 y _ e
      exact ⟨⟨_, st', k.ctl true⟩, (congrArg (fun t : Control.St Ext => t.conn.goawayRecved) (readQenc_ctl e)).trans (hg'.trans k.recved.symm)⟩
    | qdec =>
      have k := readQdec_path y _ e false
      exact ⟨⟨_, st', k.ctl true⟩, (congrArg (fun t : Control.St Ext => t.conn.goawayRecved) (readQdec_ctl e)).trans (hg'.trans k.recved.symm)⟩

theorem rest_path (hP : ParOk P) {ep : Ep} (h : EInv G ep) (hg : GoSync ep) {id : Nat} {src : Bytes} {fin : Bool} (h0 : (ep.c.str id).isSome = true)
    (hb : streamUni id = false → clientBidi id = true) (hp : streamUni id = true → Conn.peerUni ep.c.server id)
    {ep' : Ep} {r : Conn.Ret} {ev : List Ev} (e : rest P ep id src fin = .ok ep' r ev) : (∃ m, Path true true true ep.c m ∧ Path true false true m ep'.c) ∧ GoSync ep' := by
  unfold rest at e
  by_cases h1 : (src.isEmpty && !fin) = true
  · rw [if_pos h1] at e
    cases e
    exact ⟨⟨_, .refl _, .refl _⟩, hg⟩
  rw [if_neg h1] at e
  by_cases h2 : streamUni id = true
  · rw [if_pos h2] at e
    exact readUni_path hP h hg (hp h2) h0 e
  · rw [if_neg h2] at e
    obtain ⟨t, ht⟩ := Option.isSome_iff_exists.1 h0
    have k := readBidi_path hP h (hb (by simpa using h2)) ht e false
    exact ⟨⟨_, .refl _, k.ctl true⟩, (congrArg (fun t : Control.St Ext => t.conn.goawayRecved) (readBidi_ctl e)).trans (hg.trans k.recved.symm)⟩

/-- What nghttp3_conn_read_stream does to the sending side of the connection: first operations that may add streams, then operations that may
remove streams. -/
theorem read_path (hP : ParOk P) {ep : Ep} (h : EInv G ep) (hg : GoSync ep) {id : Nat} {src : Bytes} {fin : Bool} (hid : id < 2 ^ 62) (hown : ¬ Conn.ownUni ep.c.server id)
    {ep' : Ep} {r : Conn.Ret} {ev : List Ev} (e : read P ep id src fin = .ok ep' r ev) : (∃ m, Path true true true ep.c m ∧ Path true false true m ep'.c) ∧ GoSync ep' := by
  rw [read_eq] at e
  rcases e1 : Conn.openStream ep.c id (src.isEmpty && fin) with _ | _ | _ | ⟨c', r1⟩ <;> rw [e1] at e <;> dsimp only [lift] at e
  · cases e
  · cases e
  · cases e
  obtain ⟨z, rfl⟩ := open_code e1
  dsimp only at e
  by_cases hz : z ≠ 0
  · rw [if_pos hz] at e; cases e
  rw [if_neg hz] at e
  obtain rfl : z = 0 := by simpa using hz
  have e1' : Conn.step encode ep.c (.open id (src.isEmpty && fin)) = .ok (c', .code 0) := e1
  have hp1 : Path true true true ep.c c' := .one h.core.c (o := .open id (src.isEmpty && fin)) ⟨rfl, trivial, trivial, hid, hown⟩ (fun k => by cases k) e1' (dir_open e1)
  have hg' : ep.ctl.conn.goawayRecved = c'.goawayRecved := hg.trans (step_recved h.core.c (fun k => by cases k) e1').symm
  by_cases hno : (c'.str id).isNone = true
  · rw [if_pos hno] at e
    cases e
    exact ⟨⟨_, hp1, .refl _⟩, hg'⟩
  rw [if_neg hno] at e
  have hsome := isSome_of_not hno
  have h1 : EInv G (opened P ep id c') := opened_einv h hid hown e1 hsome
  generalize ho : rest P (opened P ep id c') id src fin = o at e
  rcases o with _ | _ | ⟨ep2, r2, ev2⟩
  · cases e
  · cases e
  dsimp only [Res.after] at e
  injection e with e3 e4 e5
  subst e3 e4 e5
  obtain ⟨⟨m, k1, k2⟩, k3⟩ := rest_path hP h1 hg' hsome (open_kind e1) (opened_uni hown h e1) ho
  exact ⟨⟨m, hp1.trans k1, k2⟩, k3⟩

theorem step_op {ep ep' : Ep} {o : Call} {op : Conn.Op Fld} (ho : opOn ep o = some op) {r : Conn.Ret} {ev : List Ev} (e : step P ep o = .ok ep' r ev) :
    Conn.step encode ep.c op = .ok (ep'.c, r) ∧ ep'.ctl = ep.ctl := by
  have plain : ∀ {q : Conn.Op Fld}, plain ep q = .ok ep' r ev → Conn.step encode ep.c q = .ok (ep'.c, r) ∧ ep'.ctl = ep.ctl := by
    intro q e
    unfold Endpoint.plain at e
    rcases e1 : Conn.step encode ep.c q with _ | _ | _ | ⟨c', r1⟩ <;> rw [e1] at e <;> dsimp only [lift] at e
    · cases e
    · cases e
    · cases e
    cases e
    exact ⟨rfl, rfl⟩
  cases o with
  | read a b c => cases ho
  | setMaxConc n => cases ho
  | submitRequest id nva dr =>
    cases ho
    change submitRequest P ep id nva dr = _ at e
    unfold submitRequest at e
    change _ = _ ∧ _
    rcases e1 : Conn.submitRequest ep.c id (id, nva) dr with _ | _ | _ | ⟨c', r1⟩ <;> rw [e1] at e <;> dsimp only [lift] at e
    · cases e
    · cases e
    · cases e
    cases e
    exact ⟨e1, rfl⟩
  | close id =>
    cases ho
    change close ep id = _ at e
    unfold close at e
    rcases e1 : Conn.closeStream ep.c id with _ | _ | _ | ⟨c', r1⟩ <;> rw [e1] at e <;> dsimp only [lift] at e
    · cases e
    · cases e
    · cases e
    split_ifs at e
    · generalize Bidi.closeStream _ _ = q at e
      rcases q with _ | _ | _ <;> cases e
      exact ⟨e1, rfl⟩
    · cases e; exact ⟨e1, rfl⟩
  | shutRd id =>
    cases ho
    change shutRd ep id = _ at e
    unfold shutRd at e
    rcases e1 : Conn.shutdownRead ep.c id with _ | _ | _ | ⟨c', r1⟩ <;> rw [e1] at e <;> dsimp only [lift] at e
    · cases e
    · cases e
    · cases e
    split_ifs at e
    · cases e; exact ⟨e1, rfl⟩
    · cases e; exact ⟨e1, rfl⟩
    all_goals
      generalize ep.dec.cancelStream id = q at e
      rcases q with _ | d <;> cases e
      exact ⟨e1, rfl⟩
  | writev k as =>
    cases ho
    change writev ep k as = _ at e
    unfold writev at e
    rcases e1 : Conn.writevStream encode ep.c k ep.dec.writeDecoder.2 as with _ | _ | _ | ⟨c', r1⟩ <;> rw [e1] at e <;> dsimp only [lift] at e
    · cases e
    · cases e
    · cases e
    cases e
    exact ⟨e1, rfl⟩
  | _ => cases ho; exact plain e

end Endpoint
end Nghttp3
