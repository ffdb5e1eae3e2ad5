import Verif.Lemmas.EndpointSame2
import Verif.Lemmas.BidiExec
/-! A call of nghttp3_conn_read_stream on a request stream and the same bytes given in two calls. -/
namespace Nghttp3
namespace Endpoint
open Outq (R Ans)
open Conn (clientBidi streamUni)
open Qpack (Dec SCtx)

variable {G : Bool × Settings} {P : Par}

/-! ### the stream -/

theorem aRecv_room (k : Bidi.Cfg) (R R' fin : Bool) (s : Bidi.Str) (d : Dec) (y : Bytes) (h : s.blocked = true) :
    Bidi.aRecv k R fin s d y = Bidi.aRecv k R' fin s d y := by
  unfold Bidi.aRecv
  dsimp only
  rw [if_pos h, if_pos h]

theorem recv_blocked (k : Bidi.Cfg) (R fin : Bool) (s : Bidi.Str) (d : Dec) (y : Bytes) (h : s.blocked = true) {s' : Bidi.Str} {d' : Dec} {ev : List Bidi.Ev} {n : Nat}
    {r : Bytes} (e : Bidi.readStream k R fin s d y = .ok s' d' ev n r) : ev = [] := by
  have h1 : ∀ t : Bidi.Str, t.blocked = true → Bidi.readBidi k R fin t d y = .ok s' d' ev n r → ev = [] := by
    intro t ht g
    unfold Bidi.readBidi at g
    rw [if_pos ht] at g
    split_ifs at g <;> cases g <;> rfl
  unfold Bidi.readStream at e
  split_ifs at e
  · cases e; rfl
  · refine h1 _ ?_ e; exact h
  · exact h1 _ h e

/-- two calls on a stream -/
structure Two (k : Bidi.Cfg) (R R1 fin : Bool) (s : Bidi.Str) (d : Dec) (x y : Bytes) (s1 : Bidi.Str) (d1 : Dec) (ev1 : List Bidi.Ev) (n1 : Nat)
    (s2 : Bidi.Str) (d2 : Dec) (ev : List Bidi.Ev) (n : Nat) (t2 : Bidi.Str) (ev2 : List Bidi.Ev) (n2 : Nat) : Prop where
  whole : ∃ r, Bidi.readStream k R fin s d (x ++ y) = .ok s2 d2 ev n r
  snd : ∃ r, Bidi.readStream k R1 fin s1 d1 y = .ok t2 d2 ev2 n2 r
  canon : s2.canon = t2.canon
  obs : Bidi.obs ev = Bidi.obs ev1 ++ Bidi.obs ev2
  num : n = n1 + n2
  df : Bidi.deferredLen ev = 0 ∧ Bidi.deferredLen ev2 = 0
  ok : Bidi.RecvOk k R s d s2 d2 ev
  ok2 : Bidi.RecvOk k R1 s1 d1 t2 d2 ev2
  idle : s1.blocked = true → ev2 = [] ∧ d2 = d1

theorem recv_same_dec (k : Bidi.Cfg) (R fin : Bool) (s : Bidi.Str) (d : Dec) (y : Bytes) (h : s.blocked = true) {s' : Bidi.Str} {d' : Dec} {ev : List Bidi.Ev} {n : Nat}
    {r : Bytes} (e : Bidi.readStream k R fin s d y = .ok s' d' ev n r) : d' = d := by
  have h1 : ∀ t : Bidi.Str, t.blocked = true → Bidi.readBidi k R fin t d y = .ok s' d' ev n r → d' = d := by
    intro t ht g
    unfold Bidi.readBidi at g
    rw [if_pos ht] at g
    split_ifs at g <;> cases g <;> rfl
  unfold Bidi.readStream at e
  split_ifs at e
  · cases e; rfl
  · refine h1 _ ?_ e; exact h
  · exact h1 _ h e

theorem recv_cut (k : Bidi.Cfg) (hpp : Bidi.PpOk k.pp) (R fin : Bool) (s : Bidi.Str) (d : Dec) (x y : Bytes) (hs : Bidi.SInv s d) (hu : Bidi.HU s.http) :
    (∃ e, Bidi.readStream k R false s d x = .fail e ∧ Bidi.readStream k R fin s d (x ++ y) = .fail e) ∨
    ∃ s1 d1 ev1 n1 r1, Bidi.readStream k R false s d x = .ok s1 d1 ev1 n1 r1 ∧ Bidi.RecvOk k R s d s1 d1 ev1 ∧ s1.priFixed = s.priFixed ∧ Bidi.deferredLen ev1 = 0 ∧
      ∀ R1, (s1.blocked = true ∨ R1 = R) →
        (∃ e, Bidi.readStream k R fin s d (x ++ y) = .fail e ∧ Bidi.readStream k R1 fin s1 d1 y = .fail e) ∨
        ∃ s2 d2 ev n t2 ev2 n2, Two k R R1 fin s d x y s1 d1 ev1 n1 s2 d2 ev n t2 ev2 n2 := by
  have hw := Bidi.recv_sim k R fin s d (x ++ y) hs
  have h1 := Bidi.recv_sim k R false s d x hs
  have k1 := Bidi.readStream_kp hpp R false s d x hu
  have o1 := Bidi.recv_ok (c := k) hpp R false s d x hs hu
  have hi : Bidi.Inv s.canon d := Bidi.inv_of (s := s.norm) hs.inv.norm rfl rfl rfl rfl rfl
  rw [Bidi.aRecv_append k R fin s.canon d x y hi] at hw
  have df1 := recv_nodef k R false s d x hs
  rcases ha : Bidi.aRecv k R false s.canon d x with _ | e | ⟨sa, da, oa, na, ra⟩ <;> rw [ha] at h1 hw <;> dsimp only at hw
  · exact h1.elim
  · exact .inl ⟨e, h1, hw⟩
  obtain ⟨s1, ev1, n1, r1, a1, a2, a3, a4, _, a6, _⟩ := h1
  rw [a1] at k1 df1
  rcases o1 with ⟨e, g⟩ | ⟨_, _, _, _, _, g, o1⟩
  · rw [a1] at g; cases g
  rw [a1] at g
  cases g
  have df1 := df1 rfl
  refine .inr ⟨s1, da, ev1, n1, r1, a1, o1, k1.1, df1, fun R1 hR => ?_⟩
  have h2 := Bidi.recv_sim k R1 fin s1 da y a6
  have ow := Bidi.recv_ok (c := k) hpp R fin s d (x ++ y) hs hu
  have o2 := Bidi.recv_ok (c := k) hpp R1 fin s1 da y a6 k1.2.1
  have dfw := recv_nodef k R fin s d (x ++ y) hs
  have df2 := recv_nodef k R1 fin s1 da y a6
  have hroom : Bidi.aRecv k R1 fin s1.canon da y = Bidi.aRecv k R fin s1.canon da y := by
    rcases hR with hR | hR
    · exact aRecv_room k R1 R fin _ da y ((Bidi.canon_flags s1).1.trans hR)
    · rw [hR]
  rw [hroom, a2] at h2
  rcases hb : Bidi.aRecv k R fin sa da y with _ | e | ⟨sb, db, ob, nb, rb⟩ <;> rw [hb] at h2 hw <;> dsimp only [Bidi.ARes.shift] at hw
  · exact h2.elim
  · exact .inl ⟨e, hw, h2⟩
  obtain ⟨t2, ev2, n2, r2, b1, b2, b3, b4, _, b6, _⟩ := h2
  obtain ⟨s2, ev, n, r, c1, c2, c3, c4, _, c6, _⟩ := hw
  rcases ow with ⟨e, g⟩ | ⟨_, _, _, _, _, g, ow⟩
  · rw [c1] at g; cases g
  rw [c1] at g; cases g
  rcases o2 with ⟨e, g⟩ | ⟨_, _, _, _, _, g, o2⟩
  · rw [b1] at g; cases g
  rw [b1] at g; cases g
  have dfw := dfw c1
  have df2 := df2 b1
  refine .inr ⟨s2, db, ev, n, t2, ev2, n2, ⟨r, c1⟩, ⟨r2, b1⟩, c2.trans b2.symm, ?_, ?_, ⟨dfw, df2⟩, ow, o2, fun g => ⟨recv_blocked k R1 fin s1 da y g b1, recv_same_dec k R1 fin s1 da y g b1⟩⟩
  · rw [c3, a3, b3]
  · omega

/-! ### the connection -/

theorem upd_fixed {c : CC} {id : Nat} {s s' : Conn.Strm Fld} (h0 : c.str id = some s) (h : s'.priUpd = s.priUpd ∧ s'.srvPri = s.srvPri) :
    fixedPri (c.set id s') id = fixedPri c id := by
  unfold fixedPri
  rw [Conn.set_str, h0]
  dsimp only
  rw [h.1, h.2]

theorem fixedPri_eq {c c' : CC} {id : Nat} {s s' : Conn.Strm Fld} (h0 : c.str id = some s) (h1 : c'.str id = some s') (h : s'.priUpd = s.priUpd ∧ s'.srvPri = s.srvPri) :
    fixedPri c' id = fixedPri c id := by
  unfold fixedPri
  rw [h1, h0]
  dsimp only
  rw [h.1, h.2]

theorem hdr_fixed {c c' : CC} {id : Nat} {p : Http.Pri} {r : Conn.Ret} (e : Conn.onHeaderPriority c id p = .ok (c', r)) : fixedPri c' id = fixedPri c id := by
  unfold Conn.onHeaderPriority at e
  rcases h0 : c.str id with _ | s <;> rw [h0] at e
  · cases e
  dsimp only at e
  by_cases hc : (c.server && !s.priUpd && !s.srvPri) = true
  · rw [if_pos hc] at e
    obtain ⟨c1, e1, e2⟩ := Conn.bind_ok e
    cases e2
    unfold Conn.updatePriority at e1
    by_cases h1 : (!clientBidi id) = true
    · rw [if_pos h1] at e1; cases e1
    rw [if_neg h1] at e1
    by_cases h2 : s.pri = p
    · rw [if_pos h2] at e1
      cases e1
      exact upd_fixed h0 ⟨rfl, rfl⟩
    rw [if_neg h2] at e1
    obtain ⟨c2, _, e3⟩ := Conn.bind_ok e1
    dsimp only at e3
    by_cases h3 : Conn.requireSchedule { s with sched := false, pri := p } = true
    · rw [if_pos h3] at e3
      unfold Conn.scheduleStream at e3
      dsimp only at e3
      split_ifs at e3
      split at e3
      · cases e3
      · cases e3
        exact fixedPri_eq h0 (Conn.set_str ..) ⟨rfl, rfl⟩
    · rw [if_neg h3] at e3
      cases e3
      exact fixedPri_eq h0 (Conn.set_str ..) ⟨rfl, rfl⟩
  · rw [if_neg hc] at e
    cases e; rfl

theorem prO_fixed {c c' : CC} {id : Nat} (o : List Bidi.Obs) (e : prO c id o = .ok c') : fixedPri c' id = fixedPri c id := by
  induction o generalizing c with
  | nil => cases e; rfl
  | cons a t ih =>
    cases a with
    | priority p =>
      obtain ⟨r, e1, e2⟩ := Conn.bind_ok e
      exact (ih e2).trans (hdr_fixed e1)
    | _ => exact ih e

theorem block_fixed {c c' : CC} {id : Nat} {r : Conn.Ret} (e : Conn.qpackBlock c id = .ok (c', r)) : fixedPri c' id = fixedPri c id := by
  unfold Conn.qpackBlock at e
  rcases h0 : c.str id with _ | s <;> rw [h0] at e
  · cases e
  dsimp only at e
  split_ifs at e
  cases e
  exact upd_fixed h0 ⟨rfl, rfl⟩

theorem upd_upd (f : Nat → Bidi.Str) (id : Nat) (s s' : Bidi.Str) : PQ.upd (PQ.upd f id s) id s' = PQ.upd f id s' := by
  funext x
  unfold PQ.upd
  split_ifs <;> rfl

theorem push_sc {rx : Nat → Bidi.Str} (bq : PQ Nat) (id : Nat) {s s' : Bidi.Str} (h : s.sc = s'.sc) :
    bq.push (ricntLess (PQ.upd rx id s)) id = bq.push (ricntLess (PQ.upd rx id s')) id := by
  have : ricntLess (PQ.upd rx id s) = ricntLess (PQ.upd rx id s') := by
    funext x y
    have hu : ∀ z, (PQ.upd rx id s z).sc = (PQ.upd rx id s' z).sc := by
      intro z
      unfold PQ.upd
      split_ifs
      · exact h
      · rfl
    unfold ricntLess
    rw [hu, hu]
  rw [this]

/-- the result of one call, and that of the second of two calls -/
def Join (n1 : Int) (ev1 : List Ev) : Res → Res → Prop
  | .fail e, .fail e' => e = e'
  | .ok b r ev, .ok b' r2 ev2 => Eqv b b' ∧ (∃ n2, r2 = .code n2 ∧ r = .code (n1 + n2)) ∧ EvSame ev (ev1 ++ ev2)
  | _, _ => False

/-- one call, and two calls -/
def Split (id : Nat) (o : Res) (o1 : Res) (k : Ep → Res) : Prop :=
  match o1 with
  | .fail e => o = .fail e
  | .ok a1 r1 ev1 => (a1.c.str id).isSome = true ∧ ∃ n1, r1 = .code n1 ∧ Join n1 ev1 o (k a1)
  | .crash => False

theorem evSame_cut (id : Nat) {ev ev1 ev2 : List Bidi.Ev} (h : Bidi.obs ev = Bidi.obs ev1 ++ Bidi.obs ev2) (h0 : Bidi.deferredLen ev = 0) (h1 : Bidi.deferredLen ev1 = 0)
    (h2 : Bidi.deferredLen ev2 = 0) : EvSame (ev.map (Ev.str id)) (ev1.map (Ev.str id) ++ ev2.map (Ev.str id)) := by
  refine ⟨?_, fun y => ?_⟩
  · rw [List.flatMap_append, seen_str, seen_str, seen_str, h, List.map_append]
  · rw [List.map_append, List.sum_append, deferred_str, deferred_str, deferred_str, h0, h1, h2]
    split_ifs <;> rfl

theorem bind_total {α β : Type} {r : R α} {k : α → R β} (h : r = .crash ∨ ∃ a, r = .ok a) (hk : ∀ a, k a = .crash ∨ ∃ b, k a = .ok b) :
    r.bind k = .crash ∨ ∃ b, r.bind k = .ok b := by
  rcases h with h | ⟨a, h⟩ <;> rw [h]
  · exact .inl rfl
  · exact hk a

theorem schedule_total (c : CC) (id : Nat) (s : Conn.Strm Fld) : Conn.scheduleStream c id s = .crash ∨ ∃ r, Conn.scheduleStream c id s = .ok r := by
  unfold Conn.scheduleStream
  split_ifs
  · exact .inl rfl
  · split
    · exact .inl rfl
    · exact .inr ⟨_, rfl⟩

theorem unschedule_total (c : CC) (id : Nat) (s : Conn.Strm Fld) : Conn.unscheduleStream c id s = .crash ∨ ∃ r, Conn.unscheduleStream c id s = .ok r := by
  unfold Conn.unscheduleStream
  split_ifs
  · exact .inl rfl
  · exact .inr ⟨_, rfl⟩
  · split
    · exact .inl rfl
    · exact .inr ⟨_, rfl⟩

theorem hdr_total (c : CC) (id : Nat) (p : Http.Pri) : Conn.onHeaderPriority c id p = .crash ∨ ∃ r, Conn.onHeaderPriority c id p = .ok r := by
  unfold Conn.onHeaderPriority
  rcases c.str id with _ | s
  · exact .inl rfl
  dsimp only
  by_cases hc : (c.server && !s.priUpd && !s.srvPri) = true
  · rw [if_pos hc]
    refine bind_total ?_ fun a => .inr ⟨_, rfl⟩
    unfold Conn.updatePriority
    by_cases h1 : (!clientBidi id) = true
    · rw [if_pos h1]; exact .inl rfl
    rw [if_neg h1]
    by_cases h2 : s.pri = p
    · rw [if_pos h2]; exact .inr ⟨_, rfl⟩
    rw [if_neg h2]
    refine bind_total (unschedule_total ..) fun a => ?_
    dsimp only
    split_ifs
    · exact schedule_total ..
    · exact .inr ⟨_, rfl⟩
  · rw [if_neg hc]; exact .inr ⟨_, rfl⟩

theorem prO_total (c : CC) (id : Nat) (o : List Bidi.Obs) : prO c id o = .crash ∨ ∃ r, prO c id o = .ok r := by
  induction o generalizing c with
  | nil => exact .inr ⟨c, rfl⟩
  | cons a t ih =>
    cases a with
    | priority p =>
      show (Conn.onHeaderPriority c id p).bind _ = _ ∨ ∃ r, (Conn.onHeaderPriority c id p).bind _ = _
      rcases hdr_total c id p with h | ⟨r, h⟩ <;> rw [h]
      · exact .inl rfl
      · exact ih r.1
    | _ => exact ih c

theorem block_total (c : CC) (id : Nat) : Conn.qpackBlock c id = .crash ∨ ∃ c', Conn.qpackBlock c id = .ok (c', .code 0) := by
  unfold Conn.qpackBlock
  rcases c.str id with _ | s
  · exact .inl rfl
  · dsimp only
    split_ifs
    · exact .inl rfl
    · exact .inr ⟨_, rfl⟩

/-- what nghttp3_conn_read_stream does with the outcome of nghttp3_conn_read_bidi -/
def bidiOut (ep : Ep) (id : Nat) (b : Bool) : Bidi.Out → Res
  | .crash => .crash
  | .fail e => .fail e
  | .ok s' d' ev n _ =>
    lift (priorities ep.c id ev) fun c =>
      if !b && s'.blocked then
        lift (Conn.qpackBlock c id) fun r =>
          .ok { ep with c := r.1, rx := PQ.upd ep.rx id s', dec := d', bq := ep.bq.push (ricntLess (PQ.upd ep.rx id s')) id } (.code n) (ev.map (.str id))
      else .ok { ep with c := c, rx := PQ.upd ep.rx id s', dec := d' } (.code n) (ev.map (.str id))

theorem readBidi_eq {ep : Ep} {id : Nat} {s : Bidi.Str} {k : Bidi.Cfg} {R : Bool} (hs : { ep.rx id with priFixed := fixedPri ep.c id } = s)
    (hk : cfg P ep.c id = k) (hR : room ep.c ep.bq = R) (src : Bytes) (fin : Bool) :
    readBidi P ep id src fin = bidiOut ep id s.blocked (Bidi.readStream k R fin s ep.dec src) := by
  subst hs hk hR
  unfold readBidi bidiOut
  dsimp only
  generalize Bidi.readStream (cfg P ep.c id) (room ep.c ep.bq) fin { ep.rx id with priFixed := fixedPri ep.c id } ep.dec src = o
  cases o <;> rfl

theorem bidiOut_ok (ep : Ep) (id : Nat) (b : Bool) (s' : Bidi.Str) (d' : Dec) (ev : List Bidi.Ev) (n : Nat) (r : Bytes) :
    bidiOut ep id b (.ok s' d' ev n r) = lift (prO ep.c id (Bidi.obs ev)) fun c =>
      if !b && s'.blocked then
        lift (Conn.qpackBlock c id) fun r =>
          .ok { ep with c := r.1, rx := PQ.upd ep.rx id s', dec := d', bq := ep.bq.push (ricntLess (PQ.upd ep.rx id s')) id } (.code n) (ev.map (.str id))
      else .ok { ep with c := c, rx := PQ.upd ep.rx id s', dec := d' } (.code n) (ev.map (.str id)) := by
  rw [← prO_eq]; rfl

theorem readBidi_cut (hP : ParOk P) {a : Ep} (ha : EInv G a) {id : Nat} (hb : clientBidi id = true) {t : Conn.Strm Fld} (h0 : a.c.str id = some t)
    (x y : Bytes) (fin : Bool) : Split id (readBidi P a id (x ++ y) fin) (readBidi P a id x false) (fun a1 => readBidi P a1 id y fin) := by
  have hg1 := readBidi_good hP ha (src := x) (fin := false) hb h0
  have hgw := readBidi_good hP ha (src := x ++ y) (fin := fin) hb h0
  have hrx := ha.core.r.str id t hb h0
  have hci := ha.core.c
  have hqa := ha.lite.hdr
  obtain ⟨c, rx, bq, dec, ctl⟩ := a
  dsimp only at *
  have hcut := recv_cut (cfg P c id) hP (room c bq) fin { rx id with priFixed := fixedPri c id } dec x y (sinv_fixed hrx.inv _) hrx.hu
  rw [readBidi_eq rfl rfl rfl] at hg1 hgw
  rw [readBidi_eq rfl rfl rfl, readBidi_eq (ep := ⟨c, rx, bq, dec, ctl⟩) (src := x) rfl rfl rfl]
  dsimp only at *
  rcases hcut with ⟨e, g1, g2⟩ | ⟨s1, d1, ev1, n1, r1, g1, ok1, g2, g3, g4⟩
  · rw [g1, g2]; rfl
  rw [g1] at hg1 ⊢
  rw [bidiOut_ok] at hg1 ⊢
  dsimp only at hg1 ⊢ g2
  obtain ⟨p1, p2⟩ := priorities_ok hci hb (by rw [h0]; rfl) ev1 ok1.evs
  rw [prO_eq] at p1 p2
  rcases prO_total c id (Bidi.obs ev1) with e1 | ⟨c1, e1⟩
  · exact absurd e1 p1
  obtain ⟨hc1, hs1, hk1⟩ := p2 c1 e1
  have hfix : fixedPri c1 id = fixedPri c id := prO_fixed _ e1
  rw [e1] at hg1 ⊢
  dsimp only [lift] at hg1 ⊢
  have hcfg : ∀ c' : CC, SameC c c' → cfg P c' id = cfg P c id := fun c' g => by unfold cfg; rw [g.1, g.2]
  by_cases hbl : (!(rx id).blocked && s1.blocked) = true
  · -- the first call blocks
    rw [if_pos hbl] at hg1 ⊢
    have hbl' := hbl
    rw [Bool.and_eq_true, Bool.not_eq_true'] at hbl'
    rcases block_total c1 id with e2 | ⟨c2, e2⟩
    · rw [e2] at hg1; exact hg1.elim
    rw [e2] at hg1 ⊢
    dsimp only at hg1 ⊢
    have hs2 : SameC c1 c2 := step_sameC hc1 (o := .qpackBlock id) e2
    have hst : ({ PQ.upd rx id s1 id with priFixed := fixedPri c2 id } : Bidi.Str) = s1 := by
      rw [PQ.upd_same, block_fixed e2, hfix, ← g2]
    have hso : (c2.str id).isSome = true := by
      rcases h3 : c1.str id with _ | t1
      · have := isSome_keep (hk1 id hb)
        rw [h0, h3] at this; cases this
      · unfold Conn.qpackBlock at e2
        rw [h3] at e2
        dsimp only at e2
        split_ifs at e2
        cases e2
        rw [Conn.set_str]; rfl
    refine ⟨hso, n1, rfl, ?_⟩
    dsimp only
    rw [readBidi_eq (ep := ⟨c2, PQ.upd rx id s1, bq.push (ricntLess (PQ.upd rx id s1)) id, d1, ctl⟩) hst (hcfg c2 (hs1.trans hs2)) rfl]
    dsimp only
    rcases g4 (room c2 (bq.push (ricntLess (PQ.upd rx id s1)) id)) (.inl hbl'.2) with ⟨e, w1, w2⟩ | ⟨s2, d2, ev, n, t2, ev2, n2, T⟩
    · rw [w1, w2]; rfl
    obtain ⟨⟨rw1, w1⟩, ⟨rw2, w2⟩, hcan, hobs, hnum, ⟨df, df2⟩, okw, ok2, hidle⟩ := T
    obtain ⟨hev2, hd2⟩ := hidle hbl'.2
    obtain ⟨hb2, hsc2⟩ := ok2.stay hbl'.2
    have hb2' : s2.blocked = true := by rw [blocked_same hcan]; exact hb2
    subst hev2 hd2
    rw [w1, w2, bidiOut_ok, bidiOut_ok]
    dsimp only
    rw [hobs, prO_append, e1]
    dsimp only [Outq.R.bind, lift]
    simp only [Bidi.obs, List.flatMap_nil, prO]
    rw [hbl'.1, hb2', hbl'.2, hb2]
    rw [if_pos (show (!false && true) = true from rfl), if_neg (show ¬ (!true && true) = true by decide), e2]
    dsimp only
    refine ⟨⟨rfl, rfl, rfl, ?_, fun z => ?_⟩, ⟨n2, rfl, by rw [hnum]; push_cast; rfl⟩, ?_⟩
    · dsimp only
      refine push_sc bq id ?_
      rw [canon_sc hcan (okw.inv.blk hb2') (ok2.inv.blk hb2), hsc2]
    · dsimp only
      rw [upd_upd]
      exact canon_upd (fun _ => rfl) id hcan z
    · exact evSame_cut id hobs df g3 df2
  · rw [if_neg hbl] at hg1 ⊢
    have hst : ({ PQ.upd rx id s1 id with priFixed := fixedPri c1 id } : Bidi.Str) = s1 := by
      rw [PQ.upd_same, hfix, ← g2]
    have hroom : room c1 bq = room c bq := by unfold room; rw [hs1.2]
    refine ⟨by dsimp only; rw [isSome_keep (hk1 id hb), h0]; rfl, n1, rfl, ?_⟩
    dsimp only
    rw [readBidi_eq (ep := ⟨c1, PQ.upd rx id s1, bq, d1, ctl⟩) hst (hcfg c1 hs1) hroom]
    dsimp only
    rcases g4 (room c bq) (.inr rfl) with ⟨e, w1, w2⟩ | ⟨s2, d2, ev, n, t2, ev2, n2, T⟩
    · rw [w1, w2]; rfl
    obtain ⟨⟨rw1, w1⟩, ⟨rw2, w2⟩, hcan, hobs, hnum, ⟨df, df2⟩, okw, ok2, hidle⟩ := T
    rw [w1] at hgw ⊢
    rw [w2]
    rw [bidiOut_ok] at hgw
    rw [bidiOut_ok, bidiOut_ok]
    dsimp only at hgw ⊢
    rw [hobs, prO_append, e1] at hgw ⊢
    have hev := evSame_cut id hobs df g3 df2
    dsimp only [Outq.R.bind] at hgw ⊢
    rcases prO_total c1 id (Bidi.obs ev2) with e3 | ⟨c2, e3⟩
    · rw [e3] at hgw; exact hgw.elim
    rw [e3] at hgw ⊢
    dsimp only [lift] at hgw ⊢
    have hbb : (!s1.blocked && t2.blocked) = (!(rx id).blocked && s2.blocked) := by
      rw [blocked_same hcan]
      rcases h1 : (rx id).blocked with _ | _
      · rw [h1] at hbl
        have : s1.blocked = false := by simpa using hbl
        rw [this]
      · rw [(ok1.stay h1).1]
    rw [hbb]
    by_cases hc : (!(rx id).blocked && s2.blocked) = true
    · rw [if_pos hc] at hgw ⊢
      rw [if_pos hc]
      rcases block_total c2 id with e4 | ⟨c3, e4⟩
      · rw [e4] at hgw; exact hgw.elim
      rw [e4]
      dsimp only
      rw [Bool.and_eq_true] at hc
      refine ⟨⟨rfl, rfl, rfl, ?_, fun z => ?_⟩, ⟨n2, rfl, by rw [hnum]; push_cast; rfl⟩, hev⟩
      · dsimp only
        rw [upd_upd]
        exact push_sc bq id (canon_sc hcan (okw.inv.blk hc.2) (ok2.inv.blk (blocked_same hcan ▸ hc.2)))
      · dsimp only
        rw [upd_upd]
        exact canon_upd (fun _ => rfl) id hcan z
    · rw [if_neg hc] at hgw ⊢
      rw [if_neg hc]
      refine ⟨⟨rfl, rfl, rfl, rfl, fun z => ?_⟩, ⟨n2, rfl, by rw [hnum]; push_cast; rfl⟩, hev⟩
      dsimp only
      rw [upd_upd]
      exact canon_upd (fun _ => rfl) id hcan z

/-! ### nghttp3_conn_read_stream -/

theorem join_refl {a : Ep} (r : Res) (h : ∀ b r0 ev, r = .ok b r0 ev → ∃ n, r0 = .code n) (hc : r ≠ .crash) : Join 0 [] r r := by
  cases r with
  | crash => exact absurd rfl hc
  | fail e => rfl
  | ok b r0 ev =>
    obtain ⟨n, rfl⟩ := h b r0 ev rfl
    exact ⟨⟨rfl, rfl, rfl, rfl, fun _ => rfl⟩, ⟨n, rfl, by rw [Int.zero_add]⟩, .refl _⟩

theorem Split.after {id : Nat} {o o1 : Res} {k : Ep → Res} (ev0 : List Ev) (h : Split id o o1 k) : Split id (o.after ev0) (o1.after ev0) k := by
  cases o1 with
  | crash => exact h
  | fail e => rw [show o = .fail e from h]; rfl
  | ok a1 r1 ev1 =>
    obtain ⟨h0, n1, rfl, h⟩ := h
    refine ⟨h0, n1, rfl, ?_⟩
    generalize k a1 = o2 at h ⊢
    cases o <;> cases o2 <;> first | exact h | skip
    obtain ⟨h1, h2, h3⟩ := h
    refine ⟨h1, h2, ?_⟩
    rw [List.append_assoc]
    exact EvSame.app (.refl _) h3

theorem bidi_not_uni {id : Nat} (h : clientBidi id = true) : streamUni id = false := by
  unfold clientBidi at h
  unfold streamUni
  simp at h ⊢
  omega

theorem bidi_not_own {id : Nat} (h : clientBidi id = true) (b : Bool) : ¬ Conn.ownUni b id := by
  unfold clientBidi at h
  unfold Conn.ownUni
  cases b <;> simp at h ⊢ <;> omega

theorem bidiOut_code {ep b : Ep} {id : Nat} {z : Bool} {o : Bidi.Out} {r : Conn.Ret} {ev : List Ev} (h : bidiOut ep id z o = .ok b r ev) : ∃ n, r = .code n := by
  have hl : ∀ {α : Type} (x : R α) (k : α → Res), lift x k = .ok b r ev → ∃ y, k y = .ok b r ev := by
    intro α x k g
    cases x with
    | ok y => exact ⟨y, g⟩
    | _ => cases g
  cases o with
  | ok s d e n rr =>
    obtain ⟨c, g⟩ := hl _ _ h
    split_ifs at g
    · obtain ⟨c, g⟩ := hl _ _ g
      cases g; exact ⟨_, rfl⟩
    · cases g; exact ⟨_, rfl⟩
  | _ => cases h

theorem rest_cut (hP : ParOk P) {a : Ep} (ha : EInv G a) {id : Nat} (hb : clientBidi id = true) {t : Conn.Strm Fld} (h0 : a.c.str id = some t)
    (x y : Bytes) (fin : Bool) : Split id (rest P a id (x ++ y) fin) (rest P a id x false) (fun a1 => rest P a1 id y fin) := by
  have hsome : (a.c.str id).isSome = true := by rw [h0]; rfl
  have hcode : ∀ (ep : Ep) src f b r ev, rest P ep id src f = .ok b r ev → ∃ n, r = .code n := by
    intro ep src f b r ev g
    unfold rest at g
    rw [bidi_not_uni hb] at g
    simp only [Bool.false_eq_true, if_false] at g
    split_ifs at g with g1
    · cases g; exact ⟨_, rfl⟩
    · rw [readBidi_eq rfl rfl rfl] at g
      exact bidiOut_code g
  have hnc : ∀ src f, rest P a id src f ≠ .crash := by
    intro src f g
    have := readBidi_good hP ha (src := src) (fin := f) hb h0
    unfold rest at g
    rw [bidi_not_uni hb] at g
    simp only [Bool.false_eq_true, if_false] at g
    split_ifs at g with g1
    rw [g] at this
    exact this
  by_cases hx : x = []
  · subst hx
    refine ⟨hsome, 0, rfl, ?_⟩
    rw [List.nil_append]
    exact join_refl (a := a) _ (hcode a y fin) (hnc y fin)
  have hxe : x.isEmpty = false := by cases x with | nil => exact absurd rfl hx | cons => rfl
  have hxy : (x ++ y).isEmpty = false := by cases x with | nil => exact absurd rfl hx | cons => rfl
  have e1 : rest P a id x false = readBidi P a id x false := by
    unfold rest
    rw [hxe, bidi_not_uni hb]; rfl
  have e2 : rest P a id (x ++ y) fin = readBidi P a id (x ++ y) fin := by
    unfold rest
    rw [hxy, bidi_not_uni hb]; rfl
  have hcut := readBidi_cut hP ha hb h0 x y fin
  rw [← e1, ← e2] at hcut
  by_cases hy : y = [] ∧ fin = false
  · obtain ⟨rfl, rfl⟩ := hy
    rw [List.append_nil] at hcut ⊢
    rcases hr : rest P a id x false with _ | e | ⟨a1, r1, ev1⟩ <;> rw [hr] at hcut
    · exact hcut
    · exact hcut
    · obtain ⟨h1, n1, rfl, _⟩ := hcut
      refine ⟨h1, n1, rfl, ⟨rfl, rfl, rfl, rfl, fun _ => rfl⟩, ⟨0, rfl, by rw [Int.add_zero]⟩, ?_⟩
      rw [List.append_nil]; exact .refl _
  · have e3 : (fun a1 => rest P a1 id y fin) = fun a1 => readBidi P a1 id y fin := by
      funext a1
      unfold rest
      rw [bidi_not_uni hb]
      have : (y.isEmpty && !fin) = false := by
        cases y with
        | nil => cases fin <;> simp at hy ⊢
        | cons => rfl
      rw [this]; rfl
    rw [e3]
    exact hcut

theorem open_bool {c : CC} {id : Nat} (h : clientBidi id = true) (b b' : Bool) : Conn.openStream c id b = Conn.openStream c id b' := by
  have hu : Conn.clientUni id = false ∧ Conn.serverUni id = false := by
    unfold clientBidi at h
    unfold Conn.clientUni Conn.serverUni
    simp at h ⊢
    omega
  unfold Conn.openStream
  rw [h, hu.2]
  rfl

theorem open_some {c c' : CC} {id : Nat} {b : Bool} (h : clientBidi id = true) (e : Conn.openStream c id b = .ok (c', .code 0)) : (c'.str id).isSome = true := by
  have hu : Conn.serverUni id = false := by
    unfold clientBidi at h
    unfold Conn.serverUni
    simp at h ⊢
    omega
  unfold Conn.openStream at e
  rw [h, hu] at e
  by_cases h1 : decide (id ≥ 2 ^ 62) = true
  · rw [if_pos h1] at e; cases e
  rw [if_neg h1] at e
  rcases h0 : c.str id with _ | s <;> rw [h0] at e <;> dsimp only at e
  · cases hs : c.server <;> rw [hs] at e
    · simp [Err.H3_STREAM_CREATION_ERROR] at e
    · simp only [if_true] at e
      split at e
      · cases e
      · cases e
        unfold Conn.createStream
        dsimp only
        rw [PQ.upd_same]; rfl
  · split_ifs at e
    cases e
    rw [h0]; rfl

theorem open_again {c : CC} {id : Nat} (h : clientBidi id = true) (hid : id < 2 ^ 62) (h0 : (c.str id).isSome = true) (b : Bool) : Conn.openStream c id b = .ok (c, .code 0) := by
  obtain ⟨s, hs⟩ := Option.isSome_iff_exists.1 h0
  unfold Conn.openStream
  rw [if_neg (by simp; omega), hs, h]
  dsimp only
  rw [if_neg (by simp), if_neg (by simp)]

theorem read_again {ep : Ep} {id : Nat} (h : clientBidi id = true) (hid : id < 2 ^ 62) (h0 : (ep.c.str id).isSome = true) (y : Bytes) (fin : Bool) :
    read P ep id y fin = rest P ep id y fin := by
  have hn : (ep.c.str id).isNone = false := by
    obtain ⟨s, hs⟩ := Option.isSome_iff_exists.1 h0
    rw [hs]; rfl
  rw [read_eq, open_again h hid h0]
  have h1 : opened P ep id ep.c = ep := by unfold opened; rw [hn]; rfl
  have h2 : openEv ep id = [] := by unfold openEv; rw [hn]; rfl
  dsimp only [lift]
  rw [if_neg (by simp), if_neg (by rw [hn]; simp), h1, h2]
  cases rest P ep id y fin <;> rfl

theorem read_cut (hP : ParOk P) {a : Ep} (ha : EInv G a) {id : Nat} (hb : clientBidi id = true) (hid : id < 2 ^ 62) (x y : Bytes) (fin : Bool) :
    Split id (read P a id (x ++ y) fin) (read P a id x false) (fun a1 => read P a1 id y fin) := by
  have hown := bidi_not_own hb a.c.server
  have o3 : Conn.Allowed a.c (.open id false : Conn.Op Fld) := ⟨hid, hown⟩
  have hn := cinv_nc ha.core.c (o := .open id false) trivial trivial o3
  rw [read_eq, read_eq, open_bool hb _ false, open_bool hb (x.isEmpty && false) false]
  rcases e : Conn.openStream a.c id false with _ | _ | _ | ⟨c', r⟩
  · exact absurd e hn
  · rfl
  · rfl
  obtain ⟨z, rfl⟩ := open_code e
  dsimp only [lift]
  by_cases hz : z ≠ 0
  · rw [if_pos hz, if_pos hz]; rfl
  rw [if_neg hz, if_neg hz]
  have hz0 : z = 0 := by simpa using hz
  subst hz0
  have hsome := open_some hb e
  have hno : ¬ (c'.str id).isNone = true := by
    obtain ⟨s, hs⟩ := Option.isSome_iff_exists.1 hsome
    rw [hs]; simp
  rw [if_neg hno, if_neg hno]
  refine Split.after _ ?_
  obtain ⟨t, ht⟩ := Option.isSome_iff_exists.1 hsome
  have hcut := rest_cut hP (opened_einv (P := P) ha hid hown e hsome) hb (t := t) ht x y fin
  generalize rest P (opened P a id c') id x false = o1 at hcut ⊢
  cases o1 with
  | crash => exact hcut
  | fail e => exact hcut
  | ok a1 r1 ev1 =>
    obtain ⟨k1, n1, k2, k3⟩ := hcut
    refine ⟨k1, n1, k2, ?_⟩
    dsimp only
    rw [read_again hb hid k1]
    exact k3

/-! ### sequences of calls -/

theorem step_einv (hP : ParOk P) {a b : Ep} (ha : EInv G a) {o : Call} (ho : Permitted a o) {r : Conn.Ret} {ev : List Ev} (e : step P a o = .ok b r ev) : EInv G b := by
  rcases step_fine hP ha ho with g | ⟨g, _⟩
  · rw [e] at g; exact g
  · rw [e] at g; cases g

theorem same_cons {o o' : Outcome} (h : SameOutcome o o') (x : Call) (r : Conn.Ret) {ev ev' : List Ev} (he : EvSame ev ev') :
    SameOutcome (o.cons (x, r, ev)) (o'.cons (x, r, ev')) := by
  cases o <;> cases o' <;> first | exact h | skip
  obtain ⟨h1, h2, h3⟩ := h
  refine ⟨?_, ?_, fun id => ?_⟩
  · unfold Log.seen at h1 ⊢
    rw [List.flatMap_cons, List.flatMap_cons, h1]
    dsimp only
    rw [he.1]
  · unfold Log.answers at h2 ⊢
    cases x <;> simp only [List.filterMap_cons] <;> rw [h2]
  · have := h3 id
    unfold Log.credit at this ⊢
    rw [List.map_cons, List.map_cons, List.sum_cons, List.sum_cons, this]
    dsimp only
    rw [he.2]
    congr 2
    cases x <;> cases r <;> rfl

theorem SameOutcome.trans {a b c : Outcome} (h : SameOutcome a b) (h' : SameOutcome b c) : SameOutcome a c := by
  cases a <;> cases b <;> first | exact h.elim | skip
  all_goals cases c <;> first | exact h'.elim | skip
  · trivial
  · exact Eq.trans (b := _) h h'
  · exact ⟨h.1.trans h'.1, h.2.1.trans h'.2.1, fun id => (h.2.2 id).trans (h'.2.2 id)⟩

theorem same_refl (o : Outcome) : SameOutcome o o := by
  cases o
  · trivial
  · rfl
  · exact ⟨rfl, rfl, fun _ => rfl⟩

theorem play_same (hP : ParOk P) (ops : List Call) {a b : Ep} (ha : EInv G a) (hb : EInv G b) (h : Eqv a b) (hp : AllPermitted P a ops) :
    AllPermitted P b ops ∧ SameOutcome (play P a ops) (play P b ops) := by
  induction ops generalizing a b with
  | nil => exact ⟨trivial, rfl, rfl, fun _ => rfl⟩
  | cons o t ih =>
    obtain ⟨h1, h2⟩ := hp
    have h1b := permitted_same h.c h1
    have hs := step_same (P := P) ha hb h h1
    unfold play AllPermitted
    rcases ea : step P a o with _ | e | ⟨a', r, ev⟩ <;> rcases eb : step P b o with _ | e' | ⟨b', r', ev'⟩ <;> rw [ea, eb] at hs <;> first | exact hs.elim | skip
    · exact ⟨⟨h1b, fun _ _ _ g => by cases g⟩, trivial⟩
    · exact ⟨⟨h1b, fun _ _ _ g => by cases g⟩, hs⟩
    · obtain ⟨k1, rfl, k3⟩ := hs
      obtain ⟨i1, i2⟩ := ih (step_einv hP ha h1 ea) (step_einv hP hb h1b eb) k1 (h2 _ _ _ ea)
      exact ⟨⟨h1b, fun _ _ _ g => by cases g; exact i1⟩, same_cons i2 o r k3⟩

theorem cut_cons {o o' : Outcome} (h : SameOutcome o o') {id : Nat} {x y : Bytes} {fin : Bool} {n1 n2 : Int} {ev ev1 ev2 : List Ev} (he : EvSame ev (ev1 ++ ev2)) :
    SameOutcome (o.cons (.read id (x ++ y) fin, .code (n1 + n2), ev)) ((o'.cons (.read id y fin, .code n2, ev2)).cons (.read id x false, .code n1, ev1)) := by
  cases o <;> cases o' <;> first | exact h | skip
  obtain ⟨h1, h2, h3⟩ := h
  refine ⟨?_, ?_, fun i => ?_⟩
  · unfold Log.seen at h1 ⊢
    rw [List.flatMap_cons, List.flatMap_cons, List.flatMap_cons, h1]
    dsimp only
    rw [he.1, List.flatMap_append, List.append_assoc]
  · unfold Log.answers at h2 ⊢
    simp only [List.filterMap_cons]
    exact h2
  · have := h3 i
    unfold Log.credit at this ⊢
    rw [List.map_cons, List.map_cons, List.map_cons, List.sum_cons, List.sum_cons, List.sum_cons, this]
    dsimp only
    rw [he.2, List.map_append, List.sum_append]
    unfold returned
    dsimp only
    split_ifs <;> push_cast <;> omega

theorem play_cons (ep : Ep) (o : Call) (t : List Call) : play P ep (o :: t) =
    match step P ep o with
    | .crash => .crash
    | .fail e => .fail e
    | .ok ep' r ev => (play P ep' t).cons (o, r, ev) := rfl

theorem play_cut (hP : ParOk P) {a : Ep} (ha : EInv G a) {id : Nat} (hb : clientBidi id = true) (hid : id < 2 ^ 62) (x y : Bytes) (fin : Bool) (ops : List Call)
    (hp : AllPermitted P a (.read id (x ++ y) fin :: ops)) : AllPermitted P a (.read id x false :: .read id y fin :: ops) ∧
    SameOutcome (play P a (.read id (x ++ y) fin :: ops)) (play P a (.read id x false :: .read id y fin :: ops)) := by
  have perm : ∀ (ep : Ep) src f, Permitted ep (.read id src f) := fun ep src f i s g e => by cases e; exact ⟨hid, bidi_not_own hb _⟩
  have hcut := read_cut hP ha hb hid x y fin
  obtain ⟨_, hp2⟩ := hp
  have sr : ∀ ep src f, step P ep (.read id src f) = read P ep id src f := fun _ _ _ => rfl
  rw [play_cons, play_cons]
  unfold AllPermitted
  rw [sr, sr]
  rcases e1 : read P a id x false with _ | e | ⟨a1, r1, ev1⟩ <;> rw [e1] at hcut
  · exact hcut.elim
  · rw [show read P a id (x ++ y) fin = .fail e from hcut]
    exact ⟨⟨perm _ _ _, fun _ _ _ g => by cases g⟩, rfl⟩
  obtain ⟨h0, n1, rfl, hj⟩ := hcut
  have ha1 : EInv G a1 := step_einv hP ha (perm a x false) e1
  unfold AllPermitted
  dsimp only
  rw [play_cons, sr]
  dsimp only at hj ⊢
  rcases ew : read P a id (x ++ y) fin with _ | e | ⟨b, r, ev⟩ <;> rcases e2 : read P a1 id y fin with _ | e' | ⟨b', r2, ev2⟩ <;> rw [ew, e2] at hj <;>
    first | exact hj.elim | skip
  · exact ⟨⟨perm _ _ _, fun _ _ _ g => by cases g; exact ⟨perm _ _ _, fun _ _ _ g => by rw [sr, e2] at g; cases g⟩⟩, hj⟩
  obtain ⟨k1, ⟨n2, rfl, rfl⟩, k3⟩ := hj
  obtain ⟨i1, i2⟩ := play_same hP ops (step_einv hP ha (perm a (x ++ y) fin) ew) (step_einv hP ha1 (perm a1 y fin) e2) k1 (hp2 _ _ _ (by rw [sr]; exact ew))
  refine ⟨⟨perm _ _ _, fun _ _ _ g => by cases g; exact ⟨perm _ _ _, fun _ _ _ g => by rw [sr, e2] at g; cases g; exact i1⟩⟩, ?_⟩
  exact cut_cons i2 k3

theorem play_pieces (hP : ParOk P) (xs : List Bytes) {a : Ep} (ha : EInv G a) {id : Nat} (hb : clientBidi id = true) (hid : id < 2 ^ 62) (last : Bytes) (fin : Bool) (ops : List Call)
    (hp : AllPermitted P a (.read id (xs.flatten ++ last) fin :: ops)) :
    SameOutcome (play P a (.read id (xs.flatten ++ last) fin :: ops)) (play P a (pieces id xs last fin ++ ops)) := by
  induction xs generalizing a with
  | nil => exact same_refl _
  | cons x xs ih =>
    rw [List.flatten_cons, List.append_assoc] at hp ⊢
    obtain ⟨⟨h1, h2⟩, h3⟩ := play_cut hP ha hb hid x (xs.flatten ++ last) fin ops hp
    refine h3.trans ?_
    show SameOutcome _ (play P a (.read id x false :: (pieces id xs last fin ++ ops)))
    unfold play
    rcases e : step P a (.read id x false) with _ | e' | ⟨a1, r, ev⟩
    · trivial
    · rfl
    · exact same_cons (ih (step_einv hP ha h1 e) (h2 _ _ _ e)) _ _ (.refl _)

end Endpoint
end Nghttp3
