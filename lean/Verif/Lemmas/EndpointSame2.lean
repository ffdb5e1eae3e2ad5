import Verif.Lemmas.EndpointSame
/-! Two connections that differ only in how received bytes are cut into buffers behave alike: the calls. -/
namespace Nghttp3
namespace Endpoint
open Outq (R Ans)
open Conn (clientBidi streamUni)
open Qpack (Dec SCtx)

variable {G : Bool × Settings} {P : Par}

/-- all entries of the queue have read up to a field section -/
def HdrQ (rx : Nat → Bidi.Str) (bq : PQ Nat) : Prop := ∀ x, PQ.Mem bq x → (rx x).rst = .headers

theorem ricnt_same {rx rx' : Nat → Bidi.Str} (hx : ∀ id, (rx id).canon = (rx' id).canon) {x y : Nat} (h1 : (rx x).rst = .headers) (h2 : (rx' x).rst = .headers)
    (h3 : (rx y).rst = .headers) (h4 : (rx' y).rst = .headers) : ricntLess rx x y = ricntLess rx' x y := by
  unfold ricntLess
  rw [canon_sc (hx x) h1 h2, canon_sc (hx y) h3 h4]

theorem push_same' {rx rx' : Nat → Bidi.Str} {bq : PQ Nat} {id : Nat} {s s' : Bidi.Str} (hx : ∀ id, (rx id).canon = (rx' id).canon) (h1 : HdrQ rx bq) (h2 : HdrQ rx' bq)
    (hs : s.canon = s'.canon) (k1 : s.rst = .headers) (k2 : s'.rst = .headers) : bq.push (ricntLess (PQ.upd rx id s)) id = bq.push (ricntLess (PQ.upd rx' id s')) id := by
  have hu : ∀ (f : Nat → Bidi.Str) (t : Bidi.Str), HdrQ f bq → t.rst = .headers → ∀ x, (x = id ∨ PQ.Mem bq x) → (PQ.upd f id t x).rst = .headers := by
    intro f t hf ht x h
    unfold PQ.upd
    split_ifs with g
    · exact ht
    · exact hf x (h.resolve_left g)
  refine PQ.push_congr (P := fun x => x = id ∨ PQ.Mem bq x) (fun x y gx gy => ?_) (fun y g => .inr g) (.inl rfl)
  exact ricnt_same (canon_upd hx id hs) (hu _ _ h1 k1 x gx) (hu _ _ h2 k2 x gx) (hu _ _ h1 k1 y gy) (hu _ _ h2 k2 y gy)

theorem Lite.hdr {ep : Ep} (h : Lite ep) : HdrQ ep.rx ep.bq := by
  obtain ⟨M, h1, h2⟩ := h
  intro x hx
  have := h2 x ((h1.mem x).1 hx)
  exact this.1.blk this.2

theorem blocked_same {s s' : Bidi.Str} (h : s.canon = s'.canon) : s.blocked = s'.blocked := by
  rw [← (Bidi.canon_flags s).1, h, (Bidi.canon_flags s').1]

theorem fixed_same {s s' : Bidi.Str} (h : s.canon = s'.canon) (b : Bool) : { s with priFixed := b }.canon = { s' with priFixed := b }.canon := by
  rw [canon_fixed s, canon_fixed s', h]

theorem readBidi_same {a b : Ep} (ha : EInv G a) (hb : EInv G b) (h : Eqv a b) {id : Nat} (hid : clientBidi id = true) {t : Conn.Strm Fld} (h0 : a.c.str id = some t)
    (src : Bytes) (fin : Bool) : ResEqv (readBidi P a id src fin) (readBidi P b id src fin) := by
  have hra := (ha.core.r.str id t hid h0).inv
  have hrb := (hb.core.r.str id t hid (h.c ▸ h0)).inv
  have hqa := ha.lite.hdr
  have hqb := hb.lite.hdr
  obtain ⟨c, rx, bq, dec, ctl⟩ := a
  obtain ⟨c', rx', bq', dec', ctl'⟩ := b
  obtain ⟨h1, h2, h3, h4, hx⟩ := h
  dsimp only at *
  subst h1 h2 h3 h4
  have hs := recv_same (cfg P c id) (room c bq) fin (s := { rx id with priFixed := fixedPri c id }) (s' := { rx' id with priFixed := fixedPri c id }) dec src
    (sinv_fixed hra _) (sinv_fixed hrb _) (fixed_same (hx _) _)
  dsimp only at hs
  have d1 := recv_nodef (cfg P c id) (room c bq) fin { rx id with priFixed := fixedPri c id } dec src (sinv_fixed hra _)
  have d2 := recv_nodef (cfg P c id) (room c bq) fin { rx' id with priFixed := fixedPri c id } dec src (sinv_fixed hrb _)
  unfold readBidi
  dsimp only at d1 d2 ⊢
  generalize Bidi.readStream (cfg P c id) (room c bq) fin { rx id with priFixed := fixedPri c id } dec src = o1 at *
  generalize Bidi.readStream (cfg P c id) (room c bq) fin { rx' id with priFixed := fixedPri c id } dec src = o2 at *
  cases o1 <;> cases o2 <;> first | exact hs.elim | exact hs | skip
  rename_i s d ev n r s' d' ev' n' r'
  obtain ⟨k1, rfl, k3, k4, k5, k6⟩ := hs
  rw [d1 rfl, d2 rfl] at k4
  have k4 : n = n' := k4
  subst k4
  dsimp only
  rw [prO_eq, prO_eq, k3]
  refine eqv_lift _ fun c1 _ => ?_
  have hbl : (!(rx id).blocked && s.blocked) = (!(rx' id).blocked && s'.blocked) := by rw [blocked_same (hx id), blocked_same k1]
  rw [← hbl]
  have hev := evSame_str id k3 ((d1 rfl).trans (d2 rfl).symm)
  by_cases hc : (!(rx id).blocked && s.blocked) = true
  · rw [if_pos hc, if_pos hc]
    refine eqv_lift _ fun r _ => ?_
    have hsb : s.blocked = true := (Bool.and_eq_true _ _ ▸ hc).2
    refine ⟨⟨rfl, rfl, rfl, ?_, canon_upd hx id k1⟩, rfl, hev⟩
    exact push_same' hx hqa hqb k1 (k5.blk hsb) (k6.blk (blocked_same k1 ▸ hsb))
  · rw [if_neg hc, if_neg hc]
    exact ⟨⟨rfl, rfl, rfl, rfl, canon_upd hx id k1⟩, rfl, hev⟩

theorem lite_next {rx : Nat → Bidi.Str} {M : List Nat} {bq : PQ Nat} {m : Nat} {s : Bidi.Str} {d d' : Dec} {c' : CC} {ctl : Control.St Ext}
    (hM : M.Nodup) (h5 : PQ.Rep (ricntLess rx) bq (M.erase m)) (hs : ∀ x ∈ M, Bidi.SInv (rx x) d ∧ (rx x).blocked = true) (hd : Qpack.CtxOk d'.ctx)
    (hn : Bidi.SInv s d') :
    Lite { c := c', rx := PQ.upd rx m s, bq := if s.blocked then bq.push (ricntLess (PQ.upd rx m s)) m else bq, dec := d', ctl := ctl } := by
  have hnm : m ∉ M.erase m := List.Nodup.not_mem_erase hM
  have hne : ∀ x ∈ M.erase m, x ≠ m := fun x hx g => hnm (g ▸ hx)
  have h6 : PQ.Rep (ricntLess (PQ.upd rx m s)) bq (M.erase m) := rep_congr h5 fun x hx => by rw [PQ.upd_ne _ _ (hne x hx)]
  have hold : ∀ x ∈ M.erase m, Bidi.SInv (PQ.upd rx m s x) d' ∧ (PQ.upd rx m s x).blocked = true := fun x hx => by
    rw [PQ.upd_ne _ _ (hne x hx)]
    have := hs x (List.mem_of_mem_erase hx)
    exact ⟨sinv_dec this.1 hd, this.2⟩
  by_cases hb : s.blocked = true
  · refine ⟨m :: M.erase m, ?_, ?_⟩
    · dsimp only
      rw [if_pos hb]
      exact h6.push (ricnt_weak _) hnm
    · intro x hx
      rcases List.mem_cons.1 hx with rfl | hx
      · dsimp only; rw [PQ.upd_same]; exact ⟨hn, hb⟩
      · exact hold x hx
  · refine ⟨M.erase m, ?_, hold⟩
    dsimp only
    rw [if_neg hb]
    exact h6

theorem release_same (n f : Nat) (a b : Ep) (ha : Lite a) (hb : Lite b) (h : Eqv a b) : ResEqv (release P n f a) (release P n f b) := by
  induction f generalizing a b with
  | zero => trivial
  | succ f ih =>
    have hqa := ha.hdr
    have hqb := hb.hdr
    obtain ⟨M, hM, hMs⟩ := ha
    obtain ⟨M', hM', hMs'⟩ := hb
    obtain ⟨c, rx, bq, dec, ctl⟩ := a
    obtain ⟨c', rx', bq', dec', ctl'⟩ := b
    obtain ⟨h1, h2, h3, h4, hx⟩ := h
    dsimp only at *
    subst h1 h2 h3 h4
    unfold release
    dsimp only
    rcases ht : bq.top with _ | m
    · exact ⟨⟨rfl, rfl, rfl, rfl, hx⟩, rfl, .refl _⟩
    dsimp only
    obtain ⟨hmem, _⟩ := PQ.top_mem ht
    have hma := hMs m ((hM.mem m).1 hmem)
    have hmb := hMs' m ((hM'.mem m).1 hmem)
    have hsc : (rx m).sc = (rx' m).sc := canon_sc (hx m) (hqa m hmem) (hqb m hmem)
    by_cases hn : dec.ctx.next < (rx m).sc.ricnt
    · rw [if_pos hn, if_pos (by rw [← hsc]; exact hn)]
      exact ⟨⟨rfl, rfl, rfl, rfl, hx⟩, rfl, .refl _⟩
    rw [if_neg hn, if_neg (by rw [← hsc]; exact hn)]
    rw [← pop_congr (pq := bq) (P := fun x => PQ.Mem bq x) (l1 := ricntLess rx) (l2 := ricntLess rx')
      (fun x y gx gy => ricnt_same hx (hqa x gx) (hqb x gx) (hqa y gy) (hqb y gy)) (fun _ g => g)]
    have hMne : M ≠ [] := fun g => by rw [g] at hM; have := (hM.mem m).1 hmem; cases this
    have hMne' : M' ≠ [] := fun g => by rw [g] at hM'; have := (hM'.mem m).1 hmem; cases this
    obtain ⟨m1, q, hp1, hp2, hp3, hp4, hp5⟩ := PQ.Rep.pop (ricnt_weak rx) hM hMne
    obtain ⟨m2, q2, hr1, hr2, hr3, hr4, hr5⟩ := PQ.Rep.pop (ricnt_weak rx') hM' hMne'
    rw [ht] at hp1 hr1
    obtain rfl := Option.some.inj hp1
    obtain rfl := Option.some.inj hr1
    rw [← pop_congr (pq := bq) (P := fun x => PQ.Mem bq x) (l1 := ricntLess rx) (l2 := ricntLess rx')
      (fun x y gx gy => ricnt_same hx (hqa x gx) (hqb x gx) (hqa y gy) (hqb y gy)) (fun _ g => g), hp2] at hr2
    obtain rfl := Option.some.inj hr2
    rw [hp2]
    dsimp only
    have hw := wake_same (cfg P c m) (room c q) (s := { rx m with priFixed := fixedPri c m }) (s' := { rx' m with priFixed := fixedPri c m }) dec
      (sinv_fixed hma.1 _) (sinv_fixed hmb.1 _) (fixed_same (hx _) _)
    unfold Bidi.wake at hw
    dsimp only at hw
    rw [if_pos ⟨hma.2, by omega⟩, if_pos ⟨hmb.2, by rw [← hsc]; omega⟩] at hw
    have z1 := proc_zero (cfg P c m) (room c q) { rx m with blocked := false, priFixed := fixedPri c m } dec
    have z2 := proc_zero (cfg P c m) (room c q) { rx' m with blocked := false, priFixed := fixedPri c m } dec
    dsimp only at z1 z2
    generalize Bidi.processBlocked (cfg P c m) (room c q) { rx m with blocked := false, priFixed := fixedPri c m } dec = o1 at *
    generalize Bidi.processBlocked (cfg P c m) (room c q) { rx' m with blocked := false, priFixed := fixedPri c m } dec = o2 at *
    change OutSame o1 o2 at hw
    cases o1 <;> cases o2 <;> first | exact hw.elim | exact hw | skip
    rename_i s d ev n1 r s' d' ev' n' r'
    obtain ⟨k1, rfl, k3, k4, k5, k6⟩ := hw
    dsimp only
    rw [prO_eq, prO_eq, k3]
    refine eqv_lift _ fun c1 _ => ?_
    rw [← blocked_same k1]
    refine eqv_lift _ fun r2 _ => ?_
    have hdef : Bidi.deferredLen ev = Bidi.deferredLen ev' := by
      rw [z1 rfl, z2 rfl] at k4; omega
    refine ResEqv.after (evSame_str m k3 hdef) (ih _ _ ?_ ?_ ?_)
    · exact lite_next hM.nodup hp5 hMs k5.inv.ctx k5
    · have := lite_next (c' := r2.1) (ctl := ctl) hM'.nodup hr5 hMs' k6.inv.ctx k6
      rw [← blocked_same k1] at this
      exact this
    · refine ⟨rfl, rfl, rfl, ?_, canon_upd hx m k1⟩
      dsimp only
      by_cases hsb : s.blocked = true
      · rw [if_pos hsb, if_pos hsb]
        have hmq : ∀ x, PQ.Mem q x → PQ.Mem bq x := fun x g => (hM.mem x).2 (List.mem_of_mem_erase ((hp5.mem x).1 g))
        exact push_same' hx (fun x g => hqa x (hmq x g)) (fun x g => hqb x (hmq x g)) k1 (k5.blk hsb) (k6.blk (blocked_same k1 ▸ hsb))
      · rw [if_neg hsb, if_neg hsb]

theorem readQenc_same {a b : Ep} (ha : EInv G a) (hb : EInv G b) (h : Eqv a b) (src : Bytes) (n : Nat) : ResEqv (readQenc P a src n) (readQenc P b src n) := by
  unfold readQenc
  rw [← h.dec, ← h.bq]
  rcases Qpack.readEncoder_safe ha.core.r.sys.dec src with ⟨d', h1, h2, h3⟩ | ⟨d', e, h1, _⟩
  · rw [h1]
    dsimp only
    have hl : ∀ ep : Ep, EInv G ep → Lite { ep with dec := d' } := fun ep he => by
      obtain ⟨M, k1, k2⟩ := he.lite
      exact ⟨M, k1, fun x hx => ⟨sinv_dec (k2 x hx).1 h2.ctx, (k2 x hx).2⟩⟩
    have hlb := hl b hb
    rw [← h.bq] at hlb
    exact release_same _ _ _ _ (hl a ha) hlb ⟨h.c, rfl, h.ctl, rfl, h.rx⟩
  · rw [h1]; rfl

theorem readQdec_same {a b : Ep} (h : Eqv a b) (src : Bytes) (n : Nat) : ResEqv (readQdec a src n) (readQdec b src n) := by
  unfold readQdec
  rw [← h.c]
  rcases a.c.enc.readDecoder src with _ | _ | e
  · trivial
  · rfl
  · exact ⟨⟨rfl, h.dec, h.ctl, h.bq, h.rx⟩, rfl, .refl _⟩

/-! ### the control stream -/

def canonX (x : Ext) : Ext := x.map fun p => (p.1, fun id => (p.2 id).canon)

theorem canonX_nat (P : Par) : Control.Nat' (env P) canonX := by
  rintro (_ | ⟨c, rx⟩) i p
  · rfl
  show onPri P (some (c, fun id => (rx id).canon)) i p = (onPri P (some (c, rx)) i p).map canonX
  unfold onPri
  dsimp only
  rcases Conn.onPriorityUpdate c i p with _ | _ | _ | ⟨c', r⟩
  · rfl
  · rfl
  · rfl
  cases r with
  | code e =>
    dsimp only
    split_ifs
    · rfl
    · show Except.ok (some (c', _)) = Except.ok (some (c', _))
      congr 3
      funext id
      dsimp only
      unfold PQ.upd
      split_ifs
      · exact (canon_new _).symm
      · rfl
    · rfl
  | _ => rfl

theorem readControl_same {a b : Ep} (h : Eqv a b) (src : Bytes) (n : Nat) : ResEqv (readControl P a src n) (readControl P b src n) := by
  obtain ⟨c, rx, bq, dec, ctl⟩ := a
  obtain ⟨c', rx', bq', dec', ctl'⟩ := b
  obtain ⟨h1, h2, h3, h4, hx⟩ := h
  dsimp only at *
  subst h1 h2 h3 h4
  have ha := Control.read_map (canonX_nat P) { ctl with conn := { ctl.conn with enc := c.enc, ext := some (c, rx) } } src
  have hb := Control.read_map (canonX_nat P) { ctl with conn := { ctl.conn with enc := c.enc, ext := some (c, rx') } } src
  have hm : Control.St.mapE canonX { ctl with conn := { ctl.conn with enc := c.enc, ext := some (c, rx) } } =
      Control.St.mapE canonX { ctl with conn := { ctl.conn with enc := c.enc, ext := some (c, rx') } } := by
    unfold Control.St.mapE Control.Conn.mapE canonX
    dsimp only [Option.map_some]
    rw [show (fun id => (rx id).canon) = fun id => (rx' id).canon from funext hx]
  rw [hm, hb] at ha
  unfold readControl
  dsimp only
  generalize Control.read (env P) { ctl with conn := { ctl.conn with enc := c.enc, ext := some (c, rx) } } src = o1 at *
  generalize Control.read (env P) { ctl with conn := { ctl.conn with enc := c.enc, ext := some (c, rx') } } src = o2 at *
  have key : ∀ x y : Ext, canonX x = canonX y → x.isNone = y.isNone := by
    intro x y g
    cases x <;> cases y <;> first | rfl | cases g
  cases o1 <;> cases o2 <;> first | (cases ha; done) | trivial | skip
  · rename_i o o'
    obtain ⟨e, k⟩ := o
    obtain ⟨e', k'⟩ := o'
    unfold Control.mapO at ha
    dsimp only at ha ⊢
    injection ha with ha
    injection ha with ha1 ha2
    subst ha1
    have : k'.ext.isNone = k.ext.isNone := key _ _ (congrArg Control.Conn.ext ha2)
    rw [this]
    split_ifs
    · trivial
    · rfl
  · rename_i s s'
    unfold Control.mapO at ha
    dsimp only at ha ⊢
    injection ha with ha
    have hc := congrArg Control.St.conn ha
    have hext : canonX s'.conn.ext = canonX s.conn.ext := congrArg Control.Conn.ext hc
    have henc : s'.conn.enc = s.conn.enc := by
      have g : (Control.St.mapE canonX s').conn.enc = (Control.St.mapE canonX s).conn.enc := by rw [hc]
      exact g
    have hgo : s'.conn.goawayRecved = s.conn.goawayRecved := by
      have g : (Control.St.mapE canonX s').conn.goawayRecved = (Control.St.mapE canonX s).conn.goawayRecved := by rw [hc]
      exact g
    have hev : s'.conn.ev = s.conn.ev := by
      have g : (Control.St.mapE canonX s').conn.ev = (Control.St.mapE canonX s).conn.ev := by rw [hc]
      exact g
    have hst : ({ s' with conn := { s'.conn with ext := none } } : Control.St Ext) = { s with conn := { s.conn with ext := none } } := by
      have := congrArg (fun z : Control.St Ext => ({ z with conn := { z.conn with ext := none } } : Control.St Ext)) ha
      exact this
    rcases hs : s.conn.ext with _ | ⟨c1, r1⟩ <;> rcases hs' : s'.conn.ext with _ | ⟨c2, r2⟩ <;> rw [hs, hs'] at hext <;> dsimp only
    · trivial
    · cases hext
    · cases hext
    · injection hext with hext
      injection hext with e1 e2
      dsimp only at e1
      subst e1
      refine ⟨⟨?_, rfl, hst.symm, rfl, fun id => (congrFun e2 id).symm⟩, rfl, ?_⟩
      · dsimp only; rw [henc, hgo]
      · rw [hev]; exact .refl _

/-! ### the calls -/

theorem uni_einv {ep : Ep} (h : EInv G ep) {id : Nat} {src : Bytes} {fin : Bool} (hp : Conn.peerUni ep.c.server id) (h0 : (ep.c.str id).isSome = true)
    {c' : CC} {r : Conn.Ret} (e : Conn.readUni ep.c id src fin = .ok (c', r)) : EInv G { ep with c := c' } := by
  have o3 : Conn.Allowed ep.c (.uni id src fin) := ⟨hp, h0⟩
  have e' : Conn.step encode ep.c (.uni id src fin) = .ok (c', r) := e
  have hc := cinv_step h.core.c (o := .uni id src fin) trivial trivial o3 (fun y g => by cases g) e'
  have hs := step_sameC h.core.c e'
  exact einv_keep h hc hs (fun x hx => keep_neutral h.core.c (o := .uni id src fin) trivial trivial e' hx) (.refl _)

theorem readUni_same {a b : Ep} (ha : EInv G a) (hb : EInv G b) (h : Eqv a b) {id : Nat} {src : Bytes} {fin : Bool} (hp : Conn.peerUni a.c.server id)
    (h0 : (a.c.str id).isSome = true) : ResEqv (readUni P a id src fin) (readUni P b id src fin) := by
  unfold readUni
  rw [← h.c]
  refine eqv_lift _ ?_
  rintro ⟨c', r⟩ e
  have h1 : EInv G { a with c := c' } := uni_einv ha hp h0 e
  have h2 : EInv G { b with c := c' } := uni_einv hb (h.c ▸ hp) (h.c ▸ h0) (h.c ▸ e)
  have h3 : Eqv { a with c := c' } { b with c := c' } := ⟨rfl, h.dec, h.ctl, h.bq, h.rx⟩
  cases r with
  | code z =>
    dsimp only
    split_ifs
    · exact .of h3 _ _
    · rfl
  | vecs v => trivial
  | discard n b => exact .of h3 _ _
  | route q =>
    rcases q with _ | ⟨t, x⟩
    · exact .of h3 _ _
    cases t with
    | control => exact readControl_same h3 _ _
    | qenc => exact readQenc_same h1 h2 h3 _ _
    | qdec => exact readQdec_same h3 _ _
    | _ => trivial

/-- the connection after the first part of nghttp3_conn_read_stream -/
def opened (P : Par) (ep : Ep) (id : Nat) (c' : CC) : Ep :=
  { ep with c := c', rx := if (ep.c.str id).isNone && clientBidi id then (PQ.upd ep.rx id (if (ep.c.str id).isNone && clientBidi id && Conn.rejects ep.c id then { Bidi.Str.new (cfg P ep.c id) with rst := .ignRest } else Bidi.Str.new (cfg P ep.c id))) else ep.rx }

def openEv (ep : Ep) (id : Nat) : List Ev :=
  if (ep.c.str id).isNone && clientBidi id && Conn.rejects ep.c id then [.str id (.stopSending 0x010b), .str id (.resetStream 0x010b)] else []

theorem read_eq (P : Par) (ep : Ep) (id : Nat) (src : Bytes) (fin : Bool) : read P ep id src fin =
    lift (Conn.openStream ep.c id (src.isEmpty && fin)) fun r =>
      match r.2 with
      | .code e => if e ≠ 0 then .fail e else if (r.1.str id).isNone then .ok { ep with c := r.1 } (.code 0) []
          else (rest P (opened P ep id r.1) id src fin).after (openEv ep id)
      | _ => .crash := rfl

theorem opened_einv {ep : Ep} (h : EInv G ep) {id : Nat} {b : Bool} (hid : id < 2 ^ 62) (hown : ¬ Conn.ownUni ep.c.server id) {c' : CC}
    (e : Conn.openStream ep.c id b = .ok (c', .code 0)) (hsome : (c'.str id).isSome = true) : EInv G (opened P ep id c') := by
  have e' : Conn.step encode ep.c (.open id b) = .ok (c', .code 0) := e
  have hc := cinv_step h.core.c (o := .open id b) trivial trivial ⟨hid, hown⟩ (fun y g => by cases g) e'
  have hs := step_sameC h.core.c e'
  have hkd : KInv c'.server ep.ctl := by rw [hs.1]; exact h.core.k
  have h1 := create_rec h.core.c h.rc (o := .open id b) trivial (.inr (.inl ⟨_, rfl⟩)) e'
    (if ((ep.c.str id).isNone && clientBidi id && Conn.rejects ep.c id) = true then { Bidi.Str.new (cfg P ep.c id) with rst := .ignRest } else Bidi.Str.new (cfg P ep.c id))
    (fun s f1 f2 => by
      split_ifs
      · exact rx_reject (rx_new _ h.core.r.sys.ctx f1 f2) rfl
      · exact rx_new _ h.core.r.sys.ctx f1 f2)
    ((ep.c.str id).isNone && clientBidi id) (fun g => by rw [g, hsome]) (fun g => by rw [g, Bool.and_false])
  exact .of hc h1 hkd

theorem opened_uni {ep : Ep} {id : Nat} {b : Bool} (hown : ¬ Conn.ownUni ep.c.server id) (h : EInv G ep) {c' : CC}
    (e : Conn.openStream ep.c id b = .ok (c', .code 0)) (g : streamUni id = true) : Conn.peerUni c'.server id := by
  have e' : Conn.step encode ep.c (.open id b) = .ok (c', .code 0) := e
  rw [(step_sameC h.core.c e').1]
  unfold streamUni at g
  unfold Conn.ownUni at hown
  unfold Conn.peerUni
  cases hsv : ep.c.server <;> rw [hsv] at hown <;> simp at hown g ⊢ <;> omega

theorem rest_same {a b : Ep} (ha : EInv G a) (hb : EInv G b) (h : Eqv a b) {id : Nat} {src : Bytes} {fin : Bool} (h0 : (a.c.str id).isSome = true)
    (hk : streamUni id = false → clientBidi id = true) (hp : streamUni id = true → Conn.peerUni a.c.server id) :
    ResEqv (rest P a id src fin) (rest P b id src fin) := by
  unfold rest
  by_cases h1 : (src.isEmpty && !fin) = true
  · rw [if_pos h1, if_pos h1]; exact .of h _ _
  rw [if_neg h1, if_neg h1]
  by_cases h2 : streamUni id = true
  · rw [if_pos h2, if_pos h2]; exact readUni_same ha hb h (hp h2) h0
  · rw [if_neg h2, if_neg h2]
    obtain ⟨t, ht⟩ := Option.isSome_iff_exists.1 h0
    exact readBidi_same ha hb h (hk (by simpa using h2)) ht _ _

theorem opened_eqv {a b : Ep} (h : Eqv a b) (id : Nat) (c' : CC) : Eqv (opened P a id c') (opened P b id c') := by
  refine ⟨rfl, h.dec, h.ctl, h.bq, fun x => ?_⟩
  unfold opened
  dsimp only
  rw [← h.c]
  split_ifs
  · exact canon_upd h.rx id rfl x
  · exact canon_upd h.rx id rfl x
  · exact h.rx x

theorem isSome_of_not {α : Type} {x : Option α} (h : ¬ x.isNone = true) : x.isSome = true := by cases x <;> simp at h ⊢

theorem read_same {a b : Ep} (ha : EInv G a) (hb : EInv G b) (h : Eqv a b) {id : Nat} {src : Bytes} {fin : Bool} (hid : id < 2 ^ 62) (hown : ¬ Conn.ownUni a.c.server id) :
    ResEqv (read P a id src fin) (read P b id src fin) := by
  rw [read_eq, read_eq, ← h.c]
  refine eqv_lift _ ?_
  rintro ⟨c', r⟩ e
  cases r with
  | code z =>
    dsimp only
    by_cases hz : z ≠ 0
    · rw [if_pos hz, if_pos hz]; rfl
    rw [if_neg hz, if_neg hz]
    have hz0 : z = 0 := by simpa using hz
    subst hz0
    by_cases hno : (c'.str id).isNone = true
    · rw [if_pos hno, if_pos hno]; exact ⟨⟨rfl, h.dec, h.ctl, h.bq, h.rx⟩, rfl, .refl _⟩
    rw [if_neg hno, if_neg hno]
    have hsome := isSome_of_not hno
    have hev : openEv a id = openEv b id := by unfold openEv; rw [h.c]
    rw [hev]
    refine ResEqv.after (.refl _) (rest_same (G := G) (opened_einv ha hid hown e hsome) (opened_einv hb hid (h.c ▸ hown) (h.c ▸ e) hsome) (opened_eqv h id c') hsome
      (open_kind e) (opened_uni hown ha e))
  | _ => trivial

theorem plain_same {a b : Ep} (h : Eqv a b) (o : Conn.Op Fld) : ResEqv (plain a o) (plain b o) := by
  unfold plain
  rw [← h.c]
  exact eqv_lift _ fun r _ => ⟨⟨rfl, h.dec, h.ctl, h.bq, h.rx⟩, rfl, .refl _⟩

theorem submit_same {a b : Ep} (h : Eqv a b) (id : Nat) (nva : List Qpack.Nv) (dr : Bool) : ResEqv (submitRequest P a id nva dr) (submitRequest P b id nva dr) := by
  unfold submitRequest
  rw [← h.c]
  refine eqv_lift _ fun r _ => ⟨⟨rfl, h.dec, h.ctl, h.bq, fun x => ?_⟩, rfl, .refl _⟩
  dsimp only
  split_ifs
  · exact canon_upd h.rx id rfl x
  · exact h.rx x

theorem closeCall_same {a b : Ep} (ha : EInv G a) (hb : EInv G b) (h : Eqv a b) (id : Nat) : ResEqv (close a id) (close b id) := by
  unfold close
  rw [← h.c, ← h.dec]
  refine eqv_lift _ fun r _ => ?_
  by_cases hc : ((a.c.str id).isSome && clientBidi id) = true
  · rw [if_pos hc, if_pos hc]
    obtain ⟨h0, hid⟩ := Bool.and_eq_true _ _ ▸ hc
    obtain ⟨t, ht⟩ := Option.isSome_iff_exists.1 h0
    have hs := close_same a.dec (ha.core.r.str id t hid ht).inv (h.dec ▸ (hb.core.r.str id t hid (h.c ▸ ht)).inv) (h.rx id)
    have hz : ∀ (s : Bidi.Str) (d : Dec) s' d' ev n rr, Bidi.closeStream s d = .ok s' d' ev n rr → n = 0 := by
      intro s d s' d' ev n rr g
      unfold Bidi.closeStream at g
      split_ifs at g <;> cases g <;> rfl
    rcases e1 : Bidi.closeStream (a.rx id) a.dec with _ | e | ⟨s, d, ev, n, rr⟩ <;> rcases e2 : Bidi.closeStream (b.rx id) a.dec with _ | e' | ⟨s', d', ev', n', rr'⟩ <;>
      rw [e1, e2] at hs <;> first | exact hs.elim | exact hs | skip
    obtain ⟨k1, rfl, k3, k4, k5, k6⟩ := hs
    rw [hz _ _ _ _ _ _ _ e1, hz _ _ _ _ _ _ _ e2] at k4
    exact ⟨⟨rfl, rfl, h.ctl, h.bq, canon_upd h.rx id k1⟩, rfl, evSame_str id k3 (by omega)⟩
  · rw [if_neg hc, if_neg hc]
    exact ⟨⟨rfl, rfl, h.ctl, h.bq, h.rx⟩, rfl, .refl _⟩

theorem shut_same (s s' : Bidi.Str) (h : s.canon = s'.canon) : s.shutRd = s'.shutRd := by
  rw [← (Bidi.canon_flags s).2.1, h, (Bidi.canon_flags s').2.1]

theorem shutRd_same {a b : Ep} (h : Eqv a b) (id : Nat) : ResEqv (shutRd a id) (shutRd b id) := by
  unfold shutRd
  rw [← h.c, ← h.dec, shut_same _ _ (h.rx id)]
  refine eqv_lift _ fun r _ => ?_
  split_ifs
  · exact ⟨⟨rfl, rfl, h.ctl, h.bq, h.rx⟩, rfl, .refl _⟩
  · exact ⟨⟨rfl, rfl, h.ctl, h.bq, h.rx⟩, rfl, .refl _⟩
  · rcases a.dec.cancelStream id with _ | d
    · rfl
    · refine ⟨⟨rfl, rfl, h.ctl, h.bq, fun x => ?_⟩, rfl, .refl _⟩
      refine canon_upd h.rx id ?_ x
      rw [canon_shut, canon_shut, h.rx]
  · rcases a.dec.cancelStream id with _ | d
    · rfl
    · exact ⟨⟨rfl, rfl, h.ctl, h.bq, h.rx⟩, rfl, .refl _⟩

theorem writev_same {a b : Ep} (h : Eqv a b) (k : Nat) (as : List Ans) : ResEqv (writev a k as) (writev b k as) := by
  unfold writev
  rw [← h.c, ← h.dec]
  exact eqv_lift _ fun r _ => ⟨⟨rfl, rfl, h.ctl, h.bq, h.rx⟩, rfl, .refl _⟩

theorem permitted_same {a b : Ep} (h : a.c = b.c) {o : Call} (ho : Permitted a o) : Permitted b o := by
  unfold Permitted at ho ⊢
  rw [← h]; exact ho

/-- equal behaviour of one call -/
theorem step_same {a b : Ep} (ha : EInv G a) (hb : EInv G b) (h : Eqv a b) {o : Call} (ho : Permitted a o) : ResEqv (step P a o) (step P b o) := by
  unfold step
  cases o with
  | read id src fin =>
    unfold Permitted at ho
    obtain ⟨h1, h2⟩ := ho id src fin rfl
    exact read_same ha hb h h1 h2
  | submitRequest id nva dr => exact submit_same h id nva dr
  | writev k as => exact writev_same h k as
  | shutRd id => exact shutRd_same h id
  | close id => exact closeCall_same ha hb h id
  | setMaxConc n => exact ⟨⟨h.c, by rw [h.dec], h.ctl, h.bq, h.rx⟩, rfl, .refl _⟩
  | _ => exact plain_same h _

end Endpoint
end Nghttp3
