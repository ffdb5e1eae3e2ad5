import Verif.Lemmas.Endpoint
import Verif.Lemmas.ControlPri
/-! The invariant of a connection, second part: the receiving sides of the request streams and the queue of streams that wait for QPACK. -/
namespace Nghttp3
namespace Endpoint
open Outq (R Ans FrentOk EncodeOk)
open Conn (OpOk LeavesClosed Allowed Safe UniInv clientBidi streamUni)
open Qpack (DsWF Dec SCtx SysOk CtxOk)

variable {G : Bool × Settings}

/-- the two views of a request stream agree -/
structure Rx (dec : Dec) (r : Bidi.Str) (s : Conn.Strm Fld) : Prop where
  inv : Bidi.SInv r dec
  blk : r.blocked = s.qblocked
  cl : r.closed = s.closed
  gone : r.gone = false
  hu : Bidi.HU r.http

structure RInv (c : CC) (rx : Nat → Bidi.Str) (dec : Dec) : Prop where
  str : ∀ x s, clientBidi x = true → c.str x = some s → Rx dec (rx x) s
  sys : SysOk dec.ctx.hardMax ⟨dec, SCtx.init⟩

def Blk (c : CC) (x : Nat) : Prop := clientBidi x = true ∧ ∃ s, c.str x = some s ∧ s.qblocked = true

/-- the queue holds the streams that wait -/
def QInv (G : Bool × Settings) (c : CC) (rx : Nat → Bidi.Str) (bq : PQ Nat) : Prop :=
  ∃ M, PQ.Rep (ricntLess rx) bq M ∧ (∀ x, x ∈ M ↔ Blk c x) ∧ M.length ≤ G.2.qpackBlockedStreams ∧ c.server = G.1 ∧ c.settings = G.2

/-- streams wait only for entries that have not arrived -/
def Waits (c : CC) (rx : Nat → Bidi.Str) (dec : Dec) : Prop := ∀ x, Blk c x → dec.ctx.next < (rx x).sc.ricnt

/-- the reader of the control stream -/
structure KInv (server : Bool) (k : Control.St Ext) : Prop where
  inv : Control.Inv Control.P8 k
  srv : k.conn.server = server
  elem : k.elem < 2 ^ 62
  rv : RvB k.rv

structure Core (G : Bool × Settings) (ep : Ep) : Prop where
  c : CInv ep.c
  r : RInv ep.c ep.rx ep.dec
  q : QInv G ep.c ep.rx ep.bq
  k : KInv ep.c.server ep.ctl

structure EInv (G : Bool × Settings) (ep : Ep) : Prop where
  core : Core G ep
  waits : Waits ep.c ep.rx ep.dec

theorem sinv_dec {s : Bidi.Str} {d d' : Dec} (h : Bidi.SInv s d) (hc : CtxOk d'.ctx) : Bidi.SInv s d' :=
  ⟨⟨hc, h.inv.wf, h.inv.idle, h.inv.rv, h.inv.hok, h.inv.left⟩, h.buf, h.inq, h.blk⟩

theorem Rx.dec {d d' : Dec} {r : Bidi.Str} {s : Conn.Strm Fld} (h : Rx d r s) (hc : CtxOk d'.ctx) : Rx d' r s :=
  ⟨sinv_dec h.inv hc, h.blk, h.cl, h.gone, h.hu⟩

theorem Rx.flags {d : Dec} {r : Bidi.Str} {s s' : Conn.Strm Fld} (h : Rx d r s) (h1 : s'.qblocked = s.qblocked) (h2 : s'.closed = s.closed) : Rx d r s' :=
  ⟨h.inv, h.blk.trans h1.symm, h.cl.trans h2.symm, h.gone, h.hu⟩

theorem Keep.blk {c c' : CC} {x : Nat} (h : Keep c c' x) : Blk c' x ↔ Blk c x := by
  unfold Blk
  rcases h with ⟨k1, k2⟩ | ⟨s, s', k1, k2, k3, _⟩
  · rw [k1, k2]
  · rw [k1, k2]
    constructor
    · rintro ⟨h1, t, h2, h3⟩; obtain rfl := Option.some.inj h2; exact ⟨h1, s, rfl, k3 ▸ h3⟩
    · rintro ⟨h1, t, h2, h3⟩; obtain rfl := Option.some.inj h2; exact ⟨h1, s', rfl, k3.trans h3⟩

/-- all but the streams `D` are as before -/
theorem rinv_keep {c c' : CC} {rx rx' : Nat → Bidi.Str} {d d' : Dec} (D : Nat → Prop) (h : RInv c rx d) (hs : SysOk d'.ctx.hardMax ⟨d', SCtx.init⟩)
    (h1 : ∀ x, clientBidi x = true → ¬ D x → Keep c c' x ∧ rx' x = rx x)
    (h2 : ∀ x s', clientBidi x = true → D x → c'.str x = some s' → Rx d' (rx' x) s') : RInv c' rx' d' := by
  refine ⟨fun x s' hx hs' => ?_, hs⟩
  by_cases hd : D x
  · exact h2 x s' hx hd hs'
  · obtain ⟨k, kr⟩ := h1 x hx hd
    rcases k with ⟨_, k2⟩ | ⟨s, t, k1, k2, k3, k4⟩
    · rw [k2] at hs'; cases hs'
    · rw [k2] at hs'; obtain rfl := Option.some.inj hs'
      rw [kr]
      exact ((h.str x s hx k1).dec hs.ctx).flags k3 k4

theorem ricnt_weak (rx : Nat → Bidi.Str) : StrictWeak (ricntLess rx) :=
  ⟨fun a b h => by unfold ricntLess at *; simp at *; omega, fun a b c h1 h2 => by unfold ricntLess at *; simp at *; omega⟩

theorem rep_congr {rx rx' : Nat → Bidi.Str} {bq : PQ Nat} {M : List Nat} (h : PQ.Rep (ricntLess rx) bq M) (he : ∀ x ∈ M, (rx' x).sc.ricnt = (rx x).sc.ricnt) :
    PQ.Rep (ricntLess rx') bq M :=
  ⟨PQ.heap_congr (fun a b ha hb => by unfold ricntLess; rw [he a ((h.mem a).1 ha), he b ((h.mem b).1 hb)]) h.heap, h.idx, h.nodup, h.len, h.mem⟩

theorem qinv_keep {c c' : CC} {rx rx' : Nat → Bidi.Str} {bq : PQ Nat} (h : QInv G c rx bq) (hs : SameC c c')
    (hb : ∀ x, Blk c' x ↔ Blk c x) (he : ∀ x, Blk c x → (rx' x).sc.ricnt = (rx x).sc.ricnt) : QInv G c' rx' bq := by
  obtain ⟨M, h1, h2, h3, h4, h5⟩ := h
  exact ⟨M, rep_congr h1 fun x hx => he x ((h2 x).1 hx), fun x => (h2 x).trans (hb x).symm, h3, hs.1.trans h4, hs.2.trans h5⟩

theorem qinv_push {c c' : CC} {rx rx' : Nat → Bidi.Str} {bq : PQ Nat} {y : Nat} (h : QInv G c rx bq) (hs : SameC c c') (hy : ¬ Blk c y)
    (hb : ∀ x, Blk c' x ↔ Blk c x ∨ x = y) (he : ∀ x, x ≠ y → rx' x = rx x) (hr : bq.len < c.settings.qpackBlockedStreams) :
    QInv G c' rx' (bq.push (ricntLess rx') y) := by
  obtain ⟨M, h1, h2, h3, h4, h5⟩ := h
  have hn : y ∉ M := fun g => hy ((h2 y).1 g)
  refine ⟨y :: M, (rep_congr h1 fun x hx => ?_).push (ricnt_weak rx') hn, fun x => ?_, ?_, hs.1.trans h4, hs.2.trans h5⟩
  · rw [he x (fun g => hn (g ▸ hx))]
  · rw [List.mem_cons, hb x, h2 x]; exact Or.comm
  · rw [List.length_cons, ← h1.len, ← h5]; exact hr

theorem waits_keep {c c' : CC} {rx rx' : Nat → Bidi.Str} {d d' : Dec} (h : Waits c rx d) (hd : d'.ctx.next = d.ctx.next)
    (hb : ∀ x, Blk c' x → Blk c x ∧ (rx' x).sc.ricnt = (rx x).sc.ricnt ∨ d'.ctx.next < (rx' x).sc.ricnt) : Waits c' rx' d' := by
  intro x hx
  rcases hb x hx with ⟨k1, k2⟩ | k
  · rw [hd, k2]; exact h x k1
  · exact k

/-- no failed assertion, and the invariant holds afterwards -/
def Good (G : Bool × Settings) : Res → Prop
  | .crash => False
  | .fail _ => True
  | .ok ep _ _ => EInv G ep

theorem good_lift {α : Type} {r : R α} {k : α → Res} (h : r ≠ .crash) (hk : ∀ a, r = .ok a → Good G (k a)) : Good G (lift r k) := by
  unfold lift
  cases r with
  | crash => exact absurd rfl h
  | overflow => trivial
  | callbackFailure => trivial
  | ok a => exact hk a rfl

theorem good_after {ev : List Ev} {r : Res} (h : Good G r) : Good G (r.after ev) := by cases r <;> exact h

theorem sys_same {d d' : Dec} (h : SysOk d.ctx.hardMax ⟨d, SCtx.init⟩) (hs : Bidi.SameEnc d d') : SysOk d'.ctx.hardMax ⟨d', SCtx.init⟩ :=
  Bidi.sysOk_same h hs

/-- the streams have changed, but not the request streams -/
theorem einv_keep {ep : Ep} {c' : CC} {d' : Dec} (h : EInv G ep) (hc : CInv c') (hs : SameC ep.c c') (hk : ∀ x, clientBidi x = true → Keep ep.c c' x)
    (hd : Bidi.SameEnc ep.dec d') : EInv G { ep with c := c', dec := d' } := by
  have hb : ∀ x, Blk c' x ↔ Blk ep.c x := fun x => by
    by_cases hx : clientBidi x = true
    · exact (hk x hx).blk
    · exact ⟨fun g => absurd g.1 hx, fun g => absurd g.1 hx⟩
  refine ⟨⟨hc, rinv_keep (fun _ => False) h.core.r (sys_same h.core.r.sys hd) (fun x hx _ => ⟨hk x hx, rfl⟩) (fun _ _ _ g => g.elim),
    qinv_keep h.core.q hs hb fun _ _ => rfl, ?_⟩, waits_keep h.waits (by rw [hd.1]) fun x hx => .inl ⟨(hb x).1 hx, rfl⟩⟩
  rw [hs.1]; exact h.core.k

theorem plain_good {ep : Ep} (h : EInv G ep) {o : Conn.Op Fld} (h1 : OpOk o) (h2 : LeavesClosed ep.c o) (h3 : Allowed ep.c o) (hn : Neutral o) :
    Good G (plain ep o) := by
  refine good_lift (cinv_nc h.core.c h1 h2 h3) ?_
  rintro ⟨c', r⟩ e
  exact einv_keep h (cinv_step h.core.c h1 h2 h3 (fun y g => by subst g; exact hn.elim) e) (step_sameC h.core.c e)
    (fun x hx => keep_neutral h.core.c h1 hn e hx) (.refl _)

theorem hu_record (s : Http.State) (h : Bidi.HU s) (l : List Http.Field) : Bidi.HU (Http.recordRequestMethod s l) := by
  induction l with
  | nil => exact h
  | cons f t ih => unfold Http.recordRequestMethod; split_ifs <;> first | exact ih | exact h

/-- a new stream -/
theorem rx_new (k : Bidi.Cfg) {d : Dec} {s : Conn.Strm Fld} (hd : CtxOk d.ctx) (h1 : s.qblocked = false) (h2 : s.closed = false) :
    Rx d (Bidi.Str.new k) s := by
  refine ⟨⟨⟨hd, Qpack.SWF.init _, (fun g => by cases g), rvOk_idle, ?_, (fun g => by cases g)⟩, by show Bidi.BufOk []; simp [Bidi.BufOk], (fun g => absurd rfl g), (fun g => by cases g)⟩,
    h1.symm, h2.symm, rfl, ?_⟩
  · show Bidi.HOk .frameType (if k.server then .reqInitial else .respInitial)
    cases k.server <;> simp [Bidi.HOk]
  · show Bidi.HU (if k.server then {} else Http.recordRequestMethod {} k.req)
    have h0 : Bidi.HU {} := by unfold Bidi.HU; decide
    split_ifs
    · exact h0
    · exact hu_record _ h0 _

theorem rx_reject {r : Bidi.Str} {d : Dec} {s : Conn.Strm Fld} (h : Rx d r s) (hb : r.blocked = false) : Rx d { r with rst := .ignRest } s :=
  ⟨⟨⟨h.inv.inv.ctx, h.inv.inv.wf, h.inv.inv.idle, h.inv.inv.rv, trivial, fun g => by cases g⟩, h.inv.buf, h.inv.inq, fun g => by rw [show r.blocked = true from g] at hb; cases hb⟩,
    h.blk, h.cl, h.gone, h.hu⟩

/-- receiving sides, queue and waiting -/
structure Rec (G : Bool × Settings) (c : CC) (rx : Nat → Bidi.Str) (bq : PQ Nat) (dec : Dec) : Prop where
  r : RInv c rx dec
  q : QInv G c rx bq
  w : Waits c rx dec

theorem EInv.rc {ep : Ep} (h : EInv G ep) : Rec G ep.c ep.rx ep.bq ep.dec := ⟨h.core.r, h.core.q, h.waits⟩

theorem EInv.of {ep : Ep} (h1 : CInv ep.c) (h2 : Rec G ep.c ep.rx ep.bq ep.dec) (h3 : KInv ep.c.server ep.ctl) : EInv G ep := ⟨⟨h1, h2.r, h2.q, h3⟩, h2.w⟩

/-- a stream that was not there, or did not wait, has changed and does not wait -/
theorem rec_made {c c' : CC} {rx : Nat → Bidi.Str} {bq : PQ Nat} {d d' : Dec} {y : Nat} {r : Bidi.Str} (h : Rec G c rx bq d) (hs : SameC c c')
    (hd : Bidi.SameEnc d d') (h0 : ∀ s, c.str y = some s → s.qblocked = false) (hk : ∀ x, clientBidi x = true → x ≠ y → Keep c c' x)
    (hy : ∀ s', c'.str y = some s' → s'.qblocked = false ∧ Rx d' r s') : Rec G c' (PQ.upd rx y r) bq d' := by
  have hb0 : ¬ Blk c y := by rintro ⟨_, s, g1, g2⟩; rw [h0 s g1] at g2; cases g2
  have hb1 : ¬ Blk c' y := by rintro ⟨_, s, g1, g2⟩; rw [(hy s g1).1] at g2; cases g2
  have hb : ∀ x, Blk c' x ↔ Blk c x := fun x => by
    by_cases hxy : x = y
    · subst hxy; exact ⟨fun g => absurd g hb1, fun g => absurd g hb0⟩
    · by_cases hx : clientBidi x = true
      · exact (hk x hx hxy).blk
      · exact ⟨fun g => absurd g.1 hx, fun g => absurd g.1 hx⟩
  have hne : ∀ x, Blk c x → PQ.upd rx y r x = rx x := fun x hx => PQ.upd_ne _ _ (fun g => hb0 (g ▸ hx))
  refine ⟨rinv_keep (· = y) h.r (sys_same h.r.sys hd) (fun x hx g => ⟨hk x hx g, PQ.upd_ne _ _ g⟩) ?_, qinv_keep h.q hs hb fun x hx => by rw [hne x hx],
    waits_keep h.w (by rw [hd.1]) fun x hx => .inl ⟨(hb x).1 hx, by rw [hne x ((hb x).1 hx)]⟩⟩
  rintro x s' _ rfl g
  rw [PQ.upd_same]; exact (hy s' g).2

theorem rec_keep {c c' : CC} {rx : Nat → Bidi.Str} {bq : PQ Nat} {d d' : Dec} (h : Rec G c rx bq d) (hs : SameC c c')
    (hd : Bidi.SameEnc d d') (hk : ∀ x, clientBidi x = true → Keep c c' x) : Rec G c' rx bq d' := by
  have hb : ∀ x, Blk c' x ↔ Blk c x := fun x => by
    by_cases hx : clientBidi x = true
    · exact (hk x hx).blk
    · exact ⟨fun g => absurd g.1 hx, fun g => absurd g.1 hx⟩
  exact ⟨rinv_keep (fun _ => False) h.r (sys_same h.r.sys hd) (fun x hx _ => ⟨hk x hx, rfl⟩) (fun _ _ _ g => g.elim),
    qinv_keep h.q hs hb fun _ _ => rfl, waits_keep h.w (by rw [hd.1]) fun x hx => .inl ⟨(hb x).1 hx, rfl⟩⟩

/-- what is new is not blocked -/
theorem made_flags {c c' : CC} {o : Conn.Op Fld} {r : Conn.Ret} {y : Nat} {s' : Conn.Strm Fld} (h : CInv c) (e : Conn.step encode c o = .ok (c', r)) (h0 : c.str y = none)
    (h' : c'.str y = some s') : s'.qblocked = false ∧ s'.closed = false := by
  rcases Conn.step_bl h.inv e y s' h' with k | ⟨s0, k, _⟩
  · exact ⟨k.2.1, k.2.2.2.1⟩
  · rw [h0] at k; cases k

/-- an operation that may create the request stream `y` -/
theorem create_rec {c c' : CC} {rx : Nat → Bidi.Str} {bq : PQ Nat} {d : Dec} {o : Conn.Op Fld} {r : Conn.Ret} {y : Nat} (hc : CInv c) (h : Rec G c rx bq d)
    (h1 : OpOk o) (ho : (∃ n d, o = .submitRequest y n d) ∨ (∃ b, o = .open y b) ∨ ∃ p, o = .priUpd y p) (e : Conn.step encode c o = .ok (c', r)) (st : Bidi.Str)
    (hst : ∀ s : Conn.Strm Fld, s.qblocked = false → s.closed = false → Rx d st s) (new : Bool)
    (hn : clientBidi y = true → new = ((c.str y).isNone && (c'.str y).isSome)) (hn' : clientBidi y = false → new = false) :
    Rec G c' (if new then PQ.upd rx y st else rx) bq d := by
  have hs := step_sameC hc e
  have ho' : (∃ n d, o = .submitRequest y n d) ∨ (∃ b, o = .open y b) ∨ (∃ p, o = .priUpd y p) ∨ o = .close y ∨ o = .qpackBlock y ∨ ∃ p a, o = .qpackUnblock y p a := by
    rcases ho with g | g | g
    · exact .inl g
    · exact .inr (.inl g)
    · exact .inr (.inr (.inl g))
  have hk : ∀ x, clientBidi x = true → x ≠ y → Keep c c' x := fun x hx g => keep_other hc h1 e hx g ho'
  cases hnew : new with
  | true =>
    rw [if_pos rfl]
    have hb : clientBidi y = true := by
      by_cases g : clientBidi y = true
      · exact g
      · rw [hn' (by simpa using g)] at hnew; cases hnew
    have h2 := hn hb
    rw [hnew] at h2
    have h0 : c.str y = none := by
      have : (c.str y).isNone = true := by revert h2; cases (c.str y).isNone <;> simp
      simpa using this
    exact rec_made h hs (.refl _) (fun s g => by rw [h0] at g; cases g) hk fun s' g => by
      obtain ⟨f1, f2⟩ := made_flags hc e h0 g
      exact ⟨f1, hst s' f1 f2⟩
  | false =>
    rw [if_neg (by simp)]
    refine rec_keep h hs (.refl _) fun x hx => ?_
    by_cases hxy : x = y
    · subst hxy
      have h2 := hn hx
      rw [hnew] at h2
      have hl := Conn.step_life hc.inv h1 e
      have he : (c'.str x).isSome = (c.str x).isSome := by
        cases hl with
        | same k _ => exact k x hx
        | made z k k1 k2 k3 k4 k5 =>
          by_cases hz : x = z
          · subst hz; rw [k2, k3] at h2; cases h2
          · exact k4 x hz hx
        | gone z s k => rcases k with rfl | ⟨_, _, rfl⟩ <;> rcases ho with ⟨_, _, g⟩ | ⟨_, g⟩ | ⟨_, g⟩ <;> cases g
      refine keep_of (Conn.step_bl hc.inv e) he fun s s' k => ?_
      unfold Conn.TrB at k
      rcases ho with ⟨_, _, rfl⟩ | ⟨_, rfl⟩ | ⟨_, rfl⟩ <;> exact ⟨k.1, k.2.2.1⟩
    · exact hk x hx hxy

theorem submit_good {P : Par} {ep : Ep} (h : EInv G ep) {id : Nat} {nva : List Qpack.Nv} {dr : Bool} (h3 : Allowed ep.c (.submitRequest id (id, nva) dr)) :
    Good G (submitRequest P ep id nva dr) := by
  refine good_lift (cinv_nc h.core.c (o := .submitRequest id (id, nva) dr) trivial trivial h3) ?_
  rintro ⟨c', r⟩ e
  have e' : Conn.step encode ep.c (.submitRequest id (id, nva) dr) = .ok (c', r) := e
  have hb : clientBidi id = true := Conn.bidi_iff.2 h3.2.2.2
  refine .of (cinv_step h.core.c (o := .submitRequest id (id, nva) dr) trivial trivial h3 (fun y g => by cases g) e') ?_ (by rw [(step_sameC h.core.c e').1]; exact h.core.k)
  exact create_rec h.core.c h.rc (o := .submitRequest id (id, nva) dr) trivial (.inl ⟨_, _, rfl⟩) e' _ (fun s f1 f2 => rx_new _ h.core.r.sys.ctx f1 f2) _ (fun _ => rfl)
    fun g => by rw [hb] at g; cases g

theorem close_good {ep : Ep} (h : EInv G ep) {id : Nat} (h4 : ep.c.server = true → ∀ s, ep.c.str id = some s → s.qblocked = false) : Good G (close ep id) := by
  refine good_lift (cinv_nc h.core.c (o := .close id) trivial trivial trivial) ?_
  rintro ⟨c', r⟩ e
  have e' : Conn.step encode ep.c (.close id) = .ok (c', r) := e
  have hc := cinv_step h.core.c (o := .close id) trivial trivial trivial (fun y g => by cases g; exact h4) e'
  have hs := step_sameC h.core.c e'
  have hk : ∀ x, clientBidi x = true → x ≠ id → Keep ep.c c' x := fun x hx g => keep_other h.core.c (o := .close id) trivial e' hx g (.inr (.inr (.inr (.inl rfl))))
  dsimp only
  by_cases hb : ((ep.c.str id).isSome && clientBidi id) = true
  · rw [if_pos hb]
    rw [Bool.and_eq_true] at hb
    obtain ⟨s, h0⟩ := Option.isSome_iff_exists.1 hb.1
    have hrx := h.core.r.str id s hb.2 h0
    unfold Bidi.closeStream
    cases hbl : (ep.rx id).blocked with
    | true =>
      rw [if_pos rfl]
      have hq : s.qblocked = true := by rw [← hrx.blk]; exact hbl
      rcases h' : c'.str id with _ | s'
      · exfalso
        unfold Conn.closeStream at e
        rw [h0] at e
        dsimp only at e
        by_cases hu : (streamUni id && s.ty != Conn.Ty.unknown) = true
        · rw [if_pos hu] at e
          obtain ⟨rfl, _⟩ := Prod.mk.inj (R.ok.inj e); rw [h0] at h'; cases h'
        · rw [if_neg hu] at e
          obtain ⟨c1, e1, e2⟩ := Conn.bind_ok e
          rw [if_neg (by rw [hq]; simp)] at e2
          obtain ⟨rfl, _⟩ := Prod.mk.inj (R.ok.inj e2)
          rw [Conn.set_str] at h'; cases h'
      · have hbk := Conn.step_bl h.core.c.inv e' id s' h'
        have hfl : s'.qblocked = true ∧ s'.closed = true := by
          rcases hbk with k | ⟨s0, k1, k2⟩
          · rw [h0] at k; cases k.1
          · rw [h0] at k1; obtain rfl := Option.some.inj k1
            unfold Conn.TrB at k2
            dsimp only at k2
            rw [if_pos rfl] at k2
            exact ⟨(k2 hb.2).1.trans hq, (k2 hb.2).2.2.1⟩
        have hblk : ∀ x, Blk c' x ↔ Blk ep.c x := fun x => by
          by_cases hxy : x = id
          · subst hxy; exact ⟨fun _ => ⟨hb.2, s, h0, hq⟩, fun _ => ⟨hb.2, s', h', hfl.1⟩⟩
          · by_cases hx : clientBidi x = true
            · exact (hk x hx hxy).blk
            · exact ⟨fun g => absurd g.1 hx, fun g => absurd g.1 hx⟩
        have hri : ∀ x (st : Bidi.Str), st.sc = (ep.rx id).sc → ((PQ.upd ep.rx id st) x).sc.ricnt = (ep.rx x).sc.ricnt := fun x st hst => by
          by_cases hxy : x = id
          · subst hxy; rw [PQ.upd_same, hst]
          · rw [PQ.upd_ne _ _ hxy]
        refine .of hc ⟨rinv_keep (· = id) h.core.r h.core.r.sys (fun x hx g => ⟨hk x hx g, PQ.upd_ne _ _ g⟩) ?_, qinv_keep h.core.q hs hblk fun x _ => hri x _ rfl,
          waits_keep h.waits rfl fun x hx => .inl ⟨(hblk x).1 hx, hri x _ rfl⟩⟩ (by rw [hs.1]; exact h.core.k)
        rintro x t _ rfl g
        rw [h'] at g; obtain rfl := Option.some.inj g
        dsimp only
        rw [PQ.upd_same]
        exact ⟨⟨⟨hrx.inv.inv.ctx, hrx.inv.inv.wf, hrx.inv.inv.idle, hrx.inv.inv.rv, hrx.inv.inv.hok, hrx.inv.inv.left⟩, hrx.inv.buf, fun g => hbl ▸ hrx.inv.inq g, fun _ => hrx.inv.blk hbl⟩, hfl.1.symm, hfl.2.symm, hrx.gone, hrx.hu⟩
    | false =>
      rw [if_neg (by simp)]
      have hq : s.qblocked = false := by rw [← hrx.blk]; exact hbl
      have hg := close_gone h0 hb.2 hq e
      exact .of hc (rec_made h.rc hs (.refl _) (fun t g => by rw [h0] at g; obtain rfl := Option.some.inj g; exact hq) hk fun s' g => by rw [hg] at g; cases g)
        (by rw [hs.1]; exact h.core.k)
  · rw [if_neg hb]
    refine einv_keep h hc hs (fun x hx => ?_) (.refl _)
    by_cases hxy : x = id
    · subst hxy
      rw [hx, Bool.and_true] at hb
      have h0 : c'.str x = none ∧ ep.c.str x = none := by
        have h0 : ep.c.str x = none := by simpa using hb
        unfold Conn.closeStream at e
        rw [h0] at e
        obtain ⟨rfl, _⟩ := Prod.mk.inj (R.ok.inj e)
        exact ⟨h0, h0⟩
      exact .inl ⟨h0.2, h0.1⟩
    · exact hk x hx hxy

theorem cancel_same {d d' : Dec} {id : Nat} (h : d.cancelStream id = some d') : Bidi.SameEnc d d' := by
  unfold Dec.cancelStream at h
  split_ifs at h
  cases h; exact ⟨rfl, rfl, rfl, rfl⟩

theorem shutRd_good {ep : Ep} (h : EInv G ep) {id : Nat} (h3 : id < 2 ^ 62) : Good G (shutRd ep id) := by
  refine good_lift (cinv_nc h.core.c (o := .shutRd id) trivial trivial h3) ?_
  rintro ⟨c', r⟩ e
  have e' : Conn.step encode ep.c (.shutRd id) = .ok (c', r) := e
  have hc := cinv_step h.core.c (o := .shutRd id) trivial trivial h3 (fun y g => by cases g) e'
  have hs := step_sameC h.core.c e'
  have hk : ∀ x, clientBidi x = true → Keep ep.c c' x := fun x hx => keep_neutral h.core.c (o := .shutRd id) trivial trivial e' hx
  dsimp only
  by_cases hb : (!clientBidi id) = true
  · rw [if_pos hb]; exact einv_keep h hc hs hk (.refl _)
  rw [if_neg hb]
  by_cases hsh : ((ep.c.str id).isSome && (ep.rx id).shutRd) = true
  · rw [if_pos hsh]; exact einv_keep h hc hs hk (.refl _)
  rw [if_neg hsh]
  rcases hd : ep.dec.cancelStream id with _ | d
  · trivial
  have hsd := cancel_same hd
  have h1 := rec_keep h.rc hs hsd hk
  refine .of hc ?_ (by rw [hs.1]; exact h.core.k)
  dsimp only
  by_cases he : (ep.c.str id).isSome = true
  · rw [if_pos he]
    have hri : ∀ x (st : Bidi.Str), st.sc = (ep.rx id).sc → ((PQ.upd ep.rx id st) x).sc.ricnt = (ep.rx x).sc.ricnt := fun x st hst => by
      by_cases hxy : x = id
      · subst hxy; rw [PQ.upd_same, hst]
      · rw [PQ.upd_ne _ _ hxy]
    refine ⟨rinv_keep (· = id) h1.r h1.r.sys (fun x hx g => ⟨Keep.refl x, PQ.upd_ne _ _ g⟩) ?_, qinv_keep h1.q (.refl _) (fun _ => Iff.rfl) fun x _ => hri x _ rfl,
          waits_keep h1.w rfl fun x hx => .inl ⟨hx, hri x _ rfl⟩⟩
    rintro x t hx rfl g
    have hrx := h1.r.str x t hx g
    rw [PQ.upd_same]
    exact ⟨⟨⟨hrx.inv.inv.ctx, hrx.inv.inv.wf, hrx.inv.inv.idle, hrx.inv.inv.rv, hrx.inv.inv.hok, hrx.inv.inv.left⟩, hrx.inv.buf, hrx.inv.inq, hrx.inv.blk⟩, hrx.blk, hrx.cl, hrx.gone, hrx.hu⟩
  · rw [if_neg he]; exact h1

theorem write_same (d : Dec) : Bidi.SameEnc d d.writeDecoder.1 := by
  unfold Dec.writeDecoder
  split_ifs <;> exact ⟨rfl, rfl, rfl, rfl⟩

theorem writev_good {ep : Ep} (h : EInv G ep) {k : Nat} {as : List Ans} (h3 : ∀ a ∈ as, Outq.AnsOk a) : Good G (writev ep k as) := by
  refine good_lift (cinv_nc h.core.c (o := .writev k ep.dec.writeDecoder.2 as) trivial trivial h3) ?_
  rintro ⟨c', r⟩ e
  have e' : Conn.step encode ep.c (.writev k ep.dec.writeDecoder.2 as) = .ok (c', r) := e
  refine einv_keep h (cinv_step h.core.c (o := .writev k ep.dec.writeDecoder.2 as) trivial trivial h3 (fun y g => by cases g) e') (step_sameC h.core.c e')
    (fun x hx => keep_neutral h.core.c (o := .writev k ep.dec.writeDecoder.2 as) trivial trivial e' hx) ?_
  split_ifs
  · exact write_same _
  · exact .refl _

theorem conc_good {ep : Ep} (h : EInv G ep) (n : Nat) : EInv G { ep with dec := ep.dec.setMaxConc n } :=
  einv_keep h h.core.c (.refl _) (fun x _ => .refl x) ⟨rfl, rfl, rfl, rfl⟩

end Endpoint
end Nghttp3
