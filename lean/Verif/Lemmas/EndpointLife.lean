import Verif.Lemmas.EndpointCut
import Verif.Spec.Life
/-! What a call does to one request stream of a connection. -/
namespace Nghttp3
namespace Endpoint
open Outq (R Ans)
open Conn (OpOk LeavesClosed Allowed clientBidi streamUni)
open Qpack (Dec SCtx)

variable {G : Bool × Settings} {P : Par}

/-- the receiving side of a stream, if the stream exists -/
def view (c : CC) (rx : Nat → Bidi.Str) (x : Nat) : Option Bidi.Str := (c.str x).map fun _ => rx x

/-- one step in the life of a stream: pieces received (with fin or not), callbacks, bytes returned; `Q` says how the stream may be created, `S` whether it may be shut down -/
inductive Move (K : Bidi.Cfg) (Q : Bool → List Http.Field → Prop) (S : Prop) : Option Bidi.Str → List (Bytes × Bool) → List Bidi.Ev → Int → Option Bidi.Str → Prop where
  | made (req : List Http.Field) (h : Q false req) : Move K Q S none [] [] 0 (some (Bidi.Str.new { K with req := req }))
  | refused (h : Q true []) : Move K Q S none [] [.stopSending 0x010b, .resetStream 0x010b] 0 (some { Bidi.Str.new K with rst := .ignRest })
  | recv (s : Bidi.Str) (d : Dec) (b room fin : Bool) (src : Bytes) (s' : Bidi.Str) (d' : Dec) (ev : List Bidi.Ev) (n : Nat) (rest : Bytes) (hs : Bidi.SInv s d)
      (h : Bidi.readStream K room fin { s with priFixed := b } d src = .ok s' d' ev n rest) : Move K Q S (some s) [(src, fin)] ev n (some s')
  | woken (s : Bidi.Str) (d : Dec) (b room : Bool) (s' : Bidi.Str) (d' : Dec) (ev : List Bidi.Ev) (n : Nat) (rest : Bytes) (hs : Bidi.SInv s d)
      (hg : s.gone = false) (hb : s.blocked = true) (hn : s.sc.ricnt ≤ d.ctx.next)
      (h : Bidi.processBlocked K room { s with blocked := false, priFixed := b } d = .ok s' d' ev n rest) : Move K Q S (some s) [] ev 0 (if s'.gone then none else some s')
  | shut (s : Bidi.Str) (h : S) : Move K Q S (some s) [] [] 0 (some { s with shutRd := true })
  | closed (s : Bidi.Str) (d : Dec) (s' : Bidi.Str) (d' : Dec) (ev : List Bidi.Ev) (n : Nat) (rest : Bytes) (hs : Bidi.SInv s d)
      (hg : s.gone = false) (h : Bidi.closeStream s d = .ok s' d' ev n rest) : Move K Q S (some s) [] ev 0 (if s'.gone then none else some s')

inductive Chain (K : Bidi.Cfg) (Q : Bool → List Http.Field → Prop) (S : Prop) : Option Bidi.Str → List (Bytes × Bool) → List Bidi.Ev → Int → Option Bidi.Str → Prop where
  | refl (a : Option Bidi.Str) : Chain K Q S a [] [] 0 a
  | step {a b c : Option Bidi.Str} {g g' : List (Bytes × Bool)} {e e' : List Bidi.Ev} {u u' : Int} (h : Chain K Q S a g e u b) (h' : Move K Q S b g' e' u' c) :
      Chain K Q S a (g ++ g') (e ++ e') (u + u') c

variable {K : Bidi.Cfg} {Q : Bool → List Http.Field → Prop} {S : Prop}

theorem Chain.of {a b : Option Bidi.Str} {g : List (Bytes × Bool)} {e : List Bidi.Ev} {u : Int} (h : Move K Q S a g e u b) : Chain K Q S a g e u b := by
  have := Chain.step (.refl a) h
  rwa [List.nil_append, List.nil_append, Int.zero_add] at this

theorem Chain.trans {a b c : Option Bidi.Str} {g g' : List (Bytes × Bool)} {e e' : List Bidi.Ev} {u u' : Int} (h : Chain K Q S a g e u b) (h' : Chain K Q S b g' e' u' c) :
    Chain K Q S a (g ++ g') (e ++ e') (u + u') c := by
  induction h' with
  | refl => simpa using h
  | step _ h2 ih => rw [← List.append_assoc, ← List.append_assoc, ← Int.add_assoc]; exact .step ih h2

theorem Chain.eq {a b a' b' : Option Bidi.Str} {g g' : List (Bytes × Bool)} {e e' : List Bidi.Ev} {u u' : Int} (h : Chain K Q S a g e u b) (h1 : a = a') (h2 : g = g') (h3 : e = e')
    (h4 : u = u') (h5 : b = b') : Chain K Q S a' g' e' u' b' := by subst h1 h2 h3 h4 h5; exact h

theorem view_of {c c' : CC} {rx rx' : Nat → Bidi.Str} {x : Nat} (h : (c'.str x).isSome = (c.str x).isSome) (hr : rx' x = rx x) : view c' rx' x = view c rx x := by
  unfold view
  rcases h0 : c.str x with _ | s <;> rcases h1 : c'.str x with _ | s' <;> rw [h0, h1] at h <;> first | rfl | (cases h; done) | skip
  rw [Option.map_some, Option.map_some, hr]

theorem view_some {c : CC} {rx : Nat → Bidi.Str} {x : Nat} (h : (c.str x).isSome = true) : view c rx x = some (rx x) := by
  unfold view
  obtain ⟨s, hs⟩ := Option.isSome_iff_exists.1 h
  rw [hs]; rfl

theorem view_none {c : CC} {rx : Nat → Bidi.Str} {x : Nat} (h : (c.str x).isSome = false) : view c rx x = none := by
  unfold view
  rcases hs : c.str x with _ | s
  · rfl
  · rw [hs] at h; cases h

theorem chain_same {c c' : CC} {rx rx' : Nat → Bidi.Str} {x : Nat} (h : (c'.str x).isSome = (c.str x).isSome) (hr : rx' x = rx x) :
    Chain K Q S (view c rx x) [] [] 0 (view c' rx' x) := by
  rw [view_of h hr]; exact .refl _

theorem ofStr_same (x : Nat) (ev : List Bidi.Ev) : (ev.map (Ev.str x)).filterMap (Ev.ofStr x) = ev := by
  induction ev with
  | nil => rfl
  | cons e t ih => rw [List.map_cons, List.filterMap_cons]; simp only [Ev.ofStr, if_true]; rw [ih]

theorem ofStr_ne {x y : Nat} (h : y ≠ x) (ev : List Bidi.Ev) : (ev.map (Ev.str y)).filterMap (Ev.ofStr x) = [] := by
  induction ev with
  | nil => rfl
  | cons e t ih => rw [List.map_cons, List.filterMap_cons]; simp only [Ev.ofStr, if_neg h]; exact ih

theorem ofStr_ctl (x : Nat) (ev : List Control.Ev) : (ev.map Ev.ctl).filterMap (Ev.ofStr x) = [] := by
  induction ev with
  | nil => rfl
  | cons e t ih => rw [List.map_cons, List.filterMap_cons]; simp only [Ev.ofStr]; exact ih

/-- the bytes of stream `x` that the result of a call on stream `id` returns -/
def codeFor (id x : Nat) : Conn.Ret → Int
  | .code n => if id = x then n else 0
  | _ => 0

theorem codeFor_ne {id x : Nat} (h : id ≠ x) (r : Conn.Ret) : codeFor id x r = 0 := by
  unfold codeFor
  cases r <;> first | rfl | exact if_neg h

/-- what an operation that may create the stream `y` does -/
theorem create_some {c c' : CC} {o : Conn.Op Fld} {r : Conn.Ret} {y : Nat} (hc : CInv c) (h1 : OpOk o)
    (ho : (∃ n d, o = .submitRequest y n d) ∨ (∃ b, o = .open y b) ∨ ∃ p, o = .priUpd y p) (e : Conn.step encode c o = .ok (c', r)) {x : Nat} (hx : clientBidi x = true) :
    (c'.str x).isSome = ((c.str x).isSome || (decide (x = y) && (c'.str x).isSome)) := by
  have hl := Conn.step_life hc.inv h1 e
  cases hl with
  | same k _ => rw [k x hx]; cases (c.str x).isSome <;> simp
  | made z k k1 k2 k3 k4 k5 =>
    by_cases hz : x = z
    · subst hz
      have : x = y := by
        rcases k with ⟨_, _, rfl⟩ | ⟨_, rfl⟩ | ⟨_, rfl⟩ <;> rcases ho with ⟨_, _, g⟩ | ⟨_, g⟩ | ⟨_, g⟩ <;> cases g <;> rfl
      rw [k2, k3, this]; simp
    · rw [k4 x hz hx]; cases (c.str x).isSome <;> simp
  | gone z s k => rcases k with rfl | ⟨_, _, rfl⟩ <;> rcases ho with ⟨_, _, g⟩ | ⟨_, g⟩ | ⟨_, g⟩ <;> cases g

theorem create_chain {c c' : CC} {rx : Nat → Bidi.Str} {o : Conn.Op Fld} {r : Conn.Ret} {y : Nat} (hc : CInv c) (h1 : OpOk o)
    (ho : (∃ n d, o = .submitRequest y n d) ∨ (∃ b, o = .open y b) ∨ ∃ p, o = .priUpd y p) (e : Conn.step encode c o = .ok (c', r)) {x : Nat} (hx : clientBidi x = true)
    (st : Bidi.Str) (new : Bool) (hn : clientBidi y = true → new = ((c.str y).isNone && (c'.str y).isSome)) (hn' : clientBidi y = false → new = false) (ev : List Bidi.Ev)
    (hm : x = y → (c.str x).isSome = false → (c'.str x).isSome = true → Move K Q S none [] ev 0 (some st)) :
    Chain K Q S (view c rx x) [] (if x = y ∧ new = true then ev else []) 0 (view c' (if new then PQ.upd rx y st else rx) x) := by
  have hcs := create_some hc h1 ho e hx
  by_cases hxy : x = y
  · subst hxy
    have hnew := hn hx
    cases h0 : (c.str x).isSome with
    | true =>
      have : new = false := by rw [hnew]; have : (c.str x).isNone = false := by (revert h0; cases c.str x <;> simp)
                               rw [this]; rfl
      rw [this, if_neg (by simp), if_neg (by simp)]
      exact chain_same (by rw [hcs, h0]; rfl) rfl
    | false =>
      have hz : (c.str x).isNone = true := by revert h0; cases c.str x <;> simp
      cases h2 : (c'.str x).isSome with
      | true =>
        have : new = true := by rw [hnew, hz, h2]; rfl
        rw [this, if_pos (by simp), if_pos rfl, view_none h0, view_some h2, PQ.upd_same]
        exact .of (hm rfl h0 h2)
      | false =>
        have : new = false := by rw [hnew, h2, Bool.and_false]
        rw [this, if_neg (by simp), if_neg (by simp), view_none h0, view_none h2]
        exact .refl _
  · rw [if_neg (by simp [hxy])]
    refine chain_same (by rw [hcs]; simp [hxy]) ?_
    split_ifs
    · exact PQ.upd_ne _ _ hxy
    · rfl

/-- the loop that releases waiting streams -/
theorem release_chain (hP : ParOk P) (n f : Nat) (ep : Ep) (h : Core G ep) {ep' : Ep} {r : Conn.Ret} {ev : List Ev} (e : release P n f ep = .ok ep' r ev) {x : Nat}
    (hx : clientBidi x = true) (hK : K = cfg P ep.c x) : Chain K Q S (view ep.c ep.rx x) [] (ev.filterMap (Ev.ofStr x)) 0 (view ep'.c ep'.rx x) := by
  induction f generalizing ep ev with
  | zero => unfold release at e; cases e
  | succ f ih =>
    unfold release at e
    rcases ht : ep.bq.top with _ | m <;> rw [ht] at e <;> dsimp only at e
    · cases e; exact .refl _
    by_cases hnx : ep.dec.ctx.next < (ep.rx m).sc.ricnt
    · rw [if_pos hnx] at e; cases e; exact .refl _
    rw [if_neg hnx] at e
    rcases hp : ep.bq.pop (ricntLess ep.rx) with _ | bq <;> rw [hp] at e <;> dsimp only at e
    · cases e
    rcases woken hP h ht hp hnx with ⟨z, hw⟩ | ⟨s', d', ev1, n', rest, hw, q1, q2⟩
    · rw [hw] at e; cases e
    rw [hw] at e
    dsimp only at e
    rcases e1 : priorities ep.c m ev1 with _ | _ | _ | c1
    · exact absurd e1 q1
    · rw [e1] at e; cases e
    · rw [e1] at e; cases e
    rw [e1] at e
    dsimp only [lift] at e
    obtain ⟨q3, q4⟩ := q2 c1 e1
    rcases e2 : Conn.qpackUnblock c1 m none s'.blocked with _ | _ | _ | ⟨c2, r2⟩
    · exact absurd e2 q3
    · rw [e2] at e; cases e
    · rw [e2] at e; cases e
    rw [e2] at e
    dsimp only at e
    have W := q4 c2 r2 e2
    generalize hg : release P n f _ = o at e
    rcases o with _ | _ | ⟨ep2, r3, ev2⟩
    · cases e
    · cases e
    dsimp only [Res.after] at e
    injection e with e3 e4 e5
    subst e3 e4 e5
    have hsC : SameC ep.c c2 := by
      obtain ⟨_, _, _, _, a1, a2⟩ := h.q
      obtain ⟨_, _, _, _, b1, b2⟩ := W.core.q
      exact ⟨b1.trans a1.symm, b2.trans a2.symm⟩
    have hcfg : K = cfg P c2 x := by rw [hK]; unfold cfg; rw [hsC.1, hsC.2]
    have := ih _ W.core hg hcfg
    dsimp only at this
    rw [List.filterMap_append]
    refine (Chain.trans (b := view c2 (PQ.upd ep.rx m s') x) (g := []) (u := 0) ?_ this).eq rfl rfl rfl rfl rfl
    by_cases hxm : x = m
    · subst hxm
      rw [ofStr_same]
      obtain ⟨t, w1, w2, w3⟩ := W.was
      rw [view_some (by rw [w1]; rfl)]
      have hmv := Move.woken (K := K) (Q := Q) (S := S) (ep.rx x) ep.dec (fixedPri ep.c x) (room ep.c bq) s' d' ev1 n' rest w2.inv w2.gone (w2.blk.trans w3) (by omega) (by rw [hK]; exact hw)
      refine (Chain.of hmv).eq rfl rfl rfl rfl ?_
      cases hgn : s'.gone with
      | true => rw [if_pos rfl, view_none (by rw [W.gone, hgn]; rfl)]
      | false => rw [if_neg (by simp), view_some (by rw [W.gone, hgn]; rfl), PQ.upd_same]
    · rw [ofStr_ne (Ne.symm hxm)]
      exact chain_same (isSome_keep (W.keep x hx hxm)) (PQ.upd_ne _ _ hxm)

theorem readQenc_chain (hP : ParOk P) {ep : Ep} (h : EInv G ep) (src : Bytes) (n : Nat) {ep' : Ep} {r : Conn.Ret} {ev : List Ev} (e : readQenc P ep src n = .ok ep' r ev) {x : Nat}
    (hx : clientBidi x = true) (hK : K = cfg P ep.c x) : Chain K Q S (view ep.c ep.rx x) [] (ev.filterMap (Ev.ofStr x)) 0 (view ep'.c ep'.rx x) := by
  unfold readQenc at e
  rcases Qpack.readEncoder_safe h.core.r.sys.dec src with ⟨d', h1, h2, h3⟩ | ⟨d', z, h1, _⟩
  · rw [h1] at e
    dsimp only at e
    obtain ⟨M, hM, hmem, hlen⟩ := h.core.q
    have hsys : Qpack.SysOk d'.ctx.hardMax ⟨d', SCtx.init⟩ := ⟨h2.ctx, rfl, .inr h2, h.core.r.sys.str⟩
    have hc : Core G { ep with dec := d' } := ⟨h.core.c, rinv_keep (fun _ => False) h.core.r hsys (fun x _ _ => ⟨.refl x, rfl⟩) (fun _ _ _ g => g.elim), ⟨M, hM, hmem, hlen⟩, h.core.k⟩
    exact release_chain hP n _ _ hc e hx hK
  · rw [h1] at e; cases e

theorem readQdec_chain {ep : Ep} (src : Bytes) (n : Nat) {ep' : Ep} {r : Conn.Ret} {ev : List Ev} (e : readQdec ep src n = .ok ep' r ev) (x : Nat) :
    Chain K Q S (view ep.c ep.rx x) [] (ev.filterMap (Ev.ofStr x)) 0 (view ep'.c ep'.rx x) := by
  unfold readQdec at e
  generalize ep.c.enc.readDecoder src = o at e
  rcases o with _ | _ | d
  · cases e
  · cases e
  · cases e; exact .refl _

/-- what the reader of the control stream does to a request stream -/
def CtlV (G : Bool × Settings) (P : Par) (ep : Ep) (Q : Bool → List Http.Field → Prop) (S : Prop) (x : Nat) (k : Control.Conn Ext) : Prop :=
  CtlQ G ep k ∧ ∀ c rx, k.ext = some (c, rx) → Conn.rejects c x = Conn.rejects ep.c x ∧ Chain (cfg P ep.c x) Q S (view ep.c ep.rx x) [] [] 0 (view c rx x)

theorem rejects_same {c c' : CC} (h : CInv c) {o : Conn.Op Fld} {r : Conn.Ret} (hn : o ≠ .notice) (hs : o ≠ .shutdown) (e : Conn.step encode c o = .ok (c', r)) (x : Nat) :
    Conn.rejects c' x = Conn.rejects c x := by
  have hg := Conn.step_glob h.inv e
  have same : ∀ {g : Conn.Glob}, Conn.glob c' = g → g.goawayQueued = c.goawayQueued ∧ g.txGoaway = c.txGoaway → Conn.rejects c' x = Conn.rejects c x := by
    rintro g rfl ⟨g1, g2⟩
    unfold Conn.rejects
    rw [show c'.goawayQueued = c.goawayQueued from g1, show c'.txGoaway = c.txGoaway from g2]
  cases o with
  | bindControl id => rcases hg with g | ⟨_, g⟩ <;> exact same g ⟨rfl, rfl⟩
  | bindQpack a b => rcases hg with g | ⟨_, _, g | g⟩ <;> exact same g ⟨rfl, rfl⟩
  | notice => exact absurd rfl hn
  | shutdown => exact absurd rfl hs
  | setMaxClient n => exact same hg.2 ⟨rfl, rfl⟩
  | «open» id b => rcases hg with g | ⟨_, _, _, g⟩ <;> exact same g ⟨rfl, rfl⟩
  | priUpd id p => rcases hg with g | ⟨_, _, _, g⟩ <;> exact same g ⟨rfl, rfl⟩
  | uni a b d => obtain ⟨_, _, _, g, _⟩ := hg; exact same g ⟨rfl, rfl⟩
  | _ => exact same hg ⟨rfl, rfl⟩

theorem pri_created {c c' : CC} {x : Nat} {p : Http.Pri} {r : Conn.Ret} (e : Conn.onPriorityUpdate c x p = .ok (c', r)) (h0 : (c.str x).isSome = false) (h1 : (c'.str x).isSome = true) :
    Conn.rejects c x = false := by
  unfold Conn.onPriorityUpdate at e
  by_cases g1 : (!c.server) = true
  · rw [if_pos g1] at e; cases e
  rw [if_neg g1] at e
  by_cases g2 : (!clientBidi x || decide (Conn.ordStreamId x > c.maxClient)) = true
  · rw [if_pos g2] at e; cases e; rw [h0] at h1; cases h1
  rw [if_neg g2] at e
  rcases g0 : c.str x with _ | s <;> rw [g0] at e <;> dsimp only at e
  · by_cases g3 : Conn.rejects c x = true
    · rw [if_pos g3] at e; cases e; rw [h0] at h1; cases h1
    · simpa using g3
  · rw [g0] at h0; cases h0

theorem ctl_stableV (hP : ParOk P) (ep : Ep) {x : Nat} (hx : clientBidi x = true) (hQ : ep.c.server = true → Conn.rejects ep.c x = false → Q false []) :
    Control.StableP (env P) (CtlV G P ep Q S x) where
  recved _ h := h
  rep _ _ h := h
  entry k i v k' h e := by
    refine ⟨(ctl_stable hP ep).entry k i v k' h.1 e, ?_⟩
    obtain ⟨_, _, k3⟩ := entry_enc e h.1.2.1
    rw [k3]; exact h.2
  goaway _ _ h := h
  push _ _ h := h
  long _ h := h
  ext k i p y h hsv hi hp e := by
    refine ⟨(ctl_stable hP ep).ext k i p y h.1 hsv hi hp e, ?_⟩
    obtain ⟨⟨h1, h2, c, rx, h3, h4, h5, h6⟩, hv⟩ := h
    obtain ⟨hrj, hch⟩ := hv c rx h3
    intro c1 rx1 hy
    have hy : y = some (c1, rx1) := hy
    subst hy
    have e : onPri P k.ext i p = .ok (some (c1, rx1)) := e
    rw [h3] at e
    unfold onPri at e
    dsimp only at e
    have hsv' : c.server = true := by rw [h5.1, ← h1]; exact hsv
    have hsv'' : ep.c.server = true := by rw [← h1]; exact hsv
    have hu : p.urgency < 8 := by
      rcases hp with rfl | ⟨f, hp⟩
      · show 3 < 8; omega
      · exact hP ⟨3, false⟩ f p (by show 3 < 8; omega) hp
    have o1 : OpOk (Conn.Op.priUpd i p : Conn.Op Fld) := hu
    rcases e1 : Conn.onPriorityUpdate c i p with _ | _ | _ | ⟨c', r⟩
    · rw [e1] at e; cases e
    · rw [e1] at e; cases e
    · rw [e1] at e; cases e
    obtain ⟨z, rfl⟩ := pri_code e1
    rw [e1] at e
    dsimp only at e
    by_cases hz : z ≠ 0
    · rw [if_pos hz] at e; cases e
    rw [if_neg hz] at e
    injection e with e
    injection e with e
    obtain ⟨rfl, rfl⟩ := Prod.mk.inj e
    have e1' : Conn.step encode c (.priUpd i p) = .ok (c', .code z) := e1
    refine ⟨(rejects_same h4 (by simp) (by simp) e1' x).trans hrj, ?_⟩
    by_cases hb : clientBidi i = true
    · refine (hch.trans (create_chain (rx := rx) h4 o1 (.inr (.inr ⟨p, rfl⟩)) e1' hx (Bidi.Str.new (cfg P c i)) _ (fun _ => rfl) (fun g => by rw [hb] at g; cases g) [] fun hxi k1 k2 => ?_)).eq
        rfl rfl (by split_ifs <;> rfl) rfl rfl
      subst hxi
      have : Bidi.Str.new (cfg P c x) = Bidi.Str.new { cfg P ep.c x with req := [] } := by unfold cfg; rw [h5.1, h5.2]
      rw [this]
      exact .made [] (hQ hsv'' (hrj.symm.trans (pri_created e1 k1 k2)))
    · have e1 : Conn.onPriorityUpdate c i p = .ok (c, .code Err.H3_ID_ERROR) := by
        unfold Conn.onPriorityUpdate
        rw [if_neg (by rw [hsv']; simp), if_pos (by rw [eq_false_of_ne_true hb]; simp)]
      rw [show Conn.onPriorityUpdate c i p = _ from e1'] at e1
      cases e1
      exact absurd (by decide) hz

theorem readControl_chain (hP : ParOk P) {ep : Ep} (h : EInv G ep) (src : Bytes) (n : Nat) {ep' : Ep} {r : Conn.Ret} {ev : List Ev} (e : readControl P ep src n = .ok ep' r ev) {x : Nat}
    (hx : clientBidi x = true) (hQ : ep.c.server = true → Conn.rejects ep.c x = false → Q false []) : Chain (cfg P ep.c x) Q S (view ep.c ep.rx x) [] (ev.filterMap (Ev.ofStr x)) 0 (view ep'.c ep'.rx x) := by
  obtain ⟨hi, hs⟩ := ctl_start h
  have hs' : Control.SB (CtlV G P ep Q S x) (ctlStart ep) := ⟨⟨hs.1, fun c rx g => by
    have g : some (ep.c, ep.rx) = some (c, rx) := g
    injection g with g
    obtain ⟨rfl, rfl⟩ := Prod.mk.inj g
    exact ⟨rfl, .refl _⟩⟩, hs.2⟩
  have ho := Control.read_prs (ctl_stableV hP ep hx hQ) (ctlStart ep) src hi hs'
  unfold readControl at e
  change (match Control.read (env P) (ctlStart ep) src with
    | .crash => Res.crash
    | .stop _ _ => Res.crash
    | .fail (e, k) => if k.ext.isNone then Res.crash else Res.fail e
    | .ok s => _) = _ at e
  rcases er : Control.read (env P) (ctlStart ep) src with _ | ⟨z, k⟩ | _ | s <;> rw [er] at ho e <;> dsimp only at e
  · cases e
  · split_ifs at e
  · cases e
  · rcases hx' : s.conn.ext with _ | ⟨c, rx⟩ <;> rw [hx'] at e <;> dsimp only at e
    · cases e
    · cases e
      rw [ofStr_ctl]
      exact (ho.1.2 c rx hx').2

theorem readUni_chain (hP : ParOk P) {ep : Ep} (h : EInv G ep) {id : Nat} {src : Bytes} {fin : Bool} (hp : Conn.peerUni ep.c.server id) (h0 : (ep.c.str id).isSome = true)
    {ep' : Ep} {r : Conn.Ret} {ev : List Ev} (e : readUni P ep id src fin = .ok ep' r ev) {x : Nat} (hx : clientBidi x = true) (hid : id ≠ x) (hQ : ep.c.server = true → Conn.rejects ep.c x = false → Q false []) :
    Chain (cfg P ep.c x) Q S (view ep.c ep.rx x) [] (ev.filterMap (Ev.ofStr x)) 0 (view ep'.c ep'.rx x) := by
  unfold readUni at e
  have o3 : Allowed ep.c (.uni id src fin) := ⟨hp, h0⟩
  rcases e1 : Conn.readUni ep.c id src fin with _ | _ | _ | ⟨c', r1⟩ <;> rw [e1] at e <;> dsimp only [lift] at e
  · cases e
  · cases e
  · cases e
  have e' : Conn.step encode ep.c (.uni id src fin) = .ok (c', r1) := e1
  have hk := keep_neutral h.core.c (o := .uni id src fin) trivial trivial e' hx
  have hs := step_sameC h.core.c e'
  have hc := cinv_step h.core.c (o := .uni id src fin) trivial trivial o3 (fun y g => by cases g) e'
  have h1 : EInv G { ep with c := c' } := einv_keep h hc hs (fun x hx => keep_neutral h.core.c (o := .uni id src fin) trivial trivial e' hx) (.refl _)
  have hcfg : cfg P ep.c x = cfg P c' x := by unfold cfg; rw [hs.1, hs.2]
  have hQ' : c'.server = true → Conn.rejects c' x = false → Q false [] := fun g k => hQ (hs.1 ▸ g) ((rejects_same h.core.c (by simp) (by simp) e' x).symm.trans k)
  have hst : Chain (cfg P ep.c x) Q S (view ep.c ep.rx x) [] [] 0 (view c' ep.rx x) := chain_same (isSome_keep hk) rfl
  cases r1 with
  | code z => dsimp only at e; split_ifs at e; cases e; exact hst
  | vecs v => exact absurd e1 uni_novecs
  | discard m stop =>
    dsimp only at e
    cases e
    refine hst.eq rfl rfl ?_ rfl rfl
    split_ifs
    · exact (ofStr_ne hid [Bidi.Ev.stopSending 0x0103]).symm
    · rfl
  | route q =>
    rcases q with _ | ⟨t, y⟩
    · dsimp only at e; cases e; exact hst
    cases t with
    | unknown => cases e
    | push => cases e
    | control => exact (hst.trans (by rw [hcfg]; exact readControl_chain hP h1 y _ e hx hQ')).eq rfl rfl rfl rfl rfl
    | qenc => exact (hst.trans (readQenc_chain hP h1 y _ e hx hcfg)).eq rfl rfl rfl rfl rfl
    | qdec => exact (hst.trans (readQdec_chain y _ e x)).eq rfl rfl rfl rfl rfl

theorem readBidi_chain (hP : ParOk P) {ep : Ep} (h : EInv G ep) {id : Nat} {src : Bytes} {fin : Bool} (hb : clientBidi id = true)
    {t : Conn.Strm Fld} (h0 : ep.c.str id = some t) {ep' : Ep} {r : Conn.Ret} {ev : List Ev} (e : readBidi P ep id src fin = .ok ep' r ev) (hne : (src.isEmpty && !fin) = false) {x : Nat} (hx : clientBidi x = true) :
    Chain (cfg P ep.c x) Q S (view ep.c ep.rx x) (pieceOf x id src fin) (ev.filterMap (Ev.ofStr x)) (codeFor id x r) (view ep'.c ep'.rx x) := by
  have hrx := h.core.r.str id t hb h0
  rw [readBidi_eq rfl rfl rfl] at e
  have hrd := Bidi.recv_ok (c := cfg P ep.c id) hP (room ep.c ep.bq) fin { ep.rx id with priFixed := fixedPri ep.c id } ep.dec src (sinv_fixed hrx.inv _) hrx.hu
  rcases hrd with ⟨z, hrd⟩ | ⟨s', d', ev1, n, rest, hrd, ho⟩
  · rw [hrd] at e; cases e
  rw [hrd] at e
  unfold bidiOut at e
  dsimp only at e
  obtain ⟨p1, p2⟩ := priorities_ok h.core.c hb (by rw [h0]; rfl) ev1 ho.evs
  rcases e1 : priorities ep.c id ev1 with _ | _ | _ | c1 <;> rw [e1] at e <;> dsimp only [lift] at e
  · cases e
  · cases e
  · cases e
  obtain ⟨hc1, hs1, hk1⟩ := p2 c1 e1
  have fin' : ∀ c2 : CC, (∀ y, clientBidi y = true → (c2.str y).isSome = (ep.c.str y).isSome) → Chain (cfg P ep.c x) Q S (view ep.c ep.rx x) (pieceOf x id src fin)
      ((ev1.map (Ev.str id)).filterMap (Ev.ofStr x)) (if id = x then (n : Int) else 0) (view c2 (PQ.upd ep.rx id s') x) := by
    intro c2 hc2
    by_cases hix : id = x
    · subst hix
      rw [pieceOf, if_pos ⟨rfl, hne⟩, if_pos rfl, ofStr_same, view_some (by rw [h0]; rfl), view_some (by rw [hc2 id hx, h0]; rfl), PQ.upd_same]
      exact .of (.recv _ _ _ _ _ _ _ _ _ _ _ hrx.inv hrd)
    · rw [pieceOf, if_neg (fun k => hix k.1), if_neg hix, ofStr_ne hix]
      exact chain_same (hc2 x hx) (PQ.upd_ne _ _ (Ne.symm hix))
  by_cases hbl : (!(ep.rx id).blocked && s'.blocked) = true
  · rw [if_pos hbl] at e
    rcases e2 : Conn.qpackBlock c1 id with _ | _ | _ | ⟨c2, r2⟩ <;> rw [e2] at e <;> dsimp only at e
    · cases e
    · cases e
    · cases e
    cases e
    refine fin' c2 fun y hy => ?_
    rw [← isSome_keep (hk1 y hy)]
    unfold Conn.qpackBlock at e2
    rcases g1 : c1.str id with _ | t1 <;> rw [g1] at e2 <;> dsimp only at e2
    · cases e2
    split_ifs at e2
    cases e2
    by_cases hyi : y = id
    · subst hyi; rw [Conn.set_str, g1]; rfl
    · rw [Conn.set_ne _ _ _ _ hyi]
  · rw [if_neg hbl] at e
    cases e
    exact fin' c1 fun y hy => isSome_keep (hk1 y hy)

theorem rest_chain (hP : ParOk P) {ep : Ep} (h : EInv G ep) {id : Nat} {src : Bytes} {fin : Bool} (h0 : (ep.c.str id).isSome = true)
    (hb : streamUni id = false → clientBidi id = true) (hp : streamUni id = true → Conn.peerUni ep.c.server id)
    {ep' : Ep} {r : Conn.Ret} {ev : List Ev} (e : rest P ep id src fin = .ok ep' r ev) {x : Nat} (hx : clientBidi x = true) (hQ : id ≠ x → ep.c.server = true → Conn.rejects ep.c x = false → Q false []) :
    Chain (cfg P ep.c x) Q S (view ep.c ep.rx x) (pieceOf x id src fin) (ev.filterMap (Ev.ofStr x)) (codeFor id x r) (view ep'.c ep'.rx x) := by
  unfold rest at e
  by_cases h1 : (src.isEmpty && !fin) = true
  · rw [if_pos h1] at e
    cases e
    have : src = [] := by
      rw [Bool.and_eq_true] at h1
      simpa using h1.1
    subst this
    refine (Chain.refl _).eq rfl (by rw [pieceOf, if_neg (by rw [h1]; simp)]) rfl (by unfold codeFor; dsimp only; split_ifs <;> rfl) rfl
  rw [if_neg h1] at e
  by_cases h2 : streamUni id = true
  · rw [if_pos h2] at e
    have hid : id ≠ x := by
      rintro rfl
      rw [bidi_not_uni hx] at h2; cases h2
    refine (readUni_chain hP h (hp h2) h0 e hx hid (hQ hid)).eq rfl (by rw [pieceOf, if_neg (fun k => hid k.1)]) rfl ?_ rfl
    exact (codeFor_ne hid r).symm
  · rw [if_neg h2] at e
    obtain ⟨t, ht⟩ := Option.isSome_iff_exists.1 h0
    exact readBidi_chain hP h (hb (by simpa using h2)) ht e (by simpa using h1) hx

/-- how the call `o` may create the stream `x` -/
def Made (ep : Ep) (x : Nat) (o : Call) (refused : Bool) (req : List Http.Field) : Prop :=
  (ep.c.server = true ∧ req = [] ∧ refused = Conn.rejects ep.c x) ∨
    ∃ nva dr, o = .submitRequest x nva dr ∧ ep.c.server = false ∧ refused = false ∧ req = nva.map fun nv => ⟨nv.name, nv.value⟩

theorem open_server {c c' : CC} {id : Nat} {b : Bool} (h : clientBidi id = true) (e : Conn.openStream c id b = .ok (c', .code 0)) (h0 : (c.str id).isSome = false) : c.server = true := by
  by_contra hs
  have hs : c.server = false := by simpa using hs
  have hu : Conn.serverUni id = false := by
    unfold clientBidi at h
    unfold Conn.serverUni
    simp at h ⊢
    omega
  unfold Conn.openStream at e
  rw [h, hu, hs] at e
  by_cases h1 : decide (id ≥ 2 ^ 62) = true
  · rw [if_pos h1] at e; cases e
  rw [if_neg h1] at e
  rcases h2 : c.str id with _ | s <;> rw [h2] at e <;> dsimp only at e
  · simp [Err.H3_STREAM_CREATION_ERROR] at e
  · rw [h2] at h0; cases h0

theorem read_chain (hP : ParOk P) {ep : Ep} (h : EInv G ep) {id : Nat} {src : Bytes} {fin : Bool} (hid : id < 2 ^ 62) (hown : ¬ Conn.ownUni ep.c.server id)
    {ep' : Ep} {r : Conn.Ret} {ev : List Ev} (e : read P ep id src fin = .ok ep' r ev) {x : Nat} (hx : clientBidi x = true) :
    Chain (cfg P ep.c x) (Made ep x (.read id src fin)) (Call.read id src fin = .shutRd x) (view ep.c ep.rx x) (pieceOf x id src fin) (ev.filterMap (Ev.ofStr x)) (codeFor id x r) (view ep'.c ep'.rx x) := by
  rw [read_eq] at e
  rcases e1 : Conn.openStream ep.c id (src.isEmpty && fin) with _ | _ | _ | ⟨c', r1⟩ <;> rw [e1] at e <;> dsimp only [lift] at e
  · cases e
  · cases e
  · cases e
  obtain ⟨z, rfl⟩ := open_code e1
  dsimp only at e
  by_cases hz : z ≠ 0
  · rw [if_pos hz] at e; cases e
  rw [if_neg hz] at e
  obtain rfl : z = 0 := by simpa using hz
  have e1' : Conn.step encode ep.c (.open id (src.isEmpty && fin)) = .ok (c', .code 0) := e1
  have hs := step_sameC h.core.c e1'
  by_cases hno : (c'.str id).isNone = true
  · rw [if_pos hno] at e
    cases e
    have hb : clientBidi id = false := by
      by_contra g
      have := open_some (by simpa using g) e1
      revert hno this
      cases c'.str id <;> simp
    have hix : id ≠ x := by rintro rfl; rw [hb] at hx; cases hx
    have hcs := create_some h.core.c (o := .open id (src.isEmpty && fin)) trivial (.inr (.inl ⟨_, rfl⟩)) e1' hx
    refine (chain_same (by rw [hcs]; simp [Ne.symm hix]) rfl).eq rfl (by rw [pieceOf, if_neg (fun k => hix k.1)]) rfl (codeFor_ne hix _).symm rfl
  rw [if_neg hno] at e
  have hsome := isSome_of_not hno
  have h1 : EInv G (opened P ep id c') := opened_einv h hid hown e1 hsome
  generalize ho : rest P (opened P ep id c') id src fin = o at e
  rcases o with _ | _ | ⟨ep2, r2, ev2⟩
  · cases e
  · cases e
  dsimp only [Res.after] at e
  injection e with e3 e4 e5
  subst e3 e4 e5
  have hcfg : cfg P ep.c x = cfg P c' x := by unfold cfg; rw [hs.1, hs.2]
  have hch2 : Chain (cfg P ep.c x) (Made ep x (.read id src fin)) (Call.read id src fin = .shutRd x) (view (opened P ep id c').c (opened P ep id c').rx x) (pieceOf x id src fin) (ev2.filterMap (Ev.ofStr x))
      (codeFor id x r2) (view ep2.c ep2.rx x) := by
    rw [hcfg]
    exact rest_chain hP h1 hsome (open_kind e1) (opened_uni hown h e1) ho hx fun _ g k => .inl ⟨by rw [← hs.1]; exact g, rfl, ((rejects_same h.core.c (by simp) (by simp) e1' x).symm.trans k).symm⟩
  rw [List.filterMap_append]
  have hch1 := create_chain (K := cfg P ep.c x) (Q := Made ep x (.read id src fin)) (S := Call.read id src fin = .shutRd x) (rx := ep.rx) h.core.c (o := .open id (src.isEmpty && fin)) trivial (.inr (.inl ⟨_, rfl⟩)) e1' hx
    (if ((ep.c.str id).isNone && clientBidi id && Conn.rejects ep.c id) = true then { Bidi.Str.new (cfg P ep.c id) with rst := .ignRest } else Bidi.Str.new (cfg P ep.c id))
    ((ep.c.str id).isNone && clientBidi id) (fun g => by rw [g, hsome]) (fun g => by rw [g, Bool.and_false])
    (if ((ep.c.str id).isNone && clientBidi id && Conn.rejects ep.c id) = true then [.stopSending 0x010b, .resetStream 0x010b] else []) (by
      rintro rfl g1 g2
      have hsv := open_server hx e1 g1
      split_ifs with hr
      · rw [Bool.and_eq_true] at hr
        exact .refused (.inl ⟨hsv, rfl, hr.2.symm⟩)
      · have hnn : ((ep.c.str x).isNone && clientBidi x) = true := by
          rw [hx, Bool.and_true]
          revert g1; cases ep.c.str x <;> simp
        rw [hnn, Bool.true_and] at hr
        exact .made [] (.inl ⟨hsv, rfl, (by simpa using hr : Conn.rejects ep.c x = false).symm⟩))
  refine (hch1.trans hch2).eq rfl rfl ?_ (by omega) rfl
  congr 1
  unfold openEv
  by_cases hix : id = x
  · subst hix
    cases hn : ((ep.c.str id).isNone && clientBidi id) with
    | true =>
      rw [if_pos (by simp), Bool.true_and]
      split_ifs
      · simp [Ev.ofStr]
      · rfl
    | false => rw [if_neg (by simp), Bool.false_and, if_neg (by simp)]; rfl
  · rw [if_neg (by simp [Ne.symm hix])]
    split_ifs
    · simp [Ev.ofStr, hix]
    · rfl

theorem shutRd_chain {ep : Ep} (h : EInv G ep) {id : Nat} {ep' : Ep} {r : Conn.Ret} {ev : List Ev} (e : shutRd ep id = .ok ep' r ev) {x : Nat} (hx : clientBidi x = true) (hS : id = x → S) :
    Chain K Q S (view ep.c ep.rx x) [] (ev.filterMap (Ev.ofStr x)) 0 (view ep'.c ep'.rx x) := by
  unfold shutRd at e
  rcases e1 : Conn.shutdownRead ep.c id with _ | _ | _ | ⟨c', r1⟩ <;> rw [e1] at e <;> dsimp only [lift] at e
  · cases e
  · cases e
  · cases e
  have e1' : Conn.step encode ep.c (.shutRd id) = .ok (c', r1) := e1
  have hk := isSome_keep (keep_neutral h.core.c (o := .shutRd id) trivial trivial e1' hx)
  by_cases h1 : (!clientBidi id) = true
  · rw [if_pos h1] at e; cases e; exact chain_same hk rfl
  rw [if_neg h1] at e
  by_cases h2 : ((ep.c.str id).isSome && (ep.rx id).shutRd) = true
  · rw [if_pos h2] at e; cases e; exact chain_same hk rfl
  rw [if_neg h2] at e
  generalize ep.dec.cancelStream id = o at e
  rcases o with _ | d
  · cases e
  dsimp only at e
  cases e
  by_cases hix : x = id
  · subst hix
    dsimp only
    cases h0 : (ep.c.str x).isSome with
    | true =>
      rw [if_pos rfl, view_some h0, view_some (hk.trans h0), PQ.upd_same]
      exact .of (.shut _ (hS rfl))
    | false => rw [if_neg (by simp)]; exact chain_same hk rfl
  · refine chain_same hk ?_
    dsimp only
    split_ifs
    · exact PQ.upd_ne _ _ hix
    · rfl

theorem close_chain {ep : Ep} (h : EInv G ep) {id : Nat} {ep' : Ep} {r : Conn.Ret} {ev : List Ev} (e : close ep id = .ok ep' r ev) {x : Nat} (hx : clientBidi x = true) :
    Chain K Q S (view ep.c ep.rx x) [] (ev.filterMap (Ev.ofStr x)) 0 (view ep'.c ep'.rx x) := by
  unfold close at e
  rcases e1 : Conn.closeStream ep.c id with _ | _ | _ | ⟨c', r1⟩ <;> rw [e1] at e <;> dsimp only [lift] at e
  · cases e
  · cases e
  · cases e
  have e1' : Conn.step encode ep.c (.close id) = .ok (c', r1) := e1
  have hk : ∀ x, clientBidi x = true → x ≠ id → Keep ep.c c' x := fun x hx g => keep_other h.core.c (o := .close id) trivial e1' hx g (.inr (.inr (.inr (.inl rfl))))
  by_cases hb : ((ep.c.str id).isSome && clientBidi id) = true
  · rw [if_pos hb] at e
    rw [Bool.and_eq_true] at hb
    obtain ⟨s, h0⟩ := Option.isSome_iff_exists.1 hb.1
    have hrx := h.core.r.str id s hb.2 h0
    have hgone : ∀ s' d' ev' n' rest', Bidi.closeStream (ep.rx id) ep.dec = .ok s' d' ev' n' rest' → (c'.str id).isSome = !s'.gone := by
      intro s' d' ev' n' rest' g
      unfold Bidi.closeStream at g
      cases hbl : (ep.rx id).blocked with
      | true =>
        rw [hbl, if_pos rfl] at g
        cases g
        have hq : s.qblocked = true := by rw [← hrx.blk]; exact hbl
        show (c'.str id).isSome = !(ep.rx id).gone
        rw [hrx.gone]
        unfold Conn.closeStream at e1
        rw [h0] at e1
        dsimp only at e1
        by_cases hu : (streamUni id && s.ty != Conn.Ty.unknown) = true
        · rw [if_pos hu] at e1
          obtain ⟨rfl, _⟩ := Prod.mk.inj (R.ok.inj e1); rw [h0]; rfl
        · rw [if_neg hu] at e1
          obtain ⟨c1, e2, e3⟩ := Conn.bind_ok e1
          rw [if_neg (by rw [hq]; simp)] at e3
          obtain ⟨rfl, _⟩ := Prod.mk.inj (R.ok.inj e3)
          rw [Conn.set_str]; rfl
      | false =>
        rw [hbl, if_neg (by simp)] at g
        cases g
        have hq : s.qblocked = false := by rw [← hrx.blk]; exact hbl
        rw [close_gone h0 hb.2 hq e1]; rfl
    rcases e2 : Bidi.closeStream (ep.rx id) ep.dec with _ | z | ⟨s', d', ev1, n, rest⟩ <;> rw [e2] at e <;> dsimp only at e
    · cases e
    · cases e
    cases e
    by_cases hix : x = id
    · subst hix
      have hg := hgone _ _ _ _ _ e2
      rw [ofStr_same, view_some (by rw [h0]; rfl)]
      refine (Chain.of (.closed _ _ _ _ _ _ _ hrx.inv hrx.gone e2)).eq rfl rfl rfl rfl ?_
      cases hgn : s'.gone with
      | true => rw [if_pos rfl, view_none (by rw [hg, hgn]; rfl)]
      | false => rw [if_neg (by simp), view_some (by rw [hg, hgn]; rfl)]; exact (congrArg some (PQ.upd_same _ _ _)).symm
    · rw [ofStr_ne (Ne.symm hix)]
      exact chain_same (isSome_keep (hk x hx hix)) (PQ.upd_ne _ _ hix)
  · rw [if_neg hb] at e
    cases e
    by_cases hix : x = id
    · subst hix
      rw [hx, Bool.and_true] at hb
      have h0 : ep.c.str x = none := by simpa using hb
      unfold Conn.closeStream at e1
      rw [h0] at e1
      obtain ⟨rfl, _⟩ := Prod.mk.inj (R.ok.inj e1)
      exact .refl _
    · exact chain_same (isSome_keep (hk x hx hix)) rfl

/-- what a call does to a request stream -/
theorem step_chain (hP : ParOk P) {ep : Ep} (h : EInv G ep) {o : Call} (ho : Permitted ep o) {ep' : Ep} {r : Conn.Ret} {ev : List Ev} (e : step P ep o = .ok ep' r ev) {x : Nat}
    (hx : clientBidi x = true) : Chain (cfg P ep.c x) (Made ep x o) (o = .shutRd x) (view ep.c ep.rx x) (o.pieces x) (ev.filterMap (Ev.ofStr x)) (returned x (o, r, ev)) (view ep'.c ep'.rx x) := by
  have plain : ∀ p : Conn.Op Fld, OpOk p → Neutral p → plain ep p = .ok ep' r ev → Chain (cfg P ep.c x) (Made ep x o) (o = .shutRd x) (view ep.c ep.rx x) [] (ev.filterMap (Ev.ofStr x)) 0 (view ep'.c ep'.rx x) := by
    intro p hp hn e
    unfold Endpoint.plain at e
    rcases e1 : Conn.step encode ep.c p with _ | _ | _ | ⟨c', r1⟩ <;> rw [e1] at e <;> dsimp only [lift] at e
    · cases e
    · cases e
    · cases e
    cases e
    exact chain_same (isSome_keep (keep_neutral h.core.c hp hn e1 hx)) rfl
  unfold Permitted at ho
  cases o with
  | read id src fin =>
    obtain ⟨h1, h2⟩ := ho id src fin rfl
    refine (read_chain hP h h1 h2 e hx).eq rfl rfl rfl ?_ rfl
    cases r <;> rfl
  | submitRequest id nva dr =>
    obtain ⟨o1, o2, o3, _⟩ := ho
    have e : submitRequest P ep id nva dr = _ := e
    unfold submitRequest at e
    rcases e1 : Conn.submitRequest ep.c id (id, nva) dr with _ | _ | _ | ⟨c', r1⟩ <;> rw [e1] at e <;> dsimp only [lift] at e
    · cases e
    · cases e
    · cases e
    cases e
    have e1' : Conn.step encode ep.c (.submitRequest id (id, nva) dr) = .ok (c', r) := e1
    have hb : clientBidi id = true := Conn.bidi_iff.2 o3.2.2.2
    refine (create_chain (Q := Made ep x (.submitRequest id nva dr)) (S := Call.submitRequest id nva dr = .shutRd x) (rx := ep.rx) h.core.c o1 (.inl ⟨_, _, rfl⟩) e1' hx _ _ (fun _ => rfl) (fun g => by rw [hb] at g; cases g) [] ?_).eq rfl rfl (by split_ifs <;> rfl) rfl rfl
    rintro rfl _ _
    exact Move.made (K := cfg P ep.c x) (Q := Made ep x (.submitRequest x nva dr)) (S := Call.submitRequest x nva dr = .shutRd x) _ (.inr ⟨nva, dr, rfl, o3.1, rfl, rfl⟩)
  | writev k as =>
    have e : writev ep k as = _ := e
    unfold writev at e
    rcases e1 : Conn.writevStream encode ep.c k ep.dec.writeDecoder.2 as with _ | _ | _ | ⟨c', r1⟩ <;> rw [e1] at e <;> dsimp only [lift] at e
    · cases e
    · cases e
    · cases e
    cases e
    have e1' : Conn.step encode ep.c (.writev k ep.dec.writeDecoder.2 as) = .ok (c', r) := e1
    exact chain_same (isSome_keep (keep_neutral h.core.c (o := .writev k ep.dec.writeDecoder.2 as) trivial trivial e1' hx)) rfl
  | shutRd id => exact shutRd_chain h e hx fun g => by rw [g]
  | close id => exact close_chain h e hx
  | setMaxConc n => cases e; exact .refl _
  | _ => exact plain _ ho.1 trivial e

end Endpoint
end Nghttp3
