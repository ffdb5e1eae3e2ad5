import Verif.Lemmas.EndpointRun
import Verif.Lemmas.ControlMap
import Verif.Spec.Cut
/-! Two connections that differ only in how received bytes are cut into buffers behave alike. -/
namespace Nghttp3
namespace Endpoint
open Outq (R Ans)
open Conn (clientBidi streamUni)
open Qpack (Dec SCtx)

variable {G : Bool × Settings}

/-! ### streams -/

theorem canon_fixed (s : Bidi.Str) (b : Bool) : { s with priFixed := b }.canon = { s.canon with priFixed := b } := by
  unfold Bidi.Str.canon Bidi.Str.norm Bidi.buffered
  dsimp only
  split_ifs <;> rfl

theorem canon_shut (s : Bidi.Str) : { s with shutRd := true }.canon = { s.canon with shutRd := true } := Bidi.canon_shutRd s

theorem canon_new (k : Bidi.Cfg) : (Bidi.Str.new k).canon = Bidi.Str.new k := by
  unfold Bidi.Str.canon Bidi.Str.norm Bidi.buffered Bidi.Str.new
  rfl

theorem canon_sc {s s' : Bidi.Str} (h : s.canon = s'.canon) (h1 : s.rst = .headers) (h2 : s'.rst = .headers) : s.sc = s'.sc := by
  unfold Bidi.Str.canon at h
  rw [Bidi.norm_of_ne (by rw [h1]; simp), Bidi.norm_of_ne (by rw [h2]; simp)] at h
  exact (Bidi.Str.mk.injEq .. ▸ h).2.2.2.2.2.2.1

/-- two outcomes of reading that nobody can tell apart -/
def OutSame : Bidi.Out → Bidi.Out → Prop
  | .fail e, .fail e' => e = e'
  | .ok s d ev n _, .ok s' d' ev' n' _ => s.canon = s'.canon ∧ d = d' ∧ Bidi.obs ev = Bidi.obs ev' ∧ n + Bidi.deferredLen ev = n' + Bidi.deferredLen ev' ∧
      Bidi.SInv s d ∧ Bidi.SInv s' d'
  | _, _ => False

theorem sim_pair {s s' : Bidi.Str} {d : Dec} {x x' : Nat} {a : Bidi.ARes} {o o' : Bidi.Out} (h : Bidi.Sim s d x a o) (h' : Bidi.Sim s' d x' a o') :
    OutSame o o' := by
  rcases a with _ | e | ⟨s1, d1, ob, n, r⟩
  · exact h.elim
  · rw [show o = .fail e from h, show o' = .fail e from h']; rfl
  · obtain ⟨t, ev, m, rest, k1, k2, k3, k4, _, k6, _⟩ := h
    obtain ⟨t', ev', m', rest', l1, l2, l3, l4, _, l6, _⟩ := h'
    subst k1 l1
    exact ⟨k2.trans l2.symm, rfl, k3.trans l3.symm, k4.trans l4.symm, k6, l6⟩

theorem recv_same (k : Bidi.Cfg) (room fin : Bool) {s s' : Bidi.Str} (d : Dec) (x : Bytes) (hs : Bidi.SInv s d) (hs' : Bidi.SInv s' d)
    (h : s.canon = s'.canon) : OutSame (Bidi.readStream k room fin s d x) (Bidi.readStream k room fin s' d x) := by
  have h1 := Bidi.recv_sim k room fin s d x hs
  have h2 := Bidi.recv_sim k room fin s' d x hs'
  rw [← h] at h2
  exact sim_pair h1 h2

theorem wake_same (k : Bidi.Cfg) (room : Bool) {s s' : Bidi.Str} (d : Dec) (hs : Bidi.SInv s d) (hs' : Bidi.SInv s' d) (h : s.canon = s'.canon) :
    OutSame (Bidi.wake k room s d) (Bidi.wake k room s' d) := by
  have h1 := Bidi.wake_sim k room s d hs
  have h2 := Bidi.wake_sim k room s' d hs'
  rw [← h] at h2
  exact sim_pair h1 h2

theorem close_same {s s' : Bidi.Str} (d : Dec) (hs : Bidi.SInv s d) (hs' : Bidi.SInv s' d) (h : s.canon = s'.canon) :
    OutSame (Bidi.closeStream s d) (Bidi.closeStream s' d) := by
  have h1 := Bidi.close_sim s d hs
  have h2 := Bidi.close_sim s' d hs'
  rw [← h] at h2
  exact sim_pair h1 h2

/-- nghttp3_conn_read_stream never reports through deferred_consume -/
theorem recv_nodef (k : Bidi.Cfg) (room fin : Bool) (s : Bidi.Str) (d : Dec) (x : Bytes) (hs : Bidi.SInv s d) ⦃s' : Bidi.Str⦄ ⦃d' : Dec⦄ ⦃ev : List Bidi.Ev⦄ ⦃n : Nat⦄
    ⦃r : Bytes⦄ (h : Bidi.readStream k room fin s d x = .ok s' d' ev n r) : Bidi.deferredLen ev = 0 := by
  unfold Bidi.readStream at h
  split_ifs at h with g0 g1
  · cases h; rfl
  all_goals
    unfold Bidi.readBidi at h
    split_ifs at h with g2 g3 g4
    · cases h; rfl
    · cases h; rfl
    · cases h; rfl
    · have hacc := h ▸ Bidi.loop_acc k room fin (Bidi.fuel x) _ d x false [] 0 (by exact Bidi.inv_of hs.inv rfl rfl rfl rfl rfl) (by simp) (by exact eq_false_of_ne_true g3)
      exact hacc.2.2.1

theorem proc_zero (k : Bidi.Cfg) (room : Bool) (s : Bidi.Str) (d : Dec) ⦃s' : Bidi.Str⦄ ⦃d' : Dec⦄ ⦃ev : List Bidi.Ev⦄ ⦃n : Nat⦄ ⦃r : Bytes⦄
    (h : Bidi.processBlocked k room s d = .ok s' d' ev n r) : n = 0 := by
  unfold Bidi.processBlocked at h
  generalize Bidi.procLoop k room (s.inq.length + 1) s d [] = o at h
  rcases o with _ | e | ⟨s1, d1, ev1, n1, r1⟩
  · cases h
  · cases h
  · dsimp only at h
    split_ifs at h <;> cases h <;> rfl

/-! ### the connection -/

structure Eqv (a b : Ep) : Prop where
  c : a.c = b.c
  dec : a.dec = b.dec
  ctl : a.ctl = b.ctl
  bq : a.bq = b.bq
  rx : ∀ id, (a.rx id).canon = (b.rx id).canon

def EvSame (ev ev' : List Ev) : Prop := ev.flatMap Ev.seen = ev'.flatMap Ev.seen ∧ ∀ id, (ev.map (Ev.deferredTo id)).sum = (ev'.map (Ev.deferredTo id)).sum

theorem EvSame.refl (ev : List Ev) : EvSame ev ev := ⟨rfl, fun _ => rfl⟩

theorem EvSame.app {a b a' b' : List Ev} (h : EvSame a a') (h' : EvSame b b') : EvSame (a ++ b) (a' ++ b') :=
  ⟨by rw [List.flatMap_append, List.flatMap_append, h.1, h'.1], fun id => by
    rw [List.map_append, List.map_append, List.sum_append, List.sum_append, h.2, h'.2]⟩

theorem seen_str (id : Nat) (ev : List Bidi.Ev) : (ev.map (Ev.str id)).flatMap Ev.seen = (Bidi.obs ev).map (Seen.str id) := by
  unfold Bidi.obs
  induction ev with
  | nil => rfl
  | cons e t ih => rw [List.map_cons, List.flatMap_cons, List.flatMap_cons, List.map_append, ih]; rfl

theorem deferred_str (id y : Nat) (ev : List Bidi.Ev) : ((ev.map (Ev.str id)).map (Ev.deferredTo y)).sum = if id = y then Bidi.deferredLen ev else 0 := by
  unfold Bidi.deferredLen
  induction ev with
  | nil => simp
  | cons e t ih =>
    rw [List.map_cons, List.map_cons, List.sum_cons, List.map_cons, List.sum_cons, ih]
    by_cases h : id = y
    · simp [Ev.deferredTo, h]
    · simp [Ev.deferredTo, h]

theorem evSame_str (id : Nat) {ev ev' : List Bidi.Ev} (h : Bidi.obs ev = Bidi.obs ev') (h' : Bidi.deferredLen ev = Bidi.deferredLen ev') :
    EvSame (ev.map (Ev.str id)) (ev'.map (Ev.str id)) :=
  ⟨by rw [seen_str, seen_str, h], fun y => by rw [deferred_str, deferred_str, h']⟩

def ResEqv : Res → Res → Prop
  | .crash, .crash => True
  | .fail e, .fail e' => e = e'
  | .ok a r ev, .ok b r' ev' => Eqv a b ∧ r = r' ∧ EvSame ev ev'
  | _, _ => False

theorem ResEqv.of {a b : Ep} (h : Eqv a b) (r : Conn.Ret) (ev : List Ev) : ResEqv (.ok a r ev) (.ok b r ev) := ⟨h, rfl, .refl ev⟩

theorem ResEqv.after {ev ev' : List Ev} (h : EvSame ev ev') {r r' : Res} (hr : ResEqv r r') : ResEqv (r.after ev) (r'.after ev') := by
  cases r <;> cases r' <;> first | exact hr | skip
  exact ⟨hr.1, hr.2.1, h.app hr.2.2⟩

theorem eqv_lift {α : Type} (r : R α) {k k' : α → Res} (h : ∀ a, r = .ok a → ResEqv (k a) (k' a)) : ResEqv (lift r k) (lift r k') := by
  cases r with
  | crash => trivial
  | overflow => rfl
  | callbackFailure => rfl
  | ok a => exact h a rfl

theorem canon_upd {f g : Nat → Bidi.Str} (h : ∀ id, (f id).canon = (g id).canon) (x : Nat) {s s' : Bidi.Str} (hs : s.canon = s'.canon) (id : Nat) :
    (PQ.upd f x s id).canon = (PQ.upd g x s' id).canon := by
  unfold PQ.upd
  split_ifs
  · exact hs
  · exact h id

/-- priorities depend on the observations only -/
def prO (c : CC) (id : Nat) : List Bidi.Obs → R CC
  | [] => .ok c
  | .priority p :: t => (Conn.onHeaderPriority c id p).bind fun r => prO r.1 id t
  | _ :: t => prO c id t

theorem prO_bytes (c : CC) (id : Nat) (bs : List UInt8) (t : List Bidi.Obs) : prO c id (bs.map .byte ++ t) = prO c id t := by
  induction bs with
  | nil => rfl
  | cons b bs ih => exact ih

theorem prO_eq (c : CC) (id : Nat) (ev : List Bidi.Ev) : priorities c id ev = prO c id (Bidi.obs ev) := by
  unfold Bidi.obs
  induction ev generalizing c with
  | nil => rfl
  | cons e t ih =>
    rw [List.flatMap_cons]
    cases e with
    | priority p => exact congrArg _ (funext fun (r : CC × Conn.Ret) => ih r.1)
    | data bs => rw [show Bidi.Ev.obs (.data bs) = bs.map .byte from rfl, prO_bytes]; exact ih c
    | _ => exact ih c

theorem bind_assoc' {α β γ : Type} (r : R α) (k : α → R β) (l : β → R γ) : (r.bind k).bind l = r.bind fun a => (k a).bind l := by cases r <;> rfl

theorem prO_append (c : CC) (id : Nat) (o o' : List Bidi.Obs) : prO c id (o ++ o') = (prO c id o).bind fun c => prO c id o' := by
  induction o generalizing c with
  | nil => rfl
  | cons e t ih =>
    cases e with
    | priority p =>
      show (Conn.onHeaderPriority c id p).bind _ = ((Conn.onHeaderPriority c id p).bind _).bind _
      rw [bind_assoc']
      exact congrArg _ (funext fun r => ih r.1)
    | _ => exact ih c

/-! ### the queue -/

theorem pop_congr {l1 l2 : Nat → Nat → Bool} {pq : PQ Nat} {P : Nat → Prop} (hl : ∀ a b, P a → P b → l1 a b = l2 a b) (hp : ∀ y, PQ.Mem pq y → P y) :
    pq.pop l1 = pq.pop l2 := by
  unfold PQ.pop
  by_cases h : pq.len = 0
  · rw [if_pos h, if_pos h]
  · rw [if_neg h, if_neg h]
    exact congrArg some (PQ.bubbleDownF_congr hl _ (PQ.fillHole pq 0) 0 (PQ.fillHole_range (by omega) hp))

def Lite (ep : Ep) : Prop := ∃ M, PQ.Rep (ricntLess ep.rx) ep.bq M ∧ ∀ x ∈ M, Bidi.SInv (ep.rx x) ep.dec ∧ (ep.rx x).blocked = true

theorem EInv.lite {ep : Ep} (h : EInv G ep) : Lite ep := by
  obtain ⟨M, hM, hmem, _⟩ := h.core.q
  refine ⟨M, hM, fun x hx => ?_⟩
  obtain ⟨hb, t, h0, hq⟩ := (hmem x).1 hx
  have := h.core.r.str x t hb h0
  exact ⟨this.inv, this.blk.trans hq⟩

theorem less_same {a b : Ep} (hx : ∀ id, (a.rx id).canon = (b.rx id).canon) {x y : Nat} (h1 : (a.rx x).rst = .headers) (h2 : (b.rx x).rst = .headers)
    (h3 : (a.rx y).rst = .headers) (h4 : (b.rx y).rst = .headers) : ricntLess a.rx x y = ricntLess b.rx x y := by
  unfold ricntLess
  rw [canon_sc (hx x) h1 h2, canon_sc (hx y) h3 h4]

end Endpoint
end Nghttp3
