import Verif.Lemmas.ConnPri
/-! No starvation among incremental streams of equal urgency: a potential. -/
namespace Nghttp3
namespace Conn
open PQ (Mem IdxOk Heap upd upd_same upd_ne)
open Outq (R Frent Ans Bytes St)

variable {E F : Type} {w v : Prop} {c c' : Conn E F} {encode : Encode E F} {u a : Nat}

/-- the distance from `b` to `a` -/
def dist (a b : UInt64) : Nat := (a - b).toNat

theorem dist_eq (a b : UInt64) : dist a b = (2 ^ 64 - b.toNat + a.toNat) % 2 ^ 64 := sub_toNat a b

theorem dist_add {a b p : UInt64} (hd : dist a b ≤ 2 ^ 24) (hp : p.toNat ≤ 2 ^ 24) (h : dist a (b + p) ≤ 2 ^ 24) : dist a (b + p) + p.toNat = dist a b := by
  simp only [dist_eq, UInt64.toNat_add] at *
  have := a.toNat_lt; have := b.toNat_lt; have := p.toNat_lt
  omega

theorem dist_self (a : UInt64) : dist a a = 0 := by
  rw [dist_eq]; have := a.toNat_lt; omega

/-- turns of `t` before it is `a`'s turn -/
def turns (c : Conn E F) (a t : Nat) : Nat := if dist (c.cyc a) (c.cyc t) ≤ 2 ^ 24 then dist (c.cyc a) (c.cyc t) + 1 else 0

/-- what `t` may still get before it is `a`'s turn -/
def phi (c : Conn E F) (a t : Nat) : Nat := 1600 * turns c a t - c.uw t

theorem rr_iff {x : Nat} : rr c u x = true ↔ ∃ s, c.str x = some s ∧ s.sched = true ∧ s.pri = ⟨u, true⟩ := by
  unfold rr
  cases c.str x with
  | none => simp
  | some s => simp

theorem rr_lev {x : Nat} (h : rr c u x = true) : lev c u x := by
  obtain ⟨s, h1, h2, h3⟩ := rr_iff.1 h
  exact ⟨s, h1, h2, by rw [h3]⟩

theorem lev_mem (h : Inv w v c) {x : Nat} : lev c u x ↔ Mem (c.sched u) x := ((h.core.reg.mem u x)).symm

/-- members of a level are less than 2^24 from the first -/
theorem lev_first (h : Inv True v c) {x : Nat} (hx : lev c u x) : dist (c.cyc x) (c.firstCyc u) ≤ 2 ^ 24 :=
  (h.core.lv trivial u).norm.1.win x ((lev_mem h).1 hx)

/-- at most one request stream changes -/
theorem step_one (h : Inv w v c) {o : Op F} {r : Ret} (h1 : OpOk o) (e : step encode c o = .ok (c', r)) :
    ∃ x, (∀ y, clientBidi y = true → y ≠ x → c'.str y = c.str y) ∧ (names o x = true ∨ ∀ y, clientBidi y = true → names o y = false) := by
  have key : ∀ x, (∀ y, clientBidi y = true → y ≠ x → names o y = false) → (∀ k db as, o ≠ .writev k db as) → ∀ y, clientBidi y = true → y ≠ x → c'.str y = c.str y := by
    intro x h2 h3 y hy hne
    rcases step_other h h1 hy (h2 y hy hne) e with g | ⟨⟨k, db, as, g⟩, _⟩
    · exact g
    · exact absurd g (h3 k db as)
  have single : ∀ id, (∀ y, names o y = (id == y)) → (∀ k db as, o ≠ .writev k db as) → ∃ x, (∀ y, clientBidi y = true → y ≠ x → c'.str y = c.str y) ∧
      (names o x = true ∨ ∀ y, clientBidi y = true → names o y = false) := by
    intro id hn hw
    refine ⟨id, key id (fun y _ hne => ?_) hw, Or.inl (by rw [hn]; simp)⟩
    rw [hn]; simp; exact fun g => hne g.symm
  cases o with
  | bindControl id => exact single id (fun _ => rfl) (by simp)
  | bindQpack e' d =>
    refine ⟨e', fun y hy _ => fr_bindQpack e hy, Or.inl (by simp [names])⟩
  | submitRequest id nva dr => exact single id (fun _ => rfl) (by simp)
  | submitInfo id nva => exact single id (fun _ => rfl) (by simp)
  | submitResponse id nva dr => exact single id (fun _ => rfl) (by simp)
  | submitTrailers id nva => exact single id (fun _ => rfl) (by simp)
  | writev k db as =>
    refine ⟨(nextTx c).getD 0, fun y hy hne => ?_, Or.inr fun _ _ => rfl⟩
    rcases writev_other h e hy with g | ⟨g, _⟩
    · exact g
    · rw [g] at hne; exact absurd rfl hne
  | addWrite id n => exact single id (fun _ => rfl) (by simp)
  | addAck id n => exact single id (fun _ => rfl) (by simp)
  | updAck id off => exact single id (fun _ => rfl) (by simp)
  | block id => exact single id (fun _ => rfl) (by simp)
  | unblock id => exact single id (fun _ => rfl) (by simp)
  | shutWr id => exact single id (fun _ => rfl) (by simp)
  | resume id => exact single id (fun _ => rfl) (by simp)
  | shutRd id => exact single id (fun _ => rfl) (by simp)
  | close id => exact single id (fun _ => rfl) (by simp)
  | notice => exact ⟨0, key 0 (fun _ _ _ => rfl) (by simp), Or.inr fun _ _ => rfl⟩
  | shutdown => exact ⟨0, key 0 (fun _ _ _ => rfl) (by simp), Or.inr fun _ _ => rfl⟩
  | setServerPri id pri => exact single id (fun _ => rfl) (by simp)
  | setClientPri id va => exact single id (fun _ => rfl) (by simp)
  | setMaxClient n => exact ⟨0, key 0 (fun _ _ _ => rfl) (by simp), Or.inr fun _ _ => rfl⟩
  | «open» id empty => exact single id (fun _ => rfl) (by simp)
  | uni id src fin => exact single id (fun _ => rfl) (by simp)
  | priUpd id pri => exact single id (fun _ => rfl) (by simp)
  | hdrPri id pri => exact single id (fun _ => rfl) (by simp)
  | qpackBlock id => exact single id (fun _ => rfl) (by simp)
  | qpackUnblock id pri again => exact single id (fun _ => rfl) (by simp)
  | recvGoaway => exact ⟨0, key 0 (fun _ _ _ => rfl) (by simp), Or.inr fun _ _ => rfl⟩

/-- a waiting stream that the call does not name keeps its place if it still waits -/
theorem keeps_place (h : Inv True v c) {o : Op F} {r : Ret} (h1 : OpOk o) (ha : clientBidi a = true)
    (hn : names o a = false) (e : step encode c o = .ok (c', r)) : c'.cyc a = c.cyc a ∧ c'.uw a = c.uw a := by
  rcases step_other h h1 ha hn e with g | ⟨_, _, s0, ou, sd, g1, g2, _⟩
  · unfold Conn.cyc Conn.uw; rw [g]; exact ⟨rfl, rfl⟩
  · rw [cyc_of g1, cyc_of g2, uw_of g1, uw_of g2]; exact ⟨rfl, rfl⟩

/-- no stream of the level is further ahead of `a` than `G` -/
def Ahead (c : Conn E F) (u a G : Nat) : Prop := ∀ t, lev c u t → dist (c.cyc a) (c.cyc t) ≤ 2 ^ 24 → dist (c.cyc a) (c.cyc t) ≤ G

theorem turns_le {G t : Nat} (h : Ahead c u a G) (ht : lev c u t) : turns c a t ≤ G + 1 := by
  unfold turns
  by_cases g : dist (c.cyc a) (c.cyc t) ≤ 2 ^ 24
  · rw [if_pos g]; have := h t ht g; omega
  · rw [if_neg g]; omega

/-- the level of the waiting stream has another one -/
theorem len_ne_one (h : Inv w v c) {x : Nat} (hx : lev c u x) (ha : lev c u a) (hne : x ≠ a) : (c.sched u).len ≠ 1 := by
  intro hl
  obtain ⟨i, hi, h1⟩ := (lev_mem h).1 hx
  obtain ⟨j, hj, h2⟩ := (lev_mem h).1 ha
  have h3 : i = 0 := by omega
  have h4 : j = 0 := by omega
  subst h3 h4
  exact hne (h1.symm.trans h2)

/-- where a stream of the level is after a step, seen from the waiting stream -/
inductive View (c c' : Conn E F) (u a x n : Nat) : Prop where
  | keep (h1 : lev c u x) (h2 : rr c' u x = rr c u x) (h3 : c'.cyc x = c.cyc x) (h4 : c'.uw x = c.uw x + n)
  | move (p : UInt64) (h1 : lev c u x) (h2 : rr c' u x = rr c u x) (h3 : c'.cyc x = c.cyc x + p) (h4 : c'.uw x = 0) (h5 : p.toNat ≤ 2 ^ 24)
      (h6 : c.cyc x = c.firstCyc u) (h7 : rr c u x = true → 1 ≤ p.toNat)
  | join (y : Nat) (p : UInt64) (h1 : lev c u y) (h2 : rr c' u x = true → rr c u x = false) (h3 : c'.cyc x = c.cyc y + p) (h4 : c'.uw x = 0)
      (h5 : p.toNat ≤ 2 ^ 24) (h6 : dist (c.cyc a) (c.cyc y) ≤ 2 ^ 24)

theorem step_view (h : Inv True False c) {o : Op F} {r : Ret} (h1 : OpOk o) (hw : FairWrite c o) (hra : lev c u a)
    (e : step encode c o = .ok (c', r)) {x : Nat} (hx : lev c' u x) (hne : x ≠ a) :
    View c c' u a x (if names o x then bytesOf o else 0) := by
  have hi' := step_inv h h1 (fun _ => hw) (fun f => f.elim) e
  obtain ⟨s, hs, hsch, hurg⟩ := hx
  have hb := ((hi'.sok x s hs).need hsch).1
  by_cases hn : names o x = true
  · rw [if_pos hn]
    have hev := (step_named h h1 (fun _ => hw) hb hn e).1
    rw [hs] at hev
    cases hev with
    | out _ k1 => rw [k1] at hsch; cases hsch
    | same s0 _ k0 k1 k2 k3 k4 =>
      refine .keep ⟨s0, k0, by rw [← k1]; exact hsch, by rw [← k3]; exact hurg⟩ ?_ (by rw [cyc_of hs, cyc_of k0, k2]) (by rw [uw_of hs, uw_of k0, k4])
      unfold rr; rw [hs, k0]; dsimp only; rw [k1, k3]
    | resch s0 _ k0 k1 k2 k3 k4 k5 k6 =>
      have hl : lev c u x := ⟨s0, k0, k1, by rw [← k3]; exact hurg⟩
      have hu0 : s0.pri.urgency = u := by rw [← k3]; exact hurg
      have hrr : rr c' u x = rr c u x := by unfold rr; rw [hs, k0]; dsimp only; rw [k3, k1, k2]
      have hlen : (c.sched s0.pri.urgency).len ≠ 1 := by rw [hu0]; exact len_ne_one h hl hra hne
      have hb2 : s0.uwrite + bytesOf o < WLIM := by
        have h3 := h.core.uwb trivial x s0 k0 hb
        cases o with
        | addWrite id n =>
          obtain rfl : id = x := by simpa [names] using hn
          exact (hw s0 k0 hb).1
        | _ => exact h3
      have hfirst : s0.cycle = c.firstCyc u := by
        rw [← hu0]
        by_cases hn0 : 0 < s0.uwrite
        · exact (h.core.uwOk k0 trivial).2 k1 hn0
        · cases o with
          | addWrite id n =>
            obtain rfl : id = x := by simpa [names] using hn
            exact (hw s0 k0 hb).2 k1 (by change 0 < s0.uwrite + n at k5; omega)
          | _ => exact absurd k5 (by show ¬ 0 < s0.uwrite + 0; omega)
      have hp := penalty_le _ hb2
      refine .move (if s0.pri.inc = false ∨ (c.sched s0.pri.urgency).len = 1 then 0 else penalty (s0.uwrite + bytesOf o)) hl hrr ?_ (by rw [uw_of hs, k4]) ?_
        (by rw [cyc_of k0]; exact hfirst) ?_
      · rw [cyc_of hs, cyc_of k0, k6]
        split_ifs
        · exact (UInt64.add_zero _).symm
        · rfl
      · split_ifs
        · decide
        · exact hp.2
      · intro hr
        obtain ⟨s1, g1, _, g2⟩ := rr_iff.1 hr
        rw [k0] at g1; cases g1
        rw [if_neg (by rintro (g | g); (· rw [g2] at g; cases g); exact hlen g)]
        exact hp.1
    | join _ k1 k2 k3 k4 k5 =>
      obtain ⟨y, p, m1, m2, m3, m4, m5⟩ := k3 trivial ⟨a, hne.symm, by rw [hurg]; exact hra⟩
      rw [hurg] at m2 m5
      refine .join y p m2 (fun g => ?_) (by rw [cyc_of hs]; exact m3) (by rw [uw_of hs]; exact k2) m4 (m5 a hne.symm hra)
      obtain ⟨s1, g1, _, g2⟩ := rr_iff.1 g
      rw [hs] at g1; cases g1
      by_contra hc
      obtain ⟨s2, g3, g4, g5⟩ := rr_iff.1 (by simpa using hc)
      exact k5 s2 g3 g4 (g5.trans g2.symm)
  · rw [if_neg hn]
    rcases step_other h h1 hb (by simpa using hn) e with g | ⟨_, _, s0, ou, sd, g1, g2, g3⟩
    · have g' := g.symm.trans hs
      refine .keep ⟨s, g', hsch, hurg⟩ (by unfold rr; rw [g]) (by unfold Conn.cyc; rw [g]) (by unfold Conn.uw; rw [g]; rfl)
    · rw [hs] at g2
      obtain rfl := Option.some.inj g2
      have hsd : s0.sched = true := by
        rcases g3 with g3 | g3
        · rw [← g3]; exact hsch
        · rw [g3] at hsch; cases hsch
      refine .keep ⟨s0, g1, hsd, hurg⟩ ?_ (by rw [cyc_of hs, cyc_of g1]) (by rw [uw_of hs, uw_of g1]; rfl)
      unfold rr; rw [hs, g1]; dsimp only at hsch ⊢; rw [hsch, hsd]

theorem dist_first (h : Inv True v c) (hra : lev c u a) {x : Nat} (hx : c.cyc x = c.firstCyc u) : dist (c.cyc a) (c.cyc x) ≤ 2 ^ 24 := by
  rw [hx]; exact lev_first h hra

theorem step_ahead (h : Inv True False c) {o : Op F} {r : Ret} (h1 : OpOk o) (hw : FairWrite c o) (hra : lev c u a) (hn : names o a = false)
    (e : step encode c o = .ok (c', r)) {G : Nat} (hG : Ahead c u a G) : Ahead c' u a G := by
  obtain ⟨sa, ha1, ha2, _⟩ := id hra
  have ha := ((h.sok a sa ha1).need ha2).1
  have hca := (keeps_place h h1 ha hn e).1
  intro t ht hd
  by_cases hta : t = a
  · subst hta; rw [dist_self]; omega
  rw [hca] at hd ⊢
  cases step_view h h1 hw hra e ht hta with
  | keep k1 k2 k3 k4 => rw [k3] at hd ⊢; exact hG t k1 hd
  | move p k1 k2 k3 k4 k5 k6 k7 =>
    rw [k3] at hd ⊢
    have h0 := dist_first h hra k6
    have := dist_add h0 k5 hd
    have := hG t k1 h0
    omega
  | join y p k1 k2 k3 k4 k5 k6 =>
    rw [k3] at hd ⊢
    have := dist_add k6 k5 hd
    have := hG y k1 k6
    omega

/-- the potential of a stream after a step -/
theorem step_phi (h : Inv True False c) {o : Op F} {r : Ret} (h1 : OpOk o) (hw : FairWrite c o) (hra : lev c u a) (hn : names o a = false)
    (e : step encode c o = .ok (c', r)) {x : Nat} (hx : rr c u x = true) (hxa : x ≠ a) :
    (if rr c' u x then phi c' a x else 0) + (if names o x then served c u o else 0) ≤ phi c a x := by
  obtain ⟨sa, ha1, ha2, _⟩ := id hra
  have ha := ((h.sok a sa ha1).need ha2).1
  have hca := (keeps_place h h1 ha hn e).1
  obtain ⟨s0, g1, g2, g3⟩ := rr_iff.1 hx
  have hb := ((h.sok x s0 g1).need g2).1
  have hsm : c.uw x < 800 := by rw [uw_of g1]; exact (h.sok x s0 g1).small g2
  have hsv : (if names o x then served c u o else 0) = if names o x then min (bytesOf o) 800 else 0 := by
    by_cases hnx : names o x = true
    · rw [if_pos hnx, if_pos hnx]
      cases o with
      | addWrite id n =>
        obtain rfl : id = x := by simpa [names] using hnx
        show (if rr c u id then min n 800 else 0) = min n 800
        rw [if_pos hx]
      | _ => rfl
    · rw [if_neg hnx, if_neg hnx]
  rw [hsv]
  -- bytes are written on it only if it is among the first
  have hturn : 0 < (if names o x then min (bytesOf o) 800 else 0) + c.uw x → 1 ≤ turns c a x := by
    intro hpos
    have hf : c.cyc x = c.firstCyc u := by
      rw [cyc_of g1]
      have hu : s0.pri.urgency = u := by rw [g3]
      rw [← hu]
      by_cases h0 : 0 < s0.uwrite
      · exact (h.core.uwOk g1 trivial).2 g2 h0
      · rw [uw_of g1] at hpos
        by_cases hnx : names o x = true
        · rw [if_pos hnx] at hpos
          cases o with
          | addWrite id n =>
            obtain rfl : id = x := by simpa [names] using hnx
            exact (hw s0 g1 hb).2 g2 (by change 0 < min n 800 + _ at hpos; omega)
          | _ => change 0 < min 0 800 + _ at hpos; omega
        · rw [if_neg hnx] at hpos; omega
    have := dist_first h hra hf
    unfold turns; rw [if_pos this]; omega
  by_cases hr' : rr c' u x = true
  · rw [if_pos hr']
    cases step_view h h1 hw hra e (rr_lev hr') hxa with
    | keep k1 k2 k3 k4 =>
      have ht : turns c' a x = turns c a x := by unfold turns; rw [hca, k3]
      have hi' := step_inv h h1 (fun _ => hw) (fun f => f.elim) e
      obtain ⟨s1, m1, m2, _⟩ := rr_iff.1 hr'
      have hsm' : c'.uw x < 800 := by rw [uw_of m1]; exact (hi'.sok x s1 m1).small m2
      unfold phi
      rw [ht, k4]
      rw [k4] at hsm'
      by_cases hnx : names o x = true
      · rw [if_pos hnx] at hsm' hturn ⊢
        rw [if_pos hnx]
        by_cases h0 : 0 < min (bytesOf o) 800 + c.uw x
        · have := hturn h0; omega
        · omega
      · rw [if_neg hnx, if_neg hnx]; omega
    | move p k1 k2 k3 k4 k5 k6 k7 =>
      have h0 := dist_first h hra k6
      have h7 := k7 hx
      have ht : turns c a x = dist (c.cyc a) (c.cyc x) + 1 := by unfold turns; rw [if_pos h0]
      have ht' : turns c' a x + 1 ≤ turns c a x := by
        rw [ht]
        unfold turns; rw [hca, k3]
        by_cases hd : dist (c.cyc a) (c.cyc x + p) ≤ 2 ^ 24
        · rw [if_pos hd]; have := dist_add h0 k5 hd; omega
        · rw [if_neg hd]; omega
      unfold phi; rw [k4]
      have : (if names o x then min (bytesOf o) 800 else 0) ≤ 800 := by split_ifs <;> omega
      omega
    | join y p k1 k2 =>
      rw [k2 hr'] at hx; cases hx
  · rw [if_neg hr']
    unfold phi
    by_cases h0 : 0 < (if names o x then min (bytesOf o) 800 else 0) + c.uw x
    · have := hturn h0
      have : (if names o x then min (bytesOf o) 800 else 0) ≤ 800 := by split_ifs <;> omega
      omega
    · omega

theorem phi_le (h : Inv True False c) {x G : Nat} (hG : Ahead c u a G) (hx : lev c u x) : phi c a x ≤ 1600 * (G + 1) := by
  have := turns_le hG hx
  unfold phi; omega

end Conn
end Nghttp3
