import Verif.Lemmas.ConnFair
import Verif.Props.Sched
/-! Property theorems C35: no starvation among incremental streams of equal urgency. -/
namespace Nghttp3
namespace Props
open Conn
open PQ (Mem IdxOk Heap upd upd_same upd_ne)
open Outq (R Frent Ans Bytes St)

variable {E F : Type} {encode : Encode E F} {c c' : Conn E F} {u a : Nat}

theorem rr_bidi {w v : Prop} (h : Inv w v c) {x : Nat} (hx : rr c u x = true) : clientBidi x = true := by
  obtain ⟨s, h1, h2, _⟩ := rr_iff.1 hx
  exact ((h.sok x s h1).need h2).1

open Classical in
/-- one step: the sum of what the others may still get -/
theorem fair_step (h : Inv True False c) {o : Op F} {r : Ret} (h1 : OpOk o) (hw : FairWrite c o) (hra : rr c u a = true) (hn : names o a = false)
    (e : step encode c o = .ok (c', r)) {G : Nat} (hG : Ahead c u a G) {L : List Nat} (hL : L.Nodup) (hm : ∀ x, x ∈ L ↔ x ≠ a ∧ rr c u x = true) :
    ∃ L' : List Nat, L'.Nodup ∧ (∀ x, x ∈ L' ↔ x ≠ a ∧ rr c' u x = true) ∧
      (L'.map (phi c' a)).sum + served c u o ≤ (L.map (phi c a)).sum + 1600 * (G + 1) * (if Arrives c c' u a then 1 else 0) := by
  have hi' := step_inv h h1 (fun _ => hw) (fun f => f.elim) e
  have hca := (keeps_place h h1 (rr_bidi h hra) hn e).1
  obtain ⟨x, hx, hnx⟩ := step_one h h1 e
  -- only the changed stream is served
  have hserved : 0 < served c u o → names o x = true ∧ rr c u x = true := by
    intro hs
    cases o with
    | addWrite id n =>
      change 0 < (if rr c u id then min n 800 else 0) at hs
      by_cases hr : rr c u id = true
      · rcases hnx with g | g
        · obtain rfl : id = x := by simpa [names] using g
          exact ⟨g, hr⟩
        · have := g id (rr_bidi h hr); simp [names] at this
      · rw [if_neg hr] at hs; omega
    | _ => exact absurd hs (by show ¬ 0 < 0; omega)
  have hother : ∀ t, t ≠ x → rr c' u t = rr c u t := by
    intro t ht
    by_cases hb : clientBidi t = true
    · unfold rr; rw [hx t hb ht]
    · have f1 : rr c u t = false := by by_contra g; exact hb (rr_bidi h (by simpa using g))
      have f2 : rr c' u t = false := by by_contra g; exact hb (rr_bidi hi' (by simpa using g))
      rw [f1, f2]
  have hphi : ∀ t, t ≠ x → clientBidi t = true → phi c' a t = phi c a t := by
    intro t ht hb
    have e1 : c'.cyc t = c.cyc t := by unfold Conn.cyc; rw [hx t hb ht]
    have e2 : c'.uw t = c.uw t := by unfold Conn.uw; rw [hx t hb ht]
    unfold phi turns; rw [e1, e2, hca]
  have hmap : (L.erase x).map (phi c' a) = (L.erase x).map (phi c a) := by
    apply List.map_congr_left
    intro t ht
    have h2 := (hL.mem_erase_iff).1 ht
    exact hphi t h2.1 (rr_bidi h ((hm t).1 h2.2).2)
  have hsum : (L.map (phi c a)).sum = ((L.erase x).map (phi c a)).sum + if x ∈ L then phi c a x else 0 := by
    by_cases hxL : x ∈ L
    · rw [if_pos hxL, ((List.perm_cons_erase hxL).map (phi c a)).sum_nat, List.map_cons, List.sum_cons, Nat.add_comm]
    · rw [if_neg hxL, List.erase_of_not_mem hxL]; omega
  have hne : (L.erase x).Nodup := hL.erase x
  have hme : ∀ t, t ∈ L.erase x ↔ t ≠ x ∧ t ≠ a ∧ rr c u t = true := fun t => by rw [hL.mem_erase_iff, hm]
  by_cases hxa : x = a
  · -- the waiting stream itself
    have hs0 : served c u o = 0 := by
      by_contra g
      have := (hserved (by omega)).1
      rw [hxa, hn] at this; cases this
    refine ⟨L.erase x, hne, fun t => ?_, ?_⟩
    · rw [hme]
      constructor
      · rintro ⟨g1, g2, g3⟩; exact ⟨g2, by rw [hother t g1]; exact g3⟩
      · rintro ⟨g1, g2⟩
        have g3 : t ≠ x := by rw [hxa]; exact g1
        exact ⟨g3, g1, by rw [← hother t g3]; exact g2⟩
    · rw [hmap, hs0, hsum]; omega
  · by_cases hr' : rr c' u x = true
    · refine ⟨x :: L.erase x, List.nodup_cons.2 ⟨fun g => ((hme x).1 g).1 rfl, hne⟩, fun t => ?_, ?_⟩
      · rw [List.mem_cons, hme]
        constructor
        · rintro (rfl | ⟨g1, g2, g3⟩)
          · exact ⟨hxa, hr'⟩
          · exact ⟨g2, by rw [hother t g1]; exact g3⟩
        · rintro ⟨g1, g2⟩
          by_cases hte : t = x
          · exact Or.inl hte
          · exact Or.inr ⟨hte, g1, by rw [← hother t hte]; exact g2⟩
      · rw [List.map_cons, List.sum_cons, hmap, hsum]
        by_cases hr : rr c u x = true
        · rw [if_pos ((hm x).2 ⟨hxa, hr⟩)]
          have := step_phi h h1 hw (rr_lev hra) hn e hr hxa
          rw [if_pos hr'] at this
          by_cases hs : 0 < served c u o
          · rw [if_pos (hserved hs).1] at this; omega
          · omega
        · have hs0 : served c u o = 0 := by
            by_contra g
            exact hr (hserved (by omega)).2
          have harr : Arrives c c' u a := ⟨x, hxa, by simpa using hr, hr'⟩
          have := phi_le hi' (step_ahead h h1 hw (rr_lev hra) hn e hG) (rr_lev hr')
          rw [if_pos harr, hs0]
          omega
    · refine ⟨L.erase x, hne, fun t => ?_, ?_⟩
      · rw [hme]
        constructor
        · rintro ⟨g1, g2, g3⟩; exact ⟨g2, by rw [hother t g1]; exact g3⟩
        · rintro ⟨g1, g2⟩
          have g3 : t ≠ x := by rintro rfl; exact hr' g2
          exact ⟨g3, g1, by rw [← hother t g3]; exact g2⟩
      · rw [hmap, hsum]
        by_cases hs : 0 < served c u o
        · obtain ⟨k1, k2⟩ := hserved hs
          rw [if_pos ((hm x).2 ⟨hxa, k2⟩)]
          have := step_phi h h1 hw (rr_lev hra) hn e k2 hxa
          rw [if_neg hr', if_pos k1] at this
          omega
        · omega

/-- the sum over the history -/
theorem fair_hist {m j : Nat} {c2 : Conn E F} (hh : Waits encode u a c m j c2) : Inv True False c → rr c u a = true → ∀ {G : Nat}, Ahead c u a G →
    ∀ {L : List Nat}, L.Nodup → (∀ x, x ∈ L ↔ x ≠ a ∧ rr c u x = true) → m ≤ (L.map (phi c a)).sum + 1600 * (G + 1) * j := by
  induction hh with
  | nil => intros; omega
  | @cons c c1 c2 o r m j h1 hw hn e hra' _ ih =>
    intro h hra G hG L hL hm
    have hi := step_inv h h1 (fun _ => hw) (fun f => f.elim) e
    have hG' := step_ahead h h1 hw (rr_lev hra) hn e hG
    rw [Nat.mul_add]
    obtain ⟨L', k1, k2, k3⟩ := fair_step h h1 hw hra hn e hG hL hm
    have := ih hi hra' hG' k1 k2
    omega

/-- C35.  Let an incremental stream `a` of urgency `u` wait in a state that is reached by allowed calls, in which written bytes are reported
for the stream that was offered.  As long as it waits and nothing is written on it, the other incremental streams of this urgency can be served
only `1600 * (gap + 1) * (others + arrivals)` times in total, where each turn counts as many times as bytes were written, up to 800, and
`others` is the number of the others that wait at the beginning. -/
theorem C35_bounded_wait {server : Bool} {st : Settings} {e0 : E} (h : Reach encode (fun c o => OpOk o ∧ FairWrite c o) (init server st e0) c)
    (hra : rr c u a = true) {L : List Nat} (hL : L.Nodup) (hm : ∀ x, x ∈ L ↔ x ≠ a ∧ rr c u x = true) {m j : Nat} {c2 : Conn E F}
    (hh : Waits encode u a c m j c2) : m ≤ 1600 * (gap c u a + 1) * (L.length + j) := by
  have hi : Inv True False c := reach_inv (init_inv _ _ _) (h.mono fun _ _ g => ⟨g.1, fun _ => g.2, fun f => f.elim⟩)
  have hG : Ahead c u a (gap c u a) := by
    intro t ht hd
    have h1 := lev_first hi (rr_lev hra)
    have h2 := lev_first hi ht
    change (c.cyc a - c.firstCyc u).toNat ≤ _ at h1
    unfold gap
    unfold dist at *
    simp only [sub_toNat] at *
    have := (c.cyc a).toNat_lt; have := (c.cyc t).toNat_lt; have := (c.firstCyc u).toNat_lt
    omega
  have := fair_hist hh hi hra hG hL hm
  have hsum : (L.map (phi c a)).sum ≤ 1600 * (gap c u a + 1) * L.length := by
    have : ∀ l : List Nat, (∀ x ∈ l, lev c u x) → (l.map (phi c a)).sum ≤ 1600 * (gap c u a + 1) * l.length := by
      intro l
      induction l with
      | nil => intro _; simp
      | cons b t ih =>
        intro hl
        have h1 := ih fun x hx => hl x (List.mem_cons_of_mem _ hx)
        have h2 := phi_le hi hG (hl b List.mem_cons_self)
        rw [List.map_cons, List.sum_cons, List.length_cons, Nat.mul_succ]
        omega
    exact this L fun x hx => rr_lev ((hm x).1 hx).2
  rw [Nat.mul_add]
  omega

/-- the gap is never more than 2^24 cycles, so that there is a bound that does not depend on the history -/
theorem C35_gap_bounded {server : Bool} {st : Settings} {e0 : E} (h : Reach encode (fun c o => OpOk o ∧ FairWrite c o) (init server st e0) c)
    (hra : rr c u a = true) : gap c u a ≤ 2 ^ 24 := by
  have hi : Inv True False c := reach_inv (init_inv _ _ _) (h.mono fun _ _ g => ⟨g.1, fun _ => g.2, fun f => f.elim⟩)
  exact lev_first hi (rr_lev hra)

/-- C35.  A stream that was served is then behind the first one by at most one cycle per 800 bytes that were written on it in this turn
(at least one): the wait for its next turn is proportional to what it got. -/
theorem C35_gap_after_turn {server : Bool} {st : Settings} {e0 : E} (h : Reach encode (fun c o => OpOk o ∧ FairWrite c o) (init server st e0) c)
    {n : Nat} {r : Ret} (hw : FairWrite c (.addWrite a n)) (e : step encode c (.addWrite a n) = .ok (c', r)) (hn : 0 < n) (hra : rr c u a = true)
    (hra' : rr c' u a = true) : gap c' u a ≤ max 1 ((n + 799) / 800) := by
  have hi : Inv True False c := reach_inv (init_inv _ _ _) (h.mono fun _ _ g => ⟨g.1, fun _ => g.2, fun f => f.elim⟩)
  have hi' := step_inv hi (o := .addWrite a n) trivial (fun _ => hw) (fun f => f.elim) e
  obtain ⟨s0, k1, k2, k3⟩ := rr_iff.1 hra
  obtain ⟨s', m1, m2, m3⟩ := rr_iff.1 hra'
  have hu : s0.pri.urgency = u := by rw [k3]
  have hb := rr_bidi hi hra
  have hfirst : s0.cycle = c.firstCyc u := by rw [← hu]; exact (hw s0 k1 hb).2 k2 hn
  have hsm := (hi.sok a s0 k1).small k2
  have hlim := (hw s0 k1 hb).1
  -- the new cycle
  have hcyc : ∃ p : UInt64, s'.cycle = c.firstCyc u + p ∧ p.toNat ≤ max 1 ((n + 799) / 800) ∧ p.toNat ≤ 2 ^ 24 := by
    have hev := (step_named hi (o := .addWrite a n) trivial (fun _ => hw) hb (by simp [names]) e).1
    rw [m1] at hev
    have zero : s'.cycle = s0.cycle → ∃ p : UInt64, s'.cycle = c.firstCyc u + p ∧ p.toNat ≤ max 1 ((n + 799) / 800) ∧ p.toNat ≤ 2 ^ 24 :=
      fun g => ⟨0, by rw [g, hfirst]; exact (UInt64.add_zero _).symm, by simp, by decide⟩
    cases hev with
    | out _ g => rw [g] at m2; cases m2
    | same t _ g0 g1 g2 => rw [k1] at g0; cases g0; exact zero g2
    | resch t _ g0 g1 g2 g3 g4 g5 g6 =>
      rw [k1] at g0; cases g0
      by_cases hc : s0.pri.inc = false ∨ (c.sched s0.pri.urgency).len = 1
      · rw [if_pos hc] at g6; exact zero g6
      · rw [if_neg hc] at g6
        refine ⟨_, by rw [g6, hfirst]; rfl, ?_, (penalty_le _ hlim).2⟩
        unfold penalty MIN_WRITELEN
        rw [UInt64.toNat_ofNat']
        change max 1 ((s0.uwrite + n) / 800) % 2 ^ 64 ≤ _
        unfold WLIM at hlim
        omega
    | join _ g1 g2 g3 g4 g5 => exact absurd (k3.trans m3.symm) (g5 s0 k1 k2)
  obtain ⟨p, hp1, hp2, hp3⟩ := hcyc
  -- the first stream of the level
  have hl' := rr_lev hra'
  have hd' := lev_first hi' hl'
  have hmem : Mem (c'.sched u) ((c'.sched u).q 0) := by
    obtain ⟨i, h1, _⟩ := (lev_mem hi').1 hl'
    exact ⟨0, by omega, rfl⟩
  generalize hy : (c'.sched u).q 0 = y at hmem
  have hf' : c'.firstCyc u = c'.cyc y := by unfold Conn.firstCyc; rw [hy]
  by_cases hya : y = a
  · subst hya
    unfold gap; rw [hf', show (c'.cyc y - c'.cyc y).toNat = 0 from dist_self (c'.cyc y)]; omega
  have hly := (lev_mem hi').2 hmem
  have hfr : c'.str y = c.str y := fr_addWrite e hya
  have hlyc : lev c u y := by obtain ⟨s, g1, g2, g3⟩ := hly; exact ⟨s, by rw [← hfr]; exact g1, g2, g3⟩
  have hdy := lev_first hi hlyc
  have hcy : c'.cyc y = c.cyc y := by unfold Conn.cyc; rw [hfr]
  unfold gap
  rw [hf', hcy] at hd' ⊢
  rw [cyc_of m1, hp1] at hd' ⊢
  unfold dist at *
  simp only [sub_toNat, UInt64.toNat_add] at *
  have := (c.cyc y).toNat_lt; have := (c.firstCyc u).toNat_lt; have := p.toNat_lt
  omega

/-- C35.  Reporting the bytes of an offer as written meets the condition `FairWrite` of the theorems above (unless 12 GB are written at once). -/
theorem C35_offered_is_fair {server : Bool} {st : Settings} {e0 : E} (h : Reach encode (fun c o => OpOk o ∧ FairWrite c o) (init server st e0) c)
    {k : Nat} {db : Bytes} {as : List Ans} {id : Nat} {fin : Bool} {vs : List Bytes} (hb : clientBidi id = true)
    (e : writevStream encode c k db as = .ok (c', .vecs (some (id, fin, vs)))) {n : Nat} (hn : n < 800 * 2 ^ 24) : FairWrite c' (.addWrite id n) := by
  have hi : Inv True False c := reach_inv (init_inv _ _ _) (h.mono fun _ _ g => ⟨g.1, fun _ => g.2, fun f => f.elim⟩)
  have hnx := offered_next hi hb e
  obtain ⟨s, k1, k2, _, _, k5, _⟩ := next_urgent hi hnx
  have hsm := (hi.sok id s k1).small k2
  have nc : ¬ isCritical c id := fun g => by rw [(isCritical_uni hi g).1] at hb; cases hb
  have h0 : (c.sched s.pri.urgency).q 0 = id := by
    unfold PQ.top at k5
    split_ifs at k5
    exact Option.some.inj k5
  obtain ⟨_, rr, hr, hc⟩ := writevStream_inv hi e
  cases hr
  rcases hc with ⟨i, f, v, g1, g2, _⟩ | ⟨_, _, g⟩ | ⟨_, c3, he, i3, e3, _⟩
  · cases g1; exact absurd g2 nc
  · cases g
  · obtain ⟨_, rr', m1, _, _, _, m6⟩ := writeRequest_inv i3 e3
    cases m1
    obtain ⟨c4, s1, _, m8, m9, m10⟩ := m6 id (by rw [nextTx_eff he]; exact hnx)
    have heff := he.trans m9
    obtain ⟨s2, p1, p2, _⟩ := heff.back m8
    rw [k1] at p1; cases p1
    intro s' hs' _
    rcases m10 with ⟨_, rfl⟩ | ⟨_, sch, rfl⟩
    · rw [m8] at hs'; cases hs'
      rw [p2]
      refine ⟨by show s.uwrite + n < WLIM; unfold WLIM; omega, fun _ _ => ?_⟩
      show s.cycle = c'.cyc ((c'.sched s.pri.urgency).q 0)
      rw [heff.sched, h0, heff.cyc, cyc_of k1]
    · rw [set_str] at hs'; cases hs'
      refine ⟨?_, (fun g => by cases g)⟩
      rw [p2]
      show s.uwrite + n < WLIM; unfold WLIM; omega

/-! ## an example, and what is not guaranteed -/

/-- two incremental requests of urgency 3 -/
def demoInc : List (Op Bytes) :=
  demoBind ++ [.open 0 false, .open 4 false, .setServerPri 0 ⟨3, true⟩, .setServerPri 4 ⟨3, true⟩, .submitResponse 0 [5] true, .submitResponse 4 [6] true]

/-- the stream that is offered by the last call of a history -/
def offered (l : List (Op Bytes)) : Option Nat :=
  match lastRet demoInit l with
  | some (.vecs (some (id, _, _))) => some id
  | _ => none

/-- a body of 1000 bytes from read_data -/
def big : List Ans := [.vecs [List.replicate 1000 7] false false]


/-- they take turns -/
example : offered (demoInc ++ [.writev 9 [] big]) = some 0 ∧ offered (demoInc ++ [.writev 9 [] big, .addWrite 0 1008, .writev 9 [] big]) = some 4 ∧
    offered (demoInc ++ [.writev 9 [] big, .addWrite 0 1008, .writev 9 [] big, .addWrite 4 1008, .writev 9 [] big]) = some 0 := by
  refine ⟨?_, ?_, ?_⟩ <;> decide +kernel

/-- The bound counts arrivals for a reason: a stream that is blocked by flow control after each turn and then unblocked is again first in
line, so that another incremental stream of the same urgency, here stream 4, waits as long as this goes on. -/
theorem C35_needs_no_arrivals :
    offered (demoInc ++ [.writev 9 [] big, .addWrite 0 799, .block 0, .unblock 0, .writev 9 [] big, .addWrite 0 799, .block 0, .unblock 0,
      .writev 9 [] big, .addWrite 0 799, .block 0, .unblock 0, .writev 9 [] big]) = some 0 := by
  decide +kernel

/-- decides `FairWrite` -/
def fairB (c : Conn E F) : Op F → Bool
  | .addWrite id n =>
    match c.str id with
    | none => true
    | some s => decide (s.uwrite + n < WLIM) && (!s.sched || decide (n = 0) || decide (s.cycle = c.firstCyc s.pri.urgency))
  | _ => true

theorem fairB_ok {o : Op F} (h : fairB c o = true) : FairWrite c o := by
  cases o with
  | addWrite id n =>
    intro s hs _
    simp only [fairB, hs, Bool.and_eq_true, Bool.or_eq_true, decide_eq_true_eq, Bool.not_eq_true'] at h
    refine ⟨h.1, fun h1 h2 => ?_⟩
    rcases h.2 with (g | g) | g
    · rw [h1] at g; cases g
    · omega
    · exact g
  | _ => trivial

/-- follows a history of calls in which stream `a` waits: what the others get -/
def waitRun (encode : Encode E F) (u a : Nat) (c : Conn E F) : List (Op F) → Option Nat
  | [] => some 0
  | .writev k db as :: t =>
    match step encode c (.writev k db as) with
    | .ok (c1, _) => if rr c1 u a then (waitRun encode u a c1 t).map (0 + ·) else none
    | _ => none
  | .addWrite id n :: t =>
    if id = a ∨ fairB c (.addWrite id n) = false then none
    else
      match step encode c (.addWrite id n) with
      | .ok (c1, _) => if rr c1 u a then (waitRun encode u a c1 t).map (served c u (.addWrite id n) + ·) else none
      | _ => none
  | _ => none

theorem waitRun_ok : ∀ (l : List (Op F)) (c : Conn E F) (m : Nat), waitRun encode u a c l = some m → ∃ j c2, Waits encode u a c m j c2 := by
  intro l
  induction l with
  | nil => intro c m h; cases h; exact ⟨0, c, .nil⟩
  | cons o t ih =>
    intro c m h
    unfold waitRun at h
    split at h
    · rename_i heq; cases heq
    · rename_i k db as t' heq
      cases heq
      split at h
      · rename_i c1 r e
        split_ifs at h with hr
        obtain ⟨m1, h1, rfl⟩ := Option.map_eq_some_iff.1 h
        obtain ⟨j, c2, hj⟩ := ih c1 m1 h1
        exact ⟨_, c2, .cons (o := .writev k db as) (show OpOk (.writev k db as) from trivial) trivial rfl e hr hj⟩
      · cases h
    · rename_i id n t' heq
      cases heq
      by_cases hc : id = a ∨ fairB c (.addWrite id n) = false
      · rw [if_pos hc] at h; cases h
      rw [if_neg hc] at h
      push Not at hc
      split at h
      · rename_i c1 r e
        split_ifs at h with hr
        obtain ⟨m1, h1, rfl⟩ := Option.map_eq_some_iff.1 h
        obtain ⟨j, c2, hj⟩ := ih c1 m1 h1
        exact ⟨_, c2, .cons (o := .addWrite id n) (show OpOk (.addWrite id n) from trivial) (fairB_ok (by simpa using hc.2)) (by simp [names]; exact hc.1) e hr hj⟩
      · cases h
    · cases h

/-- stream 4 waits while stream 0 writes 1008 bytes: the hypotheses of `C35_bounded_wait` are met, with something served -/
example : ∃ c j c2, Conn.run demoEnc demoInit demoInc = .ok c ∧ rr c 3 4 = true ∧ Waits demoEnc 3 4 c 800 j c2 := by
  have h : (match Conn.run demoEnc demoInit demoInc with
      | .ok c => rr c 3 4 && decide (waitRun demoEnc 3 4 c [.writev 9 [] big, .addWrite 0 1008, .writev 9 [] []] = some 800)
      | _ => false) = true := by decide +kernel
  split at h
  · rename_i c hc
    simp only [Bool.and_eq_true, decide_eq_true_eq] at h
    obtain ⟨j, c2, hj⟩ := waitRun_ok _ _ _ h.2
    exact ⟨c, j, c2, hc, h.1, hj⟩
  · cases h

end Props
end Nghttp3
