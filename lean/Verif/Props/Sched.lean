import Verif.Lemmas.ConnPri
/-! Property theorems C34: which stream nghttp3_conn_writev_stream offers. -/
namespace Nghttp3
namespace Props
open Conn
open PQ (Mem IdxOk Heap upd upd_same upd_ne)
open Outq (R Frent Ans Bytes St)

variable {E F : Type} {encode : Encode E F} {c c' : Conn E F}

theorem reach_ok {server : Bool} {st : Settings} {e0 : E} (h : Reach encode (fun _ o => OpOk o) (init server st e0) c) : Inv False False c :=
  reach_inv (init_inv _ _ _) (h.mono fun _ _ g => ⟨g, fun f => f.elim, fun f => f.elim⟩)

/-- the stream that is offered is the one that the scheduler has chosen -/
theorem offered_next {w v : Prop} (h : Inv w v c) {k : Nat} {db : Bytes} {as : List Ans} {id : Nat} {fin : Bool} {vs : List Bytes}
    (hb : clientBidi id = true) (e : writevStream encode c k db as = .ok (c', .vecs (some (id, fin, vs)))) : nextTx c = some id := by
  have nc : ¬ isCritical c id := fun g => by rw [(isCritical_uni h g).1] at hb; cases hb
  obtain ⟨_, rr, hr, hc⟩ := writevStream_inv h e
  cases hr
  rcases hc with ⟨i, f, v, g1, g2, _⟩ | ⟨_, _, g⟩ | ⟨_, c3, he, h3, e3, _⟩
  · cases g1; exact absurd g2 nc
  · cases g
  · obtain ⟨_, rr', g1, g2, _⟩ := writeRequest_inv h3 e3
    cases g1
    rcases g2 _ _ _ rfl with g | g
    · rw [← nextTx_eff he]; exact g
    · exact absurd (Or.inr (Or.inr (by rw [← he.ctrl.2.1]; exact g))) nc

/-- the chosen stream is in the scheduler, and no stream in the scheduler is more urgent -/
theorem next_urgent {w v : Prop} (h : Inv w v c) {id : Nat} (e : nextTx c = some id) :
    ∃ s, c.str id = some s ∧ s.sched = true ∧ clientBidi id = true ∧ requireSchedule s = true ∧ (c.sched s.pri.urgency).top = some id ∧
      ∀ x t, c.str x = some t → t.sched = true → s.pri.urgency ≤ t.pri.urgency := by
  obtain ⟨u, hu, htop, hmem, hmin⟩ := nextTx_spec h.core.reg e
  obtain ⟨s, h1, h2, h3⟩ := (h.core.reg.mem u id).1 hmem
  obtain ⟨n1, n2⟩ := (h.sok id s h1).need h2
  refine ⟨s, h1, h2, n1, n2, by rw [h3]; exact htop, fun x t hx ht => ?_⟩
  by_contra hlt
  exact hmin t.pri.urgency (by omega) x ((h.core.reg.mem _ x).2 ⟨t, hx, ht, rfl⟩)

/-- C34.  In every history of allowed calls: when a request stream is offered for writing, it has something to send, there are bytes or the
end of the stream in the offer, and no request stream that may send and has something to send is more urgent. -/
theorem C34_most_urgent {server : Bool} {st : Settings} {e0 : E} (h : Reach encode (fun _ o => OpOk o) (init server st e0) c)
    {k : Nat} {db : Bytes} {as : List Ans} {id : Nat} {fin : Bool} {vs : List Bytes} (hb : clientBidi id = true)
    (e : writevStream encode c k db as = .ok (c', .vecs (some (id, fin, vs)))) :
    ∃ s, c.str id = some s ∧ requireSchedule s = true ∧ (vs ≠ [] ∨ fin = true) ∧
      ∀ x t, c.str x = some t → clientBidi x = true → t.closed = false → sendable t = true → s.pri.urgency ≤ t.pri.urgency := by
  have hi := reach_ok h
  obtain ⟨s, h1, h2, h3, h4, _, h5⟩ := next_urgent hi (offered_next hi hb e)
  refine ⟨s, h1, h4, ?_, fun x t hx hbx hcl hs => h5 x t hx ((hi.sok x t hx).live hbx hcl hs)⟩
  have nc : ¬ isCritical c id := fun g => by rw [(isCritical_uni hi g).1] at hb; cases hb
  obtain ⟨_, rr, hr, hc⟩ := writevStream_inv hi e
  cases hr
  rcases hc with ⟨i, f, v, g1, g2, _⟩ | ⟨_, _, g⟩ | ⟨_, c3, he, i3, e3, _⟩
  · cases g1; exact absurd g2 nc
  · cases g
  · have hq : c3.qenc ≠ some id := fun g => nc (Or.inr (Or.inr (by rw [← he.ctrl.2.1]; exact g)))
    obtain ⟨_, rr', k1, _, _, _, k6⟩ := writeRequest_inv i3 e3
    cases k1
    obtain ⟨c1, s1, k7, _⟩ := k6 id (by rw [nextTx_eff he]; exact offered_next hi hb e)
    unfold connWritev at k7
    rcases h0 : c3.str id with _ | s0 <;> rw [h0] at k7
    · cases k7
    · dsimp only at k7
      obtain ⟨c4, e4, k7⟩ := bind_ok k7
      obtain ⟨q, e5, k7⟩ := bind_ok k7
      cases q with
      | some x =>
        obtain ⟨rfl, hx⟩ := Prod.mk.inj (R.ok.inj k7)
        obtain rfl := Option.some.inj hx
        have hu : streamUni id = false := by
          unfold streamUni; unfold clientBidi at hb; simp at hb ⊢; omega
        have heff : c4.qenc = c3.qenc := by
          split_ifs at e4
          · obtain rfl := R.ok.inj e4; rfl
          · exact (fillStream_eff h0 e4).ctrl.2.1
        unfold offerQenc at e5
        rw [if_neg (by rw [hu]; decide), heff] at e5
        rcases hqq : c3.qenc with _ | qid <;> rw [hqq] at e5
        · cases e5
        · dsimp only at e5
          split at e5
          · cases e5
          · rename_i q' _
            by_cases hbq : isBlocked q' = true
            · rw [if_pos hbq] at e5; cases e5
            rw [if_neg hbq] at e5
            obtain ⟨r, _, e6⟩ := bind_ok e5
            have := R.ok.inj e6
            split_ifs at this
            obtain ⟨rfl, _⟩ := Prod.mk.inj (Option.some.inj this)
            exact absurd hqq hq
      | none =>
        dsimp only at k7
        split at k7
        · cases k7
        · obtain ⟨r, _, e6⟩ := bind_ok k7
          obtain ⟨_, hx⟩ := Prod.mk.inj (R.ok.inj e6)
          by_cases hc : (r.1.isEmpty && !r.2) = true
          · rw [if_pos hc] at hx; cases hx
          · rw [if_neg hc] at hx
            obtain ⟨_, hx⟩ := Prod.mk.inj (Option.some.inj hx)
            obtain ⟨rfl, rfl⟩ := Prod.mk.inj hx
            revert hc
            cases r.1 <;> cases r.2 <;> simp

/-- the stream has no unsent bytes -/
def NoBytes (o : St F) : Prop := ∀ e ∈ o.outq.drop o.outqIdx, e.len = 0

theorem writevLoop_nil (cs : List Outq.Chunk) {k : Nat} (hk : 0 < k) : ∀ {l : List Outq.Ent} {b : Bool}, Outq.writevLoop cs l k = some ([], b) → ∀ e ∈ l, e.len = 0 := by
  intro l
  obtain ⟨k, rfl⟩ : ∃ j, k = j + 1 := ⟨k - 1, by omega⟩
  induction l with
  | nil => intro b _ e he; cases he
  | cons a t ih =>
    intro b h e he
    unfold Outq.writevLoop at h
    by_cases h0 : a.len = 0
    · rw [if_pos h0] at h
      rcases List.mem_cons.1 he with rfl | he
      · exact h0
      · exact ih h e he
    · rw [if_neg h0] at h
      split at h
      · cases h
      · cases h

theorem writev_nil {o : St F} {k : Nat} {fin : Bool} (e : Outq.writev o k = .ok ([], fin)) : NoBytes o := by
  unfold Outq.writev at e
  by_cases hk : k = 0
  · rw [if_pos hk] at e; cases e
  rw [if_neg hk] at e
  split at e
  · cases e
  · rename_i vs b h
    obtain ⟨rfl, _⟩ := Prod.mk.inj (R.ok.inj e)
    exact writevLoop_nil _ (by omega) h

/-- the critical stream is blocked or has no unsent bytes -/
def Quiet (c : Conn E F) (sid : Option Nat) : Prop := ∀ i s, sid = some i → c.str i = some s → isBlocked s = true ∨ NoBytes s.out

theorem connWritev_uni_none {k id : Nat} {as : List Ans} {r : Option (Nat × Bool × List Bytes)} (hu : streamUni id = true)
    (e : connWritev encode c id k as = .ok (c', r)) (hr : ∀ i f v, r = some (i, f, v) → v = []) : ∀ s, c'.str id = some s → NoBytes s.out := by
  unfold connWritev at e
  split at e
  · cases e
  · obtain ⟨c4, e4, e⟩ := bind_ok e
    obtain ⟨q, e5, e⟩ := bind_ok e
    unfold offerQenc at e5
    rw [if_pos hu] at e5
    obtain rfl := R.ok.inj e5
    dsimp only at e
    rcases h1 : c4.str id with _ | s1 <;> rw [h1] at e
    · cases e
    · obtain ⟨x, e6, e⟩ := bind_ok e
      obtain ⟨rfl, rfl⟩ := Prod.mk.inj (R.ok.inj e)
      intro s hs
      rw [h1] at hs; cases hs
      obtain ⟨vs, fin⟩ := x
      dsimp only at hr
      by_cases hc : (vs.isEmpty && !fin) = true
      · have : vs = [] := by revert hc; cases vs <;> simp
        rw [this] at e6; exact writev_nil e6
      · rw [if_neg hc] at hr
        rw [hr _ _ _ rfl] at e6; exact writev_nil e6

theorem critical_quiet {k : Nat} {sid : Option Nat} {pre : St F → R (St F)} (hu : ∀ x, sid = some x → streamUni x = true)
    (e : critical encode c k sid pre = .ok (c', none)) : Quiet c' sid := by
  intro i s hi hs
  subst hi
  unfold critical at e
  dsimp only at e
  rcases h : c.str i with _ | s0 <;> rw [h] at e
  · cases e
  · dsimp only at e
    by_cases hb : isBlocked s0 = true
    · rw [if_pos hb] at e
      obtain ⟨rfl, _⟩ := Prod.mk.inj (R.ok.inj e)
      rw [h] at hs; cases hs; exact Or.inl hb
    · rw [if_neg hb] at e
      obtain ⟨o, _, e2⟩ := bind_ok e
      obtain ⟨⟨c1, r1⟩, e3, e4⟩ := bind_ok e2
      obtain ⟨rfl, hr⟩ := Prod.mk.inj (R.ok.inj e4)
      right
      refine connWritev_uni_none (hu i rfl) e3 (fun i f v hi => ?_) s hs
      dsimp only at hr
      rw [hi] at hr
      dsimp only at hr
      by_contra hv
      rw [if_neg (by simpa using hv)] at hr
      cases hr

theorem quiet_eff {P : Nat → Prop} {sid : Option Nat} (h : Quiet c sid) (he : OutEff P c c') (hp : ∀ x, sid = some x → ¬ P x) : Quiet c' sid := by
  intro i s hi hs
  obtain ⟨s0, g1, g2, g3⟩ := he.back hs
  have := h i s0 hi g1
  rw [g3 (hp i hi)]
  exact this

theorem bidi_not_uni {id : Nat} (hb : clientBidi id = true) : streamUni id = false := by
  unfold streamUni; unfold clientBidi at hb; simp at hb ⊢; omega

/-- if a request stream, or nothing, is offered, then the encoder stream is blocked or has no unsent bytes -/
theorem connWritev_req_quiet {k id : Nat} {as : List Ans} {r : Option (Nat × Bool × List Bytes)} (hb : clientBidi id = true)
    (e : connWritev encode c id k as = .ok (c', r)) (hr : ∀ i f v, r = some (i, f, v) → c.qenc ≠ some i) : Quiet c' c'.qenc := by
  unfold connWritev at e
  split at e
  · cases e
  · rename_i s0 h0
    obtain ⟨c4, e4, e⟩ := bind_ok e
    obtain ⟨q, e5, e⟩ := bind_ok e
    have heff : c4.qenc = c.qenc := by
      split_ifs at e4
      · obtain rfl := R.ok.inj e4; rfl
      · exact (fillStream_eff h0 e4).ctrl.2.1
    unfold offerQenc at e5
    rw [if_neg (by rw [bidi_not_uni hb]; decide)] at e5
    have hc' : c' = c4 := by
      cases q with
      | some x => exact (Prod.mk.inj (R.ok.inj e)).1.symm
      | none =>
        dsimp only at e
        split at e
        · cases e
        · obtain ⟨_, _, e6⟩ := bind_ok e
          exact (Prod.mk.inj (R.ok.inj e6)).1.symm
    rw [hc']
    intro i s hi hs
    rw [hi] at e5
    dsimp only at e5
    rw [hs] at e5
    dsimp only at e5
    by_cases hbl : isBlocked s = true
    · exact Or.inl hbl
    · right
      rw [if_neg hbl] at e5
      obtain ⟨⟨vs, fin⟩, e6, e7⟩ := bind_ok e5
      have := R.ok.inj e7
      dsimp only at this
      by_cases hv : vs.isEmpty = true
      · obtain rfl : vs = [] := by simpa using hv
        exact writev_nil e6
      · rw [if_neg hv] at this
        subst this
        obtain ⟨_, hx⟩ := Prod.mk.inj (R.ok.inj e)
        exact absurd (heff ▸ hi) (hr _ _ _ hx.symm)

/-- if what is offered is no critical stream, or nothing is offered, the critical streams are quiet -/
theorem quiet_after {w v : Prop} (hi : Inv w v c) {k : Nat} {db : Bytes} {as : List Ans} {rr : Option (Nat × Bool × List Bytes)} (hk : 0 < k)
    (hnc : ∀ i f v, rr = some (i, f, v) → ¬ isCritical c i)
    (e : writevStream encode c k db as = .ok (c', .vecs rr)) : Quiet c' c'.ctrl ∧ Quiet c' c'.qdec ∧ Quiet c' c'.qenc := by
  obtain ⟨_, rr, hr, hc⟩ := writevStream_inv hi e
  cases hr
  rcases hc with ⟨i, f, v, g1, g2, _⟩ | ⟨_, _, g⟩ | ⟨_, c3, he, i3, e3, c1, c2, x1, x2, x3⟩
  · exact absurd g2 (hnc _ _ _ g1)
  · omega
  · have uni : ∀ {c : Conn E F}, Inv w v c → ∀ {i}, isCritical c i → streamUni i = true := fun h _ g => (isCritical_uni h g).2
    obtain ⟨a1, _⟩ := critical_eff (fun x g => uni hi (Or.inl g)) x1
    have i1 : Inv w v c1 := inv_outUni hi a1 fun x g => (isCritical_uni hi (Or.inl g)).1
    obtain ⟨a2, _⟩ := critical_eff (fun x g => uni i1 (Or.inr (Or.inl g))) x2
    have i2 : Inv w v c2 := inv_outUni i1 a2 fun x g => (isCritical_uni i1 (Or.inr (Or.inl g))).1
    obtain ⟨a3, _⟩ := critical_eff (fun x g => uni i2 (Or.inr (Or.inr g))) x3
    have q1 := critical_quiet (fun x g => uni hi (Or.inl g)) x1
    have q2 := critical_quiet (fun x g => uni i1 (Or.inr (Or.inl g))) x2
    -- the three streams are different
    have d1 : ∀ {c : Conn E F}, Inv w v c → ∀ x, c.ctrl = some x → c.qdec ≠ some x ∧ c.qenc ≠ some x := by
      intro c h x g
      obtain ⟨s, k1, k2⟩ := (h.tctrl x g).2
      constructor
      · intro g2; obtain ⟨s', k3, k4⟩ := (h.tqdec x g2).2; rw [k1] at k3; cases k3; rw [k2] at k4; cases k4
      · intro g2; obtain ⟨s', k3, k4⟩ := (h.tqenc x g2).2; rw [k1] at k3; cases k3; rw [k2] at k4; cases k4
    have d2 : ∀ {c : Conn E F}, Inv w v c → ∀ x, c.qdec = some x → c.qenc ≠ some x := by
      intro c h x g g2
      obtain ⟨s, k1, k2⟩ := (h.tqdec x g).2
      obtain ⟨s', k3, k4⟩ := (h.tqenc x g2).2; rw [k1] at k3; cases k3; rw [k2] at k4; cases k4
    have n1 := a1.ctrl
    have n2 := a2.ctrl
    have n3 := a3.ctrl
    have q1' : Quiet c3 c3.ctrl := by
      rw [n3.1, n2.1, n1.1]
      refine quiet_eff (quiet_eff q1 a2 fun x g => ?_) a3 fun x g => ?_
      · exact (d1 i1 x (by rw [n1.1]; exact g)).1
      · exact (d1 i2 x (by rw [n2.1, n1.1]; exact g)).2
    have q2' : Quiet c3 c3.qdec := by
      rw [n3.2.2.1, n2.2.2.1]
      exact quiet_eff q2 a3 fun x g => d2 i2 x (by rw [n2.2.2.1]; exact g)
    obtain ⟨_, rr', k1, kx, _, k5, k6⟩ := writeRequest_inv i3 e3
    cases k1
    rcases hnx : nextTx c3 with _ | id
    · rw [k5 hnx]
      refine ⟨q1', q2', ?_⟩
      rw [n3.2.1]
      exact critical_quiet (fun x g => uni i2 (Or.inr (Or.inr g))) x3
    have nc : ¬ isCritical c id := by
      intro g
      obtain ⟨u, _, _, hmem, _⟩ := nextTx_spec i3.core.reg hnx
      obtain ⟨s, g1, g2, _⟩ := (i3.core.reg.mem u id).1 hmem
      have := ((i3.sok id s g1).need g2).1
      rw [(isCritical_uni hi g).1] at this; cases this
    have hb : clientBidi id = true := by
      obtain ⟨u, _, _, hmem, _⟩ := nextTx_spec i3.core.reg hnx
      obtain ⟨s, g1, g2, _⟩ := (i3.core.reg.mem u id).1 hmem
      exact ((i3.sok id s g1).need g2).1
    obtain ⟨c4, s1, k7, k8, k9, k10⟩ := k6 id hnx
    have hq : ∀ i f v, rr = some (i, f, v) → c3.qenc ≠ some i := by
      rintro i f v g gq
      exact hnc i f v g (Or.inr (Or.inr (by rw [← he.ctrl.2.1]; exact gq)))
    have q3 := connWritev_req_quiet hb k7 hq
    have n4 := k9.ctrl
    have ne3 : ∀ x, c3.ctrl = some x ∨ c3.qdec = some x → ¬ (x = id ∨ c3.qenc = some x) := by
      rintro x (g | g) (rfl | g2)
      · exact nc (Or.inl (by rw [← he.ctrl.1]; exact g))
      · exact (d1 i3 x g).2 g2
      · exact nc (Or.inr (Or.inl (by rw [← he.ctrl.2.2.1]; exact g)))
      · exact d2 i3 x g g2
    have q4 : Quiet c4 c4.ctrl := by rw [n4.1]; exact quiet_eff q1' k9 fun x g => ne3 x (Or.inl g)
    have q5 : Quiet c4 c4.qdec := by rw [n4.2.2.1]; exact quiet_eff q2' k9 fun x g => ne3 x (Or.inr g)
    rcases k10 with ⟨_, rfl⟩ | ⟨_, sch, rfl⟩
    · exact ⟨q4, q5, q3⟩
    · have keep : ∀ {sid : Option Nat}, Quiet c4 sid → Quiet ({ c4 with sched := sch }.set id { s1 with sched := false }) sid := by
        intro sid hqq i s g1 g2
        by_cases hne : i = id
        · subst hne
          rw [set_str] at g2; cases g2
          exact hqq i s1 g1 k8
        · rw [set_ne _ _ _ _ hne] at g2
          exact hqq i s g1 g2
      exact ⟨keep q4, keep q5, keep q3⟩

/-- C34.  In every history: a request stream is offered only when the control stream and the two QPACK streams have no unsent bytes (the
frames and QPACK instructions waiting for them have been turned into bytes first), or the application has blocked them. -/
theorem C34_critical_first {server : Bool} {st : Settings} {e0 : E} (h : Reach encode (fun _ o => OpOk o) (init server st e0) c)
    {k : Nat} {db : Bytes} {as : List Ans} {id : Nat} {fin : Bool} {vs : List Bytes} (hb : clientBidi id = true)
    (e : writevStream encode c k db as = .ok (c', .vecs (some (id, fin, vs)))) : Quiet c' c'.ctrl ∧ Quiet c' c'.qdec ∧ Quiet c' c'.qenc := by
  have hi := reach_ok h
  have hk : 0 < k := by
    rcases Nat.eq_zero_or_pos k with rfl | hk
    · unfold writevStream at e; rw [if_pos rfl] at e; cases e
    · exact hk
  refine quiet_after hi hk ?_ e
  rintro i f v g gc
  cases g
  rw [(isCritical_uni hi gc).1] at hb; cases hb

/-- a stream that is waiting in the scheduler, or not, when nothing is offered -/
theorem none_next {w v : Prop} (hi : Inv w v c) {k : Nat} {db : Bytes} {as : List Ans} (hk : 0 < k)
    (e : writevStream encode c k db as = .ok (c', .vecs none)) :
    (nextTx c = none ∧ ∀ x, clientBidi x = true → c'.str x = c.str x) ∨ ∃ id s, nextTx c = some id ∧ c'.str id = some s ∧ NoBytes s.out := by
  obtain ⟨_, rr, hr, hc⟩ := writevStream_inv hi e
  cases hr
  rcases hc with ⟨i, f, v, g1, g2, _⟩ | ⟨_, _, g⟩ | ⟨_, c3, he, i3, e3, _⟩
  · cases g1
  · omega
  · obtain ⟨_, rr', k1, _, _, k5, k6⟩ := writeRequest_inv i3 e3
    cases k1
    rcases hnx : nextTx c3 with _ | id
    · left
      refine ⟨by rw [← nextTx_eff he]; exact hnx, fun x hx => ?_⟩
      rw [k5 hnx]
      have hn : ¬ isCritical c x := fun g => by rw [(isCritical_uni hi g).1] at hx; cases hx
      rcases hs : c.str x with _ | s
      · exact he.none x hs
      · obtain ⟨o, g1, g2⟩ := he.str x s hs
        rw [g1, g2 hn]
    · right
      obtain ⟨c4, s1, k7, k8, k9, k10⟩ := k6 id hnx
      refine ⟨id, ?_⟩
      have hnb : NoBytes s1.out := by
        unfold connWritev at k7
        split at k7
        · cases k7
        · obtain ⟨c5, _, k7⟩ := bind_ok k7
          obtain ⟨q, _, k7⟩ := bind_ok k7
          cases q with
          | some x => cases (Prod.mk.inj (R.ok.inj k7)).2
          | none =>
            dsimp only at k7
            split at k7
            · cases k7
            · rename_i s2 h2
              obtain ⟨⟨vs, fin⟩, e6, e7⟩ := bind_ok k7
              obtain ⟨rfl, g⟩ := Prod.mk.inj (R.ok.inj e7)
              rw [h2] at k8; cases k8
              dsimp only at g
              split_ifs at g with g1
              rw [Bool.and_eq_true] at g1
              obtain rfl : vs = [] := by simpa using g1.1
              exact writev_nil e6
      rcases k10 with ⟨_, rfl⟩ | ⟨_, sch, rfl⟩
      · exact ⟨s1, by rw [← nextTx_eff he]; exact hnx, k8, hnb⟩
      · exact ⟨_, by rw [← nextTx_eff he]; exact hnx, set_str _ _ _, hnb⟩

/-- the call gives no stream an incremental priority -/
def NotIncremental : Op F → Prop
  | .setServerPri _ p => p.inc = false
  | .priUpd _ p => p.inc = false
  | .hdrPri _ p => p.inc = false
  | .qpackUnblock _ p _ => ∀ q, p = some q → q.inc = false
  | _ => True

/-- less than 13 GB are reported as written before the stream is scheduled again -/
def Small (c : Conn E F) : Op F → Prop
  | .addWrite id n => ∀ s, c.str id = some s → s.uwrite + n < WLIM
  | _ => True

/-- allowed calls, none of which makes a stream incremental -/
def Plain (c : Conn E F) (o : Op F) : Prop := OpOk o ∧ NotIncremental o ∧ Small c o

structure PlainInv (c : Conn E F) : Prop where
  inv : Inv True False c
  zero : ∀ x s, c.str x = some s → s.sched = true → s.cycle = 0
  inc : ∀ x s, clientBidi x = true → c.str x = some s → s.pri.inc = false

theorem plain_step {o : Op F} {r : Ret} (h : PlainInv c) (hp : Plain c o) (e : step encode c o = .ok (c', r)) : PlainInv c' := by
  obtain ⟨h1, h2, h3⟩ := hp
  have hfw : True → FairWrite c o := by
    intro _
    cases o with
    | addWrite id n =>
      intro s hs hb
      refine ⟨h3 s hs, fun hsch _ => ?_⟩
      rw [h.zero id s hs hsch]
      have hm : Mem (c.sched s.pri.urgency) id := (h.inv.core.reg.at hs).1 hsch
      obtain ⟨i, hi, _⟩ := hm
      have hm0 : Mem (c.sched s.pri.urgency) ((c.sched s.pri.urgency).q 0) := ⟨0, by omega, rfl⟩
      obtain ⟨s', g1, g2, _⟩ := (h.inv.core.reg.mem _ _).1 hm0
      unfold Conn.firstCyc
      rw [cyc_of g1, h.zero _ _ g1 g2]
    | _ => trivial
  have hi := step_inv h.inv h1 hfw (fun f => f.elim) e
  refine ⟨hi, fun x s hs hsch => ?_, fun x s hb hs => ?_⟩
  · have hb := ((hi.sok x s hs).need hsch).1
    by_cases hn : names o x = true
    · have hev := (step_named h.inv h1 hfw hb hn e).1
      rw [hs] at hev
      have hinc : s.pri.inc = false := by
        have := step_pri h.inv h1 hb hfw e hs
        generalize hc0 : c.str x = s0 at this
        cases this with
        | new _ _ k1 => rw [k1]
        | newUpd p _ _ k1 => rw [k1]; exact h2
        | same _ s0 _ k1 => rw [k1.1]; exact h.inc x s0 hb hc0
        | server p _ _ k1 => rw [k1]; exact h2
        | update p _ _ _ k1 => rw [k1]; exact h2
        | header _ p _ _ ho _ _ _ k1 =>
          rw [k1]
          rcases ho with rfl | ⟨b, rfl⟩
          · exact h2
          · exact h2 p rfl
      cases hev with
      | out _ k1 => rw [k1] at hsch; cases hsch
      | same s0 _ k0 k1 k2 => rw [k2]; exact h.zero x s0 k0 (by rw [← k1]; exact hsch)
      | resch s0 _ k0 k1 k2 k3 k4 k5 k6 =>
        rw [k6, if_pos (Or.inl (by rw [← k3]; exact hinc))]
        exact h.zero x s0 k0 k1
      | join _ k1 k2 k3 k4 =>
        rcases k4 hinc with k | ⟨y, _, ⟨st, m1, m2, _⟩, k⟩
        · exact k
        · rw [k, cyc_of m1]; exact h.zero y st m1 m2
    · rcases step_other h.inv h1 hb (by simpa using hn) e with g | ⟨_, _, s0, ou, sd, g1, g2, g3⟩
      · rw [g] at hs; exact h.zero x s hs hsch
      · rw [hs] at g2
        obtain rfl := Option.some.inj g2
        rcases g3 with g3 | g3
        · exact h.zero x s0 g1 (by rw [← g3]; exact hsch)
        · rw [g3] at hsch; cases hsch
  · have := step_pri h.inv h1 hb hfw e hs
    generalize hc0 : c.str x = s0 at this
    cases this with
    | new _ _ k1 => rw [k1]
    | newUpd p _ _ k1 => rw [k1]; exact h2
    | same _ s0 _ k1 => rw [k1.1]; exact h.inc x s0 hb hc0
    | server p _ _ k1 => rw [k1]; exact h2
    | update p _ _ _ k1 => rw [k1]; exact h2
    | header _ p _ _ ho _ _ _ k1 =>
      rw [k1]
      rcases ho with rfl | ⟨b, rfl⟩
      · exact h2
      · exact h2 p rfl

theorem plain_reach {server : Bool} {st : Settings} {e0 : E} (h : Reach encode Plain (init server st e0) c) : PlainInv c := by
  induction h with
  | init => exact ⟨init_inv _ _ _, (fun x s hs => by cases hs), (fun x s _ hs => by cases hs)⟩
  | step _ hp e ih => exact plain_step ih hp e
  | peer e _ ih => exact ⟨ih.inv.withEnc e, ih.2, ih.3⟩

/-- C34.  As long as no stream is incremental, requests of equal urgency are served in the order of their stream IDs: the offered stream is
the first one, by urgency and then by ID, among those that may send and have something to send. -/
theorem C34_order_of_ids {server : Bool} {st : Settings} {e0 : E} (h : Reach encode Plain (init server st e0) c)
    {k : Nat} {db : Bytes} {as : List Ans} {id : Nat} {fin : Bool} {vs : List Bytes} (hb : clientBidi id = true)
    (e : writevStream encode c k db as = .ok (c', .vecs (some (id, fin, vs)))) :
    ∃ s, c.str id = some s ∧ ∀ x t, c.str x = some t → clientBidi x = true → t.closed = false → sendable t = true →
      s.pri.urgency < t.pri.urgency ∨ (s.pri.urgency = t.pri.urgency ∧ id ≤ x) := by
  have hp := plain_reach h
  obtain ⟨s, h1, h2, _, _, htop, h5⟩ := next_urgent hp.inv (offered_next hp.inv hb e)
  refine ⟨s, h1, fun x t hx hbx hcl hs => ?_⟩
  have hts := (hp.inv.sok x t hx).live hbx hcl hs
  have hle := h5 x t hx hts
  by_cases hlt : s.pri.urgency < t.pri.urgency
  · exact Or.inl hlt
  have he : s.pri.urgency = t.pri.urgency := by omega
  refine Or.inr ⟨he, ?_⟩
  have hm : Mem (c.sched s.pri.urgency) x := by rw [he]; exact (hp.inv.core.reg.at hx).1 hts
  obtain ⟨hb1, _⟩ := (hp.inv.core.lv trivial s.pri.urgency).norm
  have h0 : (c.sched s.pri.urgency).q 0 = id := by
    unfold PQ.top at htop
    split_ifs at htop
    exact Option.some.inj htop
  have := (hb1.top_min x hm).2 (by unfold key; rw [h0, cyc_of h1, cyc_of hx, hp.zero _ _ h1 h2, hp.zero _ _ hx hts])
  rw [h0] at this; exact this

/-- C34.  After nghttp3_conn_block_stream or nghttp3_conn_shutdown_stream_write for a request stream it is not offered again, whatever
happens to other streams, until some call or received frame names this stream. -/
theorem C34_not_offered_after_block {server : Bool} {st : Settings} {e0 : E} (h : Reach encode (fun _ o => OpOk o) (init server st e0) c)
    {x : Nat} (hx : clientBidi x = true) {o : Op F} (ho : o = .block x ∨ o = .shutWr x) {c1 c2 : Conn E F} {r : Ret} (e : step encode c o = .ok (c1, r))
    {l : List (Op F)} (hl : Hist encode (fun _ o => OpOk o ∧ names o x = false) c1 l c2)
    {k : Nat} {db : Bytes} {as : List Ans} {fin : Bool} {vs : List Bytes} :
    writevStream encode c2 k db as ≠ .ok (c', .vecs (some (x, fin, vs))) := by
  have hi := reach_ok h
  have hok : OpOk o := by rcases ho with rfl | rfl <;> trivial
  have i1 := step_inv hi hok (fun f => f.elim) (fun f => f.elim) e
  have hs1 : ∀ s, c1.str x = some s → s.sched = false := by
    have un : ∀ {s0 s : Strm F} {c1 : Conn E F}, unscheduleStream c x s0 = .ok c1 → c1.str x = some s → s.sched = false := by
      intro s0 s c1 e g
      unfold unscheduleStream at e
      split_ifs at e with k1 k2
      · obtain rfl := R.ok.inj e; rw [set_str] at g; cases g; exact k2
      · split at e
        · cases e
        · obtain rfl := R.ok.inj e
          rw [set_str] at g; cases g; rfl
    intro s hs
    rcases ho with rfl | rfl
    · change blockStream c x = _ at e
      unfold blockStream at e
      split at e
      · rename_i h0
        obtain ⟨rfl, _⟩ := Prod.mk.inj (R.ok.inj e); rw [h0] at hs; cases hs
      · dsimp only at e
        rw [if_pos hx] at e
        obtain ⟨c3, e1, e2⟩ := bind_ok e
        obtain ⟨rfl, _⟩ := Prod.mk.inj (R.ok.inj e2)
        exact un e1 hs
    · change shutdownWrite c x = _ at e
      unfold shutdownWrite at e
      split at e
      · rename_i h0
        obtain ⟨rfl, _⟩ := Prod.mk.inj (R.ok.inj e); rw [h0] at hs; cases hs
      · dsimp only at e
        rw [if_pos hx] at e
        obtain ⟨c3, e1, e2⟩ := bind_ok e
        obtain ⟨rfl, _⟩ := Prod.mk.inj (R.ok.inj e2)
        exact un e1 hs
  have key : ∀ {c1 c2 : Conn E F} {l : List (Op F)}, Hist encode (fun _ o => OpOk o ∧ names o x = false) c1 l c2 → Inv False False c1 →
      (∀ s, c1.str x = some s → s.sched = false) → Inv False False c2 ∧ ∀ s, c2.str x = some s → s.sched = false := by
    intro c1 c2 l hl
    induction hl with
    | nil => intro h1 h2; exact ⟨h1, h2⟩
    | peer e _ ih => intro h1 h2; exact ih (h1.withEnc e) h2
    | cons hp e _ ih =>
      intro h1 h2
      refine ih (step_inv h1 hp.1 (fun f => f.elim) (fun f => f.elim) e) fun s hs => ?_
      rcases step_other h1 hp.1 hx hp.2 e with g | ⟨_, _, s0, ou, sd, g1, g2, g3⟩
      · rw [g] at hs; exact h2 s hs
      · rw [hs] at g2
        obtain rfl := Option.some.inj g2
        rcases g3 with g3 | g3
        · exact g3.trans (h2 s0 g1)
        · exact g3
  obtain ⟨i2, hs2⟩ := key hl i1 hs1
  intro e2
  obtain ⟨s, k1, k2, _⟩ := next_urgent i2 (offered_next i2 hx e2)
  rw [hs2 s k1] at k2; cases k2

/-! ## examples and a counterexample -/

/-- an encoder that copies the field section -/
def demoEnc : Encode Unit Bytes := fun _ nva => some ((), [0, 0], nva, [])
def demoInit : Conn Unit Bytes := init true {} ()
/-- what the last call of a history returns -/
def lastRet (c : Conn Unit Bytes) : List (Op Bytes) → Option Ret
  | [] => none
  | [o] => match step demoEnc c o with | .ok (_, r) => some r | _ => none
  | o :: t => match step demoEnc c o with | .ok (c', _) => lastRet c' t | _ => none
/-- the set-up of a server, with everything of the control and QPACK streams written -/
def demoBind : List (Op Bytes) :=
  [.bindControl 3, .bindQpack 7 11, .writev 9 [] [], .addWrite 3 9, .writev 9 [] [], .addWrite 11 1, .writev 9 [] [], .addWrite 7 1]


theorem reach_run {l : List (Op F)} {c0 : Conn E F} {P : Op F → Prop} (hl : ∀ o ∈ l, P o) (h : Conn.run encode c0 l = .ok c) :
    Reach encode (fun _ o => P o) c0 c := by
  have key : ∀ (l : List (Op F)) (c1 : Conn E F), (∀ o ∈ l, P o) → Reach encode (fun _ o => P o) c0 c1 → Conn.run encode c1 l = .ok c →
      Reach encode (fun _ o => P o) c0 c := by
    intro l
    induction l with
    | nil => intro c1 _ h1 h2; obtain rfl := R.ok.inj h2; exact h1
    | cons o t ih =>
      intro c1 hl h1 h2
      obtain ⟨⟨c2, r⟩, e1, e2⟩ := bind_ok h2
      exact ih c2 (fun o ho => hl o (List.mem_cons_of_mem _ ho)) (.step h1 (hl o List.mem_cons_self) e1) e2
  exact key l c0 hl .init h

/-- two requests: the more urgent one is offered, though it came later -/
def demoTwo : List (Op Bytes) :=
  demoBind ++ [.open 0 false, .open 4 false, .setServerPri 4 ⟨1, false⟩, .submitResponse 0 [5] false, .submitResponse 4 [6] false]

example : lastRet demoInit (demoTwo ++ [.writev 9 [] []]) = some (.vecs (some (4, true, [[1, 3, 0, 0, 6]]))) := by decide +kernel

/-- the state in this example is reached by allowed calls, and an offer is made: the hypotheses of the theorems above -/
example : ∃ c c', Reach demoEnc (fun _ o => OpOk o) demoInit c ∧ Conn.run demoEnc demoInit demoTwo = .ok c ∧
    writevStream demoEnc c 9 [] [] = .ok (c', .vecs (some (4, true, [[1, 3, 0, 0, 6]]))) := by
  have h : lastRet demoInit (demoTwo ++ [.writev 9 [] []]) = some (.vecs (some (4, true, [[1, 3, 0, 0, 6]]))) := by decide +kernel
  have key : ∀ (l : List (Op Bytes)) (c0 : Conn Unit Bytes) (r : Ret), lastRet c0 (l ++ [.writev 9 [] []]) = some r →
      ∃ c c', Conn.run demoEnc c0 l = .ok c ∧ writevStream demoEnc c 9 [] [] = .ok (c', r) := by
    intro l
    induction l with
    | nil =>
      intro c0 r h
      change (match step demoEnc c0 (.writev 9 [] []) with | .ok (_, r) => some r | _ => none) = _ at h
      split at h
      · rename_i c' r' he
        cases h
        exact ⟨c0, c', rfl, he⟩
      · cases h
    | cons o t ih =>
      intro c0 r h
      have hne : ∃ b t', t ++ [.writev 9 [] []] = b :: t' := by cases t <;> exact ⟨_, _, rfl⟩
      obtain ⟨b, t', hbt⟩ := hne
      rw [List.cons_append, hbt] at h
      change (match step demoEnc c0 o with | .ok (c', _) => lastRet c' (b :: t') | _ => none) = _ at h
      split at h
      · rename_i c1 r1 he
        rw [← hbt] at h
        obtain ⟨c, c', k1, k2⟩ := ih c1 r h
        exact ⟨c, c', by unfold Conn.run; rw [he]; exact k1, k2⟩
      · cases h
  obtain ⟨c, c', h1, h2⟩ := key _ _ _ h
  refine ⟨c, c', reach_run ?_ h1, h1, h2⟩
  intro o ho
  simp only [demoTwo, demoBind, List.mem_append, List.mem_cons, List.not_mem_nil, or_false] at ho
  rcases ho with (rfl | rfl | rfl | rfl | rfl | rfl | rfl | rfl) | rfl | rfl | rfl | rfl | rfl <;> first | trivial | decide

/-- The claim that a blocked stream is never offered is false: if the stream is blocked, or shut down for writing, before a response is
submitted, the response is offered. -/
theorem C34_fails_for_blocked :
    lastRet demoInit (demoBind ++ [.open 0 false, .block 0, .submitResponse 0 [5] false, .writev 9 [] []]) =
      some (.vecs (some (0, true, [[1, 3, 0, 0, 5]]))) ∧
    lastRet demoInit (demoBind ++ [.open 0 false, .shutWr 0, .submitResponse 0 [5] false, .writev 9 [] []]) =
      some (.vecs (some (0, true, [[1, 3, 0, 0, 5]]))) := by
  constructor <;> decide +kernel

end Props
end Nghttp3
