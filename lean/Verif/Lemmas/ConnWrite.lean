import Verif.Lemmas.ConnOps3
/-! Writing: nghttp3_conn_writev_stream keeps the invariant of the connection. -/
namespace Nghttp3
namespace Conn
open PQ (Mem IdxOk Heap upd upd_same upd_ne)
open Outq (R Frent Ans Bytes St)

variable {E F : Type} {w v : Prop} {c c' : Conn E F} {id : Nat} {s0 s : Strm F} {encode : Encode E F}

/-- only the queues of the streams in `P` and the encoder may have changed -/
structure OutEff (P : Nat → Prop) (c c' : Conn E F) : Prop where
  eq : ∃ e str, c' = { c with str := str, enc := e }
  str : ∀ x s, c.str x = some s → ∃ o, c'.str x = some { s with out := o } ∧ (¬ P x → o = s.out)
  none : ∀ x, c.str x = none → c'.str x = none

theorem OutEff.refl (P : Nat → Prop) (c : Conn E F) : OutEff P c c :=
  ⟨⟨c.enc, c.str, rfl⟩, fun _ s h => ⟨s.out, h, fun _ => rfl⟩, fun _ h => h⟩

theorem OutEff.trans {P Q : Nat → Prop} {c c1 c2 : Conn E F} (h1 : OutEff P c c1) (h2 : OutEff Q c1 c2) : OutEff (fun x => P x ∨ Q x) c c2 := by
  refine ⟨?_, fun x s hx => ?_, fun x hx => h2.none x (h1.none x hx)⟩
  · obtain ⟨e, st, rfl⟩ := h1.eq
    obtain ⟨e2, st2, rfl⟩ := h2.eq
    exact ⟨e2, st2, rfl⟩
  · obtain ⟨o, g1, g2⟩ := h1.str x s hx
    obtain ⟨o2, g3, g4⟩ := h2.str x _ g1
    refine ⟨o2, g3, fun hn => ?_⟩
    rw [g4 fun h => hn (Or.inr h)]
    exact g2 fun h => hn (Or.inl h)

theorem OutEff.mono {P Q : Nat → Prop} {c c1 : Conn E F} (h : OutEff P c c1) (hpq : ∀ x, P x → Q x) : OutEff Q c c1 :=
  ⟨h.eq, fun x s hx => by obtain ⟨o, g1, g2⟩ := h.str x s hx; exact ⟨o, g1, fun hn => g2 fun hp => hn (hpq x hp)⟩, h.none⟩

theorem OutEff.set {c : Conn E F} {id : Nat} {s : Strm F} (h : c.str id = some s) (o : St F) : OutEff (· = id) c (c.set id { s with out := o }) := by
  refine ⟨⟨c.enc, _, rfl⟩, fun x s' hx => ?_, fun x hx => ?_⟩
  · by_cases e : x = id
    · subst e
      rw [h] at hx; cases hx
      exact ⟨o, set_str _ _ _, fun hn => absurd rfl hn⟩
    · exact ⟨s'.out, by rw [set_ne _ _ _ _ e]; exact hx, fun _ => rfl⟩
  · have e : x ≠ id := by rintro rfl; rw [h] at hx; cases hx
    rw [set_ne _ _ _ _ e]; exact hx

theorem OutEff.enc (P : Nat → Prop) (c : Conn E F) (e : E) : OutEff P c { c with enc := e } :=
  ⟨⟨e, c.str, rfl⟩, fun _ s h => ⟨s.out, h, fun _ => rfl⟩, fun _ h => h⟩

theorem OutEff.back {P : Nat → Prop} (h : OutEff P c c') {x : Nat} {s' : Strm F} (hs : c'.str x = some s') :
    ∃ s, c.str x = some s ∧ s' = { s with out := s'.out } ∧ (¬ P x → s' = s) := by
  rcases hx : c.str x with _ | s
  · rw [h.none x hx] at hs; cases hs
  · obtain ⟨o, g1, g2⟩ := h.str x s hx
    rw [hs] at g1
    obtain rfl := Option.some.inj g1
    exact ⟨s, rfl, rfl, fun hn => by rw [g2 hn]⟩

theorem OutEff.sched {P : Nat → Prop} (h : OutEff P c c') : c'.sched = c.sched := by obtain ⟨e, st, rfl⟩ := h.eq; rfl
theorem OutEff.ctrl {P : Nat → Prop} (h : OutEff P c c') : c'.ctrl = c.ctrl ∧ c'.qenc = c.qenc ∧ c'.qdec = c.qdec ∧ c'.server = c.server := by
  obtain ⟨e, st, rfl⟩ := h.eq; exact ⟨rfl, rfl, rfl, rfl⟩

theorem OutEff.cyc {P : Nat → Prop} (h : OutEff P c c') : c'.cyc = c.cyc := by
  funext x
  unfold Conn.cyc
  rcases hx : c.str x with _ | s
  · rw [h.none x hx]
  · obtain ⟨o, g, _⟩ := h.str x s hx; rw [g]

theorem OutEff.uw {P : Nat → Prop} (h : OutEff P c c') : c'.uw = c.uw := by
  funext x
  unfold Conn.uw
  rcases hx : c.str x with _ | s
  · rw [h.none x hx]
  · obtain ⟨o, g, _⟩ := h.str x s hx; rw [g]

theorem core_outEff {P : Nat → Prop} (h : OutEff P c c') (hc : Core w c) : Core w c' := by
  refine ⟨⟨by rw [h.sched]; exact hc.reg.idx, fun u x => ?_, fun x s hx => ?_⟩, fun hw u => ?_, fun hw x s hx hb => ?_⟩
  · rw [h.sched, hc.reg.mem]
    constructor
    · rintro ⟨s, g1, g2, g3⟩
      obtain ⟨o, g4, _⟩ := h.str x s g1
      exact ⟨_, g4, g2, g3⟩
    · rintro ⟨s, g1, g2, g3⟩
      obtain ⟨s1, g4, g5, _⟩ := h.back g1
      rw [g5] at g2 g3
      exact ⟨s1, g4, g2, g3⟩
  · obtain ⟨s1, g4, g5, _⟩ := h.back hx
    rw [g5]; exact hc.reg.urg x s1 g4
  · rw [h.sched, h.cyc, h.uw]; exact hc.lv hw u
  · obtain ⟨s1, g4, g5, _⟩ := h.back hx
    rw [g5]; exact hc.uwb hw x s1 g4 hb

/-- the parts of the invariant that concern neither the scheduler nor single streams -/
theorem inv_gen (h : Inv w v c) (hc : Core w c') (hs : ∀ x s, c'.str x = some s → SOk v x s)
    (ht : ∀ x, (c'.str x).map (·.ty) = (c.str x).map (·.ty))
    (h3 : c'.num = c.num) (h4 : c'.server = c.server) (h5 : c'.ctrl = c.ctrl) (h6 : c'.qenc = c.qenc) (h7 : c'.qdec = c.qdec)
    (g1 : c'.goaways = c.goaways) (g2 : c'.txGoaway = c.txGoaway) (g3 : c'.goawayQueued = c.goawayQueued) (g4 : c'.maxBidi = c.maxBidi) :
    Inv w v c' := by
  have hsome : ∀ x, (c'.str x).isSome = (c.str x).isSome := by
    intro x
    have := ht x
    rcases h1 : c'.str x with _ | a <;> rcases h2 : c.str x with _ | b <;> rw [h1, h2] at this <;> simp at this ⊢
  have hp : ∀ {x : Nat} {t : Ty}, (∃ s, c.str x = some s ∧ s.ty = t) → ∃ s, c'.str x = some s ∧ s.ty = t := by
    rintro x t ⟨s, k1, k2⟩
    have := ht x
    rcases h1 : c'.str x with _ | a
    · rw [h1, k1] at this; cases this
    · rw [h1, k1] at this
      exact ⟨a, rfl, (Option.some.inj this).trans k2⟩
  refine ⟨hc, hs, ?_, fun x hx => ?_, fun x hx => ?_, fun x hx => ?_, by rw [g1]; exact h.gsort, by rw [g1, g2]; exact h.ghead,
    by rw [g1, g3]; exact h.gq, by rw [g4]; exact h.mb, fun hv x h1 h2 => ?_⟩
  · obtain ⟨l, h1, h2, hl⟩ := h.cnt
    refine ⟨l, h1, fun x => ?_, by rw [h3, h4]; exact hl⟩
    rw [h2, ← hsome]
  · rw [h5] at hx; rw [h4]; exact ⟨(h.tctrl x hx).1, hp (h.tctrl x hx).2⟩
  · rw [h6] at hx; rw [h4]; exact ⟨(h.tqenc x hx).1, hp (h.tqenc x hx).2⟩
  · rw [h7] at hx; rw [h4]; exact ⟨(h.tqdec x hx).1, hp (h.tqdec x hx).2⟩
  · rw [h4] at hv
    rw [hsome] at h2
    rw [g4]; exact h.mbl hv x h1 h2

theorem inv_outEff {P : Nat → Prop} (h : Inv w v c) (he : OutEff P c c') (hs : ∀ x s, c'.str x = some s → P x → SOk v x s) : Inv w v c' := by
  have ht : ∀ x, (c'.str x).map (·.ty) = (c.str x).map (·.ty) := by
    intro x
    rcases hx : c.str x with _ | s
    · rw [he.none x hx]
    · obtain ⟨o, g, _⟩ := he.str x s hx; rw [g]; rfl
  have hso : ∀ x s, c'.str x = some s → SOk v x s := by
    intro x s hx
    by_cases hp : P x
    · exact hs x s hx hp
    · obtain ⟨s1, g4, _, g6⟩ := he.back hx
      rw [g6 hp]; exact h.sok x s1 g4
  obtain ⟨e, st, rfl⟩ := id he.eq
  exact inv_gen h (core_outEff he h.core) hso ht rfl rfl rfl rfl rfl rfl rfl rfl rfl

/-- changes of streams that are never scheduled -/
theorem inv_outUni {P : Nat → Prop} (h : Inv w v c) (he : OutEff P c c') (hb : ∀ x, P x → clientBidi x = false) : Inv w v c' := by
  refine inv_outEff h he fun x s hx hp => ?_
  obtain ⟨s1, g4, g5, _⟩ := he.back hx
  have hk := h.sok _ _ g4
  have hns := sched_of_uni h g4 (hb x hp)
  rw [g5]
  exact sok_uni _ _ (hb x hp) hns hk.blk hk.rvo

/-! ## the functions -/

theorem fillStream_eff (h : c.str id = some s) {as : List Ans} (e : fillStream encode c id s as = .ok c') :
    OutEff (fun x => x = id ∨ (streamUni id = false ∧ c.qenc = some x)) c c' := by
  unfold fillStream at e
  by_cases hu : streamUni id = true
  · rw [if_pos hu] at e
    obtain ⟨r, _, e2⟩ := bind_ok e
    obtain rfl := R.ok.inj e2
    exact (OutEff.set h _).mono fun x hx => Or.inl hx
  · rw [if_neg hu] at e
    split at e
    · split_ifs at e
      obtain rfl := R.ok.inj e
      exact OutEff.refl _ _
    · rename_i qid hq
      split at e
      · cases e
      · rename_i q hqs
        obtain ⟨r, _, e2⟩ := bind_ok e
        obtain rfl := R.ok.inj e2
        have hu' : streamUni id = false := by simpa using hu
        by_cases hqi : qid = id
        · -- does not happen; the later update wins
          subst hqi
          rw [h] at hqs; cases hqs
          rw [set_set]
          refine ((OutEff.enc (fun _ => False) c r.1).trans (OutEff.set (c := { c with enc := r.1 }) h _)).mono fun x hx => ?_
          exact Or.inl (hx.resolve_left fun g => g)
        · have h1 : OutEff (· = id) { c with enc := r.1 } ({ c with enc := r.1 }.set id { s with out := r.2.1 }) := OutEff.set (c := { c with enc := r.1 }) h _
          have h2 : OutEff (· = qid) ({ c with enc := r.1 }.set id { s with out := r.2.1 })
              (({ c with enc := r.1 }.set id { s with out := r.2.1 }).set qid { q with out := r.2.2.1 }) :=
            OutEff.set (by rw [set_ne _ _ _ _ hqi]; exact hqs) _
          refine (((OutEff.enc (fun _ => False) c r.1).trans h1).trans h2).mono fun x hx => ?_
          rcases hx with (hx | hx) | hx
          · exact hx.elim
          · exact Or.inl hx
          · exact Or.inr ⟨hu', by rw [hq, hx]⟩

theorem connWritev_eff {k : Nat} {as : List Ans} {r : Option (Nat × Bool × List Bytes)} (e : connWritev encode c id k as = .ok (c', r)) :
    OutEff (fun x => x = id ∨ (streamUni id = false ∧ c.qenc = some x)) c c' ∧
      ∀ i f v, r = some (i, f, v) → i = id ∨ (streamUni id = false ∧ c.qenc = some i) := by
  unfold connWritev at e
  rcases h : c.str id with _ | s <;> rw [h] at e
  · cases e
  · dsimp only at e
    obtain ⟨c1, e1, e2⟩ := bind_ok e
    have heff : OutEff (fun x => x = id ∨ (streamUni id = false ∧ c.qenc = some x)) c c1 := by
      split_ifs at e1
      · obtain rfl := R.ok.inj e1; exact OutEff.refl _ _
      · exact fillStream_eff h e1
    obtain ⟨q, e3, e4⟩ := bind_ok e2
    cases q with
    | some x =>
      obtain ⟨rfl, rfl⟩ := Prod.mk.inj (R.ok.inj e4)
      refine ⟨heff, fun i f v hi => ?_⟩
      obtain rfl := Option.some.inj hi
      unfold offerQenc at e3
      by_cases hu : streamUni id = true
      · rw [if_pos hu] at e3; cases e3
      · rw [if_neg hu, heff.ctrl.2.1] at e3
        rcases hq : c.qenc with _ | qid <;> rw [hq] at e3
        · cases e3
        · dsimp only at e3
          rcases hqs : c1.str qid with _ | qs <;> rw [hqs] at e3
          · cases e3
          · dsimp only at e3
            by_cases hbl : isBlocked qs = true
            · rw [if_pos hbl] at e3; cases e3
            rw [if_neg hbl] at e3
            obtain ⟨rr, _, e5⟩ := bind_ok e3
            have := R.ok.inj e5
            split_ifs at this
            obtain ⟨rfl, _⟩ := Prod.mk.inj (Option.some.inj this)
            exact Or.inr ⟨by simpa using hu, rfl⟩
    | none =>
      dsimp only at e4
      rcases h1 : c1.str id with _ | s1 <;> rw [h1] at e4
      · cases e4
      · obtain ⟨rr, _, e5⟩ := bind_ok e4
        obtain ⟨rfl, rfl⟩ := Prod.mk.inj (R.ok.inj e5)
        refine ⟨heff, fun i f v hi => ?_⟩
        split_ifs at hi
        exact Or.inl (Prod.mk.inj (Option.some.inj hi)).1.symm

theorem critical_eff {k : Nat} {sid : Option Nat} {pre : St F → R (St F)} {r : Option (Nat × Bool × List Bytes)}
    (hu : ∀ x, sid = some x → streamUni x = true) (e : critical encode c k sid pre = .ok (c', r)) :
    OutEff (fun x => sid = some x) c c' ∧ ∀ i f v, r = some (i, f, v) → sid = some i := by
  unfold critical at e
  cases sid with
  | none =>
    obtain ⟨rfl, rfl⟩ := Prod.mk.inj (R.ok.inj e)
    exact ⟨OutEff.refl _ _, (fun _ _ _ h => by cases h)⟩
  | some id =>
    dsimp only at e
    rcases h : c.str id with _ | s <;> rw [h] at e
    · cases e
    · dsimp only at e
      split_ifs at e
      · obtain ⟨rfl, rfl⟩ := Prod.mk.inj (R.ok.inj e)
        exact ⟨OutEff.refl _ _, (fun _ _ _ h => by cases h)⟩
      · obtain ⟨o, _, e2⟩ := bind_ok e
        obtain ⟨⟨c1, r1⟩, e3, e4⟩ := bind_ok e2
        obtain ⟨rfl, rfl⟩ := Prod.mk.inj (R.ok.inj e4)
        obtain ⟨g1, g2⟩ := connWritev_eff e3
        have hu' := hu id rfl
        refine ⟨((OutEff.set h o).trans g1).mono fun x hx => ?_, fun i f v hi => ?_⟩
        · rcases hx with hx | hx | hx
          · rw [hx]
          · rw [hx]
          · rw [hu'] at hx; cases hx.1
        · dsimp only at hi
          rcases r1 with _ | ⟨i1, f1, v1⟩
          · cases hi
          · dsimp only at hi
            split_ifs at hi
            obtain ⟨rfl, _⟩ := Prod.mk.inj (Option.some.inj hi)
            rcases g2 _ _ _ rfl with g | g
            · rw [g]
            · rw [hu'] at g; cases g.1

/-- the top of the first level that is not empty -/
theorem nextTx_spec (h : Reg c) (e : nextTx c = some id) :
    ∃ u, u < 8 ∧ (c.sched u).top = some id ∧ Mem (c.sched u) id ∧ ∀ v, v < u → ∀ x, ¬ Mem (c.sched v) x := by
  have key : ∀ n, (List.range n).findSome? (fun i => (c.sched i).top) = some id →
      ∃ u, u < n ∧ (c.sched u).top = some id ∧ ∀ v, v < u → (c.sched v).top = none := by
    intro n
    induction n with
    | zero => intro h; cases h
    | succ n ih =>
      intro h
      rw [List.range_succ, List.findSome?_append] at h
      rcases hf : (List.range n).findSome? (fun i => (c.sched i).top) with _ | y
      · rw [hf] at h
        simp only [Option.none_or, List.findSome?_cons, List.findSome?_nil] at h
        refine ⟨n, by omega, ?_, fun v hv => ?_⟩
        · cases ht : (c.sched n).top with
          | none => rw [ht] at h; cases h
          | some y => rw [ht] at h; exact h
        · exact List.findSome?_eq_none_iff.1 hf v (List.mem_range.2 hv)
      · rw [hf] at h
        obtain rfl : y = id := by simpa using h
        obtain ⟨u, h1, h2, h3⟩ := ih hf
        exact ⟨u, by omega, h2, h3⟩
  obtain ⟨u, h1, h2, h3⟩ := key 8 e
  refine ⟨u, h1, h2, (PQ.top_mem h2).1, fun v hv x hx => ?_⟩
  have := h3 v hv
  exact PQ.top_none this x hx

theorem nextTx_none (e : nextTx c = none) (u : Nat) (hu : u < 8) (x : Nat) : ¬ Mem (c.sched u) x := by
  unfold nextTx at e
  exact PQ.top_none (List.findSome?_eq_none_iff.1 e u (List.mem_range.2 hu)) x

/-- the stream that is chosen, and what the call does to it -/
theorem writeRequest_inv (h : Inv w v c) {k : Nat} {as : List Ans} {r : Ret} (e : writeRequest encode c k as = .ok (c', r)) :
    Inv w v c' ∧ ∃ rr, r = .vecs rr ∧ (∀ i f v, rr = some (i, f, v) → nextTx c = some i ∨ c.qenc = some i) ∧
      (rr = none ∨ ∃ id, nextTx c = some id) ∧
      (nextTx c = none → c' = c) ∧
      ∀ id, nextTx c = some id → ∃ c1 s1, connWritev encode c id k as = .ok (c1, rr) ∧ c1.str id = some s1 ∧
        OutEff (fun x => x = id ∨ c.qenc = some x) c c1 ∧
        ((requireSchedule s1 = true ∧ c' = c1) ∨
          (requireSchedule s1 = false ∧ ∃ sch, c' = { c1 with sched := sch }.set id { s1 with sched := false })) := by
  unfold writeRequest at e
  rcases hn : nextTx c with _ | id <;> rw [hn] at e
  · obtain ⟨rfl, rfl⟩ := Prod.mk.inj (R.ok.inj e)
    exact ⟨h, none, rfl, (fun _ _ _ h => by cases h), Or.inl rfl, fun _ => rfl, (fun _ h => by cases h)⟩
  · obtain ⟨u, hu, _, hmem, _⟩ := nextTx_spec h.core.reg hn
    obtain ⟨s0, h0, hsch, hurg⟩ := (h.core.reg.mem u id).1 hmem
    have hid := ((h.sok _ _ h0).need hsch).1
    have huni : streamUni id = false := by
      unfold clientBidi at hid; unfold streamUni
      simp only [beq_iff_eq] at hid
      simp [hid]
    obtain ⟨⟨c1, rr⟩, e1, e2⟩ := bind_ok e
    obtain ⟨he0, hr⟩ := connWritev_eff e1
    have he : OutEff (fun x => x = id ∨ c.qenc = some x) c c1 := he0.mono fun x hx => hx.imp_right fun g => g.2
    have hrr : ∀ i f v, rr = some (i, f, v) → some id = some i ∨ c.qenc = some i := fun i f v hi =>
      (hr i f v hi).imp (fun g => by rw [g]) fun g => g.2
    dsimp only at e2
    rcases h1 : c1.str id with _ | s1 <;> rw [h1] at e2
    · cases e2
    · dsimp only at e2
      obtain ⟨s0', k1, k2, _⟩ := he.back h1
      rw [h0] at k1; cases k1
      have hk := h.sok _ _ h0
      -- everything but the stream itself
      have hso : ∀ x s, c1.str x = some s → x ≠ id → SOk v x s := by
        intro x s hx hne
        obtain ⟨s', g4, g5, g6⟩ := he.back hx
        by_cases hq : c.qenc = some x
        · have hb := (localUni_uni (h.tqenc x hq).1).2
          have hk' := h.sok _ _ g4
          have hns := sched_of_uni h g4 hb
          rw [g5]
          exact sok_uni _ _ hb hns hk'.blk hk'.rvo
        · rw [g6 (by rintro (g | g); exacts [hne g, hq g])]
          exact h.sok x s' g4
      rw [hid, Bool.true_and] at e2
      have hrv : s1.rv = s0.rv := by rw [k2]
      have hcl : s1.closed = s0.closed ∧ s1.qblocked = s0.qblocked := by rw [k2]; exact ⟨rfl, rfl⟩
      have huw : s1.uwrite = s0.uwrite := by rw [k2]
      have hsc : s1.sched = s0.sched := by rw [k2]
      by_cases hreq : requireSchedule s1 = true
      · have hnr : ¬ (!requireSchedule s1) = true := by rw [hreq]; decide
        rw [if_neg hnr] at e2
        obtain ⟨rfl, rfl⟩ := Prod.mk.inj (R.ok.inj e2)
        refine ⟨inv_outEff h he fun x s hx _ => ?_, rr, rfl, hrr, Or.inr ⟨id, rfl⟩, (fun g => by cases g), ?_⟩
        · by_cases hne : x = id
          · subst hne
            rw [h1] at hx; cases hx
            exact ⟨fun _ => ⟨hid, hreq⟩, fun _ _ _ => by rw [hsc]; exact hsch, by rw [hcl.1, hcl.2]; exact hk.blk,
              by rw [hsc, huw]; exact hk.small, by rw [hrv]; exact hk.rvo, by rw [hcl.1, hsc]; exact hk.cl⟩
          · exact hso x s hx hne
        · rintro id' hid'
          obtain rfl := Option.some.inj hid'
          exact ⟨c1, s1, e1, h1, he, Or.inl ⟨hreq, rfl⟩⟩
      · have hf : requireSchedule s1 = false := by simpa using hreq
        have hyr : (!requireSchedule s1) = true := by rw [hf]; rfl
        rw [if_pos hyr] at e2
        obtain ⟨c2, e3, e4⟩ := bind_ok e2
        obtain ⟨rfl, rfl⟩ := Prod.mk.inj (R.ok.inj e4)
        have hcore1 := core_outEff he h.core
        obtain ⟨sch, g1, g2⟩ := core_unschedule hcore1 h1 rfl rfl rfl (fun hw hb => hcore1.uwb hw id s1 h1 hb)
        rw [g1] at e3
        obtain rfl := R.ok.inj e3
        refine ⟨?_, rr, rfl, hrr, Or.inr ⟨id, rfl⟩, (fun g => by cases g), ?_⟩
        · obtain ⟨en, st, hc1⟩ := he.eq
          refine inv_gen h g2 (fun x s hx => ?_) (fun x => ?_) ?_ ?_ ?_ ?_ ?_ ?_ ?_ ?_ ?_
          · by_cases hne : x = id
            · subst hne
              rw [set_str] at hx; cases hx
              refine ⟨ff rfl, fun _ _ g => ?_, by dsimp only; rw [hcl.1, hcl.2]; exact hk.blk, ff rfl, (by dsimp only; rw [hrv]; exact hk.rvo), fun _ _ => rfl⟩
              have g' : sendable s1 = true := g
              rw [not_sendable hf] at g'; cases g'
            · rw [set_ne _ _ _ _ hne] at hx
              exact hso x s hx hne
          · by_cases hne : x = id
            · subst hne
              rw [set_str, h0]
              show some s1.ty = some s0.ty
              rw [k2]
            · rw [set_ne _ _ _ _ hne]
              show (c1.str x).map _ = _
              rcases hx : c.str x with _ | s
              · rw [he.none x hx]
              · obtain ⟨o, g, _⟩ := he.str x s hx; rw [g]; rfl
          all_goals (rw [hc1]; rfl)
        · rintro id' hid'
          obtain rfl := Option.some.inj hid'
          exact ⟨c1, s1, e1, h1, he, Or.inr ⟨hf, sch, rfl⟩⟩

/-- the identifiers of the critical streams of this endpoint -/
def isCritical (c : Conn E F) (id : Nat) : Prop := c.ctrl = some id ∨ c.qdec = some id ∨ c.qenc = some id

theorem isCritical_uni (h : Inv w v c) (hc : isCritical c id) : clientBidi id = false ∧ streamUni id = true := by
  rcases hc with g | g | g
  · exact (localUni_uni (h.tctrl _ g).1).symm
  · exact (localUni_uni (h.tqdec _ g).1).symm
  · exact (localUni_uni (h.tqenc _ g).1).symm

theorem nextTx_eff {P : Nat → Prop} (h : OutEff P c c') : nextTx c' = nextTx c := by unfold nextTx; rw [h.sched]

/-- the steps of nghttp3_conn_writev_stream: a critical stream is returned, or the next request stream is considered -/
theorem writevStream_inv (h : Inv w v c) {k : Nat} {db : Bytes} {as : List Ans} {r : Ret} (e : writevStream encode c k db as = .ok (c', r)) :
    Inv w v c' ∧ ∃ rr, r = .vecs rr ∧
      ((∃ i f v, rr = some (i, f, v) ∧ isCritical c i ∧ OutEff (isCritical c) c c') ∨ (k = 0 ∧ c' = c ∧ rr = none) ∨
        (0 < k ∧ ∃ c3, OutEff (isCritical c) c c3 ∧ Inv w v c3 ∧ writeRequest encode c3 k as = .ok (c', .vecs rr) ∧
          ∃ c1 c2, critical encode c k c.ctrl R.ok = .ok (c1, none) ∧ critical encode c1 k c1.qdec (decoderBytes db) = .ok (c2, none) ∧
            critical encode c2 k c2.qenc R.ok = .ok (c3, none))) := by
  unfold writevStream at e
  by_cases hk : k = 0
  · rw [if_pos hk] at e
    obtain ⟨rfl, rfl⟩ := Prod.mk.inj (R.ok.inj e)
    exact ⟨h, none, rfl, Or.inr (Or.inl ⟨hk, rfl, rfl⟩)⟩
  rw [if_neg hk] at e
  have hq : ∀ {c : Conn E F}, Inv w v c → (∀ x, c.ctrl = some x → streamUni x = true) ∧ (∀ x, c.qdec = some x → streamUni x = true) ∧
      (∀ x, c.qenc = some x → streamUni x = true) := fun h =>
    ⟨fun x g => (isCritical_uni h (Or.inl g)).2, fun x g => (isCritical_uni h (Or.inr (Or.inl g))).2, fun x g => (isCritical_uni h (Or.inr (Or.inr g))).2⟩
  obtain ⟨⟨c1, r1⟩, e1, e⟩ := bind_ok e
  obtain ⟨a1, b1⟩ := critical_eff (hq h).1 e1
  have a1' : OutEff (isCritical c) c c1 := a1.mono fun x g => Or.inl g
  have i1 : Inv w v c1 := inv_outUni h a1' fun x g => (isCritical_uni h g).1
  dsimp only at e
  cases r1 with
  | some x =>
    obtain ⟨rfl, rfl⟩ := Prod.mk.inj (R.ok.inj e)
    obtain ⟨i, f, v⟩ := x
    exact ⟨i1, _, rfl, Or.inl ⟨i, f, v, rfl, Or.inl (b1 _ _ _ rfl), a1'⟩⟩
  | none =>
    obtain ⟨⟨c2, r2⟩, e2, e⟩ := bind_ok e
    obtain ⟨a2, b2⟩ := critical_eff (hq i1).2.1 e2
    have hc1 := a1.ctrl
    have a2' : OutEff (isCritical c) c c2 := (a1'.trans a2).mono fun x g => g.elim (fun g => g) fun g => Or.inr (Or.inl (by rw [← hc1.2.2.1]; exact g))
    have i2 : Inv w v c2 := inv_outUni h a2' fun x g => (isCritical_uni h g).1
    dsimp only at e
    cases r2 with
    | some x =>
      obtain ⟨rfl, rfl⟩ := Prod.mk.inj (R.ok.inj e)
      obtain ⟨i, f, v⟩ := x
      exact ⟨i2, _, rfl, Or.inl ⟨i, f, v, rfl, Or.inr (Or.inl (by rw [← hc1.2.2.1]; exact b2 _ _ _ rfl)), a2'⟩⟩
    | none =>
      obtain ⟨⟨c3, r3⟩, e3, e⟩ := bind_ok e
      obtain ⟨a3, b3⟩ := critical_eff (hq i2).2.2 e3
      have hc2 := a2'.ctrl
      have a3' : OutEff (isCritical c) c c3 := (a2'.trans a3).mono fun x g => g.elim (fun g => g) fun g => Or.inr (Or.inr (by rw [← hc2.2.1]; exact g))
      have i3 : Inv w v c3 := inv_outUni h a3' fun x g => (isCritical_uni h g).1
      dsimp only at e
      cases r3 with
      | some x =>
        obtain ⟨rfl, rfl⟩ := Prod.mk.inj (R.ok.inj e)
        obtain ⟨i, f, v⟩ := x
        exact ⟨i3, _, rfl, Or.inl ⟨i, f, v, rfl, Or.inr (Or.inr (by rw [← hc2.2.1]; exact b3 _ _ _ rfl)), a3'⟩⟩
      | none =>
        dsimp only at e
        obtain ⟨i4, rr, rfl, _⟩ := writeRequest_inv i3 e
        exact ⟨i4, rr, rfl, Or.inr (Or.inr ⟨by omega, c3, a3', i3, e, c1, c2, e1, e2, e3⟩)⟩

end Conn
end Nghttp3
