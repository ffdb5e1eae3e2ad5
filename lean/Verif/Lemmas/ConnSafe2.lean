import Verif.Lemmas.ConnSafe
/-! No assertion fails: writing. -/
namespace Nghttp3
namespace Conn
open PQ (Mem IdxOk Heap upd upd_same upd_ne)
open Outq (R Frent Ans Bytes St FrentOk AnsOk EncodeOk)

variable {E F : Type} {w v : Prop} {c c' : Conn E F} {id : Nat} {s0 s : Strm F} {encode : Encode E F}

theorem safe_out (h : Safe c) (h0 : c.str id = some s) {o : St F} (k1 : OOk o) (k2 : c.qenc = none → streamUni id = false → o.frq = []) :
    Safe (c.set id { s with out := o }) := safe_one h one_set k1 k2 (h.ids id s h0)

theorem fill_safe (henc : EncodeOk encode) (h : Inv w v c) (hs : Safe c) (h0 : c.str id = some s) (hrb : s.out.readBlocked = false) {as : List Ans}
    (ha : ∀ a ∈ as, AnsOk a) : fillStream encode c id s as ≠ .crash ∧ ∀ c', fillStream encode c id s as = .ok c' → Safe c' := by
  obtain ⟨⟨m, hm⟩, hf⟩ := hs.outs id s h0
  have bad : ∀ {α β : Type} {r : R α} {f : α → R β}, r = .callbackFailure ∨ r = .overflow → (r.bind f ≠ .crash ∧ ∀ b, r.bind f ≠ .ok b) := by
    rintro α β r f (rfl | rfl) <;> exact ⟨(fun g => by cases g), (fun _ g => by cases g)⟩
  unfold fillStream
  by_cases hu : streamUni id = true
  · rw [if_pos hu]
    unfold Outq.fillOutq
    rcases Outq.fillLoop_spec encode henc s.out.frq c.enc s.out {} as [] m [] hm Outq.inv_init hf ha hrb with g | g | ⟨e', s', q', new, g, hF⟩
    · have := bad (f := fun r : E × St F × St F × List Outq.Emit => R.ok (c.set id { s with out := r.2.1 })) (Or.inl g)
      exact ⟨this.1, fun c' e => absurd e (this.2 c')⟩
    · have := bad (f := fun r : E × St F × St F × List Outq.Emit => R.ok (c.set id { s with out := r.2.1 })) (Or.inr g)
      exact ⟨this.1, fun c' e => absurd e (this.2 c')⟩
    · rw [g]
      refine ⟨(fun g => by cases g), fun c' e => ?_⟩
      obtain rfl := R.ok.inj e
      exact safe_out hs h0 ⟨⟨_, hF.inv⟩, hF.frqOk⟩ (fun _ g => by rw [hu] at g; cases g)
  · rw [if_neg hu]
    have hu' : streamUni id = false := by simpa using hu
    split
    · rename_i hq
      rw [if_pos (by rw [hs.noq hq id s h0 hu']; rfl)]
      refine ⟨(fun g => by cases g), fun c' e => ?_⟩
      obtain rfl := R.ok.inj e
      exact hs
    · rename_i qid hq
      obtain ⟨hl, q, hqs, _⟩ := h.tqenc qid hq
      rw [hqs]
      dsimp only
      obtain ⟨⟨mq, hmq⟩, hfq⟩ := hs.outs qid q hqs
      have hne : qid ≠ id := by
        rintro rfl
        rw [(localUni_uni hl).1] at hu'; cases hu'
      unfold Outq.fillOutq
      rcases Outq.fillLoop_spec encode henc s.out.frq c.enc s.out q.out as [] m mq hm hmq hf ha hrb with g | g | ⟨e', s', q', new, g, hF⟩
      · have := bad (f := fun r : E × St F × St F × List Outq.Emit => R.ok (({ c with enc := r.1 }.set id { s with out := r.2.1 }).set qid { q with out := r.2.2.1 })) (Or.inl g)
        exact ⟨this.1, fun c' e => absurd e (this.2 c')⟩
      · have := bad (f := fun r : E × St F × St F × List Outq.Emit => R.ok (({ c with enc := r.1 }.set id { s with out := r.2.1 }).set qid { q with out := r.2.2.1 })) (Or.inr g)
        exact ⟨this.1, fun c' e => absurd e (this.2 c')⟩
      · rw [g]
        refine ⟨(fun g => by cases g), fun c' e => ?_⟩
        obtain rfl := R.ok.inj e
        have h1 : Safe { c with enc := e' } := ⟨hs.outs, hs.noq, hs.ids, hs.tx, hs.gp, hs.st⟩
        have h2 : Safe ({ c with enc := e' }.set id { s with out := s' }) :=
          safe_out h1 h0 ⟨⟨_, hF.inv⟩, hF.frqOk⟩ (fun g => by change c.qenc = none at g; rw [hq] at g; cases g)
        refine safe_out h2 (by rw [set_ne _ _ _ _ hne]; exact hqs) ⟨⟨_, hF.invq⟩, by rw [hF.qsame.1]; exact hfq⟩
          (fun g => by change c.qenc = none at g; rw [hq] at g; cases g)

theorem writev_nc {o : St F} (h : OOk o) {k : Nat} (hk : 0 < k) : ∃ r, Outq.writev o k = .ok r := by
  obtain ⟨⟨m, hm⟩, _⟩ := h
  obtain ⟨vs, fin, h1, _⟩ := Outq.writev_spec hm k hk
  exact ⟨_, h1⟩

theorem bind_nc {α β : Type} {r : R α} {f : α → R β} (h : r ≠ .crash) (hf : ∀ a, r = .ok a → f a ≠ .crash) : r.bind f ≠ .crash := by
  cases r with
  | ok a => exact hf a rfl
  | crash => exact absurd rfl h
  | overflow => exact fun g => by cases g
  | callbackFailure => exact fun g => by cases g

theorem connWritev_safe (henc : EncodeOk encode) (h : Inv w v c) (hs : Safe c) (h0 : c.str id = some s) {k : Nat} (hk : 0 < k) {as : List Ans}
    (ha : ∀ a ∈ as, AnsOk a) : connWritev encode c id k as ≠ .crash ∧ ∀ c' r, connWritev encode c id k as = .ok (c', r) → Safe c' := by
  have hfill : (if s.out.readBlocked then R.ok c else fillStream encode c id s as) ≠ .crash ∧
      ∀ c', (if s.out.readBlocked then R.ok c else fillStream encode c id s as) = .ok c' →
        Safe c' ∧ OutEff (fun x => x = id ∨ (streamUni id = false ∧ c.qenc = some x)) c c' := by
    by_cases hrb : s.out.readBlocked = true
    · rw [if_pos hrb]
      refine ⟨(fun g => by cases g), fun c' e => ?_⟩
      obtain rfl := R.ok.inj e
      exact ⟨hs, OutEff.refl _ _⟩
    · rw [if_neg hrb]
      obtain ⟨g1, g2⟩ := fill_safe henc h hs h0 (by simpa using hrb) ha
      exact ⟨g1, fun c' e => ⟨g2 c' e, fillStream_eff h0 e⟩⟩
  have hoff : ∀ c1 : Conn E F, Safe c1 → OutEff (fun x => x = id ∨ (streamUni id = false ∧ c.qenc = some x)) c c1 → offerQenc c1 id k ≠ .crash := by
    intro c1 h1 he
    unfold offerQenc
    by_cases hu : streamUni id = true
    · rw [if_pos hu]; exact fun g => by cases g
    · rw [if_neg hu, he.ctrl.2.1]
      rcases hq : c.qenc with _ | qid
      · exact fun g => by cases g
      · dsimp only
        obtain ⟨_, q, hqs, _⟩ := h.tqenc qid hq
        obtain ⟨o, g1, _⟩ := he.str qid q hqs
        rw [g1]
        dsimp only
        split
        · exact fun g => by cases g
        · refine bind_nc ?_ (fun a _ => (fun g => by cases g))
          obtain ⟨r, g⟩ := writev_nc (h1.outs qid _ g1) hk
          dsimp only at g
          rw [g]
          exact fun g => by cases g
  unfold connWritev
  rw [h0]
  dsimp only
  constructor
  · refine bind_nc hfill.1 fun c1 e1 => ?_
    obtain ⟨h1, he⟩ := hfill.2 c1 e1
    refine bind_nc (hoff c1 h1 he) fun q e2 => ?_
    cases q with
    | some r => exact fun g => by cases g
    | none =>
      dsimp only
      obtain ⟨o, g1, _⟩ := he.str id s h0
      rw [g1]
      dsimp only
      obtain ⟨r, g⟩ := writev_nc (h1.outs id _ g1) hk
      dsimp only at g
      rw [g]
      exact fun g => by cases g
  · intro c' r e
    obtain ⟨c1, e1, e2⟩ := bind_ok e
    obtain ⟨h1, he⟩ := hfill.2 c1 e1
    obtain ⟨q, e3, e4⟩ := bind_ok e2
    cases q with
    | some r => obtain ⟨rfl, _⟩ := Prod.mk.inj (R.ok.inj e4); exact h1
    | none =>
      dsimp only at e4
      split at e4
      · cases e4
      · obtain ⟨_, _, e5⟩ := bind_ok e4
        obtain ⟨rfl, _⟩ := Prod.mk.inj (R.ok.inj e5); exact h1

theorem critical_safe (henc : EncodeOk encode) (h : Inv w v c) (hs : Safe c) {k : Nat} (hk : 0 < k) {sid : Option Nat}
    (hu : ∀ x, sid = some x → streamUni x = true ∧ clientBidi x = false ∧ (c.str x).isSome = true) {pre : St F → R (St F)}
    (hp : ∀ o, OOk o → pre o ≠ .crash ∧ ∀ o', pre o = .ok o' → OOk o') :
    critical encode c k sid pre ≠ .crash ∧ ∀ c' r, critical encode c k sid pre = .ok (c', r) → Safe c' ∧ Inv w v c' ∧ OutEff (fun x => sid = some x) c c' := by
  have heff := fun (c' : Conn E F) (r : Option (Nat × Bool × List Bytes)) (e : critical encode c k sid pre = .ok (c', r)) =>
    (critical_eff (fun x hx => (hu x hx).1) e).1
  have hsafe : critical encode c k sid pre ≠ .crash ∧ ∀ c' r, critical encode c k sid pre = .ok (c', r) → Safe c' := by
    cases sid with
    | none =>
      refine ⟨(fun g => by cases g), fun c' r e => ?_⟩
      obtain ⟨rfl, _⟩ := Prod.mk.inj (R.ok.inj e)
      exact hs
    | some id =>
      obtain ⟨u1, u2, u3⟩ := hu id rfl
      obtain ⟨s, h0⟩ := Option.isSome_iff_exists.1 u3
      unfold critical
      dsimp only
      rw [h0]
      dsimp only
      by_cases hb : isBlocked s = true
      · rw [if_pos hb]
        refine ⟨(fun g => by cases g), fun c' r e => ?_⟩
        obtain ⟨rfl, _⟩ := Prod.mk.inj (R.ok.inj e)
        exact hs
      rw [if_neg hb]
      obtain ⟨p1, p2⟩ := hp s.out (hs.outs id s h0)
      have key : ∀ o, pre s.out = .ok o → Safe (c.set id { s with out := o }) ∧ Inv w v (c.set id { s with out := o }) := by
        intro o e
        exact ⟨safe_out hs h0 (p2 o e) (fun _ g => by rw [u1] at g; cases g), inv_outUni h (OutEff.set h0 o) fun x hx => by rw [hx]; exact u2⟩
      constructor
      · refine bind_nc p1 fun o e => ?_
        obtain ⟨k1, k2⟩ := key o e
        exact bind_nc (connWritev_safe henc k2 k1 (set_str _ _ _) hk (fun _ g => by cases g)).1 (fun a _ => (fun g => by cases g))
      · intro c' r e
        obtain ⟨o, e1, e2⟩ := bind_ok e
        obtain ⟨k1, k2⟩ := key o e1
        obtain ⟨r1, e3, e4⟩ := bind_ok e2
        obtain ⟨rfl, _⟩ := Prod.mk.inj (R.ok.inj e4)
        exact (connWritev_safe henc k2 k1 (set_str _ _ _) hk (fun _ g => by cases g)).2 r1.1 r1.2 e3
  refine ⟨hsafe.1, fun c' r e => ⟨hsafe.2 c' r e, inv_outUni h (heff c' r e) fun x hx => (hu x hx).2.1, heff c' r e⟩⟩

theorem crit_uni (h : Inv w v c) {sid : Option Nat} (hc : sid = c.ctrl ∨ sid = c.qdec ∨ sid = c.qenc) :
    ∀ x, sid = some x → streamUni x = true ∧ clientBidi x = false ∧ (c.str x).isSome = true := by
  intro x hx
  have key : localUni c.server x = true → (∃ s, c.str x = some s ∧ ∃ t, s.ty = t) → streamUni x = true ∧ clientBidi x = false ∧ (c.str x).isSome = true := by
    rintro hl ⟨s, g, _⟩
    exact ⟨(localUni_uni hl).1, (localUni_uni hl).2, by rw [g]; rfl⟩
  rcases hc with rfl | rfl | rfl
  · obtain ⟨g1, s, g2, g3⟩ := h.tctrl x hx; exact key g1 ⟨s, g2, _, g3⟩
  · obtain ⟨g1, s, g2, g3⟩ := h.tqdec x hx; exact key g1 ⟨s, g2, _, g3⟩
  · obtain ⟨g1, s, g2, g3⟩ := h.tqenc x hx; exact key g1 ⟨s, g2, _, g3⟩

theorem decoderBytes_ok (db : Bytes) (o : St F) (h : OOk o) : decoderBytes db o ≠ .crash ∧ ∀ o', decoderBytes db o = .ok o' → OOk o' := by
  unfold decoderBytes
  split_ifs with hd
  · refine ⟨(fun g => by cases g), fun o' e => ?_⟩
    obtain rfl := R.ok.inj e; exact h
  · obtain ⟨⟨m, hm⟩, hf⟩ := h
    rcases Outq.adds_shared hm db.length db (by rintro rfl; exact hd rfl) (Nat.le_refl _) with g | ⟨o', g1, g2, g3, _⟩
    · rw [g]; exact ⟨(fun g => by cases g), (fun _ g => by cases g)⟩
    · rw [g1]
      refine ⟨(fun g => by cases g), fun o'' e => ?_⟩
      obtain rfl := R.ok.inj e
      exact ⟨⟨_, g2⟩, by rw [g3]; exact hf⟩

theorem id_ok (o : St F) (h : OOk o) : (R.ok o : R (St F)) ≠ .crash ∧ ∀ o', (R.ok o : R (St F)) = .ok o' → OOk o' :=
  ⟨(fun g => by cases g), fun o' e => by obtain rfl := R.ok.inj e; exact h⟩

theorem writeRequest_nc (henc : EncodeOk encode) (h : Inv w v c) (hs : Safe c) {k : Nat} (hk : 0 < k) {as : List Ans} (ha : ∀ a ∈ as, AnsOk a) :
    NC (writeRequest encode c k as) := by
  unfold writeRequest
  rcases hn : nextTx c with _ | id
  · exact nc_ok hs
  · dsimp only
    obtain ⟨u, hu, _, hm, _⟩ := nextTx_spec h.core.reg hn
    obtain ⟨s, h0, h1, _⟩ := (h.core.reg.mem u id).1 hm
    obtain ⟨g1, g2⟩ := connWritev_safe henc h hs h0 hk ha
    refine nc_bind g1 fun r e => ?_
    obtain ⟨c1, r1⟩ := r
    have hs1 := g2 _ _ e
    have he := (connWritev_eff e).1
    obtain ⟨o, e0, _⟩ := he.str id s h0
    dsimp only
    rw [e0]
    dsimp only
    have hreg : Reg c1 := (core_outEff he h.core).reg
    have hk1 := hs1.outs id _ e0
    split_ifs
    · exact nc_one hs1 (unschedule_ok (s := { s with out := o }) hreg e0 rfl rfl) hk1 (fun hq hu => hs1.noq hq id _ e0 hu) (hs1.ids id _ e0)
    · exact nc_ok hs1

theorem writevStream_nc (henc : EncodeOk encode) (h : Inv w v c) (hs : Safe c) (k : Nat) (db : Bytes) {as : List Ans} (ha : ∀ a ∈ as, AnsOk a) :
    NC (writevStream encode c k db as) := by
  unfold writevStream
  by_cases hk : k = 0
  · rw [if_pos hk]; exact nc_ok hs
  rw [if_neg hk]
  have hk' : 0 < k := by omega
  obtain ⟨a1, a2⟩ := critical_safe henc h hs hk' (crit_uni h (Or.inl rfl)) id_ok
  refine nc_bind a1 fun r e => ?_
  obtain ⟨c1, r1⟩ := r
  obtain ⟨s1, i1, _⟩ := a2 _ _ e
  cases r1 with
  | some x => exact nc_ok s1
  | none =>
    dsimp only
    obtain ⟨b1, b2⟩ := critical_safe henc i1 s1 hk' (crit_uni i1 (Or.inr (Or.inl rfl))) (decoderBytes_ok db)
    refine nc_bind b1 fun r e => ?_
    obtain ⟨c2, r2⟩ := r
    obtain ⟨s2, i2, _⟩ := b2 _ _ e
    cases r2 with
    | some x => exact nc_ok s2
    | none =>
      dsimp only
      obtain ⟨d1, d2⟩ := critical_safe henc i2 s2 hk' (crit_uni i2 (Or.inr (Or.inr rfl))) id_ok
      refine nc_bind d1 fun r e => ?_
      obtain ⟨c3, r3⟩ := r
      obtain ⟨s3, i3, _⟩ := d2 _ _ e
      cases r3 with
      | some x => exact nc_ok s3
      | none => exact writeRequest_nc henc i3 s3 hk' ha

end Conn
end Nghttp3
