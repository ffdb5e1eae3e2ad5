import Verif.Lemmas.ConnSent2
/-! What the streams of a connection carry: nghttp3_conn_writev_stream. -/
namespace Nghttp3
namespace Conn
open PQ (upd upd_same upd_ne)
open Outq (R Frent Ans Bytes St Emit FrentOk AnsOk EncodeOk EmitOk itemsBytes itemBytes written endsIn dataAnswers encoderItems)
open Sent (Book Ledger Made Serve Chain Serves)

variable {E F : Type} {w v : Prop} {c c' : Conn E F} {id : Nat} {s0 s : Strm F} {encode : Encode E F}
variable {B : Nat → Book F} {K : Nat → List (Made F)} {U : Nat → List Ans} {M : List (Made F)} {D : Bytes}

/-- what is returned is what the stream has to send -/
def Offer (c : Conn E F) (k : Nat) (rr : Option (Nat × Bool × List Bytes)) : Prop :=
  ∀ i fin vs, rr = some (i, fin, vs) → ∃ s, c.str i = some s ∧ Outq.writev s.out k = .ok (vs, fin)

theorem upd_add_nil {α : Type} (K : Nat → List α) (id : Nat) : upd K id (K id ++ []) = K := by
  funext x
  by_cases hx : x = id
  · subst hx; rw [upd_same, List.append_nil]
  · exact upd_ne _ _ hx

theorem connWritev_parts {k : Nat} {as : List Ans} {rr : Option (Nat × Bool × List Bytes)} (h0 : c.str id = some s)
    (e : connWritev encode c id k as = .ok (c', rr)) :
    ((s.out.readBlocked = true ∧ c' = c) ∨ (s.out.readBlocked = false ∧ fillStream encode c id s as = .ok c')) ∧ Offer c' k rr := by
  unfold connWritev at e
  rw [h0] at e
  dsimp only at e
  obtain ⟨c1, e1, e2⟩ := bind_ok e
  have p1 : (s.out.readBlocked = true ∧ c1 = c) ∨ (s.out.readBlocked = false ∧ fillStream encode c id s as = .ok c1) := by
    by_cases hb : s.out.readBlocked = true
    · rw [if_pos hb] at e1; exact .inl ⟨hb, (R.ok.inj e1).symm⟩
    · rw [if_neg hb] at e1; exact .inr ⟨by simpa using hb, e1⟩
  obtain ⟨q, e3, e4⟩ := bind_ok e2
  cases q with
  | some x =>
    obtain ⟨rfl, rfl⟩ := Prod.mk.inj (R.ok.inj e4)
    refine ⟨p1, fun i fin vs hi => ?_⟩
    obtain rfl := Option.some.inj hi
    unfold offerQenc at e3
    by_cases hu : streamUni id = true
    · rw [if_pos hu] at e3; cases e3
    · rw [if_neg hu] at e3
      split at e3
      · cases e3
      · split at e3
        · cases e3
        · rename_i qs hqs
          by_cases hbl : isBlocked qs = true
          · rw [if_pos hbl] at e3; cases e3
          rw [if_neg hbl] at e3
          obtain ⟨⟨v1, f1⟩, e6, e5⟩ := bind_ok e3
          have := R.ok.inj e5
          split_ifs at this
          cases this
          exact ⟨qs, hqs, e6⟩
  | none =>
    dsimp only at e4
    split at e4
    · cases e4
    · rename_i s1 h1
      obtain ⟨⟨v1, f1⟩, e6, e5⟩ := bind_ok e4
      obtain ⟨rfl, rfl⟩ := Prod.mk.inj (R.ok.inj e5)
      refine ⟨p1, fun i f v hi => ?_⟩
      split_ifs at hi
      cases hi
      exact ⟨s1, h1, e6⟩

theorem connWritev_uni (henc : EncodeOk encode) (h : All c B K U M D) (h0 : c.str id = some s) (hu : streamUni id = true) {k : Nat} {as : List Ans}
    (ha : ∀ a ∈ as, AnsOk a) {rr : Option (Nat × Bool × List Bytes)} (e : connWritev encode c id k as = .ok (c', rr)) :
    All c' B K U M D ∧ c'.enc = c.enc ∧ Offer c' k rr := by
  obtain ⟨⟨hb, rfl⟩ | ⟨hb, e1⟩, p2⟩ := connWritev_parts h0 e
  · exact ⟨h, rfl, p2⟩
  · obtain ⟨g1, g2⟩ := all_fillUni henc h h0 hu hb ha e1
    exact ⟨g1, g2, p2⟩

theorem connWritev_req (hc : Crits c) (henc : EncodeOk encode) (h : All c B K U M D) (h0 : c.str id = some s) (hu : streamUni id = false) {k : Nat}
    {as : List Ans} (ha : ∀ a ∈ as, AnsOk a) {rr : Option (Nat × Bool × List Bytes)} (e : connWritev encode c id k as = .ok (c', rr)) :
    (∃ ks us, us <+: as ∧ Steps encode c.enc ks c'.enc ∧ (c.qenc = none → ks = []) ∧
      All c' B (upd K id (K id ++ ks)) (upd U id (U id ++ us)) (M ++ ks) D) ∧ Offer c' k rr := by
  obtain ⟨⟨hb, rfl⟩ | ⟨hb, e1⟩, p2⟩ := connWritev_parts h0 e
  · refine ⟨⟨[], [], List.nil_prefix, .nil _, fun _ => rfl, ?_⟩, p2⟩
    rw [upd_add_nil, upd_add_nil, List.append_nil]; exact h
  · exact ⟨all_fillReq hc henc h h0 hu hb ha e1, p2⟩

/-- the stream exists and may be written -/
def open? (c : Conn E F) (sid : Option Nat) : Bool :=
  match sid with
  | none => false
  | some q => match c.str q with | none => false | some s => !isBlocked s

theorem critical_all (henc : EncodeOk encode) (h : All c B K U M D) {k : Nat} {sid : Option Nat} {pre : St F → R (St F)} {db : Bytes}
    (hu : ∀ x, sid = some x → streamUni x = true)
    (hp : ∀ x s o, sid = some x → c.str x = some s → pre s.out = .ok o → All (c.set x { s with out := o }) B K U M (D ++ db))
    {rr : Option (Nat × Bool × List Bytes)} (e : critical encode c k sid pre = .ok (c', rr)) :
    ∃ d, d = (if open? c sid then db else []) ∧ All c' B K U M (D ++ d) ∧ c'.enc = c.enc ∧ Offer c' k rr := by
  unfold critical at e
  cases sid with
  | none =>
    obtain ⟨rfl, rfl⟩ := Prod.mk.inj (R.ok.inj e)
    exact ⟨[], rfl, by rw [List.append_nil]; exact h, rfl, (fun _ _ _ g => by cases g)⟩
  | some id =>
    dsimp only at e
    split at e
    · cases e
    · rename_i s h0
      by_cases hb : isBlocked s = true
      · rw [if_pos hb] at e
        obtain ⟨rfl, rfl⟩ := Prod.mk.inj (R.ok.inj e)
        exact ⟨[], by rw [show open? c (some id) = false from by unfold open?; dsimp only; rw [h0]; dsimp only; rw [hb]; rfl]; rfl, by rw [List.append_nil]; exact h, rfl, (fun _ _ _ g => by cases g)⟩
      rw [if_neg hb] at e
      obtain ⟨o, e1, e2⟩ := bind_ok e
      obtain ⟨⟨c1, r1⟩, e3, e4⟩ := bind_ok e2
      obtain ⟨rfl, rfl⟩ := Prod.mk.inj (R.ok.inj e4)
      obtain ⟨g1, g2, g3⟩ := connWritev_uni henc (hp id s o rfl h0 e1) (set_str _ _ _) (hu id rfl) (fun a g => by cases g) e3
      refine ⟨db, by rw [show open? c (some id) = true from by unfold open?; dsimp only; rw [h0]; dsimp only; rw [Bool.eq_false_iff.2 hb]; rfl]; rfl, g1, g2, fun i f vs hi => ?_⟩
      dsimp only at hi
      rcases r1 with _ | ⟨i1, f1, v1⟩
      · cases hi
      · dsimp only at hi
        split_ifs at hi
        cases hi
        exact g3 _ _ _ rfl

/-- the queue of one stream is replaced by an equal one -/
theorem all_set_same (h : All c B K U M D) (h0 : c.str id = some s) : All (c.set id { s with out := s.out }) B K U M D := by
  intro x t hx
  by_cases hxi : x = id
  · subst hxi
    rw [set_str] at hx
    obtain rfl := Option.some.inj hx
    exact h x s h0
  · rw [set_ne _ _ _ _ hxi] at hx
    exact h x t hx

theorem all_one (h : All c B K U M D) (ho : One c id s c') (h0 : c.str id = some s0) (e : s.out = s0.out) : All c' B K U M D := by
  obtain ⟨a, b, d, f, rfl⟩ := ho
  intro x t hx
  by_cases hxi : x = id
  · subst hxi
    rw [set_str] at hx
    obtain rfl := Option.some.inj hx
    obtain ⟨it, hi⟩ := h x s0 h0
    exact ⟨it, by dsimp only; rw [e]; exact hi⟩
  · rw [set_ne _ _ _ _ hxi] at hx
    exact h x t hx

theorem offer_one {k : Nat} {rr : Option (Nat × Bool × List Bytes)} (h : Offer c k rr) (ho : One c id s c') (h0 : c.str id = some s0) (e : s.out = s0.out) :
    Offer c' k rr := by
  intro i fin vs hi
  obtain ⟨t, g1, g2⟩ := h i fin vs hi
  by_cases hxi : i = id
  · subst hxi
    rw [h0] at g1; cases g1
    obtain ⟨sd, cy, uw, k⟩ := ho.own
    exact ⟨_, k, by dsimp only; rw [e]; exact g2⟩
  · exact ⟨t, by rw [ho.fr hxi]; exact g1, g2⟩

/-- what the QPACK decoder has to send is put on the decoder stream -/
theorem all_dec (hc : Crits c) (h : All c B K U M D) (hq : c.qdec = some id) (h0 : c.str id = some s) {db : Bytes} {o : St F}
    (e : decoderBytes db s.out = .ok o) : All (c.set id { s with out := o }) B K U M (D ++ db) := by
  unfold decoderBytes at e
  by_cases hd : db.isEmpty = true
  · rw [if_pos hd] at e
    obtain rfl := R.ok.inj e
    obtain rfl := List.isEmpty_iff.1 hd
    rw [List.append_nil]; exact all_set_same h h0
  rw [if_neg hd] at e
  have hu := hc.ud id hq
  intro x t hx
  by_cases hxi : x = id
  · subst hxi
    rw [set_str] at hx
    obtain rfl := Option.some.inj hx
    obtain ⟨items, hs⟩ := h x s h0
    rcases Outq.adds_shared hs.inv db.length db (by rintro rfl; exact hd rfl) (Nat.le_refl _) with g | ⟨o', g1, g2, g3, g4, g5, g6, g7⟩
    · rw [e] at g; cases g
    · rw [e] at g1
      obtain rfl := R.ok.inj g1
      obtain ⟨bs, m1, m2, m3⟩ := hs.dec hq
      show ∃ items, SInv c.ctrl c.qenc c.qdec (B x) (K x) (U x) M (D ++ db) x o items
      refine ⟨items ++ [.raw db], sinv_add hs [.raw db] (by rw [Outq.itemsBytes_one]; exact g2)
        (fun i hi => by rw [List.mem_singleton.1 hi]; exact trivial) g6 g7 (by rw [g4]; exact (Bool.or_false _).symm) (by rw [g3]; exact hs.frqOk)
        (fun g => by rw [hu] at g; cases g) (fun g => absurd hq (hc.cd x g)) (fun g => absurd g (hc.de x hq)) (fun _ => ?_)
        (fun _ _ _ g => absurd hq g) (by rw [g3]; exact hs.uni)⟩
      refine ⟨bs ++ [db], ?_, by rw [List.flatten_append, m2]; simp, by rw [g3]; exact m3⟩
      rw [m1, List.map_append]; rfl
  · rw [set_ne _ _ _ _ hxi] at hx
    obtain ⟨it, hi⟩ := h x t hx
    exact ⟨it, sinv_mono hi (fun _ => rfl) (fun g => by change c.qdec = some x at g; rw [hq] at g; cases g; exact absurd rfl hxi)⟩

theorem bidi_not_uni {x : Nat} (h : clientBidi x = true) : streamUni x = false := by
  unfold clientBidi at h
  unfold streamUni
  rw [beq_iff_eq] at h
  rw [h]; rfl

/-- what one call of nghttp3_conn_writev_stream does, from the encoder state `e0` -/
structure Did (encode : Encode E F) (c c' : Conn E F) (B : Nat → Book F) (K : Nat → List (Made F)) (U : Nat → List Ans) (M : List (Made F)) (D : Bytes)
    (db : Bytes) (as : List Ans) (sv : Serve F) : Prop where
  used : sv.used <+: as
  dec : sv.dec = db
  chain : Steps encode c.enc sv.made c'.enc
  noEnc : c.qenc = none → sv.made = []
  noDec : c.qdec = none → sv.dec = []
  live : c.str sv.id = none ∨ streamUni sv.id = true → sv.made = [] ∧ sv.used = []
  all : All c' B (upd K sv.id (K sv.id ++ sv.made)) (upd U sv.id (U sv.id ++ sv.used)) (M ++ sv.made) (D ++ sv.dec)

theorem writeRequest_all (henc : EncodeOk encode) (hi : Inv w v c) (h : All c B K U M D) {k : Nat} {as : List Ans} (ha : ∀ a ∈ as, AnsOk a) {r : Ret}
    (e : writeRequest encode c k as = .ok (c', r)) :
    ∃ id ks us, us <+: as ∧ Steps encode c.enc ks c'.enc ∧ (c.qenc = none → ks = []) ∧ (c.str id = none ∨ streamUni id = true → ks = [] ∧ us = []) ∧
      All c' B (upd K id (K id ++ ks)) (upd U id (U id ++ us)) (M ++ ks) D ∧ ∃ rr, r = .vecs rr ∧ Offer c' k rr := by
  unfold writeRequest at e
  rcases hn : nextTx c with _ | id <;> rw [hn] at e
  · obtain ⟨rfl, rfl⟩ := Prod.mk.inj (R.ok.inj e)
    refine ⟨0, [], [], List.nil_prefix, .nil _, fun _ => rfl, fun _ => ⟨rfl, rfl⟩, ?_, none, rfl, (fun _ _ _ g => by cases g)⟩
    rw [upd_add_nil, upd_add_nil, List.append_nil]; exact h
  · dsimp only at e
    obtain ⟨u, hu, _, hm, _⟩ := nextTx_spec hi.core.reg hn
    obtain ⟨s, h0, h1, _⟩ := (hi.core.reg.mem u id).1 hm
    have hnu := bidi_not_uni ((hi.sok id s h0).need h1).1
    obtain ⟨⟨c1, rr⟩, e1, e2⟩ := bind_ok e
    obtain ⟨⟨ks, us, g1, g2, g3, g4⟩, g5⟩ := connWritev_req (crits hi) henc h h0 hnu ha e1
    dsimp only at e2
    split at e2
    · cases e2
    · rename_i s1 hs1
      split_ifs at e2
      · obtain ⟨c2, e3, e4⟩ := bind_ok e2
        obtain ⟨rfl, rfl⟩ := Prod.mk.inj (R.ok.inj e4)
        have ho := one_unschedule e3
        exact ⟨id, ks, us, g1, by rw [ho.enc]; exact g2, g3, (fun g => by rw [h0, hnu] at g; rcases g with g | g <;> cases g), all_one g4 ho hs1 rfl, rr, rfl, offer_one g5 ho hs1 rfl⟩
      · obtain ⟨rfl, rfl⟩ := Prod.mk.inj (R.ok.inj e2)
        exact ⟨id, ks, us, g1, g2, g3, (fun g => by rw [h0, hnu] at g; rcases g with g | g <;> cases g), g4, rr, rfl, g5⟩

theorem open_eff {P : Nat → Prop} (h : OutEff P c c') (sid : Option Nat) (hn : ∀ x, sid = some x → ¬ P x) : open? c' sid = open? c sid := by
  unfold open?
  cases sid with
  | none => rfl
  | some q =>
    dsimp only
    rcases hq : c.str q with _ | s
    · rw [h.none q hq]
    · obtain ⟨o, g1, g2⟩ := h.str q s hq
      rw [g1, g2 (hn q rfl)]

theorem writevStream_all (henc : EncodeOk encode) (h : Inv w v c) (ha : All c B K U M D) {k : Nat} {db : Bytes} {as : List Ans} (hans : ∀ a ∈ as, AnsOk a)
    {r : Ret} (e : writevStream encode c k db as = .ok (c', r)) :
    (∃ sv, Did encode c c' B K U M D (if Sent.reached c k r then db else []) as sv) ∧ ∃ rr, r = .vecs rr ∧ Offer c' k rr := by
  have none0 : ∀ {c' : Conn E F} {d : Bytes}, c'.enc = c.enc → (c.qdec = none → d = []) → All c' B K U M (D ++ d) →
      Did encode c c' B K U M D d as { dec := d } := by
    intro c' d k1 k3 k4
    refine ⟨List.nil_prefix, rfl, by rw [k1]; exact .nil _, fun _ => rfl, k3, fun _ => ⟨rfl, rfl⟩, ?_⟩
    dsimp only
    rw [upd_add_nil, upd_add_nil, List.append_nil]; exact k4
  unfold writevStream at e
  by_cases hk : k = 0
  · rw [if_pos hk] at e
    obtain ⟨rfl, rfl⟩ := Prod.mk.inj (R.ok.inj e)
    have hr : Sent.reached c k (.vecs none) = false := by unfold Sent.reached; rw [hk]; rfl
    rw [hr]
    exact ⟨⟨_, none0 (d := []) rfl (fun _ => rfl) (by rw [List.append_nil]; exact ha)⟩, none, rfl, (fun _ _ _ g => by cases g)⟩
  rw [if_neg hk] at e
  obtain ⟨⟨c1, r1⟩, e1, e⟩ := bind_ok e
  have keep : ∀ {c1 : Conn E F} {D1 : Bytes}, All c1 B K U M D1 → ∀ x s o, c1.str x = some s → (R.ok s.out : R (St F)) = .ok o →
      All (c1.set x { s with out := o }) B K U M (D1 ++ []) := by
    intro c1 D1 h1 x s o h0 ho
    obtain rfl := R.ok.inj ho
    rw [List.append_nil]; exact all_set_same h1 h0
  have hu := crits h
  obtain ⟨a1, b1⟩ := critical_eff hu.uc e1
  have i1 : Inv w v c1 := inv_outUni h a1 fun x g => (isCritical_uni h (Or.inl g)).1
  have hc1 := a1.ctrl
  obtain ⟨d1, y1, y3, y4, y5⟩ := critical_all (db := []) henc ha hu.uc (fun x s o _ => keep ha x s o) e1
  obtain rfl : d1 = [] := by rw [y1]; split_ifs <;> rfl
  rw [List.append_nil] at y3
  dsimp only at e
  cases r1 with
  | some x =>
    obtain ⟨rfl, rfl⟩ := Prod.mk.inj (R.ok.inj e)
    obtain ⟨i, f, vs⟩ := x
    have hr : Sent.reached c k (.vecs (some (i, f, vs))) = false := by
      have : Sent.onCtrl c (.vecs (some (i, f, vs))) = true := decide_eq_true (b1 _ _ _ rfl)
      unfold Sent.reached
      rw [this]
      simp
    rw [hr]
    exact ⟨⟨_, none0 (d := []) y4 (fun _ => rfl) (by rw [List.append_nil]; exact y3)⟩, _, rfl, y5⟩
  | none =>
    obtain ⟨⟨c2, r2⟩, e2, e⟩ := bind_ok e
    have hu1 := crits i1
    obtain ⟨a2, b2⟩ := critical_eff hu1.ud e2
    have i2 : Inv w v c2 := inv_outUni i1 a2 fun x g => (isCritical_uni i1 (Or.inr (Or.inl g))).1
    have hc2 := a2.ctrl
    obtain ⟨d2, z1, z3, z4, z5⟩ := critical_all (db := db) henc y3 hu1.ud (fun x s o hq h0 ho => all_dec hu1 y3 hq h0 ho) e2
    have hop : open? c1 c1.qdec = open? c c.qdec := by
      rw [hc1.2.2.1]
      exact open_eff a1 _ fun x g1 g2 => hu.cd x g2 g1
    rw [hop] at z1
    have hre : ∀ {r : Ret}, (∀ y f vs, r = .vecs (some (y, f, vs)) → c.ctrl ≠ some y) → Sent.reached c k r = open? c c.qdec := by
      intro r hn
      unfold Sent.reached open?
      rw [decide_eq_true hk]
      have : Sent.onCtrl c r = false := by
        rcases r with _ | _ | (_ | ⟨y, f, vs⟩) | _ | _ <;> first | rfl | exact decide_eq_false (hn _ _ _ rfl)
      rw [this]; rfl
    have z6 : c.qdec = none → d2 = [] := fun g => by rw [z1, g]; rfl
    dsimp only at e
    cases r2 with
    | some x =>
      obtain ⟨rfl, rfl⟩ := Prod.mk.inj (R.ok.inj e)
      rw [hre (fun y f vs g g' => by obtain rfl := Option.some.inj (Ret.vecs.inj g); have := b2 _ _ _ rfl; rw [hc1.2.2.1] at this; exact hu.cd _ g' this), ← z1]
      exact ⟨⟨_, none0 (z4.trans y4) z6 z3⟩, _, rfl, z5⟩
    | none =>
      obtain ⟨⟨c3, r3⟩, e3, e⟩ := bind_ok e
      have hu2 := crits i2
      obtain ⟨a3, b3⟩ := critical_eff hu2.ue e3
      have i3 : Inv w v c3 := inv_outUni i2 a3 fun x g => (isCritical_uni i2 (Or.inr (Or.inr g))).1
      have hc3 := a3.ctrl
      obtain ⟨d3, x1, x3, x4, x5⟩ := critical_all (db := []) henc z3 hu2.ue (fun x s o _ => keep z3 x s o) e3
      obtain rfl : d3 = [] := by rw [x1]; split_ifs <;> rfl
      rw [List.append_nil] at x3
      dsimp only at e
      cases r3 with
      | some x =>
        obtain ⟨rfl, rfl⟩ := Prod.mk.inj (R.ok.inj e)
        rw [hre (fun y f vs g g' => by obtain rfl := Option.some.inj (Ret.vecs.inj g); have := b3 _ _ _ rfl; rw [hc2.2.1, hc1.2.1] at this; exact hu.ce _ g' this), ← z1]
        exact ⟨⟨_, none0 (x4.trans (z4.trans y4)) z6 x3⟩, _, rfl, x5⟩
      | none =>
        dsimp only at e
        obtain ⟨_, rr, hrr, hof, _⟩ := writeRequest_inv i3 e
        obtain ⟨id, ks, us, g1, g2, g3, g6, g4, g5⟩ := writeRequest_all henc i3 x3 hans e
        rw [hre (fun y f vs g g' => ?_), ← z1]
        · refine ⟨⟨{ id := id, used := us, made := ks, dec := d2 }, g1, rfl, ?_, ?_, z6, fun g => g6 (g.imp (fun g => a3.none _ (a2.none _ (a1.none _ g))) (fun g => g)), g4⟩, g5⟩
          · dsimp only
            rw [x4, z4, y4] at g2; exact g2
          · intro g
            exact g3 (by rw [hc3.2.1, hc2.2.1, hc1.2.1]; exact g)
        · rw [hrr] at g
          obtain rfl := Ret.vecs.inj g
          have huy := hu.uc y g'
          rcases hof _ _ _ rfl with g | g
          · obtain ⟨u, _, _, hm, _⟩ := nextTx_spec i3.core.reg g
            obtain ⟨s, h0, h1, _⟩ := (i3.core.reg.mem u y).1 hm
            rw [bidi_not_uni ((i3.sok y s h0).need h1).1] at huy; cases huy
          · rw [hc3.2.1, hc2.2.1, hc1.2.1] at g
            exact hu.ce _ g' g

end Conn
end Nghttp3
