import Verif.Lemmas.ConnPart
import Verif.Lemmas.BidiTrunc
import Verif.Props.Frame
/-! What a unidirectional stream of the peer knows about the bytes that have arrived on it. -/
namespace Nghttp3
namespace Conn
open PQ (upd upd_same upd_ne)
open Outq (R Bytes)

variable {E F : Type} {c c' : Conn E F} {id : Nat} {s : Strm F}

/-- the type of a stream, as it is written -/
def Typ (v : Nat) (t : Ty) : Prop := uniType v = some t ∨ (3 < v ∧ t = .unknown)

/-- a stream whose type is known -/
def Known (b : Bytes) (t : Ty) : Prop := ∃ v p y, Spec.IsVarint v p ∧ Typ v t ∧ b = p ++ y

/-- a stream whose type is not known yet -/
def Unknown (b : Bytes) (rv : RVInt) : Prop := (b = [] ∧ rv = {}) ∨ (b ≠ [] ∧ rd {} b false = .part rv)

def UState (b : Bytes) : Option (Strm F) → Prop
  | none => b = []
  | some s => s.qblocked = false ∧ (s.ident = true → Known b s.ty) ∧ (s.ident = false → Unknown b s.rv)

theorem Unknown.ok {b : Bytes} {rv : RVInt} (h : Unknown b rv) : RvOk rv := by
  rcases h with ⟨_, rfl⟩ | ⟨h1, h2⟩
  · exact rvOk_idle
  · have := rd_spec {} b false rvOk_idle h1
    rw [h2] at this
    exact this.2.1

theorem Unknown.go {b : Bytes} {rv : RVInt} (h : Unknown b rv) {y : Bytes} (hy : y ≠ []) (f : Bool) : rd {} (b ++ y) f = (rd rv y f).shift b.length := by
  rcases h with ⟨rfl, rfl⟩ | ⟨h1, h2⟩
  · rw [List.nil_append]
    cases rd {} y f <;> simp [Rd.shift]
  · have := rd_spec {} b false rvOk_idle h1
    rw [h2] at this
    exact this.2.2.2 y f hy

/-- the bytes so far do not make a type -/
theorem Unknown.short {b : Bytes} {rv : RVInt} (h : Unknown b rv) {v : Nat} {p y : Bytes} (hv : Spec.IsVarint v p) : b ≠ p ++ y := by
  rintro rfl
  rcases h with ⟨h1, _⟩ | ⟨_, h2⟩
  · have := isVarint_pos hv
    rw [List.append_eq_nil_iff] at h1
    rw [h1.1] at this; simp at this
  · rw [rd_varint hv] at h2; cases h2

theorem done_varint {b : Bytes} {f : Bool} {v n : Nat} (hb : b ≠ []) (h : rd {} b f = .done v n) : Spec.IsVarint v (b.take n) ∧ n ≤ b.length := by
  have hs := rd_spec {} b f rvOk_idle hb
  rw [h] at hs
  obtain ⟨_, h2, h3⟩ := hs
  have h4 := h3 (b.drop n) false
  rw [List.take_append_drop] at h4
  rcases Bidi.varint_split b hb with ⟨w, a, y, k1, k2⟩ | ⟨rv, _, k2⟩
  · rw [k2, rd_varint k1] at h4
    injection h4 with e1 e2
    subst e1 e2
    refine ⟨?_, h2⟩
    rw [k2, List.take_left]; exact k1
  · rw [k2] at h4; cases h4

theorem setUniType_typ {c1 : Conn E F} {s1 : Strm F} {v : Nat} (e : setUniType c s v = .ok (c1, s1)) : ∃ t, s1 = { s with ty := t, ident := true, rv := {} } ∧ Typ v t ∧ c1.str = c.str := by
  unfold setUniType at e
  dsimp only at e
  split_ifs at e with h1 h2 h3 h4 h5 h6 h7 <;> obtain ⟨rfl, rfl⟩ := Prod.mk.inj (Except.ok.inj e)
  · subst h1; exact ⟨_, rfl, .inl rfl, rfl⟩
  · subst h4; exact ⟨_, rfl, .inl rfl, rfl⟩
  · subst h6; exact ⟨_, rfl, .inl rfl, rfl⟩
  · exact ⟨_, rfl, .inr ⟨by omega, rfl⟩, rfl⟩

/-- what a call that reads from the stream passes on: `x` is what is new -/
structure Passes (c c' : Conn E F) (id : Nat) (b src : Bytes) (r : Ret) : Prop where
  fr : ∀ x, x ≠ id → c'.str x = c.str x
  st : UState (b ++ src) (c'.str id)
  /- the type was known -/
  old : ∀ s, c.str id = some s → s.ident = true → c' = c ∧ (s.ty ≠ .unknown → src ≠ [] → r = .route (some (s.ty, src)))
  /- the type became known -/
  new : ∀ t, IsUni c' t id → (∀ u, ¬ IsUni c u id) → ∃ v p y, Spec.IsVarint v p ∧ Typ v t ∧ b ++ src = p ++ y ∧
    (t ≠ .unknown → r = if y = [] then .route none else .route (some (t, y)))
  /- what is passed on belongs to a known type -/
  given : ∀ t y, r = .route (some (t, y)) → IsUni c' t id ∧ t ≠ .unknown ∧ y ≠ []

theorem isEmpty_iff {b : Bytes} : b.isEmpty = true ↔ b = [] := List.isEmpty_iff

theorem passes {b src : Bytes} {fin : Bool} {r : Ret} (hb : UState b (c.str id)) (e : readUni c id src fin = .ok (c', r))
    (hr : ∀ z, r = .code z → z = 0) : Passes c c' id b src r := by
  unfold readUni at e
  by_cases h1 : ((c.server && !clientUni id) || (!c.server && !serverUni id)) = true
  · rw [if_pos h1] at e; cases e
  rw [if_neg h1] at e
  rcases h0 : c.str id with _ | s0 <;> rw [h0] at e hb
  · cases e
  dsimp only at e
  obtain ⟨hq, hk, hn⟩ := hb
  by_cases h2 : (src.isEmpty && !fin) = true
  · rw [if_pos h2] at e; cases e
    rw [Bool.and_eq_true, isEmpty_iff] at h2
    obtain ⟨rfl, _⟩ := h2
    refine ⟨fun _ _ => rfl, by rw [List.append_nil, h0]; exact ⟨hq, hk, hn⟩, fun s _ _ => ⟨rfl, fun _ g => absurd rfl g⟩, fun t g k => absurd g (k t), fun t y g => by cases g⟩
  rw [if_neg h2] at e
  by_cases h3 : s0.ident = true
  · rw [if_pos h3] at e
    obtain ⟨rfl, rfl⟩ := Prod.mk.inj (R.ok.inj e)
    refine ⟨fun _ _ => rfl, ?_, fun s g _ => ⟨rfl, fun hu hs => ?_⟩, fun t g k => absurd g (k t), fun t y g => ?_⟩
    · rw [h0]
      refine ⟨hq, fun _ => ?_, fun g => by rw [h3] at g; cases g⟩
      obtain ⟨v, p, y, a1, a2, a3⟩ := hk h3
      exact ⟨v, p, y ++ src, a1, a2, by rw [a3, List.append_assoc]⟩
    · rw [h0] at g; cases g
      unfold deliverUni at hr ⊢
      split at hr
      · rename_i k; exact absurd k hu
      · split_ifs at hr ⊢
        · exact absurd (hr _ rfl) (by decide)
        · rfl
    · unfold deliverUni at g hr
      split at g
      · cases g
      · rename_i k
        split_ifs at g with hf
        cases g
        refine ⟨⟨s0, h0, h3, rfl⟩, k, ?_⟩
        rintro rfl
        exact h2 (by rw [Bool.and_eq_true]; exact ⟨rfl, by simpa using hf⟩)
  rw [if_neg h3] at e
  have hi : s0.ident = false := by simpa using h3
  have hU := hn hi
  have hno : ∀ s, c.str id = some s → s.ident = true → False := by
    intro s g k; rw [h0] at g; cases g; rw [hi] at k; cases k
  by_cases h4 : src.isEmpty = true
  · rw [if_pos h4] at e
    rw [isEmpty_iff] at h4
    subst h4
    split_ifs at e with h5
    · obtain ⟨rfl, rfl⟩ := Prod.mk.inj (R.ok.inj e)
      exact absurd (hr _ rfl) (by decide)
    · obtain ⟨c1, e1, e2⟩ := bind_ok e
      obtain ⟨rfl, rfl⟩ := Prod.mk.inj (R.ok.inj e2)
      have hs := delete_str e1
      refine ⟨fun x hx => by rw [hs, upd_ne _ _ hx], ?_, fun s g k => (hno s g k).elim, fun t g k => ?_, fun t y g => by cases g⟩
      · rw [hs, upd_same, List.append_nil]
        rcases hU with ⟨k, _⟩ | ⟨k1, k2⟩
        · exact k
        · have := rd_spec {} b false rvOk_idle k1
          rw [k2] at this
          exact absurd (by simpa using h5) this.2.2.1
      · obtain ⟨s, g1, _⟩ := g
        rw [hs, upd_same] at g1; cases g1
  rw [if_neg h4] at e
  have hne : src ≠ [] := fun k => h4 (isEmpty_iff.2 k)
  have hbn : b ++ src ≠ [] := fun k => hne (List.append_eq_nil_iff.1 k).2
  have hgo := hU.go hne fin
  rcases hrd : rd s0.rv src fin with _ | _ | rv | ⟨v, n⟩ <;> rw [hrd] at e hgo <;> dsimp only at e
  · cases e
  · obtain ⟨rfl, rfl⟩ := Prod.mk.inj (R.ok.inj e)
    exact absurd (hr _ rfl) (by decide)
  · obtain ⟨rfl, rfl⟩ := Prod.mk.inj (R.ok.inj e)
    have hsp := rd_spec s0.rv src fin hU.ok hne
    rw [hrd] at hsp
    have hf : fin = false := hsp.1
    subst hf
    refine ⟨fun x hx => set_ne _ _ _ _ hx, ?_, fun s g k => (hno s g k).elim, fun t g k => ?_, fun t y g => by cases g⟩
    · rw [set_str]
      exact ⟨hq, (fun g => by rw [show s0.ident = true from g] at hi; cases hi), fun _ => .inr ⟨hbn, hgo⟩⟩
    · obtain ⟨s, g1, g2, _⟩ := g
      rw [set_str] at g1; cases g1
      rw [show s0.ident = true from g2] at hi; cases hi
  · have hgo' : rd {} (b ++ src) fin = .done v (b.length + n) := by rw [hgo]; simp [Rd.shift, Nat.add_comm]
    obtain ⟨hv, hle⟩ := done_varint hbn hgo'
    have hsp := rd_spec s0.rv src fin hU.ok hne
    rw [hrd] at hsp
    obtain ⟨_, hnl, _⟩ := hsp
    have hbs : b ++ src = (b ++ src).take (b.length + n) ++ src.drop n := by
      rw [List.take_append, List.take_of_length_le (by omega), show b.length + n - b.length = n by omega, List.append_assoc, List.take_append_drop]
    rcases ht : setUniType c s0 v with er | ⟨c1, s1⟩ <;> rw [ht] at e <;> dsimp only at e
    · obtain ⟨rfl, rfl⟩ := Prod.mk.inj (R.ok.inj e)
      exfalso
      have := hr _ rfl
      unfold setUniType at ht
      dsimp only at ht
      split_ifs at ht <;> (injection ht with ht; rw [← ht] at this; revert this; decide)
    · obtain ⟨t, rfl, htt, hc1⟩ := setUniType_typ ht
      have hset : ∀ (r' : Ret), c' = c1.set id { s0 with ty := t, ident := true, rv := {} } → r = r' →
          (t ≠ .unknown → r' = if src.drop n = [] then .route none else .route (some (t, src.drop n))) → (∀ u y, r' = .route (some (u, y)) → u = t ∧ t ≠ .unknown ∧ y = src.drop n ∧ y ≠ []) → Passes c c' id b src r := by
        intro r' g1 g2 g3 g4
        subst g1 g2
        have hcs : (c1.set id { s0 with ty := t, ident := true, rv := {} }).str id = some { s0 with ty := t, ident := true, rv := {} } := set_str _ _ _
        refine ⟨fun x hx => by rw [set_ne _ _ _ _ hx, hc1], ?_, fun s g k => (hno s g k).elim, fun u g k => ?_, fun u y g => ?_⟩
        · rw [hcs]
          exact ⟨hq, fun _ => ⟨v, _, _, hv, htt, hbs⟩, fun g => by cases g⟩
        · obtain ⟨s, k1, k2, k3⟩ := g
          rw [hcs] at k1; cases k1
          have k3 : t = u := k3
          subst k3
          exact ⟨v, _, _, hv, htt, hbs, g3⟩
        · obtain ⟨rfl, g5, rfl, g6⟩ := g4 u y g
          exact ⟨⟨_, hcs, rfl, rfl⟩, g5, g6⟩
      by_cases h5 : n = src.length
      · rw [if_pos h5] at e
        obtain ⟨rfl, rfl⟩ := Prod.mk.inj (R.ok.inj e)
        exact hset _ rfl rfl (fun _ => by rw [h5, List.drop_length, if_pos rfl]) (fun u y g => by cases g)
      · rw [if_neg h5] at e
        have hdn : src.drop n ≠ [] := by
          intro k
          rw [List.drop_eq_nil_iff] at k
          omega
        unfold deliverUni at e
        by_cases hu : t = .unknown
        · subst hu
          dsimp only at e
          obtain ⟨rfl, rfl⟩ := Prod.mk.inj (R.ok.inj e)
          exact hset _ rfl rfl (fun k => absurd rfl k) (fun u y g => by cases g)
        · by_cases hf : fin = true
          · exfalso
            have : r = .code Err.H3_CLOSED_CRITICAL_STREAM := by
              cases t <;> simp only [hf, if_true] at e <;> first | exact absurd rfl hu | exact (Prod.mk.inj (R.ok.inj e)).2.symm
            exact absurd (hr _ this) (by decide)
          · have : c' = c1.set id { s0 with ty := t, ident := true, rv := {} } ∧ r = .route (some (t, src.drop n)) := by
              cases t <;> simp only [hf] at e <;> first | exact absurd rfl hu | exact ⟨(Prod.mk.inj (R.ok.inj e)).1.symm, (Prod.mk.inj (R.ok.inj e)).2.symm⟩
            exact hset _ this.1 this.2 (fun _ => by rw [if_neg hdn]) (fun u y g => by cases g; exact ⟨rfl, hu, rfl, hdn⟩)

theorem Part.state {D : Nat → Prop} (h : Part D c c') {x : Nat} (hu : streamUni x = true) (hd : ¬ D x) {b : Bytes} (hb : UState b (c.str x)) : UState b (c'.str x) := by
  rcases h1 : c'.str x with _ | s'
  · rcases h0 : c.str x with _ | s
    · rw [h0] at hb; exact hb
    · have := h.fwd x hu (by rw [h0]; rfl) hd
      rw [h1] at this; cases this
  · rcases h.bwd x s' hu h1 with ⟨k1, k2, k3, k4⟩ | ⟨s0, k1, k2, k3, k4, k5⟩
    · have hn : c.str x = none := k4.resolve_right hd
      rw [hn] at hb
      have hb : b = [] := hb
      exact ⟨k3, fun g => by (rw [k1] at g; cases g), fun _ => .inl ⟨hb, k2⟩⟩
    · rw [k1] at hb
      obtain ⟨m1, m2, m3⟩ := hb
      exact ⟨k5 ▸ m1, fun g => k3 ▸ m2 (k2.trans g), fun g => k4 ▸ m3 (k2.trans g)⟩

theorem Part.isUni {D : Nat → Prop} (h : Part D c c') {x : Nat} (hu : streamUni x = true) {t : Ty} (g : IsUni c' t x) : IsUni c t x := by
  obtain ⟨s, g1, g2, g3⟩ := g
  rcases h.bwd x s hu g1 with ⟨k, _⟩ | ⟨s0, k1, k2, k3, _, _⟩
  · rw [k] at g2; cases g2
  · exact ⟨s0, k1, k2.trans g2, k3.trans g3⟩

theorem Part.mono {D D' : Nat → Prop} (h : Part D c c') (hd : ∀ x, D x → D' x) : Part D' c c' :=
  ⟨fun x s' u g => (h.bwd x s' u g).imp (fun ⟨a, b, d, e⟩ => ⟨a, b, d, e.imp_right (hd x)⟩) fun k => k, fun x u g k => h.fwd x u g fun g => k (hd x g)⟩

theorem close_uni {x : Nat} {b : Bytes} (hb : UState b (c.str x)) (e : closeStream c x = .ok (c', .code 0)) : c'.str x = none := by
  unfold closeStream at e
  rcases h0 : c.str x with _ | s <;> rw [h0] at e hb <;> dsimp only at e
  · cases e
  · by_cases h1 : (streamUni x && s.ty != .unknown) = true
    · rw [if_pos h1] at e
      injection e with e; injection e with _ e; injection e with e
      exact absurd e (by decide)
    · rw [if_neg h1] at e
      obtain ⟨c1, e1, e2⟩ := bind_ok e
      rw [if_pos hb.1] at e2
      obtain ⟨c2, e3, e4⟩ := bind_ok e2
      obtain ⟨rfl, _⟩ := Prod.mk.inj (R.ok.inj e4)
      rw [delete_str e3, upd_same]

end Conn
end Nghttp3
