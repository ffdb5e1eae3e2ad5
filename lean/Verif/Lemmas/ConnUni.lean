import Verif.Lemmas.ConnIdent
import Verif.Spec.Uni
import Verif.Spec.Calls
/-! Types of unidirectional streams: at most one of each kind. -/
namespace Nghttp3
namespace Conn
open PQ (upd upd_same upd_ne)
open Outq (R Frent Ans Bytes St)

variable {E F : Type} {w v : Prop} {c c' : Conn E F} {id : Nat} {s0 s : Strm F} {encode : Encode E F}

/-- the flag for the type -/
def flagOf (c : Conn E F) : Ty → Bool
  | .control => c.ctrlOpened
  | .qenc => c.qencOpened
  | .qdec => c.qdecOpened
  | _ => false

theorem setUniType_flag {c1 : Conn E F} {s1 : Strm F} {x : Nat} (e : setUniType c s x = .ok (c1, s1)) :
    ∃ ty, s1 = { s with ty := ty, ident := true, rv := {} } ∧ c1.str = c.str ∧
      ((ty = .unknown ∧ 3 < x ∧ ∀ t, flagOf c1 t = flagOf c t) ∨
       (ty ≠ .unknown ∧ ty ≠ .push ∧ flagOf c ty = false ∧ ∀ t, flagOf c1 t = (flagOf c t || t == ty))) := by
  unfold setUniType at e
  dsimp only at e
  split_ifs at e <;> obtain ⟨rfl, rfl⟩ := Prod.mk.inj (Except.ok.inj e)
  · exact ⟨_, rfl, rfl, .inr ⟨by simp, by simp, by simp_all [flagOf], by intro t; cases t <;> simp [flagOf]⟩⟩
  · exact ⟨_, rfl, rfl, .inr ⟨by simp, by simp, by simp_all [flagOf], by intro t; cases t <;> simp [flagOf]⟩⟩
  · exact ⟨_, rfl, rfl, .inr ⟨by simp, by simp, by simp_all [flagOf], by intro t; cases t <;> simp [flagOf]⟩⟩
  · exact ⟨_, rfl, rfl, .inl ⟨rfl, by omega, by intro t; cases t <;> simp [flagOf]⟩⟩

/-- what reading from a unidirectional stream does to the types of streams -/
inductive UniStep (c c' : Conn E F) (id : Nat) : Prop where
  | keep (h1 : IdOk c c') (h2 : ∀ t, flagOf c' t = flagOf c t)
  | set (s0 : Strm F) (ty : Ty) (hu : streamUni id = true) (h0 : c.str id = some s0) (hi : s0.ident = false)
      (hs : c'.str = upd c.str id (some { s0 with ty := ty, ident := true, rv := {} }))
      (hf : (ty = .unknown ∧ ∀ t, flagOf c' t = flagOf c t) ∨
        (ty ≠ .unknown ∧ ty ≠ .push ∧ flagOf c ty = false ∧ ∀ t, flagOf c' t = (flagOf c t || t == ty)))

theorem flagOf_congr (h : glob c' = glob c) (t : Ty) : flagOf c' t = flagOf c t := by
  unfold glob at h
  injection h
  cases t <;> simp_all [flagOf]

theorem uni_step {src : Bytes} {fin : Bool} {r : Ret} (e : readUni c id src fin = .ok (c', r)) : UniStep c c' id := by
  have same : ∀ {c1 : Conn E F} {r1 : Ret}, (R.ok (c1, r1) : R (Conn E F × Ret)) = .ok (c', r) → UniStep c c1 id → UniStep c c' id := by
    intro c1 r1 g1 g2
    obtain ⟨rfl, _⟩ := Prod.mk.inj (R.ok.inj g1); exact g2
  have rf : UniStep c c id := .keep .refl (fun _ => rfl)
  unfold readUni at e
  by_cases h1 : ((c.server && !clientUni id) || (!c.server && !serverUni id)) = true
  · rw [if_pos h1] at e; cases e
  rw [if_neg h1] at e
  have hu : streamUni id = true := by
    unfold clientUni serverUni at h1
    unfold streamUni
    cases hs : c.server <;> rw [hs] at h1 <;> simp at h1 ⊢ <;> omega
  rcases h0 : c.str id with _ | s0 <;> rw [h0] at e
  · cases e
  · dsimp only at e
    by_cases h2 : (src.isEmpty && !fin) = true
    · rw [if_pos h2] at e; exact same e rf
    rw [if_neg h2] at e
    by_cases h3 : s0.ident = true
    · rw [if_pos h3] at e; exact same e rf
    rw [if_neg h3] at e
    have hi : s0.ident = false := by simpa using h3
    by_cases h4 : src.isEmpty = true
    · rw [if_pos h4] at e
      split_ifs at e
      · exact same e rf
      · obtain ⟨c1, e1, e2⟩ := bind_ok e
        refine same e2 (.keep (id_delete e1 fun s1 g1 hk => by rw [h0] at g1; cases g1; exact h3 hk.2.1) fun t => flagOf_congr ?_ t)
        exact glob_delete e1
    · rw [if_neg h4] at e
      rcases hr : rd s0.rv src fin with _ | _ | rv | ⟨x, n⟩ <;> rw [hr] at e
      · cases e
      · exact same e rf
      · refine same e (.keep ?_ (fun t => by cases t <;> rfl))
        exact id_one one_set h0 rfl rfl
      · dsimp only at e
        rcases ht : setUniType c s0 x with er | ⟨c1, s1⟩ <;> rw [ht] at e
        · exact same e rf
        · obtain ⟨ty, rfl, k1, k2⟩ := setUniType_flag ht
          have su : UniStep c (c1.set id { s0 with ty := ty, ident := true, rv := {} }) id := by
            refine .set s0 ty hu h0 hi ?_ ?_
            · show upd c1.str id _ = _
              rw [k1]
            · have hfl : ∀ t, flagOf (c1.set id { s0 with ty := ty, ident := true, rv := {} }) t = flagOf c1 t := fun t => by cases t <;> rfl
              rcases k2 with ⟨a, _, b⟩ | ⟨a, a', b, d⟩
              · exact .inl ⟨a, fun t => by rw [hfl, b]⟩
              · exact .inr ⟨a, a', b, fun t => by rw [hfl, d]⟩
          dsimp only at e
          split_ifs at e
          · exact same e su
          · rcases hdl : deliverUni ty (src.drop n) fin with er | rr | rr | rr <;> rw [hdl] at e
            · exact same e rf
            · exact same e su
            · exact same e su
            · exact same e su

theorem step_flag (h : Inv w v c) {o : Op F} {r : Ret} (hu : ∀ id src fin, o ≠ .uni id src fin) (e : step encode c o = .ok (c', r)) (t : Ty) :
    flagOf c' t = flagOf c t := by
  have hg := step_glob h e
  have k : ∀ {g : Glob}, glob c' = g → g.ctrlOpened = c.ctrlOpened → g.qencOpened = c.qencOpened → g.qdecOpened = c.qdecOpened →
      flagOf c' t = flagOf c t := by
    intro g e1 e2 e3 e4
    have a1 : c'.ctrlOpened = g.ctrlOpened := by rw [← e1]; rfl
    have a2 : c'.qencOpened = g.qencOpened := by rw [← e1]; rfl
    have a3 : c'.qdecOpened = g.qdecOpened := by rw [← e1]; rfl
    cases t <;> simp [flagOf, *]
  cases o with
  | bindControl id => rcases hg with g | ⟨_, g⟩ <;> exact k g rfl rfl rfl
  | bindQpack a b => rcases hg with g | ⟨_, _, g | g⟩ <;> exact k g rfl rfl rfl
  | notice => obtain ⟨_, _, _, g⟩ := hg; exact k g rfl rfl rfl
  | shutdown => obtain ⟨_, _, _, g⟩ := hg; exact k g rfl rfl rfl
  | setMaxClient n => exact k hg.2 rfl rfl rfl
  | «open» id b => rcases hg with g | ⟨_, _, _, g⟩ <;> exact k g rfl rfl rfl
  | priUpd id p => rcases hg with g | ⟨_, _, _, g⟩ <;> exact k g rfl rfl rfl
  | uni a b d => exact absurd rfl (hu a b d)
  | _ => exact k hg rfl rfl rfl

/-- the flags tell which types exist, and there is at most one stream of each -/
structure UniInv (c : Conn E F) : Prop where
  flag : ∀ t x, t ≠ .unknown → IsUni c t x → flagOf c t = true
  push : ∀ x, ¬ IsUni c .push x
  one : ∀ t x y, t ≠ .unknown → IsUni c t x → IsUni c t y → x = y
  uni : ∀ t x, IsUni c t x → streamUni x = true
  ex : ∀ t, flagOf c t = true → ∃ x, IsUni c t x

theorem UniInv.withEnc (h : UniInv c) (e : E) : UniInv { c with enc := e } := ⟨h.flag, h.push, h.one, h.uni, h.ex⟩

theorem IdOk.isUni (h : IdOk c c') {t : Ty} {x : Nat} (g : IsUni c' t x) : IsUni c t x := by
  obtain ⟨s, g1, g2, g3⟩ := g
  rcases h.bwd x s g1 with k | ⟨s0, k1, k2, k3⟩
  · rw [k] at g2; cases g2
  · exact ⟨s0, k1, k2.trans g2, k3.trans g3⟩

theorem uniInv_step (h : Inv w v c) (hj : UniInv c) {o : Op F} {r : Ret} (ho : OpOk o) (e : step encode c o = .ok (c', r)) :
    UniInv c' ∧ (∀ t, flagOf c t = true → flagOf c' t = true) ∧ ∀ t x, flagOf c t = true → IsUni c' t x → IsUni c t x := by
  have keep : IdOk c c' → (∀ t, flagOf c' t = flagOf c t) →
      UniInv c' ∧ (∀ t, flagOf c t = true → flagOf c' t = true) ∧ ∀ t x, flagOf c t = true → IsUni c' t x → IsUni c t x := by
    intro h1 h2
    refine ⟨⟨fun t x ht g => ?_, fun x g => hj.push x (h1.isUni g), fun t x y ht g1 g2 => hj.one t x y ht (h1.isUni g1) (h1.isUni g2),
      fun t x g => hj.uni t x (h1.isUni g), fun t g => ?_⟩,
      fun t g => ?_, fun t x _ g => h1.isUni g⟩
    · rw [h2]; exact hj.flag t x ht (h1.isUni g)
    · rw [h2] at g
      obtain ⟨x, s, k1, k2, k3⟩ := hj.ex t g
      obtain ⟨s', m1, m2, m3⟩ := h1.fwd x s k1 ⟨hj.uni t x ⟨s, k1, k2, k3⟩, k2, by rw [k3]; rintro rfl; cases g⟩
      exact ⟨x, s', m1, m2 ▸ k2, m3 ▸ k3⟩
    · rw [h2]; exact g
  by_cases hu : ∀ id src fin, o ≠ .uni id src fin
  · exact keep (step_ident h ho hu e) (step_flag h hu e)
  · push Not at hu
    obtain ⟨id, src, fin, rfl⟩ := hu
    change readUni c id src fin = _ at e
    rcases uni_step e with ⟨h1, h2⟩ | ⟨s0, ty, hsu, h0, hi, hs, hf⟩
    · exact keep h1 h2
    · have hb : ∀ {t x}, IsUni c' t x → (x = id ∧ t = ty) ∨ (x ≠ id ∧ IsUni c t x) := by
        intro t x g
        obtain ⟨s, g1, g2, g3⟩ := g
        by_cases hx : x = id
        · subst hx; rw [hs, upd_same] at g1; cases g1; exact .inl ⟨rfl, g3.symm⟩
        · rw [hs, upd_ne _ _ hx] at g1; exact .inr ⟨hx, s, g1, g2, g3⟩
      have hfl : ∀ t, flagOf c t = true → flagOf c' t = true := by
        intro t g
        rcases hf with ⟨_, k⟩ | ⟨_, _, _, k⟩ <;> rw [k, g] <;> rfl
      refine ⟨⟨fun t x ht g => ?_, fun x g => ?_, fun t x y ht g1 g2 => ?_, fun t x g => ?_, fun t g => ?_⟩, hfl, fun t x ht g => ?_⟩
      · rcases hb g with ⟨_, rfl⟩ | ⟨_, g⟩
        · rcases hf with ⟨k, _⟩ | ⟨_, _, _, k⟩
          · exact absurd k ht
          · rw [k]; simp
        · exact hfl t (hj.flag t x ht g)
      · rcases hb g with ⟨_, rfl⟩ | ⟨_, g⟩
        · rcases hf with ⟨k, _⟩ | ⟨_, k, _⟩
          · cases k
          · exact k rfl
        · exact hj.push x g
      · rcases hb g1 with ⟨rfl, rfl⟩ | ⟨k1, g1⟩
        · rcases hb g2 with ⟨rfl, _⟩ | ⟨_, g2⟩
          · rfl
          · have := hj.flag _ _ ht g2
            rcases hf with ⟨k, _⟩ | ⟨_, _, k, _⟩
            · exact absurd k ht
            · rw [k] at this; cases this
        · rcases hb g2 with ⟨rfl, rfl⟩ | ⟨_, g2⟩
          · have := hj.flag _ _ ht g1
            rcases hf with ⟨k, _⟩ | ⟨_, _, k, _⟩
            · exact absurd k ht
            · rw [k] at this; cases this
          · exact hj.one t x y ht g1 g2
      · rcases hb g with ⟨rfl, _⟩ | ⟨_, g⟩
        · exact hsu
        · exact hj.uni t x g
      · by_cases ht : flagOf c t = true
        · obtain ⟨x, s, k1, k2, k3⟩ := hj.ex t ht
          have : x ≠ id := by rintro rfl; rw [h0] at k1; cases k1; rw [hi] at k2; cases k2
          exact ⟨x, s, by rw [hs, upd_ne _ _ this]; exact k1, k2, k3⟩
        · rcases hf with ⟨_, k⟩ | ⟨_, _, _, k⟩
          · rw [k] at g; exact absurd g ht
          · rw [k] at g
            have : t = ty := by simpa [ht] using g
            subst this
            exact ⟨id, _, by rw [hs, upd_same], rfl, rfl⟩
      · rcases hb g with ⟨_, rfl⟩ | ⟨_, g⟩
        · rcases hf with ⟨rfl, _⟩ | ⟨_, _, k, _⟩
          · cases ht
          · rw [k] at ht; cases ht
        · exact g

theorem init_uniInv {server : Bool} {st : Settings} {e0 : E} : UniInv (init server st e0 : Conn E F) := by
  have : ∀ t x, ¬ IsUni (init server st e0 : Conn E F) t x := by
    rintro t x ⟨s, g, _⟩; cases g
  exact ⟨fun t x _ g => absurd g (this _ _), fun x => this _ _, fun t x y _ g => absurd g (this _ _), fun t x g => absurd g (this _ _),
    fun t g => by cases t <;> cases g⟩

/-! ## Bytes that arrive in pieces -/

theorem peer_asrt (h : peerUni c.server id) : ¬ ((c.server && !clientUni id) || (!c.server && !serverUni id)) = true := by
  unfold peerUni at h
  unfold clientUni serverUni
  cases hs : c.server <;> rw [hs] at h <;> simp at h ⊢ <;> exact h

theorem given_append (a b : List Ret) : given (a ++ b) = given a ++ given b := by
  induction a with
  | nil => rfl
  | cons x t ih =>
    rcases x with e | p | r | ⟨n, s⟩ <;> simp only [List.cons_append, given, ih]
    cases p <;> simp only [given, ih, List.cons_append]

theorem feed_cons (x : Bytes) (t : List Bytes) : feed c id (x :: t) = (readUni c id x false).bind fun p =>
    if failed p.2 then .ok (p.1, [p.2]) else (feed p.1 id t).bind fun q => .ok (q.1, p.2 :: q.2) := rfl

theorem deliver_known {t : Ty} (h : t ≠ .unknown) (x : Bytes) : deliverUni t x false = .route (some (t, x)) := by
  cases t <;> first | rfl | exact absurd rfl h

/-- a stream whose type is known -/
theorem feed_known (hp : peerUni c.server id) (h0 : c.str id = some s) (hi : s.ident = true) (chunks : List Bytes) :
    ∃ rs, feed c id chunks = .ok (c, rs) ∧ (∀ r ∈ rs, failed r = false) ∧
      (s.ty ≠ .unknown → thrown rs = 0 ∧ (∀ p ∈ given rs, p.1 = s.ty) ∧ (given rs).flatMap (·.2) = chunks.flatten) ∧
      (s.ty = .unknown → given rs = [] ∧ thrown rs = chunks.flatten.length ∧ ∀ n b, Ret.discard n b ∈ rs → b = true) := by
  induction chunks with
  | nil => exact ⟨[], rfl, by simp, fun _ => ⟨rfl, by simp [given], rfl⟩, fun _ => ⟨rfl, rfl, by simp⟩⟩
  | cons x t ih =>
    obtain ⟨rs, e1, e2, e3, e4⟩ := ih
    have hr : ∃ r, readUni c id x false = .ok (c, r) ∧ failed r = false ∧
        ((x = [] ∧ r = .code 0) ∨ (s.ty ≠ .unknown ∧ r = .route (some (s.ty, x))) ∨ (s.ty = .unknown ∧ r = .discard x.length true)) := by
      unfold readUni
      rw [if_neg (peer_asrt hp), h0]
      dsimp only
      cases x with
      | nil => exact ⟨.code 0, rfl, rfl, .inl ⟨rfl, rfl⟩⟩
      | cons b y =>
        rw [if_neg (by simp), if_pos hi]
        unfold deliverUni
        split
        · rename_i ht; exact ⟨_, rfl, rfl, .inr (.inr ⟨ht, rfl⟩)⟩
        · rename_i ht; exact ⟨_, rfl, rfl, .inr (.inl ⟨ht, rfl⟩)⟩
    obtain ⟨r, h1, h2, h3⟩ := hr
    refine ⟨r :: rs, ?_, ?_, ?_, ?_⟩
    · rw [feed_cons]
      rw [h1]
      simp only [R.bind, h2, e1, Bool.false_eq_true, if_false]
    · intro r' hr'
      rcases List.mem_cons.1 hr' with rfl | k
      · exact h2
      · exact e2 r' k
    · intro ht
      obtain ⟨k1, k2, k3⟩ := e3 ht
      rcases h3 with ⟨rfl, rfl⟩ | ⟨_, rfl⟩ | ⟨k, _⟩
      · exact ⟨k1, k2, by simpa [given] using k3⟩
      · refine ⟨k1, ?_, by simp [given, k3]⟩
        intro p hp
        rcases List.mem_cons.1 hp with rfl | k
        · rfl
        · exact k2 p k
      · exact absurd k ht
    · intro ht
      obtain ⟨k1, k2, k3⟩ := e4 ht
      rcases h3 with ⟨rfl, rfl⟩ | ⟨k, _⟩ | ⟨_, rfl⟩
      · refine ⟨k1, by simpa [thrown] using k2, ?_⟩
        intro n b hb
        rcases List.mem_cons.1 hb with k | k
        · cases k
        · exact k3 n b k
      · exact absurd ht k
      · refine ⟨k1, by simp [thrown, k2], ?_⟩
        intro n b hb
        rcases List.mem_cons.1 hb with k | k
        · injection k
        · exact k3 n b k

theorem flagOf_set (t : Ty) (s : Strm F) : flagOf (c.set id s) t = flagOf c t := by cases t <;> rfl

/-- what the type says -/
theorem setUniType_cases (c : Conn E F) (s : Strm F) (x : Nat) :
    (∀ t, uniType x = some t → flagOf c t = false → ∃ c1, setUniType c s x = .ok (c1, { s with ty := t, ident := true, rv := {} }) ∧ c1.str = c.str ∧
      c1.server = c.server) ∧
    (∀ t, uniType x = some t → flagOf c t = true → setUniType c s x = .error Err.H3_STREAM_CREATION_ERROR) ∧
    (x = 1 → setUniType c s x = .error Err.H3_STREAM_CREATION_ERROR) ∧
    (3 < x → setUniType c s x = .ok (c, { s with ty := .unknown, ident := true, rv := {} })) := by
  refine ⟨fun t ht hf => ?_, fun t ht hf => ?_, ?_, fun hx => ?_⟩
  · unfold uniType at ht
    split at ht <;> cases ht <;> unfold flagOf at hf <;> simp [setUniType, hf]
  · unfold uniType at ht
    split at ht <;> cases ht <;> unfold flagOf at hf <;> simp [setUniType, hf]
  · rintro rfl; rfl
  · unfold setUniType
    rw [if_neg (by omega), if_neg (by omega), if_neg (by omega), if_neg (by omega)]

/-- nothing was passed on -/
def Silent (rs : List Ret) : Prop := ∀ r ∈ rs, r = .code 0 ∨ r = .route none

theorem Silent.facts {rs : List Ret} (h : Silent rs) : given rs = [] ∧ thrown rs = 0 ∧ (∀ r ∈ rs, failed r = false) ∧ ∀ n b, Ret.discard n b ∉ rs := by
  induction rs with
  | nil => simp [given, thrown]
  | cons x t ih =>
    obtain ⟨a, b, d, e⟩ := ih (fun r hr => h r (by simp [hr]))
    rcases h x (by simp) with rfl | rfl
    · refine ⟨a, b, fun r hr => ?_, fun n b hb => ?_⟩
      · rcases List.mem_cons.1 hr with rfl | k
        · rfl
        · exact d r k
      · rcases List.mem_cons.1 hb with k | k
        · cases k
        · exact e _ _ k
    · refine ⟨a, b, fun r hr => ?_, fun n b hb => ?_⟩
      · rcases List.mem_cons.1 hr with rfl | k
        · rfl
        · exact d r k
      · rcases List.mem_cons.1 hb with k | k
        · cases k
        · exact e _ _ k

theorem feed_append {l1 l2 : List Bytes} {rs : List Ret} : ∀ {c : Conn E F} (_ : feed c id l1 = .ok (c', rs)) (_ : ∀ r ∈ rs, failed r = false),
    feed c id (l1 ++ l2) = (feed c' id l2).bind fun q => .ok (q.1, rs ++ q.2) := by
  induction l1 generalizing rs with
  | nil =>
    intro c h _
    obtain ⟨rfl, rfl⟩ := Prod.mk.inj (R.ok.inj h)
    rw [List.nil_append]
    rcases feed c id l2 with _ | _ | _ | ⟨a, b⟩ <;> rfl
  | cons x t ih =>
    intro c h hf
    unfold feed at h
    obtain ⟨⟨c1, r⟩, e1, e2⟩ := bind_ok h
    dsimp only at e2
    rw [List.cons_append, feed_cons, e1]
    by_cases hr : failed r = true
    · rw [if_pos hr] at e2
      obtain ⟨rfl, rfl⟩ := Prod.mk.inj (R.ok.inj e2)
      rw [hf r (by simp)] at hr; cases hr
    · rw [if_neg hr] at e2
      obtain ⟨⟨c2, rs2⟩, e3, e4⟩ := bind_ok e2
      obtain ⟨rfl, rfl⟩ := Prod.mk.inj (R.ok.inj e4)
      simp only [R.bind]
      rw [if_neg hr, ih e3 (fun r h => hf r (by simp [h]))]
      rcases feed c2 id l2 with _ | _ | _ | ⟨a, b⟩ <;> rfl

theorem read_new (hp : peerUni c.server id) (h0 : c.str id = some s) (hi : s.ident = false) {y : Bytes} (hy : y ≠ []) (fin : Bool) :
    readUni c id y fin = (match rd s.rv y fin with
        | .crash => .crash
        | .err => .ok (c, .code Err.H3_GENERAL_PROTOCOL_ERROR)
        | .part rv => .ok (c.set id { s with rv := rv }, .route none)
        | .done v n =>
          match setUniType c s v with
          | .error e => .ok (c, .code e)
          | .ok (c', s') =>
            if n = y.length then .ok (c'.set id s', .route none)
            else
              match deliverUni s'.ty (y.drop n) fin with
              | .code e => .ok (c, .code e)
              | r => .ok (c'.set id s', r)) := by
  unfold readUni
  rw [if_neg (peer_asrt hp), h0]
  dsimp only
  have hy' : y.isEmpty = false := by cases y <;> simp_all
  rw [if_neg (by simp [hy']), if_neg (by simp [hi]), if_neg (by simp [hy'])]
  rfl

/-- the pieces up to the one that completes the type -/
theorem feed_wait {x : Nat} : ∀ (chunks : List Bytes) (c : Conn E F) (s : Strm F) (m : Nat), peerUni c.server id → c.str id = some s → s.ident = false →
    RvOk s.rv → rd s.rv chunks.flatten false = .done x m →
    ∃ l1 y l2 rv n rs, chunks = l1 ++ y :: l2 ∧ y ≠ [] ∧ feed c id l1 = .ok (c.set id { s with rv := rv }, rs) ∧ Silent rs ∧
      rd rv y false = .done x n ∧ n ≤ y.length ∧ y.drop n ++ l2.flatten = chunks.flatten.drop m := by
  intro chunks
  induction chunks with
  | nil =>
    intro c s m hp h0 hi hv hr
    rw [List.flatten_nil] at hr
    unfold rd readVarint at hr
    simp at hr
  | cons y t ih =>
    intro c s m hp h0 hi hv hr
    rw [List.flatten_cons] at hr ⊢
    have hset : c.set id { s with rv := s.rv } = c := by
      show ({ c with str := upd c.str id (some s) } : Conn E F) = c
      rw [← h0, upd_self]
    by_cases hy : y = []
    · subst hy
      obtain ⟨l1, y, l2, rv, n, rs, g1, g2, g3, g4, g5, g6, g7⟩ := ih c s m hp h0 hi hv hr
      have hr0 : readUni c id [] false = .ok (c, .code 0) := by
        unfold readUni
        rw [if_neg (peer_asrt hp), h0]; rfl
      refine ⟨[] :: l1, y, l2, rv, n, .code 0 :: rs, by rw [g1]; rfl, g2, ?_, ?_, g5, g6, g7⟩
      · rw [feed_cons]
        rw [hr0]
        simp only [R.bind, g3]
        rfl
      · intro r hr
        rcases List.mem_cons.1 hr with rfl | k
        · exact .inl rfl
        · exact g4 r k
    · have hs := rd_spec s.rv y false hv hy
      rcases he : rd s.rv y false with _ | _ | rv' | ⟨x', n'⟩ <;> rw [he] at hs
      · exact hs.elim
      · cases hs
      · obtain ⟨_, k1, k2, k3⟩ := hs
        have hne : t.flatten ≠ [] := by
          intro h; rw [h, List.append_nil, he] at hr; cases hr
        have h4 := k3 t.flatten false hne
        rw [hr] at h4
        rcases h5 : rd rv' t.flatten false with _ | _ | _ | ⟨x2, m2⟩ <;> rw [h5] at h4 <;> unfold Rd.shift at h4 <;> simp at h4
        obtain ⟨rfl, rfl⟩ := h4
        obtain ⟨l1, y2, l2, rv, n, rs, g1, g2, g3, g4, g5, g6, g7⟩ :=
          ih (c.set id { s with rv := rv' }) { s with rv := rv' } m2 hp (set_str _ _ _) hi k1 h5
        refine ⟨y :: l1, y2, l2, rv, n, .route none :: rs, by rw [g1]; rfl, g2, ?_, ?_, g5, g6, ?_⟩
        · rw [feed_cons]
          rw [read_new hp h0 hi hy, he]
          simp only [R.bind]
          rw [if_neg (by simp [failed]), g3, set_set]
        · intro r hr
          rcases List.mem_cons.1 hr with rfl | k
          · exact .inr rfl
          · exact g4 r k
        · rw [g7, List.drop_append]
          simp
      · obtain ⟨k1, k2, k3⟩ := hs
        have h4 := k3 (y.drop n' ++ t.flatten) false
        rw [← List.append_assoc, List.take_append_drop, hr] at h4
        simp at h4
        obtain ⟨rfl, rfl⟩ := h4
        refine ⟨[], y, t, s.rv, m, [], rfl, hy, ?_, fun r hr => (by cases hr), he, k2, ?_⟩
        · rw [hset]; rfl
        · rw [List.drop_append_of_le_length k2]

/-- a stream whose type is not known yet -/
theorem feed_new {x : Nat} {chunks : List Bytes} {m : Nat} (hp : peerUni c.server id) (h0 : c.str id = some s) (hi : s.ident = false)
    (hv : RvOk s.rv) (hr : rd s.rv chunks.flatten false = .done x m) :
    (∀ t, uniType x = some t → flagOf c t = false → ∃ c' rs, feed c id chunks = .ok (c', rs) ∧ (∀ r ∈ rs, failed r = false) ∧ IsUni c' t id ∧
      thrown rs = 0 ∧ (∀ p ∈ given rs, p.1 = t) ∧ (given rs).flatMap (·.2) = chunks.flatten.drop m) ∧
    (3 < x → ∃ c' rs, feed c id chunks = .ok (c', rs) ∧ (∀ r ∈ rs, failed r = false) ∧ IsUni c' .unknown id ∧
      given rs = [] ∧ thrown rs = (chunks.flatten.drop m).length ∧ ∀ n b, Ret.discard n b ∈ rs → b = true) ∧
    ((x = 1 ∨ ∃ t, uniType x = some t ∧ flagOf c t = true) → ∃ c' rs, feed c id chunks = .ok (c', rs ++ [.code Err.H3_STREAM_CREATION_ERROR]) ∧
      (∀ r ∈ rs, failed r = false) ∧ given rs = [] ∧ thrown rs = 0 ∧ ∀ t y, IsUni c' t y ↔ IsUni c t y) := by
  obtain ⟨l1, y, l2, rv, n, rs, g1, g2, g3, g4, g5, g6, g7⟩ := feed_wait chunks c s m hp h0 hi hv hr
  obtain ⟨s1, s2, s3, s4⟩ := g4.facts
  have hfl : ∀ t, flagOf (c.set id { s with rv := rv }) t = flagOf c t := fun t => flagOf_set t _
  obtain ⟨t1, t2, t3, t4⟩ := setUniType_cases (c.set id { s with rv := rv }) { s with rv := rv } x
  have hread := read_new (c := c.set id { s with rv := rv }) (s := { s with rv := rv }) hp (set_str _ _ _) hi g2 false
  rw [g5] at hread
  dsimp only at hread
  have hfeed : ∀ q, feed (c.set id { s with rv := rv }) id (y :: l2) = .ok q → feed c id chunks = .ok (q.1, rs ++ q.2) := by
    intro q hq
    rw [g1, feed_append g3 s3, hq]; rfl
  have hap : ∀ (a b : List Ret), thrown (a ++ b) = thrown a + thrown b := by
    intro a b
    induction a with
    | nil => simp [thrown]
    | cons x t ih => rcases x with e | p | r | ⟨n, s⟩ <;> simp only [List.cons_append, thrown, ih] ; omega
  -- the stream got its type
  have known : ∀ (c1 : Conn E F) (t : Ty), setUniType (c.set id { s with rv := rv }) { s with rv := rv } x = .ok (c1, { s with ty := t, ident := true, rv := {} }) →
      c1.server = c.server →
      ∃ c' rs, feed c id chunks = .ok (c', rs) ∧ (∀ r ∈ rs, failed r = false) ∧ IsUni c' t id ∧
      (t ≠ .unknown → thrown rs = 0 ∧ (∀ p ∈ given rs, p.1 = t) ∧ (given rs).flatMap (·.2) = chunks.flatten.drop m) ∧
      (t = .unknown → given rs = [] ∧ thrown rs = (chunks.flatten.drop m).length ∧ ∀ n b, Ret.discard n b ∈ rs → b = true) := by
    intro c1 t ht hsv
    rw [ht] at hread
    dsimp only at hread
    obtain ⟨rs2, f1, f2, f3, f4⟩ := feed_known (c := c1.set id { s with ty := t, ident := true, rv := {} }) (id := id)
      (s := { s with ty := t, ident := true, rv := {} }) (by show peerUni c1.server id; rw [hsv]; exact hp) (set_str _ _ _) rfl l2
    have hu : IsUni (c1.set id { s with ty := t, ident := true, rv := {} }) t id := ⟨_, set_str _ _ _, rfl, rfl⟩
    by_cases hn : n = y.length
    · rw [if_pos hn] at hread
      refine ⟨_, _, hfeed (_, .route none :: rs2) ?_, ?_, hu, fun k => ?_, fun k => ?_⟩
      · rw [feed_cons]
        rw [hread]
        simp only [R.bind]
        rw [if_neg (by simp [failed]), f1]; rfl
      · intro r hr
        rcases List.mem_append.1 hr with k | k
        · exact s3 r k
        · rcases List.mem_cons.1 k with rfl | k
          · rfl
          · exact f2 r k
      · obtain ⟨a1, a2, a3⟩ := f3 k
        rw [hap, given_append, s1, s2]
        refine ⟨by simpa [thrown] using a1, by simpa [given] using a2, ?_⟩
        rw [← g7, hn, List.drop_length, List.nil_append]
        simpa [given] using a3
      · obtain ⟨a1, a2, a3⟩ := f4 k
        rw [hap, given_append, s1, s2]
        refine ⟨by simpa [given] using a1, ?_, ?_⟩
        · rw [← g7, hn, List.drop_length, List.nil_append]
          simpa [thrown] using a2
        · intro n b hb
          rcases List.mem_append.1 hb with k | k
          · exact absurd k (s4 n b)
          · rcases List.mem_cons.1 k with k | k
            · cases k
            · exact a3 n b k
    · rw [if_neg hn] at hread
      by_cases hk : t = .unknown
      · subst hk
        unfold deliverUni at hread
        dsimp only at hread
        refine ⟨_, _, hfeed (_, .discard (y.drop n).length true :: rs2) ?_, ?_, hu, fun k => absurd rfl k, fun k => ?_⟩
        · rw [feed_cons]
          rw [hread]
          simp only [R.bind]
          rw [if_neg (by simp [failed]), f1]; rfl
        · intro r hr
          rcases List.mem_append.1 hr with k | k
          · exact s3 r k
          · rcases List.mem_cons.1 k with rfl | k
            · rfl
            · exact f2 r k
        · obtain ⟨a1, a2, a3⟩ := f4 k
          rw [hap, given_append, s1, s2]
          refine ⟨by simpa [given] using a1, ?_, ?_⟩
          · rw [← g7, List.length_append]
            simp only [thrown, a2]
            omega
          · intro n b hb
            rcases List.mem_append.1 hb with k | k
            · exact absurd k (s4 n b)
            · rcases List.mem_cons.1 k with k | k
              · injection k
              · exact a3 n b k
      · rw [deliver_known hk] at hread
        dsimp only at hread
        refine ⟨_, _, hfeed (_, .route (some (t, y.drop n)) :: rs2) ?_, ?_, hu, fun k => ?_, fun k => absurd k hk⟩
        · rw [feed_cons]
          rw [hread]
          simp only [R.bind]
          rw [if_neg (by simp [failed]), f1]; rfl
        · intro r hr
          rcases List.mem_append.1 hr with k | k
          · exact s3 r k
          · rcases List.mem_cons.1 k with rfl | k
            · rfl
            · exact f2 r k
        · obtain ⟨a1, a2, a3⟩ := f3 k
          rw [hap, given_append, s1, s2]
          refine ⟨by simpa [thrown] using a1, ?_, ?_⟩
          · intro p hp
            rcases List.mem_cons.1 hp with rfl | k
            · rfl
            · exact a2 p k
          · rw [← g7, List.nil_append]
            simp [given, a3]
  refine ⟨fun t ht hf => ?_, fun hx => ?_, fun hx => ?_⟩
  · obtain ⟨c1, k1, _, k3⟩ := t1 t ht (by rw [hfl]; exact hf)
    obtain ⟨c2, rs2, m1, m2, m3, m4, _⟩ := known c1 t k1 k3
    exact ⟨c2, rs2, m1, m2, m3, m4 (by rintro rfl; unfold uniType at ht; split at ht <;> cases ht)⟩
  · obtain ⟨c2, rs2, m1, m2, m3, _, m4⟩ := known _ _ (t4 hx) rfl
    exact ⟨c2, rs2, m1, m2, m3, m4 rfl⟩
  · have he : setUniType (c.set id { s with rv := rv }) { s with rv := rv } x = .error Err.H3_STREAM_CREATION_ERROR := by
      rcases hx with hx | ⟨t, hx, hf⟩
      · exact t3 hx
      · exact t2 t hx (by rw [hfl]; exact hf)
    rw [he] at hread
    dsimp only at hread
    refine ⟨c.set id { s with rv := rv }, rs, hfeed (c.set id { s with rv := rv }, [.code Err.H3_STREAM_CREATION_ERROR]) ?_, s3, s1, s2, fun t z => ?_⟩
    · rw [feed_cons]
      rw [hread]
      simp only [R.bind]
      rw [if_pos (by decide)]
    · have ho : IdOk c (c.set id { s with rv := rv }) := id_one one_set h0 rfl rfl
      refine ⟨ho.isUni, fun ⟨s1, k1, k2, k3⟩ => ?_⟩
      by_cases hz : z = id
      · subst hz; rw [h0] at k1; cases k1; rw [hi] at k2; cases k2
      · exact ⟨s1, by rw [set_ne _ _ _ _ hz]; exact k1, k2, k3⟩

end Conn
end Nghttp3
