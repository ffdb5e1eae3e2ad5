import Verif.Lemmas.BidiZero
import Verif.Lemmas.EndpointLog
import Verif.Lemmas.EndpointSame
import Verif.Spec.Alone
/-! The life of a stream whose field sections do not refer to the dynamic table. -/
namespace Nghttp3
namespace Bidi
open Http Qpack

theorem aBidi_zero {c : Cfg} {room fin : Bool} {s : Str} {d : Dec} {x : Bytes} (hi : Inv s d) (hbl : s.blocked = false) (hb : Blank d) (hz : Zero s.sc)
    {s1 : Str} {d1 : Dec} {o : List Obs} {n : Nat} {r : Bytes} (h : aBidi c room fin s d x = .ok s1 d1 o n r) :
    (fin = false → Inv s1 d1) ∧ s1.blocked = false ∧ Flags s s1 ∧ Blank d1 ∧ Zero s1.sc := by
  have hf := run_facts c room s d [] 0 x hi hbl
  have hl := run_like (b := s.priFixed) (c0 := c) (c := c) ⟨rfl, rfl, rfl⟩ room room ⟨s, d, [], 0⟩ ⟨s, d, [], 0⟩ x ⟨rfl, hb, hz, rfl, rfl⟩
  unfold aBidi at h
  rcases h1 : bRun c room ⟨s, d, [], 0⟩ x with _ | (e | _) | ⟨q, rest⟩ | m <;> rw [h1] at hl h hf
  · cases h
  · cases h
  · cases h
  · exact hl.elim
  dsimp only at hf
  dsimp only [aFinish] at h
  obtain ⟨k1, k2, _⟩ := aDone_like (b := m.s.priFixed) (m' := m) ⟨rfl, hl.1.1, hl.1.2, rfl, rfl⟩ h
  have hn := norm_flags m.s
  unfold aDone at h
  cases fin
  · cases h
    exact ⟨fun _ => hf.1.norm, hn.2.1.trans hf.2.2, hf.2.1.norm, k1, k2⟩
  refine ⟨fun g => (by cases g), ?_, ?_, k1, k2⟩ <;> clear k1 k2
  all_goals
    rw [if_pos rfl] at h
    rcases hr : m.s.rst with _ | _ | _ | _ | _ | _ <;> rw [hr] at h <;> dsimp only at h <;> try (cases h; done)
  · by_cases h0 : m.s.rv.left ≠ 0
    · rw [if_pos h0] at h; cases h
    rw [if_neg h0] at h
    rcases ht : transit m.s.h m.s.http .msgEnd with _ | _ | _ | h' <;> rw [ht] at h <;> dsimp only at h <;> try (cases h; done)
    cases h
    exact (norm_flags { m.s with h := h' }).2.1.trans hf.2.2
  · cases h; exact hn.2.1.trans hf.2.2
  · by_cases h0 : m.s.rv.left ≠ 0
    · rw [if_pos h0] at h; cases h
    rw [if_neg h0] at h
    rcases ht : transit m.s.h m.s.http .msgEnd with _ | _ | _ | h' <;> rw [ht] at h <;> dsimp only at h <;> try (cases h; done)
    cases h
    exact Flags.norm (s' := { m.s with h := h' }) ⟨hf.2.1.1, hf.2.1.2⟩
  · cases h; exact hf.2.1.norm

theorem canon_pf (s : Str) : s.canon.priFixed = s.priFixed := by
  unfold Str.canon Str.norm; dsimp only; split_ifs <;> rfl

theorem canon_inv {s : Str} {d : Dec} (h : SInv s d) : Inv s.canon d := by
  have := h.inv.norm
  exact ⟨this.ctx, this.wf, this.idle, this.rv, this.hok, this.left⟩

theorem SInv.pri {s : Str} {d : Dec} (h : SInv s d) (b : Bool) : SInv { s with priFixed := b } d :=
  ⟨inv_of h.inv rfl rfl rfl rfl rfl, h.buf, h.inq, h.blk⟩

end Bidi

namespace Endpoint
open Conn (clientBidi)
open Qpack (Dec SCtx Blank)
open Bidi (aBidi aRecv obs SameObs)


theorem flat_snoc (g : List (Bytes × Bool)) (x : Bytes) (b : Bool) : flat (g ++ [(x, b)]) = flat g ++ x := by
  unfold flat; rw [List.map_append, List.flatten_append]; simp

variable {K : Bidi.Cfg} {Q : Bool → List Http.Field → Prop} {S : Prop}

/-- what one decoder without table would do with all the bytes at once -/
structure Ran (K : Bidi.Cfg) (req : List Http.Field) (fin : Bool) (Y : Bytes) (e : List Bidi.Ev) (s : Bidi.Str) (s1 : Bidi.Str) (d1 : Dec) (o : List Bidi.Obs) (n : Nat) (r : Bytes) : Prop where
  run : aBidi { K with req := req } true fin (Bidi.Str.new { K with req := req }) blank Y = .ok s1 d1 o n r
  canon : fin = false → s.canon = { s1 with priFixed := s.priFixed }
  obs : SameObs (obs e) o
  blk : s.blocked = false
  shut : s.shutRd = false

theorem new_inv (c : Bidi.Cfg) : Bidi.Inv (Bidi.Str.new c) blank := by
  refine ⟨Qpack.CtxOk.init 0 0, Qpack.SWF.init _, ?_, Nghttp3.rvOk_idle, ?_, fun h => by cases h⟩
  · intro h; cases h
  · unfold Bidi.Str.new Bidi.HOk; cases c.server <;> simp

/-- one more piece -/
theorem ran_step {req : List Http.Field} {Y : Bytes} {e : List Bidi.Ev} {s s1 : Bidi.Str} {d1 : Dec} {o : List Bidi.Obs} {n : Nat} {r : Bytes}
    (h : Ran K req false Y e s s1 d1 o n r) {d : Dec} {b room fin : Bool} {src : Bytes} {s' : Bidi.Str} {d' : Dec} {ev : List Bidi.Ev} {u : Nat} {rest : Bytes} (hs : Bidi.SInv s d)
    (hr : Bidi.readStream K room fin { s with priFixed := b } d src = .ok s' d' ev u rest)
    {s2 : Bidi.Str} {d2 : Dec} {o2 : List Bidi.Obs} {n2 : Nat} {r2 : Bytes}
    (hok : aBidi { K with req := req } true fin (Bidi.Str.new { K with req := req }) blank (Y ++ src) = .ok s2 d2 o2 n2 r2) :
    Ran K req fin (Y ++ src) (e ++ ev) s' s2 d2 o2 n2 r2 := by
  obtain ⟨z1, z2, z3, z4, z5⟩ := Bidi.aBidi_zero (new_inv _) rfl (show Blank blank from rfl) (Qpack.Zero.init _) h.run
  obtain ⟨_, y2, y3, _, _⟩ := Bidi.aBidi_zero (new_inv _) rfl (show Blank blank from rfl) (Qpack.Zero.init _) hok
  have hi1 := z1 rfl
  have hcan := h.canon rfl
  have he1 : s1.eof = false := z3.2.2.1
  by_cases h0 : src = [] ∧ fin = false
  · obtain ⟨rfl, rfl⟩ := h0
    rw [List.append_nil] at hok ⊢
    have := h.run.symm.trans hok
    cases this
    unfold Bidi.readStream at hr
    rw [if_pos ⟨rfl, rfl⟩] at hr
    cases hr
    rw [List.append_nil]
    exact ⟨h.run, fun _ => by rw [canon_fixed, hcan], h.obs, h.blk, h.shut⟩
  have hap := Bidi.aBidi_append { K with req := req } true fin (Bidi.Str.new { K with req := req }) blank Y src (new_inv _) rfl
  rw [h.run, hok] at hap
  dsimp only at hap
  rw [if_neg (by rw [z2]; simp)] at hap
  rcases h3 : aBidi { K with req := req } true fin s1 d1 src with _ | e3 | ⟨s3, d3, o3, n3, r3⟩ <;> rw [h3] at hap <;> dsimp only [Bidi.ARes.shift] at hap <;> cases hap
  have hef := Bidi.aBidi_eof { K with req := req } true fin s1 d1 src fin hi1 z2
  rw [h3] at hef
  dsimp only [Bidi.ARes.mapS] at hef
  obtain ⟨_, _, hlk⟩ := Bidi.aBidi_like (b := b) (c0 := { K with req := req }) (c := K) ⟨rfl, rfl, rfl⟩ true room fin { s1 with eof := fin } d1 d src z4 z5 hef
  have hsim := Bidi.recv_sim K room fin { s with priFixed := b } d src (sinv_fixed hs b)
  have hca : ({ s with priFixed := b } : Bidi.Str).canon = { s1 with priFixed := b } := by rw [canon_fixed, hcan]
  rw [hca, hr] at hsim
  have har : aRecv K room fin { s1 with priFixed := b } d src = aBidi K room fin { { s1 with eof := fin } with priFixed := b } d src := by
    unfold aRecv
    rw [if_neg h0]
    dsimp only
    have hsh : s1.shutRd = false := z3.2.1
    rw [if_neg (by rw [hsh]; simp), if_neg (by rw [z2]; simp), he1]
    rfl
  rw [har] at hsim
  rcases hlk with ⟨e', hlk⟩ | ⟨d4, o4, hso, hlk⟩ <;> rw [hlk] at hsim
  · cases (show Bidi.Out.ok _ _ _ _ _ = _ from hsim)
  obtain ⟨t, ev', n', rest', q1, q2, q3, _⟩ := hsim
  cases q1
  have hcf := Bidi.canon_flags s'
  refine ⟨hok, fun hf => ?_, ?_, ?_, ?_⟩
  · subst hf
    have hp : s'.priFixed = b := by rw [← Bidi.canon_pf, q2]
    have : s2.eof = false := y3.2.2.1
    rw [q2, hp]
    simp only [this]
  · rw [Bidi.obs_append]
    exact h.obs.append (by rw [q3]; exact hso)
  · rw [← hcf.1, q2]; exact y2
  · rw [← hcf.2.1, q2]; exact y3.2.1

/-- what has become of a stream: not there; refused; or `Ran` -/
inductive Fate (K : Bidi.Cfg) (Q : Bool → List Http.Field → Prop) (g : List (Bytes × Bool)) (e : List Bidi.Ev) : Option Bidi.Str → Prop where
  | none (h1 : g = []) (h2 : e = []) : Fate K Q g e none
  | refused (s : Bidi.Str) (h : Q true []) (ho : obs e = [.stopSending 0x010b, .resetStream 0x010b]) (hr : s.rst = .ignRest) (hb : s.blocked = false) (hs : s.shutRd = false) :
      Fate K Q g e (some s)
  | ran (s : Bidi.Str) (req : List Http.Field) (h : Q false req)
      (h0 : (∀ p ∈ g, p.2 = false) → ∀ s1 d1 o n r, aBidi { K with req := req } true false (Bidi.Str.new { K with req := req }) blank (flat g) = .ok s1 d1 o n r →
        Ran K req false (flat g) e s s1 d1 o n r)
      (h1 : ∀ (g' : List (Bytes × Bool)) (last : Bytes), g = g' ++ [(last, true)] → (∀ p ∈ g', p.2 = false) → ∀ s1 d1 o n r,
        aBidi { K with req := req } true true (Bidi.Str.new { K with req := req }) blank (flat g) = .ok s1 d1 o n r → Ran K req true (flat g) e s s1 d1 o n r) :
      Fate K Q g e (some s)

/-- what can happen to a stream that arrives in order, is neither shut down nor closed -/
def OkPieces (K : Bidi.Cfg) (Q : Bool → List Http.Field → Prop) (g : List (Bytes × Bool)) : Prop :=
  ∃ X fin, Arrives g X fin ∧ ∀ req, Q false req → ∃ s1 d1 o n r, aBidi { K with req := req } true fin (Bidi.Str.new { K with req := req }) blank X = .ok s1 d1 o n r

theorem aBidi_prefix {c : Bidi.Cfg} {room fin : Bool} {s : Bidi.Str} {d : Dec} {x y : Bytes} (hi : Bidi.Inv s d) (hb : s.blocked = false)
    {s1 : Bidi.Str} {d1 : Dec} {o : List Bidi.Obs} {n : Nat} {r : Bytes} (h : aBidi c room fin s d (x ++ y) = .ok s1 d1 o n r) :
    ∃ s2 d2 o2 n2 r2, aBidi c room false s d x = .ok s2 d2 o2 n2 r2 ∧ o2 <+: o := by
  rw [Bidi.aBidi_append c room fin s d x y hi hb] at h
  rcases ha : aBidi c room false s d x with _ | e | ⟨s2, d2, o2, n2, r2⟩ <;> rw [ha] at h
  · cases h
  · cases h
  refine ⟨s2, d2, o2, n2, r2, rfl, ?_⟩
  dsimp only at h
  generalize (if s2.blocked = true then Bidi.ARes.ok { s2 with inq := Bidi.pack (Bidi.buffered s2 ++ y) } d2 [] 0 [] else aBidi c room fin s2 d2 y) = q at h
  rcases q with _ | _ | ⟨s3, d3, o3, n3, r3⟩ <;> cases h
  exact ⟨o3, rfl⟩

/-- before the last piece, and (if it came without fin) after it -/
theorem OkPieces.pre {g : List (Bytes × Bool)} {x : Bytes} {b : Bool} (h : OkPieces K Q (g ++ [(x, b)])) : OkPieces K Q g ∧ ∀ p ∈ g, p.2 = false := by
  obtain ⟨X, fin, ha, hr⟩ := h
  rcases ha with ⟨h1, h2⟩ | ⟨h1, h2, g', last, h3, h4⟩
  · refine ⟨⟨X, fin, Or.inl ⟨fun p hp => h1 p (List.mem_append_left _ hp), ?_⟩, hr⟩, fun p hp => h1 p (List.mem_append_left _ hp)⟩
    rw [flat_snoc] at h2
    exact (List.prefix_append _ _).trans h2
  · obtain ⟨rfl, h5⟩ := List.append_inj_left' h3 rfl |> fun q => (⟨q, List.append_inj_right' h3 rfl⟩ : g = g' ∧ _)
    refine ⟨⟨X, fin, Or.inl ⟨h4, ?_⟩, hr⟩, h4⟩
    rw [flat_snoc] at h2
    exact ⟨x, h2⟩

/-- a stream whose input is ignored -/
theorem ignored_step {s : Bidi.Str} {d : Dec} {b room fin : Bool} {src : Bytes} {s' : Bidi.Str} {d' : Dec} {ev : List Bidi.Ev} {u : Nat} {rest : Bytes} (hs : Bidi.SInv s d)
    (hr : s.rst = .ignRest) (hb : s.blocked = false) (hsh : s.shutRd = false) (h : Bidi.readStream K room fin { s with priFixed := b } d src = .ok s' d' ev u rest) :
    obs ev = [] ∧ s'.rst = .ignRest ∧ s'.blocked = false ∧ s'.shutRd = false := by
  have hsim := Bidi.recv_sim K room fin { s with priFixed := b } d src (sinv_fixed hs b)
  rw [h] at hsim
  have hcr : ∀ t : Bidi.Str, t.canon.rst = t.rst := fun t => Bidi.norm_rst t
  have hcf := Bidi.canon_flags { s with priFixed := b }
  generalize hc : ({ s with priFixed := b } : Bidi.Str).canon = t at hsim hcf
  have ht : t.rst = .ignRest := by rw [← hc, hcr]; exact hr
  have tb : t.blocked = false := hcf.1.trans hb
  have tsh : t.shutRd = false := hcf.2.1.trans hsh
  have hrun : ∀ t : Bidi.Str, t.rst = .ignRest → Bidi.bRun K room ⟨t, d, [], 0⟩ src = .ok ⟨t, d, [], src.length⟩ := by
    intro t ht
    unfold Bidi.bRun Machine.run Machine.loop
    by_cases hx : src = []
    · subst hx; simp
    · rw [if_neg (by simp [hx])]
      have : Bidi.mStep K room ⟨t, d, [], 0⟩ src = .ret ⟨t, d, [], src.length⟩ := by
        unfold Bidi.mStep Bidi.step; dsimp only; rw [ht]; dsimp only [Bidi.view]; rw [Nat.zero_add]; rfl
      rw [this]
  have har : ∃ t1, aRecv K room fin t d src = .ok t1 d [] src.length [] ∧ t1.rst = .ignRest ∧ t1.blocked = false ∧ t1.shutRd = false := by
    unfold aRecv
    by_cases h0 : src = [] ∧ fin = false
    · rw [if_pos h0]
      exact ⟨t, by rw [h0.1]; rfl, ht, tb, tsh⟩
    rw [if_neg h0]
    dsimp only
    rw [if_neg (by rw [tsh]; simp), if_neg (by rw [tb]; simp)]
    refine ⟨({ t with eof := t.eof || fin } : Bidi.Str).norm, ?_, (Bidi.norm_rst _).trans ht, (Bidi.norm_flags _).2.1.trans tb, (Bidi.norm_flags _).2.2.1.trans tsh⟩
    unfold aBidi
    rw [hrun _ (show ({ t with eof := t.eof || fin } : Bidi.Str).rst = .ignRest from ht)]
    dsimp only [Bidi.aFinish]
    unfold Bidi.aDone
    dsimp only
    rw [ht]
    cases fin <;> rfl
  obtain ⟨t1, e1, e2, e3, e4⟩ := har
  rw [e1] at hsim
  obtain ⟨t2, ev', n', rest', q1, q2, q3, _⟩ := hsim
  cases q1
  have hcf' := Bidi.canon_flags s'
  exact ⟨q3, by rw [← hcr s', q2]; exact e2, by rw [← hcf'.1, q2]; exact e3, by rw [← hcf'.2.1, q2]; exact e4⟩

/-- a stream that all went well with is not blocked -/
theorem Fate.blk {g : List (Bytes × Bool)} {e : List Bidi.Ev} {s : Bidi.Str} (h : Fate K Q g e (some s)) (hp : OkPieces K Q g) : s.blocked = false := by
  obtain ⟨X, fin, ha, hok⟩ := hp
  cases h with
  | refused _ h ho hr hb hs => exact hb
  | ran _ req hq h0 h1 =>
    obtain ⟨s1, d1, o, n, r, hok⟩ := hok req hq
    rcases ha with ⟨a1, y, hy⟩ | ⟨rfl, a2, g', last, a3, a4⟩
    · rw [← hy] at hok
      obtain ⟨s2, d2, o2, n2, r2, hok2, _⟩ := aBidi_prefix (new_inv _) rfl hok
      exact (h0 a1 _ _ _ _ _ hok2).blk
    · rw [← a2] at hok
      exact (h1 g' last a3 a4 _ _ _ _ _ hok).blk

theorem chain_fate (hS : ¬ S) {g : List (Bytes × Bool)} {e : List Bidi.Ev} {u : Int} {v : Option Bidi.Str} (h : Chain K Q S none g e u v)
    (hcl : Bidi.Ev.streamClose ∉ e) (hp : OkPieces K Q g) : Fate K Q g e v := by
  generalize ha : (none : Option Bidi.Str) = a at h
  induction h with
  | refl => subst ha; exact .none rfl rfl
  | step h1 h2 ih =>
    have hcl1 := fun q => hcl (List.mem_append_left _ q)
    have hcl2 := fun q => hcl (List.mem_append_right _ q)
    cases h2 with
    | made req hq =>
      rw [List.append_nil] at hp
      have ih := ih hcl1 hp
      rcases ih with ⟨rfl, rfl⟩
      refine .ran _ req hq (fun _ s1 d1 o n r hr => ?_) (fun g' last hg => by simp at hg)
      have : aBidi { K with req := req } true false (Bidi.Str.new { K with req := req }) blank [] = .ok (Bidi.Str.new { K with req := req }) blank [] 0 [] := by
        unfold aBidi; rw [Bidi.bRun_nil]; rfl
      have hr' := hr
      rw [show flat ([] ++ [] : List (Bytes × Bool)) = [] from rfl, this] at hr'
      cases hr'
      exact ⟨hr, fun _ => rfl, rfl, rfl, rfl⟩
    | refused hq =>
      rw [List.append_nil] at hp
      have ih := ih hcl1 hp
      rcases ih with ⟨rfl, rfl⟩
      exact .refused _ hq rfl rfl rfl rfl
    | recv s d b room fin src s' d' ev n rest hs hr =>
      rename_i g0 e0 e1 _
      obtain ⟨hp1, hnf⟩ := hp.pre
      cases ih hcl1 hp1 with
      | refused _ hq ho hrst hb hsh =>
        obtain ⟨w1, w2, w3, w4⟩ := ignored_step hs hrst hb hsh hr
        exact .refused _ hq (by rw [Bidi.obs_append, ho, w1]; rfl) w2 w3 w4
      | ran _ req hq k0 k1 =>
        have key : ∀ s1 d1 o n r, aBidi { K with req := req } true fin (Bidi.Str.new { K with req := req }) blank (flat (g0 ++ [(src, fin)])) = .ok s1 d1 o n r →
            Ran K req fin (flat (g0 ++ [(src, fin)])) (e0 ++ e1) s' s1 d1 o n r := by
          intro s1 d1 o n r hok
          rw [flat_snoc] at hok ⊢
          obtain ⟨s2, d2, o2, n2, r2, hok2, _⟩ := aBidi_prefix (new_inv _) rfl hok
          exact ran_step (k0 hnf _ _ _ _ _ hok2) hs hr hok
        refine .ran _ req hq (fun hall => ?_) (fun g' last hg _ => ?_)
        · have : fin = false := hall _ (List.mem_append_right _ (List.mem_singleton.2 rfl))
          subst this
          exact key
        · have : fin = true := by
            have := List.append_inj_right' hg rfl
            simp only [List.cons.injEq, Prod.mk.injEq, and_true] at this
            exact this.2
          subst this
          exact key
    | woken s d b room s' d' ev n rest hs hg hb hn hr =>
      rw [List.append_nil] at hp
      exact absurd hb (by rw [(ih hcl1 hp).blk hp]; simp)
    | shut s hs => exact absurd hs hS
    | closed s d s' d' ev n rest hs hg hr =>
      rw [List.append_nil] at hp
      have := (ih hcl1 hp).blk hp
      unfold Bidi.closeStream at hr
      rw [if_neg (by rw [this]; simp)] at hr
      cases hr
      exact absurd (List.mem_append_right _ (List.mem_singleton.2 rfl)) hcl2

end Endpoint
end Nghttp3
