import Verif.Lemmas.HttpResponse
/-! Trailer sections. -/
namespace Nghttp3
namespace Http
open Qpack Spec

structure TrGood (hostSeen : Bool) (fs : List Fld) : Prop where
  regular : ∀ f ∈ fs, isPseudo f = false ∧ RegularOk f
  host : (hostVals fs).length ≤ (if hostSeen then 0 else 1) ∧ ∀ v ∈ hostVals fs, v ≠ []

theorem trailersOk_request (hostSeen : Bool) (fs : List Fld) : TrailersOk true hostSeen fs ↔ TrGood hostSeen fs := by
  constructor
  · intro h
    refine ⟨fun f hf => ⟨by simpa using h.noPseudo f hf, h.regular f hf⟩, ?_⟩
    have := h.host rfl
    rw [hosts_eq] at this; exact this
  · intro h
    refine ⟨fun f hf => by rw [(h.regular f hf).1]; simp, fun f hf => (h.regular f hf).2, fun _ => ?_⟩
    rw [hosts_eq]; exact h.host

theorem trailersOk_response (hostSeen : Bool) (fs : List Fld) : TrailersOk false hostSeen fs ↔ RegGood .dropped fs := by
  constructor
  · intro h
    exact ⟨fun f hf => ⟨by simpa using h.noPseudo f hf, h.regular f hf⟩, trivial⟩
  · intro h
    exact ⟨fun f hf => by rw [(h.regular f hf).1]; simp, fun f hf => (h.regular f hf).2, fun h => by cases h⟩

theorem deliverTrailer_response (f : Fld) (h : isPseudo f = false) : deliverTrailer false f = deliverResponse .dropped f := by
  unfold deliverTrailer deliverResponse
  rw [h]
  simp

structure TrInv (s0 : State) (done : List Fld) (s : State) : Prop where
  host : s.host = (s0.host || !(hostVals done).isEmpty)
  cl : s.contentLength = s0.contentLength
  recv : s.recvContentLength = s0.recvContentLength
  final : s.expectFinal = s0.expectFinal

theorem trGood_snoc {b : Bool} {fs : List Fld} {f : Fld} (h : TrGood b (fs ++ [f])) :
    TrGood b fs ∧ isPseudo f = false ∧ RegularOk f ∧
      (nmOf f.1 = .host → f.2.all isAuthorityChar = true → b = false ∧ hostVals fs = [] ∧ f.2 ≠ []) := by
  have h2 := h.host
  rw [hostVals_snoc] at h2
  refine ⟨⟨fun g hg => h.regular g (by simp [hg]), ?_, ?_⟩, (h.regular f (by simp)).1, (h.regular f (by simp)).2, ?_⟩
  · have := h2.1; rw [List.length_append] at this; omega
  · intro v hv; exact h2.2 v (List.mem_append_left _ hv)
  · intro hk ha
    rw [if_pos ⟨hk, ha⟩] at h2
    obtain ⟨h3, h4⟩ := h2
    rw [List.length_append, List.length_singleton] at h3
    cases b
    · simp only [Bool.false_eq_true, if_false] at h3
      exact ⟨rfl, List.length_eq_zero_iff.1 (by omega), h4 f.2 (by simp)⟩
    · simp only [if_true] at h3; omega

theorem trGood_prefix {c : Bool} {a b : List Fld} (h : TrGood c (a ++ b)) : TrGood c a := by
  induction b using List.reverseRecOn with
  | nil => simpa using h
  | append_singleton b x ih =>
    rw [← List.append_assoc] at h
    exact ih (trGood_snoc h).1

theorem trGood_add {b : Bool} {fs : List Fld} {f : Fld} (hg : TrGood b fs) (hp : isPseudo f = false) (ho : RegularOk f)
    (hh : nmOf f.1 = .host → f.2.all isAuthorityChar = true → b = false ∧ hostVals fs = [] ∧ f.2 ≠ []) : TrGood b (fs ++ [f]) := by
  refine ⟨fun g hgm => ?_, ?_⟩
  · rcases List.mem_append.1 hgm with h | h
    · exact hg.regular g h
    · rw [List.mem_singleton.1 h]; exact ⟨hp, ho⟩
  · rw [hostVals_snoc]
    by_cases hk : nmOf f.1 = .host ∧ f.2.all isAuthorityChar = true
    · rw [if_pos hk]
      obtain ⟨h1, h2, h3⟩ := hh hk.1 hk.2
      rw [h1, h2]
      exact ⟨by simp, by simpa using h3⟩
    · rw [if_neg hk, List.append_nil]; exact hg.host

def TrStepOk (s0 : State) (done : List Fld) (f : Field) (res : Res) : Prop :=
  match res with
  | .malformed => ¬ TrGood s0.host (done ++ [fl f])
  | .remove s => TrGood s0.host (done ++ [fl f]) ∧ TrInv s0 (done ++ [fl f]) s ∧ deliverTrailer true (fl f) = false
  | .ok s => TrGood s0.host (done ++ [fl f]) ∧ TrInv s0 (done ++ [fl f]) s ∧ deliverTrailer true (fl f) = true

theorem trInv_add {s0 : State} {done : List Fld} {s : State} {f : Fld} (hi : TrInv s0 done s) (s' : State)
    (hh : s'.host = (s.host || (nmOf f.1 = .host && f.2.all isAuthorityChar))) (hc : s'.contentLength = s.contentLength)
    (hr : s'.recvContentLength = s.recvContentLength) (hf : s'.expectFinal = s.expectFinal) : TrInv s0 (done ++ [f]) s' := by
  refine ⟨?_, hc.trans hi.cl, hr.trans hi.recv, hf.trans hi.final⟩
  rw [hh, hi.host, hostVals_snoc]
  by_cases hk : nmOf f.1 = .host
  · cases ha : f.2.all isAuthorityChar
    · rw [if_neg (by simp)]; simp
    · rw [if_pos ⟨hk, rfl⟩]; simp [hk]
  · rw [if_neg (fun h => hk h.1)]; simp [hk]

theorem tr_step (pp : Pri → List UInt8 → Option Pri) (cp : Bool) (s0 : State) (done : List Fld) (s : State) (f : Field)
    (hg : TrGood s0.host done) (hi : TrInv s0 done s) : TrStepOk s0 done f (onHeader pp s f (lookupToken f.name) true true cp) := by
  have hp := isPseudo_iff f
  have hfl1 : (fl f).1 = f.name := rfl
  have hfl2 : (fl f).2 = f.value := rfl
  unfold onHeader
  simp only [checkNonemptyName_eq]
  by_cases hps : isPseudo (fl f) = true
  · have hn0 : ¬ f.name.length = 0 := by
      intro h; rw [hp] at hps; rw [List.length_eq_zero_iff.1 h] at hps; cases hps
    rw [if_neg hn0, if_pos (hp.1 hps), if_pos (by simp)]
    intro h
    have := (trGood_snoc h).2.1
    rw [hps] at this; cases this
  · have hps' : isPseudo (fl f) = false := by simpa using hps
    rw [if_neg (fun h => hps (hp.2 h))]
    have hne : f.name.head? ≠ some 0x3a := by rw [← head_eq]; exact fun h => hps (hp.2 h)
    have hpn := nm_pseudo f.name
    have hbadR : ¬ RegularOk (fl f) → ¬ TrGood s0.host (done ++ [fl f]) := fun h1 h2 => h1 (trGood_snoc h2).2.2.1
    have hplain : nmOf f.name ≠ .host → RegularOk (fl f) → TrGood s0.host (done ++ [fl f]) := fun hk ho =>
      trGood_add hg hps' ho (fun h => absurd h hk)
    have hinv : nmOf f.name ≠ .host → ∀ s' : State, s'.host = s.host → s'.contentLength = s.contentLength →
        s'.recvContentLength = s.recvContentLength → s'.expectFinal = s.expectFinal → TrInv s0 (done ++ [fl f]) s' := by
      intro hk s' h1 h2 h3 h4
      exact trInv_add hi s' (by rw [h1, hfl1]; simp [hk]) h2 h3 h4
    by_cases h0 : f.name.length = 0
    · rw [if_pos h0]
      have hnil := List.length_eq_zero_iff.1 h0
      have hk : nmOf f.name ≠ .host := by rw [hnil]; decide +kernel
      have ho : RegularOk (fl f) := by
        constructor
        · rw [hfl1, hnil]; decide
        · rw [hfl1, hnil]; decide +kernel
        · rw [hfl1, hnil]; intro h; exact absurd h (by decide +kernel)
      refine ⟨hplain hk ho, hinv hk _ rfl rfl rfl rfl, ?_⟩
      unfold deliverTrailer isName
      rw [hfl1, hnil]; rfl
    · rw [if_neg h0]
      have hnem : f.name ≠ [] := fun h => h0 (by rw [h]; rfl)
      cases hall : f.name.all isNameChar
      · have hnr : ¬ nmOf f.name ∈ [Nm.host, .cl, .te, .priority, .conn] := fun h => by
          have := (nm_regular f.name h).2.2; rw [hall] at this; cases this
        simp only [Bool.false_eq_true, if_false]
        cases hb : badCase f.name
        · simp only [Bool.false_eq_true, if_false, if_true]
          have ho : RegularOk (fl f) := by
            constructor
            · rw [hfl1, hb]; simp
            · rw [hfl1, conn_iff]; intro h; exact hnr (by rw [h]; simp)
            · rw [hfl1, nm_iff .te _ rfl]; intro h; exact absurd (by rw [h]; simp) hnr
          have hk : nmOf f.name ≠ .host := fun h => hnr (by rw [h]; simp)
          refine ⟨hplain hk ho, hinv hk _ rfl rfl rfl rfl, ?_⟩
          unfold deliverTrailer isName
          rw [hfl1, hall]; simp
        · simp only [if_true]
          rw [if_neg (by decide)]
          apply hbadR
          intro ho
          exact ho.case_ hb
      · simp only [if_true]
        rw [if_neg (by decide), if_neg (by decide), requestOnHeader_eq]
        have hb : ¬ badCase (fl f).1 = true := by
          intro hb
          rw [hfl1] at hb
          rw [badCase_not_name _ hb] at hall; cases hall
        have hname : isName (fl f).1 = true := by unfold isName; rw [hfl1, hall]; simp [hnem]
        have h_host : ∀ n : List UInt8, n = ascii "host" ↔ nmOf n = .host := nm_iff .host _ rfl
        have h_cl : ∀ n : List UInt8, n = ascii "content-length" ↔ nmOf n = .cl := nm_iff .cl _ rfl
        have h_te : ∀ n : List UInt8, n = ascii "te" ↔ nmOf n = .te := nm_iff .te _ rfl
        have hdel : deliverTrailer true (fl f) = (if nmOf f.name = .cl then false else if nmOf f.name = .te then true
            else if nmOf f.name = .host then f.value.all isAuthorityChar else isFieldValue f.value) := by
          unfold deliverTrailer
          simp only [h_host, h_cl, h_te]
          rw [hname, hfl1, hfl2]; simp
        have hreg : nmOf f.name ≠ .conn → nmOf f.name ≠ .te → RegularOk (fl f) := fun h1 h2 =>
          ⟨hb, fun h => h1 ((conn_iff _).1 h), fun h => absurd ((h_te _).1 h) h2⟩
        cases hk : nmOf f.name <;> rw [hk] at hpn hdel hplain hinv hreg
        case authority => exact absurd (hpn (by simp)).1 hne
        case method => exact absurd (hpn (by simp)).1 hne
        case path => exact absurd (hpn (by simp)).1 hne
        case scheme => exact absurd (hpn (by simp)).1 hne
        case protocol => exact absurd (hpn (by simp)).1 hne
        case status => exact absurd (hpn (by simp)).1 hne
        case cl =>
          simp only [if_true] at hdel ⊢
          exact ⟨hplain (by simp) (hreg (by simp) (by simp)), hinv (by simp) _ rfl rfl rfl rfl, hdel⟩
        case conn => exact hbadR fun ho => ho.conn ((conn_iff _).2 hk)
        case te =>
          dsimp only
          simp only [reduceCtorEq, if_false, if_true] at hdel
          by_cases hc : lower f.value = ascii "trailers"
          · rw [if_pos hc]
            have ho : RegularOk (fl f) := ⟨hb, (fun h => by have := (conn_iff _).1 h; rw [hfl1, hk] at this; cases this), fun _ => hc⟩
            exact ⟨hplain (by simp) ho, hinv (by simp) _ rfl rfl rfl rfl, hdel⟩
          · rw [if_neg hc]
            exact hbadR fun ho => hc (ho.te ((h_te _).2 hk))
        case host =>
          simp only [reduceCtorEq, if_false, if_true] at hdel
          dsimp only
          have ho := hreg (by simp) (by simp)
          cases ha : f.value.all isAuthorityChar
          · simp only [if_true]
            refine ⟨trGood_add hg hps' ho (fun _ h => by rw [hfl2, ha] at h; cases h), ?_, hdel.trans ha⟩
            exact trInv_add hi _ (by rw [hfl1, hfl2, ha]; simp) rfl rfl rfl
          · simp only [Bool.true_eq_false, if_false]
            by_cases hc : s.host = false ∧ f.value ≠ []
            · rw [if_pos hc]
              have hh := hc.1
              rw [hi.host, Bool.or_eq_false_iff] at hh
              have h2 : hostVals done = [] := by simpa using hh.2
              refine ⟨trGood_add hg hps' ho (fun _ _ => ⟨hh.1, h2, hc.2⟩), ?_, hdel.trans ha⟩
              exact trInv_add hi _ (by rw [hfl1, hfl2, ha, hk]; simp) rfl rfl rfl
            · rw [if_neg hc]
              intro hgood
              have := (trGood_snoc hgood).2.2.2 hk ha
              exact hc ⟨by rw [hi.host, this.1, this.2.1]; rfl, this.2.2⟩
        case priority =>
          simp only [reduceCtorEq, if_false, if_true] at hdel
          dsimp only
          have hgood := hplain (by simp) (hreg (by simp) (by simp))
          cases hv : isFieldValue f.value
          · simp only [if_true]
            exact ⟨hgood, hinv (by simp) _ rfl rfl rfl rfl, hdel.trans hv⟩
          · simp only [Bool.true_eq_false, if_false, Bool.true_or, if_true]
            exact ⟨hgood, hinv (by simp) _ rfl rfl rfl rfl, hdel.trans hv⟩
        case other =>
          simp only [reduceCtorEq, if_false, if_true] at hdel
          dsimp only
          rw [if_neg hps]
          have hgood := hplain (by simp) (hreg (by simp) (by simp))
          cases hv : isFieldValue f.value
          · simp only [Bool.false_eq_true, if_false]
            exact ⟨hgood, hinv (by simp) _ rfl rfl rfl rfl, hdel.trans hv⟩
          · simp only [if_true]
            exact ⟨hgood, hinv (by simp) _ rfl rfl rfl rfl, hdel.trans hv⟩

theorem tr_run (pp : Pri → List UInt8 → Option Pri) (cp : Bool) (s0 : State) (fs : List Field) (done : List Fld) (s : State)
    (hg : TrGood s0.host done) (hi : TrInv s0 done s) :
    match (runFields pp true true cp s fs).2 with
    | none => ¬ TrGood s0.host (done ++ fs.map fl)
    | some s' => TrGood s0.host (done ++ fs.map fl) ∧ TrInv s0 (done ++ fs.map fl) s' ∧
        (runFields pp true true cp s fs).1 = fs.filter (fun f => deliverTrailer true (fl f)) := by
  induction fs generalizing done s with
  | nil => simp only [runFields, List.map_nil, List.append_nil, List.filter_nil]; exact ⟨hg, hi, trivial⟩
  | cons f t ih =>
    have hst := tr_step pp cp s0 done s f hg hi
    have happ : done ++ (f :: t).map fl = (done ++ [fl f]) ++ t.map fl := by simp
    rw [happ]
    unfold runFields
    cases hr : onHeader pp s f (lookupToken f.name) true true cp with
    | malformed =>
      rw [hr] at hst
      exact fun h => hst (trGood_prefix h)
    | remove s' =>
      rw [hr] at hst
      obtain ⟨h1, h2, h3⟩ := hst
      have := ih (done ++ [fl f]) s' h1 h2
      dsimp only
      rw [List.filter_cons, h3]
      exact this
    | ok s' =>
      rw [hr] at hst
      obtain ⟨h1, h2, h3⟩ := hst
      have := ih (done ++ [fl f]) s' h1 h2
      dsimp only
      rw [List.filter_cons, h3]
      cases hq : (runFields pp true true cp s' t).2 with
      | none => rw [hq] at this; exact this
      | some s'' =>
        rw [hq] at this
        exact ⟨this.1, this.2.1, by rw [this.2.2]; simp⟩

theorem trGood_nil (b : Bool) : TrGood b [] := ⟨by simp, by simp [hostVals, vals], by simp [hostVals, vals]⟩
theorem trInv_init (s : State) : TrInv s [] s := ⟨by simp [hostVals, vals], rfl, rfl, rfl⟩

end Http
end Nghttp3
