import Verif.Lemmas.HttpRequest
/-! Header sections of responses, and trailers. -/
namespace Nghttp3
namespace Http
open Qpack Spec

/-- which rule for content-length applies -/
def ruleOf (s : State) (tr : Bool) : LengthRule :=
  if tr then .dropped
  else if s.statusCode = 204 then .mustBeZero
  else if Int.tdiv s.statusCode 100 = 1 ∨ (Int.tdiv s.statusCode 100 = 2 ∧ s.methConnect = true) then .dropped
  else .number

/-- http_response_on_header by kind of name, with the tests replaced by the grammar; names other than :status -/
theorem responseOnHeader_eq (s : State) (f : Field) (tr : Bool) (hs : nmOf f.name ≠ .status) :
    responseOnHeader s f (lookupToken f.name) tr =
    match nmOf f.name with
    | .cl => (match ruleOf s tr with
        | .dropped => .remove s
        | .mustBeZero => if s.contentLength = -1 ∧ f.value = ascii "0" then .remove { s with contentLength := 0 } else .malformed
        | .number => if s.contentLength = -1 ∧ isLength f.value = true then .ok { s with contentLength := decimal f.value } else .malformed)
    | .te => if lower f.value = ascii "trailers" then .ok s else .malformed
    | .conn => .malformed
    | _ => if isPseudo (fl f) then .malformed else if isFieldValue f.value = true then .ok s else .remove s := by
  have e6 : sTrailers = ascii "trailers" := by decide
  have e0 : ([0x30] : List UInt8) = ascii "0" := by decide
  have hp : (f.name[0]? = some 0x3a) = (isPseudo (fl f) = true) := propext (isPseudo_iff f).symm
  unfold responseOnHeader
  simp only [tok_status, tok_cl, tok_conn, tok_te, checkHeaderValue_eq, parseUint_eq, lstrieq_eq, e6, e0, hp, if_neg hs]
  cases hk : nmOf f.name
  case status => exact absurd hk hs
  case cl =>
    simp only [if_true]
    unfold ruleOf
    cases tr
    · simp only [Bool.false_eq_true, if_false]
      by_cases h1 : s.statusCode = 204
      · rw [if_pos h1, if_pos h1]
        dsimp only
        have hz : (ascii "0" == lower f.value) = true ↔ f.value = ascii "0" := by
          have : ∀ c : UInt8, lowerChar c = 0x30 → c = 0x30 := fun c =>
            all_bytes (p := fun c => lowerChar c = 0x30 → c = 0x30) (by decide +kernel) c
          have e : ascii "0" = [0x30] := by decide
          rw [e, beq_iff_eq]
          unfold lower
          constructor
          · intro h
            cases hv : f.value with
            | nil => rw [hv] at h; cases h
            | cons c t =>
              rw [hv, List.map_cons] at h
              have h2 := List.cons.inj h
              have : t = [] := by
                have := h2.2; cases t with | nil => rfl | cons => cases this
              rw [this, (by assumption : ∀ c : UInt8, lowerChar c = 0x30 → c = 0x30) c h2.1.symm]
          · intro h; rw [h]; decide
        by_cases h2 : s.contentLength = -1 ∧ f.value = ascii "0"
        · rw [if_pos h2, if_neg]
          rintro (h | h)
          · exact h h2.1
          · exact h (hz.2 h2.2)
        · rw [if_neg h2, if_pos]
          by_cases h3 : s.contentLength = -1
          · exact Or.inr fun h => h2 ⟨h3, hz.1 h⟩
          · exact Or.inl h3
      · rw [if_neg h1, if_neg h1]
        by_cases h2 : Int.tdiv s.statusCode 100 = 1 ∨ (Int.tdiv s.statusCode 100 = 2 ∧ s.methConnect = true)
        · rw [if_pos h2, if_pos h2]
        · rw [if_neg h2, if_neg h2]
          dsimp only
          by_cases h3 : s.contentLength = -1
          · cases h4 : isLength f.value
            · simp [h3]
            · have : ¬ ((decimal f.value : Nat) : Int) = -1 := by omega
              simp [h3]
          · simp [h3]
    · simp
  case te =>
    simp only [reduceCtorEq, if_false, if_true]
    by_cases h : lower f.value = ascii "trailers"
    · simp [h]
    · have h' : ¬ ascii "trailers" = lower f.value := fun e => h e.symm
      simp [h, h']
  case conn => simp
  all_goals
    simp only [reduceCtorEq, if_false]
    cases isFieldValue f.value <;> simp

def clOk (r : LengthRule) (l : List (List UInt8)) : Prop :=
  match r with
  | .mustBeZero => l = [] ∨ l = [ascii "0"]
  | .dropped => True
  | .number => l.length ≤ 1 ∧ ∀ v ∈ l, isLength v = true

def clAfter (r : LengthRule) (c : Int) (l : List (List UInt8)) : Int :=
  match r, l with
  | .dropped, _ => c
  | _, [] => c
  | .mustBeZero, _ => 0
  | .number, v :: _ => decimal v

structure RegGood (r : LengthRule) (fs : List Fld) : Prop where
  regular : ∀ f ∈ fs, isPseudo f = false ∧ RegularOk f
  cl : clOk r (vals .cl fs)

theorem clOk_prefix {r : LengthRule} {l : List (List UInt8)} {v : List UInt8} (h : clOk r (l ++ [v])) :
    clOk r l ∧ (r ≠ .dropped → l = []) ∧ (r = .mustBeZero → v = ascii "0") ∧ (r = .number → isLength v = true) := by
  cases r with
  | mustBeZero =>
    unfold clOk at h
    dsimp only at h
    rcases h with h | h
    · simp at h
    · have hl : l = [] := by
        have := congrArg List.length h
        simp at this; exact this
      subst hl
      simp only [List.nil_append, List.cons.injEq, and_true] at h
      exact ⟨Or.inl rfl, fun _ => rfl, fun _ => h, fun e => by cases e⟩
  | dropped => exact ⟨trivial, fun e => absurd rfl e, (by simp), (by simp)⟩
  | number =>
    obtain ⟨h1, h2⟩ := h
    have hl : l = [] := by
      rw [List.length_append, List.length_singleton] at h1
      exact List.length_eq_zero_iff.1 (by omega)
    subst hl
    exact ⟨⟨by simp, by simp⟩, fun _ => rfl, (by simp), fun _ => h2 v (by simp)⟩

theorem regGood_snoc (r : LengthRule) (fs : List Fld) (f : Fld) (h : RegGood r (fs ++ [f])) :
    RegGood r fs ∧ isPseudo f = false ∧ RegularOk f := by
  refine ⟨⟨fun g hg => h.regular g (by simp [hg]), ?_⟩, h.regular f (by simp)⟩
  have := h.cl
  rw [vals_snoc] at this
  by_cases hk : nmOf f.1 = .cl
  · rw [if_pos hk] at this; exact (clOk_prefix this).1
  · rw [if_neg hk, List.append_nil] at this; exact this

theorem regGood_prefix {r : LengthRule} {a b : List Fld} (h : RegGood r (a ++ b)) : RegGood r a := by
  induction b using List.reverseRecOn with
  | nil => simpa using h
  | append_singleton b x ih =>
    rw [← List.append_assoc] at h
    exact ih (regGood_snoc _ _ _ h).1

/-- outcome of one regular field of a response -/
def RespStepOk (r : LengthRule) (s0 : State) (done : List Fld) (f : Field) (res : Res) : Prop :=
  match res with
  | .malformed => ¬ RegGood r (done ++ [fl f])
  | .remove s => RegGood r (done ++ [fl f]) ∧
      s = { s0 with pseudoDisallowed := true, contentLength := clAfter r s0.contentLength (vals .cl (done ++ [fl f])) } ∧
      deliverResponse r (fl f) = false
  | .ok s => RegGood r (done ++ [fl f]) ∧
      s = { s0 with pseudoDisallowed := true, contentLength := clAfter r s0.contentLength (vals .cl (done ++ [fl f])) } ∧
      deliverResponse r (fl f) = true

theorem regGood_other {r : LengthRule} {done : List Fld} {f : Fld} (hg : RegGood r done) (hp : isPseudo f = false) (ho : RegularOk f)
    (hk : nmOf f.1 ≠ .cl) : RegGood r (done ++ [f]) ∧ vals .cl (done ++ [f]) = vals .cl done := by
  have : vals .cl (done ++ [f]) = vals .cl done := by rw [vals_snoc, if_neg hk, List.append_nil]
  refine ⟨⟨fun g hgm => ?_, by rw [this]; exact hg.cl⟩, this⟩
  rcases List.mem_append.1 hgm with h | h
  · exact hg.regular g h
  · rw [List.mem_singleton.1 h]; exact ⟨hp, ho⟩

theorem resp_step (pp : Pri → List UInt8 → Option Pri) (tr cp : Bool) (s0 : State) (done : List Fld) (s : State) (f : Field)
    (hi : tr = true ∨ ((s.pseudoDisallowed = true ∨ s0.status = true ∨ isPseudo (fl f) = false) ∧ s0.contentLength = -1))
    (hg : RegGood (ruleOf s0 tr) done)
    (hs : s = { s0 with pseudoDisallowed := s.pseudoDisallowed,
                        contentLength := clAfter (ruleOf s0 tr) s0.contentLength (vals .cl done) }) :
    RespStepOk (ruleOf s0 tr) s0 done f (onHeader pp s f (lookupToken f.name) false tr cp) := by
  have hp := isPseudo_iff f
  have hrule : ∀ b, ruleOf { s with pseudoDisallowed := b } tr = ruleOf s0 tr := by
    intro b; unfold ruleOf; rw [hs]
  unfold onHeader
  simp only [checkNonemptyName_eq]
  have hfl1 : (fl f).1 = f.name := rfl
  have hfl2 : (fl f).2 = f.value := rfl
  by_cases hps : isPseudo (fl f) = true
  · have hn0 : ¬ f.name.length = 0 := by
      intro h; rw [hp] at hps; rw [List.length_eq_zero_iff.1 h] at hps; cases hps
    rw [if_neg hn0, if_pos (hp.1 hps)]
    have hbad : ¬ RegGood (ruleOf s0 tr) (done ++ [fl f]) := fun h => by
      have := (regGood_snoc _ _ _ h).2.1
      rw [hps] at this; cases this
    by_cases hc : lookupToken f.name = none ∨ tr = true ∨ s.pseudoDisallowed = true
    · rw [if_pos hc]; exact hbad
    · rw [if_neg hc]
      simp only [Bool.false_eq_true, if_false]
      have htr : tr = false := by cases tr <;> simp at hc ⊢
      have hst : s.status = true := by
        rw [hs]; rcases hi with hi | hi
        · rw [htr] at hi; cases hi
        · rcases hi.1 with h | h | h
          · exact absurd (Or.inr (Or.inr h)) hc
          · exact h
          · rw [h] at hps; cases hps
      by_cases hk : nmOf f.name = .status
      · unfold responseOnHeader
        rw [if_pos ((tok_status _).2 hk), hst]
        simp only [Bool.true_or, if_true]
        exact hbad
      · rw [responseOnHeader_eq _ _ _ hk]
        have hreg := nm_regular f.name
        cases hk2 : nmOf f.name <;> rw [hk2] at hreg
        case cl => rw [hp, head_eq] at hps; exact absurd hps (hreg (by simp)).2.1
        case te => rw [hp, head_eq] at hps; exact absurd hps (hreg (by simp)).2.1
        case conn => exact hbad
        all_goals
          dsimp only
          rw [if_pos hps]
          exact hbad
  · have hps' : isPseudo (fl f) = false := by simpa using hps
    rw [if_neg (fun h => hps (hp.2 h))]
    have hne : f.name.head? ≠ some 0x3a := by rw [← head_eq]; exact fun h => hps (hp.2 h)
    have hpn := nm_pseudo f.name
    -- a field which is not content-length
    have hplain : nmOf f.name ≠ .cl → RegularOk (fl f) → RegGood (ruleOf s0 tr) (done ++ [fl f]) ∧
        { s with pseudoDisallowed := true } =
        { s0 with pseudoDisallowed := true, contentLength := clAfter (ruleOf s0 tr) s0.contentLength (vals Nm.cl (done ++ [fl f])) } := by
      intro hk ho
      have := regGood_other (r := ruleOf s0 tr) hg hps' ho hk
      refine ⟨this.1, ?_⟩
      rw [this.2, hs]
    have hbadR : ¬ RegularOk (fl f) → ¬ RegGood (ruleOf s0 tr) (done ++ [fl f]) := fun h1 h2 => h1 (regGood_snoc _ _ _ h2).2.2
    by_cases h0 : f.name.length = 0
    · rw [if_pos h0]
      have hnil := List.length_eq_zero_iff.1 h0
      have hk : nmOf f.name ≠ .cl := by rw [hnil]; decide +kernel
      have ho : RegularOk (fl f) := by
        constructor
        · rw [hfl1, hnil]; decide
        · rw [hfl1, hnil]; decide +kernel
        · rw [hfl1, hnil]; intro h; exact absurd h (by decide +kernel)
      have := hplain hk ho
      refine ⟨this.1, this.2, ?_⟩
      unfold deliverResponse isName
      rw [hps', hfl1, hnil]; rfl
    · rw [if_neg h0]
      have hnem : f.name ≠ [] := fun h => h0 (by rw [h]; rfl)
      cases hall : f.name.all isNameChar
      · -- illegal name
        have hnr : ¬ nmOf f.name ∈ [Nm.host, .cl, .te, .priority, .conn] := fun h => by
          have := (nm_regular f.name h).2.2; rw [hall] at this; cases this
        simp only [Bool.false_eq_true, if_false]
        cases hb : badCase f.name
        · simp only [Bool.false_eq_true, if_false, if_true]
          have ho : RegularOk (fl f) := by
            constructor
            · rw [hfl1, hb]; simp
            · rw [hfl1, conn_iff]; intro h; exact hnr (by rw [h]; simp)
            · rw [hfl1, nm_iff .te _ rfl]; intro h; exact absurd (by rw [h]; simp) hnr
          have := hplain (fun h => hnr (by rw [h]; simp)) ho
          refine ⟨this.1, this.2, ?_⟩
          unfold deliverResponse isName
          rw [hps', hfl1, hall]; simp
        · simp only [if_true]
          rw [if_neg (by decide)]
          apply hbadR
          intro ho
          exact ho.case_ hb
      · simp only [if_true]
        rw [if_neg (by decide), if_neg (by decide)]
        simp only [Bool.false_eq_true, if_false]
        have hb : ¬ badCase (fl f).1 = true := by
          intro hb
          rw [hfl1] at hb
          rw [badCase_not_name _ hb] at hall; cases hall
        have hname : isName (fl f).1 = true := by unfold isName; rw [hfl1, hall]; simp [hnem]
        have h_cl : ∀ n : List UInt8, n = ascii "content-length" ↔ nmOf n = .cl := nm_iff .cl _ rfl
        have h_te : ∀ n : List UInt8, n = ascii "te" ↔ nmOf n = .te := nm_iff .te _ rfl
        have hdel : deliverResponse (ruleOf s0 tr) (fl f) = (if nmOf f.name = .cl then decide (ruleOf s0 tr = .number)
            else if nmOf f.name = .te then true else isFieldValue f.value) := by
          unfold deliverResponse
          simp only [h_cl, h_te]
          rw [hps', hname, hfl1, hfl2]; simp
        have hnst : nmOf f.name ≠ .status := fun h => by
          rw [h] at hpn; exact hne (hpn (by simp)).1
        rw [responseOnHeader_eq _ _ _ hnst]
        by_cases hk : nmOf f.name = .cl
        · rw [hk] at hdel ⊢
          dsimp only
          rw [hrule]
          simp only [if_true] at hdel
          have ho : RegularOk (fl f) := by
            refine ⟨hb, ?_, ?_⟩
            · rw [hfl1, conn_iff, hk]; simp
            · rw [hfl1, h_te, hk]; intro h; cases h
          have hv : vals .cl (done ++ [fl f]) = vals .cl done ++ [f.value] := by
            rw [vals_snoc, if_pos (by rw [hfl1]; exact hk)]; rfl
          have hregs : ∀ g ∈ done ++ [fl f], isPseudo g = false ∧ RegularOk g := by
            intro g hgm
            rcases List.mem_append.1 hgm with h | h
            · exact hg.regular g h
            · rw [List.mem_singleton.1 h]; exact ⟨hps', ho⟩
          have hscl : s.contentLength = clAfter (ruleOf s0 tr) s0.contentLength (vals .cl done) := by rw [hs]
          have hs0 : ruleOf s0 tr ≠ .dropped → s0.contentLength = -1 := by
            intro hr
            rcases hi with hi | hi
            · exact absurd (by rw [hi]; rfl) hr
            · exact hi.2
          have hnew : ∀ c, c = clAfter (ruleOf s0 tr) s0.contentLength (vals .cl (done ++ [fl f])) →
              { s with pseudoDisallowed := true, contentLength := c } =
              { s0 with pseudoDisallowed := true, contentLength := clAfter (ruleOf s0 tr) s0.contentLength (vals Nm.cl (done ++ [fl f])) } := by
            intro c hc; rw [hc, hs]
          have hcle : ruleOf s0 tr ≠ .dropped → s.contentLength = -1 → vals .cl done = [] := by
            intro hr h1
            rw [hscl] at h1
            cases hv : vals .cl done with
            | nil => rfl
            | cons v t =>
              rw [hv] at h1
              cases hr' : ruleOf s0 tr with
              | dropped => exact absurd hr' hr
              | mustBeZero => rw [hr'] at h1; unfold clAfter at h1; dsimp only at h1; omega
              | number => rw [hr'] at h1; unfold clAfter at h1; dsimp only at h1; omega
          have hcln : ruleOf s0 tr ≠ .dropped → vals .cl done = [] → s.contentLength = -1 := by
            intro hr h1
            rw [hscl, h1, hs0 hr]
            cases ruleOf s0 tr <;> rfl
          cases hr : ruleOf s0 tr <;> rw [hr] at hdel hscl hs0 hnew hcle hcln
          · dsimp only
            by_cases hc : s.contentLength = -1 ∧ f.value = ascii "0"
            · rw [if_pos hc]
              have hd := hcle (by simp) hc.1
              refine ⟨⟨hregs, ?_⟩, hnew _ ?_, by rw [hdel]; rfl⟩
              · rw [hv, hd, hc.2]; exact Or.inr rfl
              · rw [hv, hd]; rfl
            · rw [if_neg hc]
              intro hgood
              have := hgood.cl
              rw [hv] at this
              have := clOk_prefix this
              exact hc ⟨hcln (by simp) (this.2.1 (by simp)), this.2.2.1 rfl⟩
          · refine ⟨⟨hregs, trivial⟩, ?_, by rw [hdel]; rfl⟩
            have := hnew s.contentLength (by rw [hscl]; rfl)
            rw [← this]
          · dsimp only
            by_cases hc : s.contentLength = -1 ∧ isLength f.value = true
            · rw [if_pos hc]
              have hd := hcle (by simp) hc.1
              refine ⟨⟨hregs, ?_⟩, hnew _ ?_, by rw [hdel]; rfl⟩
              · rw [hv, hd]; exact ⟨by simp, by simpa using hc.2⟩
              · rw [hv, hd]; rfl
            · rw [if_neg hc]
              intro hgood
              have := hgood.cl
              rw [hv] at this
              have := clOk_prefix this
              exact hc ⟨hcln (by simp) (this.2.1 (by simp)), this.2.2.2 rfl⟩
        · rw [if_neg hk] at hdel
          by_cases hk2 : nmOf f.name = .te
          · rw [hk2] at hdel ⊢
            simp only [if_true] at hdel
            dsimp only
            by_cases hc : lower f.value = ascii "trailers"
            · rw [if_pos hc]
              have := hplain hk ⟨hb, by rw [hfl1, conn_iff, hk2]; simp, fun _ => hc⟩
              exact ⟨this.1, this.2, hdel⟩
            · rw [if_neg hc]
              exact hbadR fun ho => hc (ho.te ((h_te _).2 hk2))
          · rw [if_neg hk2] at hdel
            by_cases hk3 : nmOf f.name = .conn
            · rw [hk3]
              exact hbadR fun ho => ho.conn ((conn_iff _).2 hk3)
            · have ho := hplain hk ⟨hb, fun h => hk3 ((conn_iff _).1 h), fun h => absurd ((h_te _).1 h) hk2⟩
              have key : RespStepOk (ruleOf s0 tr) s0 done f
                  (if isPseudo (fl f) = true then .malformed else if isFieldValue f.value = true then .ok { s with pseudoDisallowed := true }
                    else .remove { s with pseudoDisallowed := true }) := by
                rw [if_neg hps]
                cases hv : isFieldValue f.value
                · simp only [Bool.false_eq_true, if_false]
                  exact ⟨ho.1, ho.2, hdel.trans hv⟩
                · simp only [if_true]
                  exact ⟨ho.1, ho.2, hdel.trans hv⟩
              cases hk4 : nmOf f.name
              case cl => exact absurd hk4 hk
              case te => exact absurd hk4 hk2
              case conn => exact absurd hk4 hk3
              all_goals exact key

/-- the rest of a response's header section after :status, and a response's trailers -/
theorem resp_run (pp : Pri → List UInt8 → Option Pri) (tr cp : Bool) (s0 : State) (fs : List Field) (done : List Fld) (s : State)
    (hi : tr = true ∨ ((s.pseudoDisallowed = true ∨ s0.status = true ∨ ∀ f, fs.head? = some f → isPseudo (fl f) = false) ∧
      s0.contentLength = -1))
    (hg : RegGood (ruleOf s0 tr) done)
    (hs : s = { s0 with pseudoDisallowed := s.pseudoDisallowed, contentLength := clAfter (ruleOf s0 tr) s0.contentLength (vals Nm.cl done) }) :
    match (runFields pp false tr cp s fs).2 with
    | none => ¬ RegGood (ruleOf s0 tr) (done ++ fs.map fl)
    | some s' => RegGood (ruleOf s0 tr) (done ++ fs.map fl) ∧
        s' = { s0 with pseudoDisallowed := s'.pseudoDisallowed,
                       contentLength := clAfter (ruleOf s0 tr) s0.contentLength (vals .cl (done ++ fs.map fl)) } ∧
        (runFields pp false tr cp s fs).1 = fs.filter (fun f => deliverResponse (ruleOf s0 tr) (fl f)) := by
  induction fs generalizing done s with
  | nil => simp only [runFields, List.map_nil, List.append_nil, List.filter_nil]; exact ⟨hg, hs, trivial⟩
  | cons f t ih =>
    have hi1 : tr = true ∨ ((s.pseudoDisallowed = true ∨ s0.status = true ∨ isPseudo (fl f) = false) ∧ s0.contentLength = -1) := by
      rcases hi with h | ⟨h | h | h, h2⟩
      · exact Or.inl h
      · exact Or.inr ⟨Or.inl h, h2⟩
      · exact Or.inr ⟨Or.inr (Or.inl h), h2⟩
      · exact Or.inr ⟨Or.inr (Or.inr (h f rfl)), h2⟩
    have hi2 : ∀ s' : State, s'.pseudoDisallowed = true → tr = true ∨ ((s'.pseudoDisallowed = true ∨ s0.status = true ∨
        ∀ f, t.head? = some f → isPseudo (fl f) = false) ∧ s0.contentLength = -1) := by
      intro s' h'
      rcases hi with h | ⟨_, h2⟩
      · exact Or.inl h
      · exact Or.inr ⟨Or.inl h', h2⟩
    have hst := resp_step pp tr cp s0 done s f hi1 hg hs
    have happ : done ++ (f :: t).map fl = (done ++ [fl f]) ++ t.map fl := by simp
    rw [happ]
    unfold runFields
    cases hr : onHeader pp s f (lookupToken f.name) false tr cp with
    | malformed =>
      rw [hr] at hst
      exact fun h => hst (regGood_prefix h)
    | remove s' =>
      rw [hr] at hst
      obtain ⟨h1, h2, h3⟩ := hst
      have := ih (done ++ [fl f]) s' (hi2 s' (by rw [h2])) h1 (by rw [h2])
      dsimp only
      rw [List.filter_cons, h3]
      exact this
    | ok s' =>
      rw [hr] at hst
      obtain ⟨h1, h2, h3⟩ := hst
      have := ih (done ++ [fl f]) s' (hi2 s' (by rw [h2])) h1 (by rw [h2])
      dsimp only
      rw [List.filter_cons, h3]
      cases hq : (runFields pp false tr cp s' t).2 with
      | none => rw [hq] at this; exact this
      | some s'' =>
        rw [hq] at this
        exact ⟨this.1, this.2.1, by rw [this.2.2]; simp⟩

theorem nmOf_status (n : List UInt8) : n = ascii ":status" ↔ nmOf n = .status := nm_iff .status _ rfl n

/-- ResponseOk: :status comes first, then regular fields -/
theorem responseOk_iff (connect : Bool) (status : Nat) (fs : List Fld) : ResponseOk connect status fs ↔
    ∃ v rest, fs = (ascii ":status", v) :: rest ∧ (v.length = 3 ∧ v.all isDigit = true ∧ decimal v = status) ∧
      (100 ≤ status ∧ status ≠ 101) ∧ RegGood (lengthRule connect status) rest := by
  have vL := valuesOf_eq .cl _ rfl
  have vS := valuesOf_eq .status _ rfl
  have hpst : ∀ v, isPseudo (ascii ":status", v) = true := fun v => by
    have : (ascii ":status").head? = some 0x3a := by decide
    unfold isPseudo; rw [this]; rfl
  have hcl : ∀ (v : List UInt8) (rest : List Fld), vals .cl ((ascii ":status", v) :: rest) = vals .cl rest := by
    intro v rest
    unfold vals
    rw [List.filter_cons, if_neg]
    rw [(nmOf_status (ascii ":status")).1 rfl]; decide
  have hsl : ∀ (v : List UInt8) (rest : List Fld), vals .status ((ascii ":status", v) :: rest) = v :: vals .status rest := by
    intro v rest
    unfold vals
    rw [List.filter_cons, if_pos]
    · rfl
    · rw [(nmOf_status (ascii ":status")).1 rfl]; decide
  constructor
  · intro h
    obtain ⟨v, hv, h3⟩ := h.code
    have hfirst : ∃ w rest, fs = (ascii ":status", w) :: rest := by
      cases hfs : fs with
      | nil => rw [hfs] at hv; cases hv
      | cons f rest =>
        have hmem : ∃ g ∈ fs, g.1 = ascii ":status" := by
          have : v ∈ valuesOf ":status" fs := by rw [hv]; simp
          unfold valuesOf at this
          obtain ⟨g, hg, _⟩ := List.mem_map.1 this
          obtain ⟨hg1, hg2⟩ := List.mem_filter.1 hg
          exact ⟨g, hg1, by simpa using hg2⟩
        obtain ⟨g, hg, hgn⟩ := hmem
        have hgp : isPseudo g = true := by
          obtain ⟨a, b⟩ := g
          dsimp only at hgn
          rw [hgn]; exact hpst b
        have hfp : isPseudo f = true := by
          rw [hfs] at hg
          rcases List.mem_cons.1 hg with hg | hg
          · rw [← hg]; exact hgp
          · have := h.first
            unfold PseudoFirst at this
            rw [hfs, List.pairwise_cons] at this
            exact this.1 g hg hgp
        have := h.known f (by rw [hfs]; simp) hfp
        obtain ⟨a, b⟩ := f
        dsimp only at this
        exact ⟨b, rest, by rw [this]⟩
    obtain ⟨w, rest, rfl⟩ := hfirst
    rw [vS, hsl] at hv
    have hw : w = v := (List.cons.inj hv).1
    have hrest : vals .status rest = [] := (List.cons.inj hv).2
    subst hw
    have hnp : ∀ f ∈ rest, isPseudo f = false := by
      intro f hf
      cases hp : isPseudo f
      · rfl
      · have := h.known f (by simp [hf]) hp
        have : f.2 ∈ vals .status rest := by
          unfold vals
          rw [List.mem_map]
          exact ⟨f, List.mem_filter.2 ⟨hf, by simpa using (nmOf_status f.1).1 this⟩, rfl⟩
        rw [hrest] at this; cases this
    refine ⟨w, rest, rfl, h3, h.range, ?_, ?_⟩
    · intro f hf
      exact ⟨hnp f hf, h.regular f (by simp [hf]) (by rw [hnp f hf]; simp)⟩
    · have := h.length
      unfold clOk
      unfold atMostOnce at this
      rw [vL, hcl] at this
      exact this
  · rintro ⟨v, rest, rfl, h3, hr, hreg, hc⟩
    have hst : vals .status rest = [] := by
      unfold vals
      rw [List.map_eq_nil_iff, List.filter_eq_nil_iff]
      intro f hf hk
      have hk' : nmOf f.1 = .status := by simpa using hk
      have := (nm_pseudo f.1 (by rw [hk']; simp)).1
      have h2 := (hreg f hf).1
      unfold isPseudo at h2; rw [this] at h2; cases h2
    refine ⟨?_, ?_, ⟨v, ?_, h3⟩, hr, ?_, ?_⟩
    · unfold PseudoFirst
      rw [List.pairwise_cons]
      refine ⟨fun f hf _ => hpst v, ?_⟩
      apply List.pairwise_of_forall_mem_list
      intro a _ b hb h
      rw [(hreg b hb).1] at h; cases h
    · intro f hf hp
      rcases List.mem_cons.1 hf with hf | hf
      · rw [hf]
      · rw [(hreg f hf).1] at hp; cases hp
    · rw [vS, hsl, hst]
    · intro f hf hp
      rcases List.mem_cons.1 hf with hf | hf
      · rw [hf, hpst] at hp; exact absurd rfl hp
      · exact (hreg f hf).2
    · unfold atMostOnce
      rw [vL, hcl]
      exact hc

theorem ruleOf_status (s : State) (st : Nat) (h : s.statusCode = (st : Int)) : ruleOf s false = lengthRule s.methConnect st := by
  unfold ruleOf lengthRule
  rw [h]
  have h1 : Int.tdiv (st : Int) 100 = ((st / 100 : Nat) : Int) := by
    rw [Int.tdiv_eq_ediv_of_nonneg (by omega)]; rfl
  rw [h1]
  have e1 : ((st : Int) = 204) = (st = 204) := propext (by omega)
  have e2 : (((st / 100 : Nat) : Int) = 1) = (st / 100 = 1) := propext (by omega)
  have e3 : (((st / 100 : Nat) : Int) = 2) = (st / 100 = 2) := propext (by omega)
  simp only [e1, e2, e3, Bool.false_eq_true, if_false]

/-- three decimal digits are a number below 2^62 -/
theorem decimal3 (v : List UInt8) (h1 : v.length = 3) (h2 : v.all isDigit = true) : isLength v = true := by
  match v, h1 with
  | [a, b, c], _ =>
    have hd : ∀ c : UInt8, isDigit c = true → c.toNat - 0x30 ≤ 9 := fun c =>
      all_bytes (p := fun c => isDigit c = true → c.toNat - 0x30 ≤ 9) (by decide +kernel) c
    simp only [List.all_cons, List.all_nil, Bool.and_true, Bool.and_eq_true] at h2
    have ha := hd a h2.1
    have hb := hd b h2.2.1
    have hc := hd c h2.2.2
    unfold isLength decimal
    simp only [List.foldl_cons, List.foldl_nil, List.all_cons, List.all_nil, h2.1, h2.2.1, h2.2.2]
    simp
    omega

/-- a whole header section of a response -/
theorem resp_section (pp : Pri → List UInt8 → Option Pri) (cp : Bool) (s0 : State) (hst : s0.status = false)
    (hpd : s0.pseudoDisallowed = false) (hcl : s0.contentLength = -1) (fs : List Field) :
    match (runFields pp false false cp s0 fs).2.bind onResponseHeaders with
    | none => ∀ st, ¬ ResponseOk s0.methConnect st (fs.map fl)
    | some s' => ∃ st b, ResponseOk s0.methConnect st (fs.map fl) ∧
        (runFields pp false false cp s0 fs).1 = fs.filter (fun f => deliverResponse (lengthRule s0.methConnect st) (fl f)) ∧
        onResponseHeaders { s0 with status := true, pseudoDisallowed := b, statusCode := st,
                                    contentLength := clAfter (lengthRule s0.methConnect st) (-1) (vals .cl (fs.map fl)) } = some s' := by
  cases fs with
  | nil =>
    simp only [runFields, Option.bind_some, List.map_nil]
    have : onResponseHeaders s0 = none := by unfold onResponseHeaders; rw [hst]; rfl
    rw [this]
    intro st h
    obtain ⟨v, rest, h, _⟩ := (responseOk_iff _ _ _).1 h
    cases h
  | cons f t =>
    cases hps : isPseudo (fl f)
    · -- no :status at the beginning
      have hbad : ∀ st, ¬ ResponseOk s0.methConnect st ((f :: t).map fl) := by
        intro st h
        obtain ⟨v, rest, h, _⟩ := (responseOk_iff _ _ _).1 h
        rw [List.map_cons] at h
        rw [(List.cons.inj h).1] at hps
        have : (ascii ":status").head? = some 0x3a := by decide
        unfold isPseudo at hps
        rw [this] at hps; cases hps
      have := resp_run pp false cp s0 (f :: t) [] s0
        (Or.inr ⟨Or.inr (Or.inr (fun g hg => by cases hg; exact hps)), hcl⟩) ⟨by simp, by cases ruleOf s0 false <;> simp [clOk, vals]⟩
        (by cases ruleOf s0 false <;> rfl)
      cases hr : (runFields pp false false cp s0 (f :: t)).2 with
      | none => exact hbad
      | some s' =>
        rw [hr] at this
        have h1 : s'.status = false := by rw [this.2.1]; exact hst
        have : onResponseHeaders s' = none := by unfold onResponseHeaders; rw [h1]; rfl
        simp only [Option.bind_some, this]
        exact hbad
    · have hp := (isPseudo_iff f).1 hps
      have hn0 : ¬ f.name.length = 0 := by
        intro h; rw [List.length_eq_zero_iff.1 h] at hp; cases hp
      have hmal : onHeader pp s0 f (lookupToken f.name) false false cp = .malformed →
          (runFields pp false false cp s0 (f :: t)).2 = none := by
        intro h; unfold runFields; rw [h]
      by_cases hk : nmOf f.name = .status
      · have hname : f.name = ascii ":status" := (nmOf_status _).2 hk
        have hon : onHeader pp s0 f (lookupToken f.name) false false cp =
            if (f.value.length = 3 ∧ f.value.all isDigit = true) ∧ 100 ≤ decimal f.value ∧ decimal f.value ≠ 101 then
              .ok { s0 with status := true, statusCode := decimal f.value } else .malformed := by
          unfold onHeader
          rw [if_neg hn0, if_pos hp, if_neg (by
            rw [(tok_status _).2 hk, hpd]; simp)]
          simp only [Bool.false_eq_true, if_false]
          unfold responseOnHeader
          rw [if_pos ((tok_status _).2 hk), hst, parseUint_eq]
          by_cases hl : f.value.length = 3
          · have hl0 : (f.value.length == 0) = false := by rw [hl]; rfl
            rw [if_neg (by rw [hl0]; simp [hl])]
            by_cases hd : f.value.all isDigit = true
            · rw [if_pos (decimal3 _ hl hd)]
              by_cases hc : 100 ≤ decimal f.value ∧ decimal f.value ≠ 101
              · rw [if_neg (by omega), if_pos ⟨⟨hl, hd⟩, hc⟩]
              · rw [if_pos (by omega), if_neg (fun h => hc h.2)]
            · have : ¬ isLength f.value = true := fun h => by
                unfold isLength at h
                simp only [Bool.and_eq_true] at h
                exact hd h.1.2
              rw [if_neg this, if_pos (Or.inl (by omega)), if_neg (fun h => hd h.1.2)]
          · rw [if_pos (by simp [hl]), if_neg (fun h => hl h.1.1)]
        have hmap : (f :: t).map fl = (ascii ":status", f.value) :: t.map fl := by
          rw [List.map_cons, ← hname]; rfl
        have hvl : vals .cl ((f :: t).map fl) = vals .cl (t.map fl) := by
          rw [List.map_cons]
          unfold vals
          rw [List.filter_cons, if_neg]
          show ¬ decide (nmOf f.name = .cl) = true
          rw [hk]; decide
        by_cases hc : (f.value.length = 3 ∧ f.value.all isDigit = true) ∧ 100 ≤ decimal f.value ∧ decimal f.value ≠ 101
        · rw [if_pos hc] at hon
          have hrun := resp_run pp false cp { s0 with status := true, statusCode := decimal f.value } t []
            { s0 with status := true, statusCode := decimal f.value }
            (Or.inr ⟨Or.inr (Or.inl rfl), hcl⟩) ⟨by simp, by
              cases ruleOf { s0 with status := true, statusCode := decimal f.value } false <;> simp [clOk, vals]⟩
            (by cases ruleOf { s0 with status := true, statusCode := decimal f.value } false <;> rfl)
          rw [ruleOf_status _ (decimal f.value) rfl] at hrun
          dsimp only at hrun
          have hok : ∀ st, ResponseOk s0.methConnect st ((f :: t).map fl) ↔
              st = decimal f.value ∧ RegGood (lengthRule s0.methConnect st) (t.map fl) := by
            intro st
            rw [responseOk_iff, hmap]
            constructor
            · rintro ⟨v, rest, h1, h2, h3, h4⟩
              have h5 := List.cons.inj h1
              have h6 : f.value = v := (Prod.mk.inj h5.1).2
              rw [h6, ← h2.2.2, h5.2, h2.2.2]
              exact ⟨rfl, h4⟩
            · rintro ⟨rfl, h4⟩
              exact ⟨f.value, t.map fl, rfl, ⟨hc.1.1, hc.1.2, rfl⟩, hc.2, h4⟩
          have hdel : deliverResponse (lengthRule s0.methConnect (decimal f.value)) (fl f) = true := by
            unfold deliverResponse; rw [hps]; rfl
          unfold runFields
          rw [hon]
          dsimp only
          rw [hvl]
          cases hr : (runFields pp false false cp { s0 with status := true, statusCode := decimal f.value } t).2 with
          | none =>
            rw [hr] at hrun
            intro st h
            have := (hok st).1 h
            rw [this.1] at this
            exact hrun (by simpa using this.2)
          | some s' =>
            rw [hr] at hrun
            simp only [Option.bind_some]
            obtain ⟨q1, q2, q3⟩ := hrun
            rw [List.nil_append] at q1 q2
            rw [hcl] at q2
            have hsome : ∃ s'', onResponseHeaders s' = some s'' := by
              unfold onResponseHeaders
              have : s'.status = true := by rw [q2]
              rw [this]
              simp only [Bool.not_true, Bool.false_eq_true, if_false]
              split_ifs <;> exact ⟨_, rfl⟩
            obtain ⟨s'', hs''⟩ := hsome
            rw [hs'']
            refine ⟨decimal f.value, s'.pseudoDisallowed, (hok _).2 ⟨rfl, q1⟩, ?_, ?_⟩
            · rw [List.filter_cons, hdel, if_pos rfl, q3]
            · rw [← hs'']
              exact congrArg onResponseHeaders q2.symm
        · rw [if_neg hc] at hon
          rw [hmal hon]
          intro st h
          obtain ⟨v, rest, h1, h2, h3, _⟩ := (responseOk_iff _ _ _).1 h
          rw [hmap] at h1
          have h6 : f.value = v := (Prod.mk.inj (List.cons.inj h1).1).2
          exact hc (by rw [h6]; exact ⟨⟨h2.1, h2.2.1⟩, by rw [h2.2.2]; exact h3⟩)
      · rw [hmal]
        · intro st h
          obtain ⟨v, rest, h, _⟩ := (responseOk_iff _ _ _).1 h
          rw [List.map_cons] at h
          exact hk ((nmOf_status _).1 (congrArg Prod.fst (List.cons.inj h).1))
        · unfold onHeader
          rw [if_neg hn0, if_pos hp]
          by_cases hc : lookupToken f.name = none ∨ (false = true) ∨ s0.pseudoDisallowed = true
          · rw [if_pos hc]
          · rw [if_neg hc]
            simp only [Bool.false_eq_true, if_false]
            rw [responseOnHeader_eq _ _ _ hk]
            have hreg := nm_regular f.name
            rw [head_eq] at hp
            cases hk2 : nmOf f.name <;> rw [hk2] at hreg <;> dsimp only
            case cl => exact absurd hp (hreg (by simp)).2.1
            case te => exact absurd hp (hreg (by simp)).2.1
            all_goals rw [if_pos hps]

end Http
end Nghttp3
