import Verif.Lemmas.HttpFields
import Mathlib.Data.List.Induction
/-! Header sections of requests. -/
namespace Nghttp3
namespace Http
open Qpack Spec

/-- a model field as a pair -/
def fl (f : Field) : Fld := (f.name, f.value)

def hostVals (fs : List Fld) : List (List UInt8) := (vals .host fs).filter (·.all isAuthorityChar)

theorem hosts_eq (fs : List Fld) : hosts fs = hostVals fs := by
  unfold hosts hostVals; rw [valuesOf_eq .host "host" rfl]

/-- conditions on one field of a request -/
def ReqVal (ext : Bool) (f : Fld) : Prop :=
  match nmOf f.1 with
  | .authority => f.2 ≠ [] ∧ f.2.all isAuthorityChar = true
  | .method => f.2 ≠ [] ∧ f.2.all isTchar = true
  | .path => f.2 ≠ [] ∧ f.2.all isPathChar = true
  | .scheme => isScheme f.2 = true
  | .protocol => ext = true ∧ f.2 ≠ [] ∧ isFieldValue f.2 = true
  | .status => False
  | .host => f.2.all isAuthorityChar = true → f.2 ≠ []
  | .cl => isLength f.2 = true
  | .te => lower f.2 = ascii "trailers"
  | .priority => True
  | .conn => False
  | .other => isPseudo f = false ∧ badCase f.1 = false

def onceNames : List Nm := [.authority, .method, .path, .scheme, .protocol, .cl]

structure ReqGood (ext : Bool) (fs : List Fld) : Prop where
  first : PseudoFirst fs
  val : ∀ f ∈ fs, ReqVal ext f
  once : ∀ k ∈ onceNames, (vals k fs).length ≤ 1
  hostOnce : (hostVals fs).length ≤ 1

/-- conditions on a further field -/
def ReqFresh (done : List Fld) (f : Fld) : Prop :=
  (nmOf f.1 ∈ onceNames → vals (nmOf f.1) done = []) ∧
  (nmOf f.1 = .host → f.2.all isAuthorityChar = true → hostVals done = [])

theorem hostVals_snoc (fs : List Fld) (f : Fld) :
    hostVals (fs ++ [f]) = hostVals fs ++ if nmOf f.1 = .host ∧ f.2.all isAuthorityChar = true then [f.2] else [] := by
  unfold hostVals
  rw [vals_snoc, List.filter_append]
  by_cases h : nmOf f.1 = .host
  · by_cases h2 : f.2.all isAuthorityChar = true
    · rw [if_pos h, if_pos ⟨h, h2⟩]; simp [List.filter, h2]
    · rw [if_pos h, if_neg (fun h' => h2 h'.2)]; simp only [List.filter, h2]
  · rw [if_neg h, if_neg (fun h' => h h'.1)]; simp

theorem pseudoFirst_snoc (fs : List Fld) (f : Fld) :
    PseudoFirst (fs ++ [f]) ↔ PseudoFirst fs ∧ (isPseudo f = true → ∀ g ∈ fs, isPseudo g = true) := by
  unfold PseudoFirst
  rw [List.pairwise_append]
  simp only [List.pairwise_singleton, List.mem_singleton, true_and]
  constructor
  · rintro ⟨h1, h2⟩; exact ⟨h1, fun h g hg => h2 g hg f rfl h⟩
  · rintro ⟨h1, h2⟩; exact ⟨h1, fun g hg b hb h => by subst hb; exact h2 h g hg⟩

theorem len_snoc_le {α : Type} (l : List α) (c : Prop) [Decidable c] (x : α) :
    (l ++ if c then [x] else []).length ≤ 1 ↔ l.length ≤ 1 ∧ (c → l = []) := by
  by_cases h : c
  · rw [if_pos h]
    rw [List.length_append, List.length_singleton]
    constructor
    · intro h'; exact ⟨by omega, fun _ => List.length_eq_zero_iff.1 (by omega)⟩
    · rintro ⟨_, h2⟩; rw [h2 h]; simp
  · rw [if_neg h]; simp [h]

theorem reqGood_snoc (ext : Bool) (fs : List Fld) (f : Fld) :
    ReqGood ext (fs ++ [f]) ↔ ReqGood ext fs ∧ (isPseudo f = true → ∀ g ∈ fs, isPseudo g = true) ∧ ReqVal ext f ∧ ReqFresh fs f := by
  constructor
  · rintro ⟨h1, h2, h3, h4⟩
    rw [pseudoFirst_snoc] at h1
    rw [hostVals_snoc, len_snoc_le] at h4
    have h3' : ∀ k ∈ onceNames, (vals k fs).length ≤ 1 ∧ (nmOf f.1 = k → vals k fs = []) := by
      intro k hk
      have := h3 k hk
      rwa [vals_snoc, len_snoc_le] at this
    exact ⟨⟨h1.1, fun g hg => h2 g (List.mem_append_left _ hg), fun k hk => (h3' k hk).1, h4.1⟩, h1.2,
      h2 f (by simp), fun hk => (h3' _ hk).2 rfl, fun a b => h4.2 ⟨a, b⟩⟩
  · rintro ⟨⟨h1, h2, h3, h4⟩, h5, h6, h7, h8⟩
    refine ⟨(pseudoFirst_snoc _ _).2 ⟨h1, h5⟩, fun g hg => ?_, fun k hk => ?_, ?_⟩
    · rcases List.mem_append.1 hg with hg | hg
      · exact h2 g hg
      · rw [List.mem_singleton.1 hg]; exact h6
    · rw [vals_snoc, len_snoc_le]
      exact ⟨h3 k hk, fun e => by subst e; exact h7 hk⟩
    · rw [hostVals_snoc, len_snoc_le]
      exact ⟨h4, fun h => h8 h.1 h.2⟩

theorem reqGood_nil (ext : Bool) : ReqGood ext [] :=
  ⟨List.Pairwise.nil, by simp, by simp [vals], by simp [hostVals, vals]⟩

theorem reqGood_prefix {ext : Bool} {a b : List Fld} (h : ReqGood ext (a ++ b)) : ReqGood ext a := by
  induction b using List.reverseRecOn with
  | nil => simpa using h
  | append_singleton b x ih =>
    rw [← List.append_assoc, reqGood_snoc] at h
    exact ih h.1

/-- the state after the fields `done` -/
structure ReqInv (done : List Fld) (s : State) : Prop where
  authority : s.authority = !(vals .authority done).isEmpty
  path : s.path = !(vals .path done).isEmpty
  method : s.method = !(vals .method done).isEmpty
  scheme : s.scheme = !(vals .scheme done).isEmpty
  protocol : s.protocol = !(vals .protocol done).isEmpty
  host : s.host = !(hostVals done).isEmpty
  pseudo : s.pseudoDisallowed = done.any (fun g => !isPseudo g)
  connect : s.methConnect = (vals .method done).any (· == ascii "CONNECT")
  options : s.methOptions = (vals .method done).any (· == ascii "OPTIONS")
  regular : s.pathRegular = (vals .path done).any (fun v => v.head? == some 0x2f)
  asterisk : s.pathAsterisk = (vals .path done).any (· == ascii "*")
  http : s.schemeHttp = (vals .scheme done).any (fun v => lower v == ascii "http" || lower v == ascii "https")
  cl : s.contentLength = match vals .cl done with | [] => -1 | v :: _ => (decimal v : Int)
  final : s.expectFinal = false
  recv : s.recvContentLength = 0

theorem reqInv_init : ReqInv [] {} := by
  constructor <;> rfl

theorem recordMethod_eq (s : State) (v : List UInt8) : recordMethod s v =
    { s with methHead := s.methHead || v == ascii "HEAD", methConnect := s.methConnect || v == ascii "CONNECT",
             methOptions := s.methOptions || v == ascii "OPTIONS" } := by
  have e1 : ascii "HEAD" = sHEAD := by decide
  have e2 : ascii "CONNECT" = sCONNECT := by decide
  have e3 : ascii "OPTIONS" = sOPTIONS := by decide
  rw [e1, e2, e3]
  unfold recordMethod
  by_cases h1 : v = sHEAD
  · subst h1; cases s; simp [sHEAD, sCONNECT, sOPTIONS]
  by_cases h2 : v = sCONNECT
  · subst h2; cases s; simp [sHEAD, sCONNECT, sOPTIONS]
  by_cases h3 : v = sOPTIONS
  · subst h3; cases s; simp [sHEAD, sCONNECT, sOPTIONS]
  have b1 : (v == sHEAD) = false := by simpa using h1
  have b2 : (v == sCONNECT) = false := by simpa using h2
  have b3 : (v == sOPTIONS) = false := by simpa using h3
  rw [b1, b2, b3, if_neg h1, if_neg h2, if_neg h3]
  cases s
  simp

theorem head_eq (n : List UInt8) : n[0]? = n.head? := by cases n <;> rfl

theorem isPseudo_iff (f : Field) : isPseudo (fl f) = true ↔ f.name[0]? = some 0x3a := by
  rw [head_eq]; unfold isPseudo fl; simp

theorem any_snoc (fs : List Fld) (f : Fld) (p : Fld → Bool) : (fs ++ [f]).any p = (fs.any p || p f) := by simp

/-- outcome of one field -/
def ReqStepOk (ext : Bool) (done : List Fld) (f : Field) (r : Res) : Prop :=
  match r with
  | .malformed => ¬ ReqGood ext (done ++ [fl f])
  | .remove s => ReqGood ext (done ++ [fl f]) ∧ ReqInv (done ++ [fl f]) s ∧ deliverRequest (fl f) = false
  | .ok s => ReqGood ext (done ++ [fl f]) ∧ ReqInv (done ++ [fl f]) s ∧ deliverRequest (fl f) = true

theorem not_empty_iff {α : Type} (l : List α) : (!l.isEmpty) = true ↔ l ≠ [] := by cases l <;> simp

/-- the state for a further field, whose kind is `k` -/
theorem reqInv_snoc {done : List Fld} {s : State} (h : ReqInv done s) (f : Fld) (s' : State) (k : Nm) (hk : nmOf f.1 = k)
    (authority : s'.authority = (s.authority || k = .authority))
    (path : s'.path = (s.path || k = .path))
    (method : s'.method = (s.method || k = .method))
    (scheme : s'.scheme = (s.scheme || k = .scheme))
    (protocol : s'.protocol = (s.protocol || k = .protocol))
    (host : s'.host = (s.host || (k = .host && f.2.all isAuthorityChar)))
    (pseudo : s'.pseudoDisallowed = (s.pseudoDisallowed || !isPseudo f))
    (connect : s'.methConnect = (s.methConnect || (k = .method && f.2 == ascii "CONNECT")))
    (options : s'.methOptions = (s.methOptions || (k = .method && f.2 == ascii "OPTIONS")))
    (regular : s'.pathRegular = (s.pathRegular || (k = .path && f.2.head? == some 0x2f)))
    (asterisk : s'.pathAsterisk = (s.pathAsterisk || (k = .path && f.2 == ascii "*")))
    (http : s'.schemeHttp = (s.schemeHttp || (k = .scheme && (lower f.2 == ascii "http" || lower f.2 == ascii "https"))))
    (cl : s'.contentLength = if k = .cl then (decimal f.2 : Int) else s.contentLength)
    (clnew : k = .cl → vals .cl done = [])
    (final : s'.expectFinal = s.expectFinal) (recv : s'.recvContentLength = s.recvContentLength) :
    ReqInv (done ++ [f]) s' := by
  constructor
  · rw [authority, h.authority, vals_snoc, hk]; by_cases e : k = .authority <;> simp [e]
  · rw [path, h.path, vals_snoc, hk]; by_cases e : k = .path <;> simp [e]
  · rw [method, h.method, vals_snoc, hk]; by_cases e : k = .method <;> simp [e]
  · rw [scheme, h.scheme, vals_snoc, hk]; by_cases e : k = .scheme <;> simp [e]
  · rw [protocol, h.protocol, vals_snoc, hk]; by_cases e : k = .protocol <;> simp [e]
  · rw [host, h.host, hostVals_snoc, hk]
    by_cases e : k = .host
    · cases e2 : f.2.all isAuthorityChar
      · rw [if_neg (by simp)]; simp
      · rw [if_pos ⟨e, rfl⟩]; simp [e]
    · rw [if_neg (fun x => e x.1)]; simp [e]
  · rw [pseudo, h.pseudo, any_snoc]
  · rw [connect, h.connect, vals_snoc, hk]; by_cases e : k = .method <;> simp [e]
  · rw [options, h.options, vals_snoc, hk]; by_cases e : k = .method <;> simp [e]
  · rw [regular, h.regular, vals_snoc, hk]; by_cases e : k = .path <;> simp [e]
  · rw [asterisk, h.asterisk, vals_snoc, hk]; by_cases e : k = .path <;> simp [e]
  · rw [http, h.http, vals_snoc, hk]; by_cases e : k = .scheme <;> simp [e]
  · rw [cl, vals_snoc, hk]
    by_cases e : k = .cl
    · rw [if_pos e, if_pos e, clnew e]; rfl
    · rw [if_neg e, if_neg e, List.append_nil]; exact h.cl
  · rw [final, h.final]
  · rw [recv, h.recv]

theorem cl_ne (done : List Fld) (s : State) (h : ReqInv done s) : s.contentLength = -1 ↔ vals .cl done = [] := by
  rw [h.cl]
  cases vals .cl done with
  | nil => simp
  | cons v t => simp

/-- http_request_on_header by kind of name, with the tests replaced by the grammar -/
theorem requestOnHeader_eq (pp : Pri → List UInt8 → Option Pri) (s : State) (f : Field) (tr cp : Bool) :
    requestOnHeader pp s f (lookupToken f.name) tr cp =
    match nmOf f.name with
    | .authority => if f.value.all isAuthorityChar = true ∧ s.authority = false ∧ f.value ≠ [] then .ok { s with authority := true } else .malformed
    | .method => if f.value.all isTchar = true ∧ s.method = false ∧ f.value ≠ [] then .ok (recordMethod { s with method := true } f.value)
        else .malformed
    | .path => if f.value.all isPathChar = true ∧ s.path = false ∧ f.value ≠ [] then
          .ok { s with path := true, pathRegular := s.pathRegular || f.value.head? == some 0x2f,
                       pathAsterisk := s.pathAsterisk || f.value == ascii "*" }
        else .malformed
    | .scheme => if isScheme f.value = true ∧ s.scheme = false then
          .ok { s with scheme := true, schemeHttp := s.schemeHttp || (lower f.value == ascii "http" || lower f.value == ascii "https") }
        else .malformed
    | .protocol => if cp = true ∧ isFieldValue f.value = true ∧ s.protocol = false ∧ f.value ≠ [] then .ok { s with protocol := true }
        else .malformed
    | .status => if isPseudo (fl f) then .malformed else if isFieldValue f.value = true then .ok s else .remove s
    | .host => if f.value.all isAuthorityChar = false then .remove s
        else if s.host = false ∧ f.value ≠ [] then .ok { s with host := true } else .malformed
    | .cl => if tr = true then .remove s
        else if s.contentLength = -1 ∧ isLength f.value = true then .ok { s with contentLength := decimal f.value }
        else .malformed
    | .te => if lower f.value = ascii "trailers" then .ok s else .malformed
    | .priority => if isFieldValue f.value = false then .remove { s with priority := false, badPriority := true }
        else if tr || s.badPriority then .ok s
        else match pp s.pri f.value with
          | some p => .ok { s with pri := p, priority := true }
          | none => .ok { s with priority := false, badPriority := true }
    | .conn => .malformed
    | .other => if isPseudo (fl f) then .malformed else if isFieldValue f.value = true then .ok s else .remove s := by
  have e4 : sHttp = ascii "http" := by decide
  have e5 : sHttps = ascii "https" := by decide
  have e6 : sTrailers = ascii "trailers" := by decide
  have hp : (f.name[0]? = some 0x3a) = (isPseudo (fl f) = true) := propext (isPseudo_iff f).symm
  have hlen : ∀ v : List UInt8, (v.length == 0) = true ↔ v = [] := by intro v; cases v <;> simp
  unfold requestOnHeader
  simp only [tok_authority, tok_method, tok_path, tok_scheme, tok_protocol, tok_host, tok_cl, tok_conn, tok_te, tok_priority,
    checkAuthority_eq, checkMethod_eq, checkPath_eq, checkScheme_eq, checkHeaderValue_eq, parseUint_eq, lstrieq_eq, e4, e5, e6, hp]
  cases hk : nmOf f.name
  case authority =>
    simp only [if_true]
    cases f.value.all isAuthorityChar <;> cases s.authority <;> cases hv : f.value <;> simp
  case method =>
    simp only [reduceCtorEq, if_false, if_true]
    cases f.value.all isTchar <;> cases s.method <;> cases hv : f.value <;> simp
  case path =>
    simp only [reduceCtorEq, if_false, if_true]
    have ea : ascii "*" = [0x2a] := by decide
    rw [ea]
    cases f.value.all isPathChar <;> cases hsp : s.path <;> cases hv : f.value <;> simp
    rename_i c t
    by_cases h1 : c = 0x2f
    · subst h1; simp
    · rw [if_neg h1]
      by_cases h2 : t = [] ∧ c = 0x2a
      · obtain ⟨rfl, rfl⟩ := h2; simp
      · rw [if_neg h2]
        have b1 : (c == 0x2f) = false := by simpa using h1
        have b2 : (c :: t == [(0x2a : UInt8)]) = false := by
          cases hb : (c :: t == [(0x2a : UInt8)])
          · rfl
          · have := eq_of_beq hb
            cases this
            exact absurd ⟨rfl, rfl⟩ h2
        simp [h1]
        intro hc ht
        exact absurd ⟨ht, hc⟩ h2
  case scheme =>
    simp only [reduceCtorEq, if_false, if_true]
    have hne : isScheme f.value = true → f.value ≠ [] := by
      intro h e; rw [e] at h; cases h
    have hb : ∀ a b : List UInt8, (a == b) = (b == a) := fun a b => by
      by_cases e : a = b
      · rw [e]
      · have e' : ¬ b = a := fun x => e x.symm
        simp [e, e']
    rw [hb (ascii "http"), hb (ascii "https")]
    cases hs : isScheme f.value
    · simp
    · have := hne hs
      have hl : (f.value.length == 0) = false := by simpa using this
      rw [hl]
      cases hss : s.scheme
      · simp only [Bool.not_true, Bool.or_false, Bool.false_eq_true, if_false, and_self, if_true]
        cases (lower f.value == ascii "http" || lower f.value == ascii "https")
        · simp
        · simp
      · simp
  case protocol =>
    simp only [reduceCtorEq, if_false, if_true]
    cases cp <;> cases isFieldValue f.value <;> cases s.protocol <;> cases hv : f.value <;> simp
  case status => simp only [reduceCtorEq, if_false]; cases isFieldValue f.value <;> simp
  case host =>
    simp only [reduceCtorEq, if_false, if_true]
    cases f.value.all isAuthorityChar <;> cases s.host <;> cases hv : f.value <;> simp
  case cl =>
    simp only [reduceCtorEq, if_false, if_true]
    cases tr
    · by_cases h1 : s.contentLength = -1
      · cases h2 : isLength f.value
        · simp [h1]
        · have : ¬ ((decimal f.value : Nat) : Int) = -1 := by omega
          simp [h1]
      · simp [h1]
    · simp
  case te =>
    simp only [reduceCtorEq, if_false, if_true]
    by_cases h : lower f.value = ascii "trailers"
    · simp [h]
    · have h' : ¬ ascii "trailers" = lower f.value := fun e => h e.symm
      simp [h, h']
  case priority =>
    simp only [reduceCtorEq, if_false, if_true]
    cases isFieldValue f.value <;> cases pp s.pri f.value <;> simp
  case conn => simp
  case other => simp only [reduceCtorEq, if_false]; cases isFieldValue f.value <;> simp

theorem not_good_of {ext : Bool} {done : List Fld} {f : Fld} (h : ¬ (ReqVal ext f ∧ ReqFresh done f)) : ¬ ReqGood ext (done ++ [f]) :=
  fun hg => h ((reqGood_snoc _ _ _).1 hg).2.2

/-- one field of a request's header section -/
theorem req_step (pp : Pri → List UInt8 → Option Pri) (ext : Bool) (done : List Fld) (s : State) (f : Field)
    (hg : ReqGood ext done) (hi : ReqInv done s) :
    ReqStepOk ext done f (onHeader pp s f (lookupToken f.name) true false ext) := by
  have hp := isPseudo_iff f
  unfold onHeader
  simp only [checkNonemptyName_eq]
  by_cases hps : isPseudo (fl f) = true
  · -- pseudo-header fields
    have h0 : ¬ f.name.length = 0 := by
      intro h; rw [hp] at hps; rw [List.length_eq_zero_iff.1 h] at hps; cases hps
    rw [if_neg h0, if_pos (hp.1 hps)]
    by_cases hd : s.pseudoDisallowed = true
    · rw [if_pos (by simp [hd])]
      intro hgood
      have := ((reqGood_snoc _ _ _).1 hgood).2.1 hps
      rw [hi.pseudo] at hd
      obtain ⟨g, hg1, hg2⟩ := List.any_eq_true.1 hd
      rw [this g hg1] at hg2; cases hg2
    · have hall : ∀ g ∈ done, isPseudo g = true := by
        intro g hgm
        cases hc : isPseudo g
        · exact absurd (by rw [hi.pseudo]; exact List.any_eq_true.2 ⟨g, hgm, by rw [hc]; rfl⟩) hd
        · rfl
      have hd' : s.pseudoDisallowed = false := by simpa using hd
      have hfl1 : (fl f).1 = f.name := rfl
      have hfl2 : (fl f).2 = f.value := rfl
      have hgs := reqGood_snoc ext done (fl f)
      by_cases htok : lookupToken f.name = none
      · rw [if_pos (Or.inl htok)]
        apply not_good_of
        rintro ⟨hv, _⟩
        unfold ReqVal at hv
        rw [hfl1] at hv
        have hpn := nm_pseudo f.name
        cases hk : nmOf f.name <;> rw [hk] at hv hpn
        case authority => exact (hpn (by simp)).2 htok
        case method => exact (hpn (by simp)).2 htok
        case path => exact (hpn (by simp)).2 htok
        case scheme => exact (hpn (by simp)).2 htok
        case protocol => exact (hpn (by simp)).2 htok
        case status => exact hv
        case conn => exact hv
        case other => rw [hv.1] at hps; cases hps
        all_goals
          have := (nm_regular f.name (by rw [hk]; simp)).2.1
          rw [hp, head_eq] at hps
          exact this hps
      · rw [if_neg (by simp [htok, hd'])]
        simp only [if_true]
        rw [requestOnHeader_eq]
        have hdel : deliverRequest (fl f) = true := by unfold deliverRequest; rw [hps]; rfl
        have hps2 : (!isPseudo (fl f)) = false := by rw [hps]; rfl
        cases hk : nmOf f.name
        case authority =>
          dsimp only
          by_cases hc : f.value.all isAuthorityChar = true ∧ s.authority = false ∧ f.value ≠ []
          · rw [if_pos hc]
            obtain ⟨c1, c2, c3⟩ := hc
            have hfresh : vals .authority done = [] := by rw [hi.authority] at c2; simpa using c2
            refine ⟨hgs.2 ⟨hg, fun _ => hall, ?_, ?_, ?_⟩, ?_, hdel⟩
            · unfold ReqVal; rw [hfl1, hk]; exact ⟨c3, c1⟩
            · rw [hfl1, hk]; exact fun _ => hfresh
            · rw [hfl1, hk]; intro h; cases h
            · apply reqInv_snoc hi (fl f) _ .authority hk <;> simp [hps2]
          · rw [if_neg hc]
            apply not_good_of
            rintro ⟨hv, hf, _⟩
            unfold ReqVal at hv
            rw [hfl1, hk] at hv hf
            exact hc ⟨hv.2, by rw [hi.authority, hf (by simp [onceNames])]; rfl, hv.1⟩
        case method =>
          dsimp only
          by_cases hc : f.value.all isTchar = true ∧ s.method = false ∧ f.value ≠ []
          · rw [if_pos hc]
            obtain ⟨c1, c2, c3⟩ := hc
            have hfresh : vals .method done = [] := by rw [hi.method] at c2; simpa using c2
            refine ⟨hgs.2 ⟨hg, fun _ => hall, ?_, ?_, ?_⟩, ?_, hdel⟩
            · unfold ReqVal; rw [hfl1, hk]; exact ⟨c3, c1⟩
            · rw [hfl1, hk]; exact fun _ => hfresh
            · rw [hfl1, hk]; intro h; cases h
            · rw [recordMethod_eq]
              apply reqInv_snoc hi (fl f) _ .method hk <;> simp [hps2, hfl2]
          · rw [if_neg hc]
            apply not_good_of
            rintro ⟨hv, hf, _⟩
            unfold ReqVal at hv
            rw [hfl1, hk] at hv hf
            exact hc ⟨hv.2, by rw [hi.method, hf (by simp [onceNames])]; rfl, hv.1⟩
        case path =>
          dsimp only
          by_cases hc : f.value.all isPathChar = true ∧ s.path = false ∧ f.value ≠ []
          · rw [if_pos hc]
            obtain ⟨c1, c2, c3⟩ := hc
            have hfresh : vals .path done = [] := by rw [hi.path] at c2; simpa using c2
            refine ⟨hgs.2 ⟨hg, fun _ => hall, ?_, ?_, ?_⟩, ?_, hdel⟩
            · unfold ReqVal; rw [hfl1, hk]; exact ⟨c3, c1⟩
            · rw [hfl1, hk]; exact fun _ => hfresh
            · rw [hfl1, hk]; intro h; cases h
            · apply reqInv_snoc hi (fl f) _ .path hk <;> simp [hps2, hfl2]
          · rw [if_neg hc]
            apply not_good_of
            rintro ⟨hv, hf, _⟩
            unfold ReqVal at hv
            rw [hfl1, hk] at hv hf
            exact hc ⟨hv.2, by rw [hi.path, hf (by simp [onceNames])]; rfl, hv.1⟩
        case scheme =>
          dsimp only
          by_cases hc : isScheme f.value = true ∧ s.scheme = false
          · rw [if_pos hc]
            obtain ⟨c1, c2⟩ := hc
            have hfresh : vals .scheme done = [] := by rw [hi.scheme] at c2; simpa using c2
            refine ⟨hgs.2 ⟨hg, fun _ => hall, ?_, ?_, ?_⟩, ?_, hdel⟩
            · unfold ReqVal; rw [hfl1, hk]; exact c1
            · rw [hfl1, hk]; exact fun _ => hfresh
            · rw [hfl1, hk]; intro h; cases h
            · apply reqInv_snoc hi (fl f) _ .scheme hk <;> simp [hps2, hfl2]
          · rw [if_neg hc]
            apply not_good_of
            rintro ⟨hv, hf, _⟩
            unfold ReqVal at hv
            rw [hfl1, hk] at hv hf
            exact hc ⟨hv, by rw [hi.scheme, hf (by simp [onceNames])]; rfl⟩
        case protocol =>
          dsimp only
          by_cases hc : ext = true ∧ isFieldValue f.value = true ∧ s.protocol = false ∧ f.value ≠ []
          · rw [if_pos hc]
            obtain ⟨c0, c1, c2, c3⟩ := hc
            have hfresh : vals .protocol done = [] := by rw [hi.protocol] at c2; simpa using c2
            refine ⟨hgs.2 ⟨hg, fun _ => hall, ?_, ?_, ?_⟩, ?_, hdel⟩
            · unfold ReqVal; rw [hfl1, hk]; exact ⟨c0, c3, c1⟩
            · rw [hfl1, hk]; exact fun _ => hfresh
            · rw [hfl1, hk]; intro h; cases h
            · apply reqInv_snoc hi (fl f) _ .protocol hk <;> simp [hps2]
          · rw [if_neg hc]
            apply not_good_of
            rintro ⟨hv, hf, _⟩
            unfold ReqVal at hv
            rw [hfl1, hk] at hv hf
            exact hc ⟨hv.1, hv.2.2, by rw [hi.protocol, hf (by simp [onceNames])]; rfl, hv.2.1⟩
        case status =>
          dsimp only
          rw [if_pos hps]
          apply not_good_of
          rintro ⟨hv, _⟩
          unfold ReqVal at hv
          rw [hfl1, hk] at hv
          exact hv
        case other =>
          dsimp only
          rw [if_pos hps]
          apply not_good_of
          rintro ⟨hv, _⟩
          unfold ReqVal at hv
          rw [hfl1, hk] at hv
          dsimp only at hv
          rw [hv.1] at hps; cases hps
        all_goals
          exfalso
          have := (nm_regular f.name (by rw [hk]; simp)).2.1
          rw [hp, head_eq] at hps
          exact this hps
  · -- other fields
    have hps' : isPseudo (fl f) = false := by simpa using hps
    have hps2 : (!isPseudo (fl f)) = true := by rw [hps']; rfl
    have hfl1 : (fl f).1 = f.name := rfl
    have hfl2 : (fl f).2 = f.value := rfl
    have hgs := reqGood_snoc ext done (fl f)
    have hnp : isPseudo (fl f) = true → ∀ g ∈ done, isPseudo g = true := fun h => absurd h hps
    have hpn := nm_pseudo f.name
    have hne : f.name.head? ≠ some 0x3a := by rw [← head_eq]; exact fun h => hps (hp.2 h)
    have hkind : nmOf f.name ∈ [Nm.host, .cl, .te, .priority, .conn] ∨ nmOf f.name = .other := by
      cases hk : nmOf f.name <;> rw [hk] at hpn
      case authority => exact absurd (hpn (by simp)).1 hne
      case method => exact absurd (hpn (by simp)).1 hne
      case path => exact absurd (hpn (by simp)).1 hne
      case scheme => exact absurd (hpn (by simp)).1 hne
      case protocol => exact absurd (hpn (by simp)).1 hne
      case status => exact absurd (hpn (by simp)).1 hne
      all_goals simp
    rw [if_neg (fun h => hps (hp.2 h))]
    -- a field of no special name
    have hother : nmOf f.name = .other → ∀ s' : State, s' = { s with pseudoDisallowed := true } → badCase f.name = false →
        ReqGood ext (done ++ [fl f]) ∧ ReqInv (done ++ [fl f]) s' := by
      intro hk s' hs' hb
      subst hs'
      refine ⟨hgs.2 ⟨hg, hnp, ?_, ?_, ?_⟩, ?_⟩
      · unfold ReqVal; rw [hfl1, hk]; exact ⟨hps', hb⟩
      · rw [hfl1, hk]; intro h; simp [onceNames] at h
      · rw [hfl1, hk]; intro h; cases h
      · apply reqInv_snoc hi (fl f) _ .other hk <;> simp [hps2]
    have hbad : nmOf f.name = .other → badCase f.name = true → ¬ ReqGood ext (done ++ [fl f]) := by
      intro hk hb
      apply not_good_of
      rintro ⟨hv, _⟩
      unfold ReqVal at hv
      rw [hfl1, hk] at hv
      dsimp only at hv
      rw [hb] at hv; cases hv.2
    by_cases h0 : f.name.length = 0
    · rw [if_pos h0]
      have hk : nmOf f.name = .other := by rw [List.length_eq_zero_iff.1 h0]; decide +kernel
      have hb : badCase f.name = false := by rw [List.length_eq_zero_iff.1 h0]; rfl
      have := hother hk _ rfl hb
      refine ⟨this.1, this.2, ?_⟩
      unfold deliverRequest isName
      rw [hps', hfl1, List.length_eq_zero_iff.1 h0]; rfl
    · rw [if_neg h0]
      have hnem : f.name ≠ [] := fun h => h0 (by rw [h]; rfl)
      cases hall : f.name.all isNameChar
      · -- illegal name
        have hk : nmOf f.name = .other := by
          rcases hkind with h | h
          · have := (nm_regular f.name h).2.2; rw [hall] at this; cases this
          · exact h
        simp only [Bool.false_eq_true, if_false]
        cases hb : badCase f.name
        · simp only [Bool.false_eq_true, if_false, if_true]
          have := hother hk _ rfl hb
          refine ⟨this.1, this.2, ?_⟩
          unfold deliverRequest isName
          rw [hps', hfl1, hall]; simp
        · simp only [if_true]
          rw [if_neg (by decide)]
          exact hbad hk hb
      · -- legal name
        simp only [if_true]
        rw [if_neg (by decide), if_neg (by decide), requestOnHeader_eq]
        have hb : badCase f.name = false := by
          cases hb : badCase f.name
          · rfl
          · rw [badCase_not_name _ hb] at hall; cases hall
        have hname : isName (fl f).1 = true := by unfold isName; rw [hfl1, hall]; simp [hnem]
        have h_host : ∀ n : List UInt8, n = ascii "host" ↔ nmOf n = .host := nm_iff .host _ rfl
        have h_cl : ∀ n : List UInt8, n = ascii "content-length" ↔ nmOf n = .cl := nm_iff .cl _ rfl
        have h_te : ∀ n : List UInt8, n = ascii "te" ↔ nmOf n = .te := nm_iff .te _ rfl
        have hdel : deliverRequest (fl f) = (if nmOf f.name = .host then f.value.all isAuthorityChar
            else if nmOf f.name = .cl ∨ nmOf f.name = .te then true else isFieldValue f.value) := by
          unfold deliverRequest
          simp only [h_host, h_cl, h_te]
          rw [hps', hname, hfl1, hfl2]; simp
        rcases hkind with hkind | hk
        · cases hk : nmOf f.name <;> rw [hk] at hdel hkind
          case host =>
            dsimp only
            simp only [if_true] at hdel
            cases ha : f.value.all isAuthorityChar
            · simp only [if_true]
              refine ⟨hgs.2 ⟨hg, hnp, ?_, ?_, ?_⟩, ?_, hdel.trans ha⟩
              · unfold ReqVal; rw [hfl1, hk, hfl2]; intro h; rw [ha] at h; cases h
              · rw [hfl1, hk]; intro h; simp [onceNames] at h
              · rw [hfl2]; intro _ h; rw [ha] at h; cases h
              · apply reqInv_snoc hi (fl f) _ .host hk <;> simp [hps2, hfl2, ha]
            · simp only [Bool.true_eq_false, if_false]
              by_cases hc : s.host = false ∧ f.value ≠ []
              · rw [if_pos hc]
                refine ⟨hgs.2 ⟨hg, hnp, ?_, ?_, ?_⟩, ?_, hdel.trans ha⟩
                · unfold ReqVal; rw [hfl1, hk, hfl2]; exact fun _ => hc.2
                · rw [hfl1, hk]; intro h; simp [onceNames] at h
                · intro _ _; have := hc.1; rw [hi.host] at this; simpa using this
                · apply reqInv_snoc hi (fl f) _ .host hk <;> simp [hps2, hfl2, ha]
              · rw [if_neg hc]
                apply not_good_of
                rintro ⟨hv, _, hf⟩
                unfold ReqVal at hv
                rw [hfl1, hk] at hv hf
                exact hc ⟨by rw [hi.host, hf rfl ha]; rfl, hv ha⟩
          case cl =>
            dsimp only
            rw [if_neg (by simp)]
            by_cases hc : s.contentLength = -1 ∧ isLength f.value = true
            · rw [if_pos hc]
              have hfresh : vals .cl done = [] := (cl_ne _ _ hi).1 hc.1
              refine ⟨hgs.2 ⟨hg, hnp, ?_, ?_, ?_⟩, ?_, by rw [hdel]; simp⟩
              · unfold ReqVal; rw [hfl1, hk]; exact hc.2
              · rw [hfl1, hk]; exact fun _ => hfresh
              · rw [hfl1, hk]; intro h; cases h
              · apply reqInv_snoc hi (fl f) _ .cl hk <;> simp [hps2, hfl2, hfresh]
            · rw [if_neg hc]
              apply not_good_of
              rintro ⟨hv, hf, _⟩
              unfold ReqVal at hv
              rw [hfl1, hk] at hv hf
              exact hc ⟨(cl_ne _ _ hi).2 (hf (by simp [onceNames])), hv⟩
          case te =>
            dsimp only
            by_cases hc : lower f.value = ascii "trailers"
            · rw [if_pos hc]
              refine ⟨hgs.2 ⟨hg, hnp, ?_, ?_, ?_⟩, ?_, by rw [hdel]; simp⟩
              · unfold ReqVal; rw [hfl1, hk]; exact hc
              · rw [hfl1, hk]; intro h; simp [onceNames] at h
              · rw [hfl1, hk]; intro h; cases h
              · apply reqInv_snoc hi (fl f) _ .te hk <;> simp [hps2]
            · rw [if_neg hc]
              apply not_good_of
              rintro ⟨hv, _⟩
              unfold ReqVal at hv
              rw [hfl1, hk] at hv
              exact hc hv
          case priority =>
            dsimp only
            have hgood : ReqGood ext (done ++ [fl f]) := by
              refine hgs.2 ⟨hg, hnp, ?_, ?_, ?_⟩
              · unfold ReqVal; rw [hfl1, hk]; trivial
              · rw [hfl1, hk]; intro h; simp [onceNames] at h
              · rw [hfl1, hk]; intro h; cases h
            have hdel' : deliverRequest (fl f) = isFieldValue f.value := by rw [hdel]; simp
            cases hv : isFieldValue f.value
            · simp only [if_true]
              refine ⟨hgood, ?_, hdel'.trans hv⟩
              apply reqInv_snoc hi (fl f) _ .priority hk <;> simp [hps2]
            · simp only [Bool.true_eq_false, if_false]
              cases hbp : s.badPriority
              · cases pp s.pri f.value with
                | none =>
                  refine ⟨hgood, ?_, hdel'.trans hv⟩
                  apply reqInv_snoc hi (fl f) _ .priority hk <;> simp [hps2]
                | some p =>
                  refine ⟨hgood, ?_, hdel'.trans hv⟩
                  apply reqInv_snoc hi (fl f) _ .priority hk <;> simp [hps2]
              · refine ⟨hgood, ?_, hdel'.trans hv⟩
                apply reqInv_snoc hi (fl f) _ .priority hk <;> simp [hps2]
          case conn =>
            apply not_good_of
            rintro ⟨hv, _⟩
            unfold ReqVal at hv
            rw [hfl1, hk] at hv
            exact hv
          all_goals simp at hkind
        · rw [hk] at hdel ⊢
          dsimp only
          rw [if_neg hps]
          have := hother hk _ rfl hb
          have hdel' : deliverRequest (fl f) = isFieldValue f.value := by rw [hdel]; simp
          cases hv : isFieldValue f.value
          · simp only [Bool.false_eq_true, if_false]
            exact ⟨this.1, this.2, hdel'.trans hv⟩
          · simp only [if_true]
            exact ⟨this.1, this.2, hdel'.trans hv⟩

/-- a whole header section -/
theorem req_run (pp : Pri → List UInt8 → Option Pri) (ext : Bool) (fs : List Field) (done : List Fld) (s : State)
    (hg : ReqGood ext done) (hi : ReqInv done s) :
    match (runFields pp true false ext s fs).2 with
    | none => ¬ ReqGood ext (done ++ fs.map fl)
    | some s' => ReqGood ext (done ++ fs.map fl) ∧ ReqInv (done ++ fs.map fl) s' ∧
        (runFields pp true false ext s fs).1 = fs.filter (fun f => deliverRequest (fl f)) := by
  induction fs generalizing done s with
  | nil => simp only [runFields, List.map_nil, List.append_nil, List.filter_nil]; exact ⟨hg, hi, trivial⟩
  | cons f t ih =>
    have hst := req_step pp ext done s f hg hi
    have happ : done ++ (f :: t).map fl = (done ++ [fl f]) ++ t.map fl := by simp
    rw [happ]
    unfold runFields
    cases hr : onHeader pp s f (lookupToken f.name) true false ext with
    | malformed =>
      rw [hr] at hst
      exact fun h => hst (reqGood_prefix h)
    | remove s' =>
      rw [hr] at hst
      obtain ⟨h1, h2, h3⟩ := hst
      have := ih (done ++ [fl f]) s' h1 h2
      dsimp only
      rw [List.filter_cons, h3]
      exact this
    | ok s' =>
      rw [hr] at hst
      obtain ⟨h1, h2, h3⟩ := hst
      have := ih (done ++ [fl f]) s' h1 h2
      dsimp only
      rw [List.filter_cons, h3]
      cases hq : (runFields pp true false ext s' t).2 with
      | none => rw [hq] at this; exact this
      | some s'' =>
        rw [hq] at this
        exact ⟨this.1, this.2.1, by rw [this.2.2]; simp⟩

/-- RequestOk in terms of kinds -/
theorem requestOk_iff (ext : Bool) (fs : List Fld) : RequestOk ext fs ↔ ReqGood ext fs ∧
    (if vals .protocol fs = [] ∧ ascii "CONNECT" ∈ vals .method fs then
      vals .authority fs ≠ [] ∧ vals .scheme fs = [] ∧ vals .path fs = []
     else (vals .method fs ≠ [] ∧ vals .scheme fs ≠ [] ∧ vals .path fs ≠ [] ∧ (vals .authority fs ≠ [] ∨ hostVals fs ≠ [])) ∧
      (vals .protocol fs ≠ [] → ascii "CONNECT" ∈ vals .method fs ∧ vals .authority fs ≠ []) ∧
      ((∃ v ∈ vals .scheme fs, lower v = ascii "http" ∨ lower v = ascii "https") →
        ∀ v ∈ vals .path fs, v.head? = some 0x2f ∨ (v = ascii "*" ∧ ascii "OPTIONS" ∈ vals .method fs))) := by
  have vA := valuesOf_eq .authority _ rfl fs
  have vM := valuesOf_eq .method _ rfl fs
  have vP := valuesOf_eq .path _ rfl fs
  have vS := valuesOf_eq .scheme _ rfl fs
  have vR := valuesOf_eq .protocol _ rfl fs
  have vL := valuesOf_eq .cl _ rfl fs
  have hA := has_eq .authority _ rfl fs
  have hM := has_eq .method _ rfl fs
  have hP := has_eq .path _ rfl fs
  have hS := has_eq .scheme _ rfl fs
  have hR := has_eq .protocol _ rfl fs
  have hC := hasValue_eq .method _ "CONNECT" rfl fs
  have hO := hasValue_eq .method _ "OPTIONS" rfl fs
  have memv : ∀ (k : Nm) (v : List UInt8), v ∈ vals k fs ↔ ∃ f ∈ fs, nmOf f.1 = k ∧ f.2 = v := by
    intro k v
    unfold vals
    simp only [List.mem_map, List.mem_filter, decide_eq_true_eq]
    constructor
    · rintro ⟨f, ⟨h1, h2⟩, h3⟩; exact ⟨f, h1, h2, h3⟩
    · rintro ⟨f, h1, h2, h3⟩; exact ⟨f, ⟨h1, h2⟩, h3⟩
  have nA := nm_iff .authority ":authority" rfl
  have nM := nm_iff .method ":method" rfl
  have nP := nm_iff .path ":path" rfl
  have nS := nm_iff .scheme ":scheme" rfl
  have nR := nm_iff .protocol ":protocol" rfl
  have nT := nm_iff .te "te" rfl
  constructor
  · intro h
    refine ⟨⟨h.first, fun f hf => ?_, fun k hk => ?_, ?_⟩, ?_⟩
    · unfold ReqVal
      have hps := nm_pseudo f.1
      have hpk := h.known f hf
      have hreg := h.regular f hf
      simp only [List.mem_cons, List.not_mem_nil, or_false, nA, nM, nP, nS, nR] at hpk
      cases hk : nmOf f.1 <;> rw [hk] at hps hpk <;> dsimp only
      case authority => exact h.authority f.2 (by rw [vA, memv]; exact ⟨f, hf, hk, rfl⟩)
      case method => exact h.method f.2 (by rw [vM, memv]; exact ⟨f, hf, hk, rfl⟩)
      case path => exact h.path f.2 (by rw [vP, memv]; exact ⟨f, hf, hk, rfl⟩)
      case scheme => exact h.scheme f.2 (by rw [vS, memv]; exact ⟨f, hf, hk, rfl⟩)
      case protocol =>
        have hpse : isPseudo f = true := by unfold isPseudo; rw [(hps (by simp)).1]; rfl
        refine ⟨?_, h.protocol f.2 (by rw [vR, memv]; exact ⟨f, hf, hk, rfl⟩)⟩
        simpa using hpk hpse
      case status =>
        have hpse : isPseudo f = true := by unfold isPseudo; rw [(hps (by simp)).1]; rfl
        simpa using hpk hpse
      case host =>
        intro ha
        apply h.host f.2
        rw [hosts_eq]; unfold hostVals
        rw [List.mem_filter, memv]
        exact ⟨⟨f, hf, hk, rfl⟩, ha⟩
      case cl => exact h.length f.2 (by rw [vL, memv]; exact ⟨f, hf, hk, rfl⟩)
      case te =>
        have hnp : ¬ isPseudo f = true := by
          intro hp
          have := (nm_regular f.1 (by rw [hk]; simp)).2.1
          unfold isPseudo at hp; exact this (by simpa using hp)
        exact (hreg hnp).te ((nT f.1).2 hk)
      case conn =>
        have hnp : ¬ isPseudo f = true := by
          intro hp
          have := (nm_regular f.1 (by rw [hk]; simp)).2.1
          unfold isPseudo at hp; exact this (by simpa using hp)
        exact (hreg hnp).conn ((conn_iff f.1).2 hk)
      case other =>
        cases hp : isPseudo f
        · have := (hreg (by simp [hp])).case_
          exact ⟨rfl, by simpa using this⟩
        · exact absurd (hpk hp) (by simp)
    · unfold onceNames at hk
      have ho := h.once
      unfold atMostOnce at ho
      simp only [List.mem_cons, List.not_mem_nil, or_false] at hk
      rcases hk with rfl | rfl | rfl | rfl | rfl | rfl
      · rw [← vA]; exact ho _ (by simp)
      · rw [← vM]; exact ho _ (by simp)
      · rw [← vP]; exact ho _ (by simp)
      · rw [← vS]; exact ho _ (by simp)
      · rw [← vR]; exact ho _ (by simp)
      · rw [← vL]; exact ho _ (by simp)
    · rw [← hosts_eq]; exact h.hostOnce
    · have c1 := h.connect
      have c2 := h.other
      have c3 := h.extended
      have c4 := h.slash
      rw [hosts_eq] at c2
      simp only [hC, hO, hR, hA, hS, hP, hM, vS, vP] at c1 c2 c3 c4
      by_cases hcc : vals .protocol fs = [] ∧ ascii "CONNECT" ∈ vals .method fs
      · rw [if_pos hcc]
        have := c1 hcc.2 (fun h => h hcc.1)
        exact ⟨this.1, not_not.1 this.2.1, not_not.1 this.2.2⟩
      · rw [if_neg hcc]
        refine ⟨c2 (fun h => hcc ⟨not_not.1 h.2, h.1⟩), c3, c4 (fun h1 h2 => hcc ⟨h2, h1⟩)⟩
  · rintro ⟨⟨g1, g2, g3, g4⟩, hfin⟩
    have val : ∀ k v, v ∈ vals k fs → ∃ f ∈ fs, nmOf f.1 = k ∧ f.2 = v := fun k v hv => (memv k v).1 hv
    refine ⟨g1, fun f hf hp => ?_, ?_, ?_, ?_, ?_, ?_, ?_, ?_, ?_, ?_, fun f hf hp => ?_, ?_, ?_, ?_, ?_⟩
    · have := g2 f hf
      unfold ReqVal at this
      have hps := nm_regular f.1
      simp only [List.mem_cons, List.not_mem_nil, or_false, nA, nM, nP, nS, nR]
      have hp' : f.1.head? = some 0x3a := by unfold isPseudo at hp; simpa using hp
      cases hk : nmOf f.1 <;> rw [hk] at this hps <;> dsimp only at this
      case protocol => exact Or.inr ⟨this.1, rfl⟩
      case other => rw [this.1] at hp; cases hp
      case authority => exact Or.inl (Or.inl rfl)
      case method => exact Or.inl (Or.inr (Or.inl rfl))
      case path => exact Or.inl (Or.inr (Or.inr (Or.inl rfl)))
      case scheme => exact Or.inl (Or.inr (Or.inr (Or.inr rfl)))
      all_goals exact absurd hp' (hps (by simp)).2.1
    · intro n hn
      unfold atMostOnce
      simp only [List.mem_cons, List.not_mem_nil, or_false] at hn
      rcases hn with rfl | rfl | rfl | rfl | rfl | rfl
      · rw [vA]; exact g3 _ (by simp [onceNames])
      · rw [vM]; exact g3 _ (by simp [onceNames])
      · rw [vP]; exact g3 _ (by simp [onceNames])
      · rw [vS]; exact g3 _ (by simp [onceNames])
      · rw [vR]; exact g3 _ (by simp [onceNames])
      · rw [vL]; exact g3 _ (by simp [onceNames])
    · rw [hosts_eq]; exact g4
    · intro v hv
      rw [vA] at hv
      obtain ⟨f, hf, hk, rfl⟩ := val _ _ hv
      have := g2 f hf; unfold ReqVal at this; rw [hk] at this; exact this
    · intro v hv
      rw [vM] at hv
      obtain ⟨f, hf, hk, rfl⟩ := val _ _ hv
      have := g2 f hf; unfold ReqVal at this; rw [hk] at this; exact this
    · intro v hv
      rw [vP] at hv
      obtain ⟨f, hf, hk, rfl⟩ := val _ _ hv
      have := g2 f hf; unfold ReqVal at this; rw [hk] at this; exact this
    · intro v hv
      rw [vS] at hv
      obtain ⟨f, hf, hk, rfl⟩ := val _ _ hv
      have := g2 f hf; unfold ReqVal at this; rw [hk] at this; exact this
    · intro v hv
      rw [vR] at hv
      obtain ⟨f, hf, hk, rfl⟩ := val _ _ hv
      have := g2 f hf; unfold ReqVal at this; rw [hk] at this; exact this.2
    · intro v hv
      rw [hosts_eq] at hv
      unfold hostVals at hv
      obtain ⟨hv, ha⟩ := List.mem_filter.1 hv
      obtain ⟨f, hf, hk, rfl⟩ := val _ _ hv
      have := g2 f hf; unfold ReqVal at this; rw [hk] at this; exact this ha
    · intro v hv
      rw [vL] at hv
      obtain ⟨f, hf, hk, rfl⟩ := val _ _ hv
      have := g2 f hf; unfold ReqVal at this; rw [hk] at this; exact this
    · have := g2 f hf
      unfold ReqVal at this
      have hps := nm_pseudo f.1
      have hrg := nm_regular f.1
      have hp' : f.1.head? ≠ some 0x3a := by unfold isPseudo at hp; simpa using hp
      have hbc : f.1.all isNameChar = true → ¬ badCase f.1 = true := fun h1 h2 => by
        rw [badCase_not_name _ h2] at h1; cases h1
      refine ⟨?_, ?_, ?_⟩
      · cases hk : nmOf f.1 <;> rw [hk] at this hps hrg <;> dsimp only at this
        case other => rw [this.2]; simp
        case host => exact hbc (hrg (by simp)).2.2
        case cl => exact hbc (hrg (by simp)).2.2
        case te => exact hbc (hrg (by simp)).2.2
        case priority => exact hbc (hrg (by simp)).2.2
        all_goals exact absurd (hps (by simp)).1 hp'
      · intro hc
        rw [(conn_iff _).1 hc] at this; exact this
      · intro ht
        rw [(nT _).1 ht] at this; exact this
    all_goals simp only [hC, hO, hR, hA, hS, hP, hM, vS, vP, hosts_eq]
    · intro h1 h2
      rw [if_pos ⟨not_not.1 h2, h1⟩] at hfin
      exact ⟨hfin.1, not_not.2 hfin.2.1, not_not.2 hfin.2.2⟩
    · intro h1
      rw [if_neg (fun h => h1 ⟨h.2, not_not.2 h.1⟩)] at hfin
      exact hfin.1
    · intro h1
      rw [if_neg (fun h => h1 h.1)] at hfin
      exact hfin.2.1 h1
    · intro h1
      rw [if_neg (fun h => h1 h.2 h.1)] at hfin
      exact hfin.2.2

theorem any_beq (l : List (List UInt8)) (x : List UInt8) : l.any (· == x) = decide (x ∈ l) := by
  induction l with
  | nil => simp
  | cons a t ih =>
    rw [List.any_cons, ih]
    by_cases h : a = x
    · simp [h]
    · have h' : ¬ x = a := fun e => h e.symm
      simp [h, h']

/-- the end of the section -/
theorem req_end (ext : Bool) (fs : List Fld) (s : State) (hg : ReqGood ext fs) (hi : ReqInv fs s) :
    match onRequestHeaders s with
    | none => ¬ RequestOk ext fs
    | some s' => RequestOk ext fs ∧ s' = { s with contentLength :=
        (if ascii "CONNECT" ∈ vals Nm.method fs ∧ vals Nm.protocol fs = [] then -1 else s.contentLength) } := by
  have hb : ∀ l : List (List UInt8), (!l.isEmpty) = decide (l ≠ []) := by intro l; cases l <;> simp
  have hconn : s.methConnect = decide (ascii "CONNECT" ∈ vals .method fs) := by rw [hi.connect, any_beq]
  have hopt : s.methOptions = decide (ascii "OPTIONS" ∈ vals .method fs) := by rw [hi.options, any_beq]
  have hast : s.pathAsterisk = decide (ascii "*" ∈ vals .path fs) := by rw [hi.asterisk, any_beq]
  have e1 := hi.authority
  have e2 := hi.path
  have e3 := hi.method
  have e4 := hi.scheme
  have e5 := hi.protocol
  have e6 := hi.host
  rw [hb] at e1 e2 e3 e4 e5 e6
  rw [requestOk_iff]
  unfold onRequestHeaders
  by_cases hcc : vals .protocol fs = [] ∧ ascii "CONNECT" ∈ vals .method fs
  · rw [if_pos hcc]
    have hc1 : (!s.protocol && s.methConnect) = true := by rw [e5, hconn]; simp [hcc.1, hcc.2]
    rw [if_pos hc1, e4, e2, e1]
    by_cases h1 : vals .scheme fs = [] <;> by_cases h2 : vals .path fs = [] <;> by_cases h3 : vals .authority fs = [] <;>
      simp [h1, h2, h3, hg, hcc.1, hcc.2]
  · rw [if_neg hcc]
    have hc1 : ¬ (!s.protocol && s.methConnect) = true := by
      rw [e5, hconn]
      intro h
      simp only [Bool.and_eq_true, Bool.not_eq_true', decide_eq_false_iff_not, not_not, decide_eq_true_eq] at h
      exact hcc h
    have hcc' : ¬ (ascii "CONNECT" ∈ vals .method fs ∧ vals .protocol fs = []) := fun h => hcc ⟨h.2, h.1⟩
    rw [if_neg hc1, if_neg hcc', e3, e2, e4, e1, e6, e5, hconn]
    by_cases h1 : vals .method fs ≠ [] ∧ vals .path fs ≠ [] ∧ vals .scheme fs ≠ [] ∧ (vals .authority fs ≠ [] ∨ hostVals fs ≠ [])
    · have hn1 : ¬ (!(decide (vals .method fs ≠ []) && decide (vals .path fs ≠ []) && decide (vals .scheme fs ≠ [])) ||
          !(decide (vals .authority fs ≠ []) || decide (hostVals fs ≠ []))) = true := by
        obtain ⟨q1, q2, q3, q4⟩ := h1
        rw [decide_eq_true q1, decide_eq_true q2, decide_eq_true q3]
        rcases q4 with q4 | q4 <;> rw [decide_eq_true q4] <;> simp
      rw [if_neg hn1]
      by_cases h2 : vals .protocol fs ≠ [] → ascii "CONNECT" ∈ vals .method fs ∧ vals .authority fs ≠ []
      · have hn2 : ¬ (decide (vals .protocol fs ≠ []) &&
            (!decide (ascii "CONNECT" ∈ vals .method fs) || !decide (vals .authority fs ≠ []))) = true := by
          intro h
          simp only [Bool.and_eq_true, decide_eq_true_eq, Bool.or_eq_true, Bool.not_eq_true', decide_eq_false_iff_not] at h
          have := h2 h.1
          rcases h.2 with h' | h'
          · exact h' this.1
          · exact h' this.2
        rw [if_neg hn2]
        -- the slash
        have hpath : checkPathFlags s = true ↔ ((∃ v ∈ vals .scheme fs, lower v = ascii "http" ∨ lower v = ascii "https") →
            ∀ v ∈ vals .path fs, v.head? = some 0x2f ∨ (v = ascii "*" ∧ ascii "OPTIONS" ∈ vals .method fs)) := by
          have h3 := hg.once .path (by simp [onceNames])
          obtain ⟨v, hv⟩ : ∃ v, vals .path fs = [v] := by
            cases hl : vals .path fs with
            | nil => exact absurd hl h1.2.1
            | cons v t =>
              rw [hl] at h3
              have : t = [] := List.length_eq_zero_iff.1 (by simp at h3; simpa using h3)
              rw [this]; exact ⟨v, rfl⟩
          unfold checkPathFlags
          rw [hi.http, hi.regular, hopt, hast, hv]
          have hs : ((vals .scheme fs).any fun v => lower v == ascii "http" || lower v == ascii "https") =
              decide (∃ v ∈ vals .scheme fs, lower v = ascii "http" ∨ lower v = ascii "https") := by
            rw [Bool.eq_iff_iff, List.any_eq_true]
            simp
          rw [hs]
          by_cases hsc : ∃ v ∈ vals .scheme fs, lower v = ascii "http" ∨ lower v = ascii "https"
          · simp only [hsc, decide_true, Bool.not_true, Bool.false_or, List.any_cons, List.any_nil, Bool.or_false,
              List.mem_singleton, forall_eq, Bool.or_eq_true, beq_iff_eq, Bool.and_eq_true, decide_eq_true_eq, true_imp_iff]
            constructor
            · rintro (h | ⟨h, h'⟩)
              · exact Or.inl h
              · exact Or.inr ⟨h'.symm, h⟩
            · rintro (h | ⟨h, h'⟩)
              · exact Or.inl h
              · exact Or.inr ⟨h', h.symm⟩
          · simp [hsc]
        cases hcp : checkPathFlags s
        · simp only [Bool.not_false, if_true]
          intro h
          rw [hpath.2 h.2.2.2] at hcp; cases hcp
        · simp only [Bool.not_true, Bool.false_eq_true, if_false]
          exact ⟨⟨hg, ⟨h1.1, h1.2.2.1, h1.2.1, h1.2.2.2⟩, h2, hpath.1 hcp⟩, by simp only [← e1, ← e2, ← e3, ← e4, ← e5, ← e6, ← hconn]⟩
      · have hn2 : (decide (vals .protocol fs ≠ []) &&
            (!decide (ascii "CONNECT" ∈ vals .method fs) || !decide (vals .authority fs ≠ []))) = true := by
          rw [not_forall] at h2
          obtain ⟨h3, h4⟩ := h2
          rw [not_and_or] at h4
          simp only [Bool.and_eq_true, decide_eq_true_eq, Bool.or_eq_true, Bool.not_eq_true', decide_eq_false_iff_not]
          exact ⟨h3, h4⟩
        rw [if_pos hn2]
        intro h; exact h2 h.2.2.1
    · have hn1 : (!(decide (vals .method fs ≠ []) && decide (vals .path fs ≠ []) && decide (vals .scheme fs ≠ [])) ||
          !(decide (vals .authority fs ≠ []) || decide (hostVals fs ≠ []))) = true := by
        rw [← Bool.not_and, Bool.not_eq_true']
        rw [Bool.eq_false_iff]
        intro h
        simp only [Bool.and_eq_true, Bool.or_eq_true, decide_eq_true_eq] at h
        exact h1 ⟨h.1.1.1, h.1.1.2, h.1.2, h.2⟩
      rw [if_pos hn1]
      intro h; exact h1 ⟨h.2.1.1, h.2.1.2.2.1, h.2.1.2.1, h.2.1.2.2.2⟩

end Http
end Nghttp3
