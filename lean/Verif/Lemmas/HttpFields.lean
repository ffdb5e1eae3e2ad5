import Verif.Lemmas.HttpChars
/-! Field sections: the flag machine of nghttp3_http.c against the declarative conditions. -/
namespace Nghttp3
namespace Http
open Qpack Spec

/-- kinds of field names -/
inductive Nm where
  | authority | method | path | scheme | protocol | status | host | cl | te | priority | conn | other
deriving DecidableEq

def nmOf (n : List UInt8) : Nm :=
  if n = ascii ":authority" then .authority
  else if n = ascii ":method" then .method
  else if n = ascii ":path" then .path
  else if n = ascii ":scheme" then .scheme
  else if n = ascii ":protocol" then .protocol
  else if n = ascii ":status" then .status
  else if n = ascii "host" then .host
  else if n = ascii "content-length" then .cl
  else if n = ascii "te" then .te
  else if n = ascii "priority" then .priority
  else if n ∈ connectionSpecific then .conn
  else .other

def nmStr : Nm → Option String
  | .authority => some ":authority"
  | .method => some ":method"
  | .path => some ":path"
  | .scheme => some ":scheme"
  | .protocol => some ":protocol"
  | .status => some ":status"
  | .host => some "host"
  | .cl => some "content-length"
  | .te => some "te"
  | .priority => some "priority"
  | .conn => none
  | .other => none

theorem nm_iff (k : Nm) (s : String) (h : nmStr k = some s) (n : List UInt8) : n = ascii s ↔ nmOf n = k := by
  constructor
  · rintro rfl
    cases k <;> cases h <;> decide +kernel
  · intro hk
    unfold nmOf at hk
    by_cases h1 : n = ascii ":authority"
    · rw [if_pos h1] at hk; subst hk; cases h; exact h1
    rw [if_neg h1] at hk
    by_cases h2 : n = ascii ":method"
    · rw [if_pos h2] at hk; subst hk; cases h; exact h2
    rw [if_neg h2] at hk
    by_cases h3 : n = ascii ":path"
    · rw [if_pos h3] at hk; subst hk; cases h; exact h3
    rw [if_neg h3] at hk
    by_cases h4 : n = ascii ":scheme"
    · rw [if_pos h4] at hk; subst hk; cases h; exact h4
    rw [if_neg h4] at hk
    by_cases h5 : n = ascii ":protocol"
    · rw [if_pos h5] at hk; subst hk; cases h; exact h5
    rw [if_neg h5] at hk
    by_cases h6 : n = ascii ":status"
    · rw [if_pos h6] at hk; subst hk; cases h; exact h6
    rw [if_neg h6] at hk
    by_cases h7 : n = ascii "host"
    · rw [if_pos h7] at hk; subst hk; cases h; exact h7
    rw [if_neg h7] at hk
    by_cases h8 : n = ascii "content-length"
    · rw [if_pos h8] at hk; subst hk; cases h; exact h8
    rw [if_neg h8] at hk
    by_cases h9 : n = ascii "te"
    · rw [if_pos h9] at hk; subst hk; cases h; exact h9
    rw [if_neg h9] at hk
    by_cases h10 : n = ascii "priority"
    · rw [if_pos h10] at hk; subst hk; cases h; exact h10
    rw [if_neg h10] at hk
    by_cases h11 : n ∈ connectionSpecific
    · rw [if_pos h11] at hk; subst hk; cases h
    · rw [if_neg h11] at hk; subst hk; cases h

theorem conn_iff (n : List UInt8) : n ∈ connectionSpecific ↔ nmOf n = .conn := by
  constructor
  · have : ∀ m ∈ connectionSpecific, nmOf m = .conn := by decide +kernel
    exact this n
  · intro h
    by_cases hc : n ∈ connectionSpecific
    · exact hc
    · exfalso
      unfold nmOf at h
      split_ifs at h

/-- the tokens -/
theorem token_iff (n m : List UInt8) (tk : Nat) (h : lookupToken m = some tk) : lookupToken n = some tk ↔ n = m :=
  ⟨fun h1 => token_inj h1 h, fun e => e ▸ h⟩

theorem tok_authority (n : List UInt8) : lookupToken n = some TOKEN_AUTHORITY ↔ nmOf n = .authority :=
  (token_iff n (ascii ":authority") _ (by decide +kernel)).trans (nm_iff .authority _ rfl n)
theorem tok_method (n : List UInt8) : lookupToken n = some TOKEN_METHOD ↔ nmOf n = .method :=
  (token_iff n (ascii ":method") _ (by decide +kernel)).trans (nm_iff .method _ rfl n)
theorem tok_path (n : List UInt8) : lookupToken n = some TOKEN_PATH ↔ nmOf n = .path :=
  (token_iff n (ascii ":path") _ (by decide +kernel)).trans (nm_iff .path _ rfl n)
theorem tok_scheme (n : List UInt8) : lookupToken n = some TOKEN_SCHEME ↔ nmOf n = .scheme :=
  (token_iff n (ascii ":scheme") _ (by decide +kernel)).trans (nm_iff .scheme _ rfl n)
theorem tok_protocol (n : List UInt8) : lookupToken n = some TOKEN_PROTOCOL ↔ nmOf n = .protocol :=
  (token_iff n (ascii ":protocol") _ (by decide +kernel)).trans (nm_iff .protocol _ rfl n)
theorem tok_status (n : List UInt8) : lookupToken n = some TOKEN_STATUS ↔ nmOf n = .status :=
  (token_iff n (ascii ":status") _ (by decide +kernel)).trans (nm_iff .status _ rfl n)
theorem tok_host (n : List UInt8) : lookupToken n = some TOKEN_HOST ↔ nmOf n = .host :=
  (token_iff n (ascii "host") _ (by decide +kernel)).trans (nm_iff .host _ rfl n)
theorem tok_cl (n : List UInt8) : lookupToken n = some TOKEN_CONTENT_LENGTH ↔ nmOf n = .cl :=
  (token_iff n (ascii "content-length") _ (by decide +kernel)).trans (nm_iff .cl _ rfl n)
theorem tok_te (n : List UInt8) : lookupToken n = some TOKEN_TE ↔ nmOf n = .te :=
  (token_iff n (ascii "te") _ (by decide +kernel)).trans (nm_iff .te _ rfl n)
theorem tok_priority (n : List UInt8) : lookupToken n = some TOKEN_PRIORITY ↔ nmOf n = .priority :=
  (token_iff n (ascii "priority") _ (by decide +kernel)).trans (nm_iff .priority _ rfl n)
theorem tok_conn (n : List UInt8) : lookupToken n ∈ disallowedTokens.map some ↔ nmOf n = .conn := by
  rw [← conn_iff]
  unfold disallowedTokens connectionSpecific
  simp only [List.map_cons, List.map_nil, List.mem_cons, List.not_mem_nil, or_false]
  rw [token_iff n (ascii "connection") _ (by decide +kernel), token_iff n (ascii "keep-alive") _ (by decide +kernel),
    token_iff n (ascii "proxy-connection") _ (by decide +kernel), token_iff n (ascii "transfer-encoding") _ (by decide +kernel),
    token_iff n (ascii "upgrade") _ (by decide +kernel)]

/-- shape of the special names -/
theorem nm_pseudo (n : List UInt8) (h : nmOf n ∈ [Nm.authority, .method, .path, .scheme, .protocol, .status]) :
    n.head? = some 0x3a ∧ lookupToken n ≠ none := by
  have key : ∀ k s, nmStr k = some s → k ∈ [Nm.authority, .method, .path, .scheme, .protocol, .status] →
      (ascii s).head? = some 0x3a ∧ lookupToken (ascii s) ≠ none := by
    intro k s hs hk
    cases k <;> first | (cases hs; decide +kernel) | (simp at hk)
  obtain ⟨s, hs⟩ : ∃ s, nmStr (nmOf n) = some s := by
    generalize nmOf n = k at h
    cases k <;> first | exact ⟨_, rfl⟩ | simp at h
  have hn := (nm_iff _ s hs n).2 rfl
  have := key _ s hs h
  rw [hn]; exact this

theorem nm_regular (n : List UInt8) (h : nmOf n ∈ [Nm.host, .cl, .te, .priority, .conn]) :
    n ≠ [] ∧ n.head? ≠ some 0x3a ∧ n.all isNameChar = true := by
  by_cases hc : nmOf n = .conn
  · have : ∀ m ∈ connectionSpecific, m ≠ [] ∧ m.head? ≠ some 0x3a ∧ m.all isNameChar = true := by decide +kernel
    exact this n ((conn_iff n).2 hc)
  · have key : ∀ k s, nmStr k = some s → k ∈ [Nm.host, .cl, .te, .priority, .conn] →
        ascii s ≠ [] ∧ (ascii s).head? ≠ some 0x3a ∧ (ascii s).all isNameChar = true := by
      intro k s hs hk
      cases k <;> first | (cases hs; done) | (cases hs; decide +kernel) | (exfalso; revert hk; decide)
    obtain ⟨s, hs⟩ : ∃ s, nmStr (nmOf n) = some s := by
      generalize nmOf n = k at h hc
      cases k <;> first | exact ⟨_, rfl⟩ | exact absurd rfl hc | (exfalso; revert h; decide)
    have hn := (nm_iff _ s hs n).2 rfl
    have := key _ s hs h
    rw [hn]; exact this

def vals (k : Nm) (fs : List Fld) : List (List UInt8) := (fs.filter (fun f => nmOf f.1 = k)).map (·.2)

theorem valuesOf_eq (k : Nm) (s : String) (h : nmStr k = some s) (fs : List Fld) : valuesOf s fs = vals k fs := by
  unfold valuesOf vals
  congr 1
  apply List.filter_congr
  intro f _
  have := nm_iff k s h f.1
  by_cases h1 : nmOf f.1 = k
  · have h2 := this.2 h1
    simp only [h1, decide_true]
    rw [h2]; simp
  · have h2 := mt this.1 h1
    simp [h1, h2]

theorem vals_snoc (k : Nm) (fs : List Fld) (f : Fld) : vals k (fs ++ [f]) = vals k fs ++ if nmOf f.1 = k then [f.2] else [] := by
  unfold vals
  rw [List.filter_append, List.map_append]
  by_cases h : nmOf f.1 = k
  · simp [h]
  · simp [h]

theorem has_eq (k : Nm) (s : String) (h : nmStr k = some s) (fs : List Fld) : has s fs ↔ vals k fs ≠ [] := by
  unfold has vals
  simp only [ne_eq, List.map_eq_nil_iff, List.filter_eq_nil_iff, decide_eq_true_eq, not_forall, not_not]
  constructor
  · rintro ⟨f, h1, h2⟩; exact ⟨f, h1, (nm_iff k s h _).1 h2⟩
  · rintro ⟨f, h1, h2⟩; exact ⟨f, h1, (nm_iff k s h _).2 h2⟩

theorem hasValue_eq (k : Nm) (s v : String) (h : nmStr k = some s) (fs : List Fld) :
    hasValue s v fs ↔ ascii v ∈ vals k fs := by
  unfold hasValue vals
  simp only [List.mem_map, List.mem_filter, decide_eq_true_eq]
  constructor
  · intro h1; exact ⟨_, ⟨h1, (nm_iff k s h _).1 rfl⟩, rfl⟩
  · rintro ⟨⟨a, b⟩, ⟨h1, h2⟩, h3⟩
    have := (nm_iff k s h _).2 h2
    dsimp only at this h3
    rw [← this, ← h3]; exact h1

end Http
end Nghttp3
