import Mathlib.Data.List.Induction
import Verif.Lemmas.ControlFeed
import Verif.Spec.Control
/-! The entries of a SETTINGS frame, in order. -/
namespace Nghttp3
namespace Control
open Spec.Control

variable {S : Type}

/-- nghttp3_conn_on_settings_entry_received for each entry, until one is refused -/
def foldEntries (c : Conn S) : List (Nat × Nat) → Except (Int × Conn S) (Conn S)
  | [] => .ok c
  | (i, v) :: t =>
    match onEntry c i v with
    | .error e => .error (e, c)
    | .ok c' => foldEntries c' t

theorem foldEntries_append (c : Conn S) (a b : List (Nat × Nat)) :
    foldEntries c (a ++ b) = match foldEntries c a with
      | .error e => .error e
      | .ok c' => foldEntries c' b := by
  induction a generalizing c with
  | nil => rfl
  | cons x a ih =>
    obtain ⟨i, v⟩ := x
    rw [List.cons_append, foldEntries, foldEntries]
    rcases onEntry c i v with e | c'
    · rfl
    · exact ih c'

theorem lastOf_snoc (i d : Nat) (ivs : List (Nat × Nat)) (iv : Nat × Nat) :
    lastOf i d (ivs ++ [iv]) = if iv.1 = i then iv.2 else lastOf i d ivs := by
  unfold lastOf
  rw [List.filter_append]
  by_cases h : iv.1 = i
  · rw [if_pos h]
    simp [h]
  · rw [if_neg h]
    simp [h]

theorem before_snoc (i v w : Nat) (ivs : List (Nat × Nat)) (iv : Nat × Nat) :
    Before i v w (ivs ++ [iv]) ↔ Before i v w ivs ∨ (iv = (i, w) ∧ (i, v) ∈ ivs) := by
  constructor
  · rintro ⟨a, b, c, h⟩
    rcases List.eq_nil_or_concat c with rfl | ⟨c', z, rfl⟩
    · right
      have h2 : ivs ++ [iv] = (a ++ (i, v) :: b) ++ [(i, w)] := by rw [h]
      have h3 := List.append_inj' h2 rfl
      exact ⟨by simpa using h3.2, by rw [h3.1]; simp⟩
    · left
      have h2 : ivs ++ [iv] = (a ++ (i, v) :: b ++ (i, w) :: c') ++ [z] := by rw [h]; simp
      have h3 := List.append_inj' h2 rfl
      exact ⟨a, b, c', h3.1⟩
  · rintro (⟨a, b, c, rfl⟩ | ⟨rfl, h⟩)
    · exact ⟨a, b, c ++ [iv], by simp⟩
    · obtain ⟨a, b, rfl⟩ := List.append_of_mem h
      exact ⟨a, b, [], by simp⟩

/-- the value of a setting that may only be repeated after zeros -/
theorem lastOf_of_mem (i d : Nat) (ivs : List (Nat × Nat)) (hb : ∀ v w, Before i v w ivs → v = 0) (v : Nat) (hm : (i, v) ∈ ivs)
    (hv : v ≠ 0) : lastOf i d ivs = v := by
  induction ivs using List.reverseRecOn with
  | nil => simp at hm
  | append_singleton ivs iv ih =>
    rw [lastOf_snoc]
    by_cases h : iv.1 = i
    · rw [if_pos h]
      rcases List.mem_append.1 hm with h1 | h1
      · exact absurd (hb v iv.2 ((before_snoc ..).2 (.inr ⟨by rw [← h], h1⟩))) hv
      · simp at h1; rw [← h1]
    · rw [if_neg h]
      refine ih (fun v w h' => hb v w ((before_snoc ..).2 (.inl h'))) ?_
      rcases List.mem_append.1 hm with h1 | h1
      · exact h1
      · simp at h1; rw [← h1] at h; exact absurd rfl h

theorem lastOf_mem (i : Nat) (ivs : List (Nat × Nat)) (h : lastOf i 0 ivs ≠ 0) : (i, lastOf i 0 ivs) ∈ ivs := by
  induction ivs using List.reverseRecOn with
  | nil => exact absurd rfl h
  | append_singleton ivs iv ih =>
    rw [lastOf_snoc] at h ⊢
    by_cases h1 : iv.1 = i
    · simp only [if_pos h1]; rw [← h1]; simp
    · simp only [if_neg h1] at h ⊢
      exact List.mem_append_left _ (ih h)

/-- the encoder limits in effect after the entries -/
def encAfter (e : Qpack.Enc) (ivs : List (Nat × Nat)) : Qpack.Enc :=
  let e1 := if lastOf 0x01 0 ivs = 0 then e else e.setMaxCap (lastOf 0x01 0 ivs)
  if lastOf 0x07 0 ivs = 0 then e1 else e1.setMaxBlocked (min 100 (lastOf 0x07 0 ivs))

theorem setMax_comm (e : Qpack.Enc) (n m : Nat) : (e.setMaxBlocked n).setMaxCap m = (e.setMaxCap m).setMaxBlocked n := by
  unfold Qpack.Enc.setMaxCap Qpack.Enc.setMaxBlocked
  dsimp only
  split_ifs <;> rfl

/-- all entries of a SETTINGS frame -/
theorem foldEntries_spec (c : Conn S) (hr : c.remote = defaultSettings) (ivs : List (Nat × Nat)) :
    match foldEntries c ivs with
    | .ok c' => SettingsOk c.server ivs ∧ c' = { c with remote := settingsOf c.server ivs, enc := encAfter c.enc ivs }
    | .error (e, c') => ¬ SettingsOk c.server ivs ∧ e = Err.H3_SETTINGS_ERROR ∧ c'.ev = c.ev ∧ c'.ext = c.ext ∧ c'.server = c.server ∧ c'.long = c.long := by
  induction ivs using List.reverseRecOn with
  | nil =>
    refine ⟨⟨by simp, by simp, fun _ => ⟨by simp, ?_⟩, ?_, ?_⟩, ?_⟩
    · rintro ⟨a, b, d, h⟩; simp at h
    · rintro v w ⟨a, b, d, h⟩; simp at h
    · rintro v w ⟨a, b, d, h⟩; simp at h
    · cases c
      simp only at hr
      subst hr
      simp [settingsOf, defaultSettings, lastOf, encAfter, VARINT_MAX]
  | append_singleton ivs iv ih =>
    rw [foldEntries_append]
    rcases hf : foldEntries c ivs with ⟨e, c'⟩ | c' <;> rw [hf] at ih <;> dsimp only at ih ⊢
    · refine ⟨fun h => ih.1 ?_, ih.2⟩
      obtain ⟨h1, h2, h3, h4, h5⟩ := h
      refine ⟨fun x hx => h1 x (by simp [hx]), fun x hx => h2 x (by simp [hx]), fun hs => ⟨fun x hx => (h3 hs).1 x (by simp [hx]), fun hb => (h3 hs).2 ((before_snoc ..).2 (.inl hb))⟩,
        fun v w hb => h4 v w ((before_snoc ..).2 (.inl hb)), fun v w hb => h5 v w ((before_snoc ..).2 (.inl hb))⟩
    · obtain ⟨⟨o1, o2, o3, o4, o5⟩, rfl⟩ := ih
      obtain ⟨i, v⟩ := iv
      rw [foldEntries]
      -- acceptance of one more entry, from the pieces
      have ok_of : (i ≠ 2 ∧ i ≠ 3 ∧ i ≠ 4 ∧ i ≠ 5) → (i = 0x33 → v ≤ 1) → (i = 8 → c.server = true → v ≤ 1 ∧ (v = 0 → (8, 1) ∉ ivs)) →
          (i = 1 → ∀ w, (1, w) ∈ ivs → w = 0) → (i = 7 → ∀ w, (7, w) ∈ ivs → w = 0) → SettingsOk c.server (ivs ++ [(i, v)]) := by
        intro k1 k2 k3 k4 k5
        refine ⟨?_, ?_, fun hs => ⟨?_, ?_⟩, ?_, ?_⟩
        · intro x hx
          rcases List.mem_append.1 hx with h | h
          · exact o1 x h
          · simp at h; subst h; exact k1
        · intro x hx
          rcases List.mem_append.1 hx with h | h
          · exact o2 x h
          · simp at h; subst h; exact k2
        · intro x hx
          rcases List.mem_append.1 hx with h | h
          · exact (o3 hs).1 x h
          · simp at h; subst h; exact fun h => (k3 h hs).1
        · intro hb
          rcases (before_snoc ..).1 hb with h | ⟨h, h'⟩
          · exact (o3 hs).2 h
          · cases h; exact (k3 rfl hs).2 rfl h'
        · intro x w hb
          rcases (before_snoc ..).1 hb with h | ⟨h, h'⟩
          · exact o4 x w h
          · cases h; exact k4 rfl x h'
        · intro x w hb
          rcases (before_snoc ..).1 hb with h | ⟨h, h'⟩
          · exact o5 x w h
          · cases h; exact k5 rfl x h'
      unfold onEntry
      simp only [SETTINGS_ID_MAX_FIELD_SECTION_SIZE, SETTINGS_ID_QPACK_MAX_TABLE_CAPACITY, SETTINGS_ID_QPACK_BLOCKED_STREAMS,
        SETTINGS_ID_ENABLE_CONNECT_PROTOCOL, SETTINGS_ID_H3_DATAGRAM]
      by_cases h6 : i = 6
      · subst h6
        simp only [if_true, foldEntries]
        refine ⟨ok_of (by decide) (by simp) (by simp) (by simp) (by simp), ?_⟩
        simp [settingsOf, encAfter, lastOf_snoc]
      simp only [if_neg h6]
      by_cases h1 : i = 1
      · subst h1
        simp only [if_true]
        by_cases hz : lastOf 1 0 ivs = 0
        · have hz' : (settingsOf c.server ivs).qpackMaxDtableCapacity = 0 := hz
          rw [if_neg (by simp [hz'])]
          have hall : ∀ w, (1, w) ∈ ivs → w = 0 := by
            intro w hw; by_contra hne
            rw [lastOf_of_mem 1 0 ivs o4 w hw hne] at hz; exact hne hz
          by_cases hv : v = 0
          · subst hv
            simp only [if_true, foldEntries]
            refine ⟨ok_of (by decide) (by simp) (by simp) (fun _ => hall) (by simp), ?_⟩
            simp [settingsOf, encAfter, lastOf_snoc, hz]
          · rw [if_neg hv]
            simp only [foldEntries]
            refine ⟨ok_of (by decide) (by simp) (by simp) (fun _ => hall) (by simp), ?_⟩
            simp only [settingsOf, encAfter, lastOf_snoc, hz]
            by_cases hb : lastOf 7 0 ivs = 0
            · simp [hb, hv]
            · simp [hb, hv, setMax_comm]
        · have hz' : (settingsOf c.server ivs).qpackMaxDtableCapacity ≠ 0 := hz
          rw [if_pos hz']
          refine ⟨fun hk => ?_, rfl, rfl, rfl, rfl, rfl⟩
          exact hz (hk.2.2.2.1 _ v ((before_snoc ..).2 (.inr ⟨rfl, lastOf_mem 1 ivs hz⟩)))
      simp only [if_neg h1]
      by_cases h7 : i = 7
      · subst h7
        simp only [if_true]
        by_cases hz : lastOf 7 0 ivs = 0
        · have hz' : (settingsOf c.server ivs).qpackBlockedStreams = 0 := hz
          rw [if_neg (by simp [hz'])]
          have hall : ∀ w, (7, w) ∈ ivs → w = 0 := by
            intro w hw; by_contra hne
            rw [lastOf_of_mem 7 0 ivs o5 w hw hne] at hz; exact hne hz
          by_cases hv : v = 0
          · subst hv
            simp only [if_true, foldEntries]
            refine ⟨ok_of (by decide) (by simp) (by simp) (by simp) (fun _ => hall), ?_⟩
            simp [settingsOf, encAfter, lastOf_snoc, hz]
          · rw [if_neg hv]
            simp only [foldEntries]
            refine ⟨ok_of (by decide) (by simp) (by simp) (by simp) (fun _ => hall), ?_⟩
            simp [settingsOf, encAfter, lastOf_snoc, hz, hv]
        · have hz' : (settingsOf c.server ivs).qpackBlockedStreams ≠ 0 := hz
          rw [if_pos hz']
          refine ⟨fun hk => ?_, rfl, rfl, rfl, rfl, rfl⟩
          exact hz (hk.2.2.2.2 _ v ((before_snoc ..).2 (.inr ⟨rfl, lastOf_mem 7 ivs hz⟩)))
      simp only [if_neg h7]
      by_cases h8 : i = 8
      · subst h8
        simp only [if_true]
        rcases hsv : c.server
        · simp only [if_true, foldEntries]
          rw [hsv] at ok_of
          refine ⟨ok_of (by decide) (by simp) (by simp) (by simp) (by simp), ?_⟩
          simp [settingsOf, encAfter, lastOf_snoc, hsv]
        · simp only [Bool.true_eq_false, if_false]
          rw [hsv] at ok_of o3
          obtain ⟨o3a, o3b⟩ := o3 rfl
          by_cases he : v = 0 ∧ (settingsOf true ivs).enableConnectProtocol = true
          · rw [if_pos he]
            refine ⟨fun hk => ?_, rfl, rfl, rfl, rfl, rfl⟩
            obtain ⟨rfl, he⟩ := he
            have hl1 : lastOf 8 0 ivs = 1 := by simpa [settingsOf] using he
            have := lastOf_mem 8 ivs (by rw [hl1]; decide)
            rw [hl1] at this
            exact (hk.2.2.1 rfl).2 ((before_snoc ..).2 (.inr ⟨rfl, this⟩))
          rw [if_neg he]
          by_cases hv : 1 < v
          · rw [if_pos hv]
            refine ⟨fun hk => ?_, rfl, rfl, rfl, rfl, rfl⟩
            have := (hk.2.2.1 rfl).1 (8, v) (by simp) rfl
            simp at this; omega
          · rw [if_neg hv]
            simp only [foldEntries]
            refine ⟨ok_of (by decide) (by simp) (fun _ _ => ⟨by omega, fun hv0 hm => ?_⟩) (by simp) (by simp), ?_⟩
            · -- an earlier 1 is the last value: only 0 and 1 occur, and 0 does not follow 1
              apply he
              refine ⟨hv0, ?_⟩
              have : lastOf 8 0 ivs = 1 := by
                obtain ⟨a, b, rfl⟩ := List.append_of_mem hm
                have hb : ∀ x ∈ b, x.1 = 8 → x.2 = 1 := by
                  intro x hx hx8
                  have hle := o3a x (by simp [hx]) hx8
                  by_contra hne
                  have h0 : x.2 = 0 := by omega
                  obtain ⟨b1, b2, rfl⟩ := List.append_of_mem hx
                  apply o3b
                  refine ⟨a, b1, b2, ?_⟩
                  have : x = (8, 0) := by rw [← hx8, ← h0]
                  rw [this]; simp
                clear hm o1 o2 o3 o4 o5 ok_of o3a o3b he hf
                induction b using List.reverseRecOn with
                | nil => rw [lastOf_snoc]; simp
                | append_singleton b z ihb =>
                  rw [show a ++ (8, 1) :: (b ++ [z]) = (a ++ (8, 1) :: b) ++ [z] by simp, lastOf_snoc]
                  split_ifs with hz
                  · exact hb z (by simp) hz
                  · exact ihb (fun x hx => hb x (by simp [hx]))
              simp [settingsOf, this]
            · have hd : decide (v ≠ 0) = decide (v = 1) := by
                by_cases h0 : v = 0
                · subst h0; decide
                · have : v = 1 := by omega
                  subst this; decide
              simp only [hd]
              simp [settingsOf, encAfter, lastOf_snoc, hsv]
      simp only [if_neg h8]
      by_cases h33 : i = 0x33
      · subst h33
        simp only [if_true]
        by_cases hv : 1 < v
        · rw [if_pos hv]
          refine ⟨fun hk => ?_, rfl, rfl, rfl, rfl, rfl⟩
          have := hk.2.1 (0x33, v) (by simp) rfl
          simp at this; omega
        · rw [if_neg hv]
          simp only [foldEntries]
          refine ⟨ok_of (by decide) (fun _ => by omega) (by simp) (by simp) (by simp), ?_⟩
          have hd : decide (v ≠ 0) = decide (v = 1) := by
            by_cases h0 : v = 0
            · subst h0; decide
            · have : v = 1 := by omega
              subst this; decide
          simp only [hd]
          simp [settingsOf, encAfter, lastOf_snoc]
      simp only [if_neg h33]
      have hh : h2Setting i = true ↔ (i = 2 ∨ i = 3 ∨ i = 4 ∨ i = 5) := by
        unfold h2Setting; rw [decide_eq_true_eq]; rfl
      by_cases hres : h2Setting i = true
      · simp only [if_pos hres]
        rw [hh] at hres
        refine ⟨fun hk => ?_, by simp⟩
        have := hk.1 (i, v) (by simp)
        dsimp only at this
        omega
      · simp only [if_neg hres, foldEntries]
        rw [hh] at hres
        refine ⟨ok_of (by omega) (by omega) (by omega) (by omega) (by omega), ?_⟩
        simp [settingsOf, encAfter, lastOf_snoc, h6, h1, h7, h8, h33]

end Control
end Nghttp3
