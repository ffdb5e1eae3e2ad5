import Verif.Lemmas.Varint
import Mathlib.Tactic.Linarith
import Verif.Model.Frame
import Verif.Spec.Frame

/-! Property theorems C03 (frame writers). -/

namespace Nghttp3

theorem frameWriteHd_length (t l : Nat) : (frameWriteHd t l).length = frameWriteHdLen t l := by
  simp [frameWriteHd, frameWriteHdLen, putVarint_length]

theorem settingsBody_length (ivs : List (Nat × Nat)) :
    (settingsBody ivs).length = settingsPayloadLen ivs := by
  have key : ∀ (ivs : List (Nat × Nat)) (n : Nat),
      ivs.foldl (fun n iv => n + (putVarintLen iv.1 + putVarintLen iv.2)) n =
        n + (settingsBody ivs).length := by
    intro ivs
    induction ivs with
    | nil => intro n; simp [settingsBody]
    | cons iv t ih =>
      intro n
      obtain ⟨i, v⟩ := iv
      rw [List.foldl_cons, ih]
      simp [settingsBody, putVarint_length]; omega
  rw [settingsPayloadLen, key]; simp

theorem settingsBody_isSettings (ivs : List (Nat × Nat)) (h : ∀ iv ∈ ivs, iv.1 < 2 ^ 62 ∧ iv.2 < 2 ^ 62) :
    Spec.IsSettings ivs (settingsBody ivs) := by
  induction ivs with
  | nil => exact .nil
  | cons iv t ih =>
    obtain ⟨i, v⟩ := iv
    have := h (i, v) (by simp)
    exact .cons (putVarint_isVarint i this.1) (putVarint_isVarint v this.2)
      (ih (fun x hx => h x (by simp [hx])))

theorem preVal_of_isVarint' {n : Nat} {bs : List UInt8} (h : Spec.IsVarint n bs) :
    ∃ b t, bs = b :: t ∧ bs ≠ [] := by
  obtain ⟨e, -, hl, -⟩ := h
  cases bs with
  | nil => simp at hl; exact absurd hl (by have := Nat.pow_pos (a := 2) (n := e) (by decide); omega)
  | cons b t => exact ⟨b, t, rfl, by simp⟩

namespace Props

/-- C03 (header).  A frame header occupies exactly the predicted number of bytes, and reading two
integers back gives the type and the length, with nothing of what follows consumed. -/
theorem C03_frame_hd (type length : Nat) (ht : type < 2 ^ 62) (hl : length < 2 ^ 62)
    (rest : List UInt8) :
    (frameWriteHd type length).length = frameWriteHdLen type length ∧
    ∃ rest', getVarint (frameWriteHd type length ++ rest) = some (type, rest') ∧
      getVarint rest' = some (length, rest) := by
  refine ⟨frameWriteHd_length _ _, putVarint length ++ rest, ?_, getVarint_putVarint length hl rest⟩
  rw [frameWriteHd, List.append_assoc]
  exact getVarint_putVarint type ht _

/-- C03 (SETTINGS).  For any local settings that fit 62 bits, the SETTINGS frame written is a
well-formed SETTINGS frame holding exactly these settings, and exactly fills its reservation. -/
theorem C03_settings (s : Settings) (h1 : s.maxFieldSectionSize < 2 ^ 62)
    (h2 : s.qpackMaxDtableCapacity < 2 ^ 62) (h3 : s.qpackBlockedStreams < 2 ^ 62) :
    (streamWriteSettings s).2.length = (streamWriteSettings s).1 ∧
    ∃ payload, Spec.IsFrame 0x04 payload (streamWriteSettings s).2 ∧
      Spec.IsSettings
        ([(0x06, s.maxFieldSectionSize), (0x01, s.qpackMaxDtableCapacity),
          (0x07, s.qpackBlockedStreams)] ++
          (if s.h3Datagram then [(0x33, 1)] else []) ++
          (if s.enableConnectProtocol then [(0x08, 1)] else [])) payload := by
  have hle : ∀ n, putVarintLen n ≤ 8 := by
    intro n; unfold putVarintLen; split_ifs <;> omega
  constructor
  · simp only [streamWriteSettings, frameWriteSettingsLen, frameWriteSettings, List.length_append,
      frameWriteHd_length, frameWriteHdLen, settingsBody_length]
  · refine ⟨settingsBody (settingsEntries s), ⟨putVarint 0x04, putVarint (settingsPayloadLen (settingsEntries s)), putVarint_isVarint _ (by norm_num), ?_, ?_⟩, ?_⟩
    · rw [settingsBody_length]
      apply putVarint_isVarint
      have : settingsPayloadLen (settingsEntries s) ≤ 80 := by
        rw [← settingsBody_length]
        unfold settingsEntries
        cases s.h3Datagram <;> cases s.enableConnectProtocol <;>
          simp [settingsBody, putVarint_length] <;>
          linarith [hle SETTINGS_ID_MAX_FIELD_SECTION_SIZE, hle s.maxFieldSectionSize,
            hle SETTINGS_ID_QPACK_MAX_TABLE_CAPACITY, hle s.qpackMaxDtableCapacity,
            hle SETTINGS_ID_QPACK_BLOCKED_STREAMS, hle s.qpackBlockedStreams,
            hle SETTINGS_ID_H3_DATAGRAM, hle 1, hle SETTINGS_ID_ENABLE_CONNECT_PROTOCOL]
      omega
    · rfl
    · apply settingsBody_isSettings
      intro iv hiv
      unfold settingsEntries at hiv
      simp only [List.mem_append, List.mem_cons, List.not_mem_nil, or_false] at hiv
      rcases hiv with ((rfl | rfl | rfl) | hiv) | hiv
      · exact ⟨by norm_num, h1⟩
      · exact ⟨by norm_num, h2⟩
      · exact ⟨by norm_num, h3⟩
      · split_ifs at hiv <;> simp at hiv; subst hiv; exact ⟨by decide, by norm_num⟩
      · split_ifs at hiv <;> simp at hiv; subst hiv; exact ⟨by decide, by norm_num⟩

/-- C03 (SETTINGS, any list).  The generic SETTINGS writer: any number of entries. -/
theorem C03_settings_list (ivs : List (Nat × Nat)) (h : ∀ iv ∈ ivs, iv.1 < 2 ^ 62 ∧ iv.2 < 2 ^ 62)
    (hlen : (frameWriteSettingsLen ivs).1 < 2 ^ 62) :
    (frameWriteSettings 0x04 (frameWriteSettingsLen ivs).1 ivs).length = (frameWriteSettingsLen ivs).2 ∧
    ∃ payload, Spec.IsFrame 0x04 payload (frameWriteSettings 0x04 (frameWriteSettingsLen ivs).1 ivs) ∧
      Spec.IsSettings ivs payload := by
  constructor
  · simp only [frameWriteSettingsLen, frameWriteSettings, List.length_append, frameWriteHd_length,
      frameWriteHdLen, settingsBody_length]; rfl
  · refine ⟨settingsBody ivs, ⟨putVarint 0x04, putVarint (frameWriteSettingsLen ivs).1,
      putVarint_isVarint _ (by norm_num), ?_, rfl⟩, settingsBody_isSettings ivs h⟩
    rw [settingsBody_length]
    exact putVarint_isVarint _ hlen

/-- C03 (GOAWAY). -/
theorem C03_goaway (id : Nat) (h : id < 2 ^ 62) :
    (streamWriteGoaway id).2.length = (streamWriteGoaway id).1 ∧
    ∃ payload, Spec.IsFrame 0x07 payload (streamWriteGoaway id).2 ∧ Spec.IsVarint id payload := by
  constructor
  · simp only [streamWriteGoaway, frameWriteGoawayLen, frameWriteGoaway, List.length_append,
      frameWriteHd_length, frameWriteHdLen, putVarint_length]
  · refine ⟨putVarint id, ⟨putVarint 0x07, putVarint (putVarintLen id),
      putVarint_isVarint _ (by norm_num), ?_, rfl⟩, putVarint_isVarint id h⟩
    rw [putVarint_length]
    apply putVarint_isVarint
    unfold putVarintLen; split_ifs <;> norm_num

/-- C03 (PRIORITY_UPDATE): element ID followed by the raw priority field value. -/
theorem C03_priority_update (type elemId : Nat) (data : List UInt8)
    (ht : type = 0x0f0700 ∨ type = 0x0f0701) (h : elemId < 2 ^ 62)
    (hd : data.length < 2 ^ 62 - 8) :
    (streamWritePriorityUpdate type elemId data).2.length = (streamWritePriorityUpdate type elemId data).1 ∧
    ∃ e, Spec.IsFrame type (e ++ data) (streamWritePriorityUpdate type elemId data).2 ∧
      Spec.IsVarint elemId e := by
  constructor
  · simp only [streamWritePriorityUpdate, frameWritePriorityUpdateLen, frameWritePriorityUpdate,
      List.length_append, frameWriteHd_length, frameWriteHdLen, putVarint_length]
    omega
  · refine ⟨putVarint elemId, ⟨putVarint type, putVarint (putVarintLen elemId + data.length),
      putVarint_isVarint _ (by rcases ht with rfl | rfl <;> norm_num), ?_, ?_⟩, putVarint_isVarint _ h⟩
    · rw [List.length_append, putVarint_length]
      apply putVarint_isVarint
      have : putVarintLen elemId ≤ 8 := by unfold putVarintLen; split_ifs <;> omega
      omega
    · simp [streamWritePriorityUpdate, frameWritePriorityUpdateLen, frameWritePriorityUpdate,
        frameWriteHd]

/-- Varint encodings are prefix-free: the parse is unique. -/
theorem isVarint_unique {n m : Nat} {a b r r' : List UInt8} (ha : Spec.IsVarint n a)
    (hb : Spec.IsVarint m b) (h : a ++ r = b ++ r') : n = m ∧ a = b ∧ r = r' := by
  have h1 := getVarint_of_isVarint ha r
  have h2 := getVarint_of_isVarint hb r'
  rw [h, h2] at h1
  simp only [Option.some.injEq, Prod.mk.injEq] at h1
  obtain ⟨rfl, rfl⟩ := h1
  exact ⟨rfl, List.append_cancel_right h, rfl⟩

/-- C03 (unambiguity).  A byte stream starts with at most one frame: type, payload and what follows
are determined by the bytes, and so is the list of settings denoted by a SETTINGS payload. -/
theorem C03_unambiguous :
    (∀ {t t' : Nat} {p p' f f' r r' : List UInt8}, Spec.IsFrame t p f → Spec.IsFrame t' p' f' →
      f ++ r = f' ++ r' → t = t' ∧ p = p' ∧ r = r') ∧
    (∀ {l l' : List (Nat × Nat)} {p : List UInt8}, Spec.IsSettings l p → Spec.IsSettings l' p →
      l = l') := by
  constructor
  · rintro t t' p p' f f' r r' ⟨bt, bl, ht, hl, rfl⟩ ⟨bt', bl', ht', hl', rfl⟩ h
    simp only [List.append_assoc] at h
    obtain ⟨rfl, rfl, h1⟩ := isVarint_unique ht ht' h
    obtain ⟨hlen, rfl, h2⟩ := isVarint_unique hl hl' h1
    have := List.append_inj h2 hlen
    exact ⟨rfl, this.1, this.2⟩
  · intro l l' p h
    induction h generalizing l' with
    | nil =>
      intro h'
      cases l' with
      | nil => rfl
      | cons iv t =>
        exfalso
        generalize hp : ([] : List UInt8) = p at h'
        cases h' with
        | cons hi hv hs =>
          obtain ⟨b, u, rfl, -⟩ := preVal_of_isVarint' hi
          simp at hp
    | cons hi hv hs ih =>
      rename_i i v bi bv ivs bs
      intro h'
      generalize hp : bi ++ bv ++ bs = p at h'
      cases h' with
      | nil =>
        obtain ⟨b, u, rfl, -⟩ := preVal_of_isVarint' hi
        simp at hp
      | cons hi' hv' hs' =>
        simp only [List.append_assoc] at hp
        obtain ⟨rfl, rfl, hp1⟩ := isVarint_unique hi hi' hp
        obtain ⟨rfl, rfl, rfl⟩ := isVarint_unique hv hv' hp1
        rw [ih hs']

example : (streamWriteGoaway (2 ^ 62 - 4)).2 =
    [0x07, 0x08, 0xff, 0xff, 0xff, 0xff, 0xff, 0xff, 0xff, 0xfc] := by decide
example : (streamWriteSettings { qpackMaxDtableCapacity := 4096, qpackBlockedStreams := 100 }).2 =
    [0x04, 0x08, 0x06, 0x00, 0x01, 0x50, 0x00, 0x07, 0x40, 0x64] := by decide

end Props
end Nghttp3
