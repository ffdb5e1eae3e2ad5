import Verif.Lemmas.Gaptr
import Mathlib.Data.List.Induction

/-! Property theorems C04. -/

namespace Nghttp3

/-- Run a history of pushes (offset, length). -/
def runPushes (h : List (Nat × Nat)) : List Range := h.foldl (fun g p => gaptrPush g p.1 p.2) []

/-- `x` was pushed in the history. -/
def WasPushed (h : List (Nat × Nat)) (x : Nat) : Prop := ∃ p ∈ h, p.1 ≤ x ∧ x < p.1 + p.2

/-- pushes stay strictly below the last representable offset, and are non-empty -/
def PushOk (p : Nat × Nat) : Prop := 0 < p.2 ∧ p.1 + p.2 < 2 ^ 64 - 1

/-- representation invariant of a tracker with pushed set `S` -/
def GapRep (gaps : List Range) (S : Nat → Prop) : Prop :=
  (gaps = [] ∧ ∀ x, ¬ S x) ∨
  (gaps ≠ [] ∧ GapsOk 0 gaps ∧ (∀ x, InGaps gaps x ↔ x < UINT64_MAX ∧ ¬ S x) ∧
    ¬ S (UINT64_MAX - 1))

theorem gapRep_push {gaps : List Range} {S : Nat → Prop} (h : GapRep gaps S) (o l : Nat)
    (hp : PushOk (o, l)) : GapRep (gaptrPush gaps o l) (fun x => S x ∨ (o ≤ x ∧ x < o + l)) := by
  obtain ⟨hl, hb⟩ : 0 < l ∧ o + l < UINT64_MAX := hp
  have hinit : GapsOk 0 (gapInit gaps) ∧ (∀ x, InGaps (gapInit gaps) x ↔ x < UINT64_MAX ∧ ¬ S x) ∧
      ¬ S (UINT64_MAX - 1) := by
    rcases h with ⟨rfl, hS⟩ | ⟨hne, hok, hin, hlast⟩
    · refine ⟨⟨by simp, by decide, trivial⟩, ?_, hS _⟩
      intro x
      simp [gapInit, InGaps, hS]
    · have : gapInit gaps = gaps := by
        unfold gapInit; rw [if_neg (by simpa using hne)]
      rw [this]; exact ⟨hok, hin, hlast⟩
  obtain ⟨hok, hin, hlast⟩ := hinit
  obtain ⟨i1, i2⟩ := pushFrom_spec ⟨o, o + l⟩ (by simp; omega) _ 0 hok
  have hx : InGaps (gaptrPush gaps o l) (UINT64_MAX - 1) := by
    rw [gaptrPush, i2, hin]
    refine ⟨⟨by decide, hlast⟩, ?_⟩
    simp only; omega
  right
  refine ⟨?_, i1, ?_, ?_⟩
  · intro h0; rw [h0] at hx; exact inGaps_nil hx
  · intro x
    rw [gaptrPush, i2, hin]
    simp only
    constructor
    · rintro ⟨⟨a, b⟩, c⟩; exact ⟨a, fun h => h.elim b c⟩
    · rintro ⟨a, b⟩; exact ⟨⟨a, fun h => b (Or.inl h)⟩, fun h => b (Or.inr h)⟩
  · rintro (h | h)
    · exact hlast h
    · omega

theorem gapRep_isPushed {gaps : List Range} {S : Nat → Prop} (h : GapRep gaps S) (o l : Nat)
    (hp : PushOk (o, l)) :
    (∃ r, gaptrIsPushed gaps o l = some r ∧ (r = true ↔ ∀ x, o ≤ x → x < o + l → S x)) := by
  obtain ⟨hl, hb⟩ : 0 < l ∧ o + l < UINT64_MAX := hp
  rcases h with ⟨rfl, hS⟩ | ⟨hne, hok, hin, hlast⟩
  · refine ⟨false, by simp [gaptrIsPushed], ?_⟩
    simp only [Bool.false_eq_true, false_iff]
    intro h
    exact hS o (h o (Nat.le_refl _) (by omega))
  · unfold gaptrIsPushed
    rw [if_neg (by simpa using hne)]
    have := find_spec ⟨o, o + l⟩ (by simp; omega) gaps 0 hok
    dsimp only
    split at this
    · exfalso
      have := this _ ((hin _).2 ⟨by decide, hlast⟩)
      simp at this; omega
    · rename_i k heq
      rw [heq]
      refine ⟨_, rfl, ?_⟩
      obtain ⟨hmem, hmin, hpos⟩ := this
      simp only at hmin hpos
      have hkk : k.b < k.e ∧ InGaps gaps k.b := by
        have hgen : ∀ (l : List Range) lo, GapsOk lo l → ∀ g ∈ l, g.b < g.e := by
          intro l
          induction l with
          | nil => intro lo _ g hg; simp at hg
          | cons a s ih =>
            intro lo ho g hg
            rcases List.mem_cons.1 hg with rfl | hg
            · exact ho.2.1
            · exact ih _ ho.2.2 g hg
        have := hgen gaps 0 hok k hmem
        exact ⟨this, k, hmem, Nat.le_refl _, this⟩
      rw [beq_iff_eq]
      simp only [rangeIntersect, Range.len]
      constructor
      · intro h0 x hx1 hx2
        by_contra hns
        have hxin := (hin x).2 ⟨by omega, hns⟩
        have hkx := hmin x hxin hx1
        -- then q and k overlap
        split_ifs at h0 with hov
        · simp at h0; omega
        · omega
      · intro hall
        split_ifs with hov
        · exfalso
          have hmaxin : InGaps gaps (max o k.b) := ⟨k, hmem, by omega, by omega⟩
          have := ((hin _).1 hmaxin).2
          exact this (hall _ (by omega) (by omega))
        · rfl

theorem gapRep_congr {gaps : List Range} {S T : Nat → Prop} (h : GapRep gaps S) (hST : ∀ x, S x ↔ T x) :
    GapRep gaps T := by
  have : S = T := funext fun x => propext (hST x)
  rw [← this]; exact h

theorem runPushes_rep (h : List (Nat × Nat)) (hok : ∀ p ∈ h, PushOk p) :
    GapRep (runPushes h) (WasPushed h) := by
  have key : ∀ (h : List (Nat × Nat)) (g : List Range) (S : Nat → Prop), (∀ p ∈ h, PushOk p) →
      GapRep g S →
      GapRep (h.foldl (fun g p => gaptrPush g p.1 p.2) g) (fun x => S x ∨ WasPushed h x) := by
    intro h
    induction h with
    | nil =>
      intro g S _ hg
      refine gapRep_congr hg fun x => ?_
      simp [WasPushed]
    | cons p t ih =>
      intro g S hp hg
      rw [List.foldl_cons]
      have := ih _ _ (fun q hq => hp q (by simp [hq])) (gapRep_push hg p.1 p.2 (hp p (by simp)))
      refine gapRep_congr this fun x => ?_
      simp [WasPushed, or_assoc]
  have := key h [] (fun _ => False) hok (Or.inl ⟨rfl, fun _ h => h⟩)
  exact gapRep_congr this fun x => by simp

namespace Props

/-- C04 (interval tracker).  After any history of pushes, asking whether a range is pushed never
fails an assertion and answers exactly whether every offset in it was pushed before. -/
theorem C04_gaptr_is_pushed (h : List (Nat × Nat)) (hok : ∀ p ∈ h, PushOk p) (o l : Nat)
    (hl : 0 < l) (hb : o + l < 2 ^ 64 - 1) :
    ∃ r, gaptrIsPushed (runPushes h) o l = some r ∧
      (r = true ↔ ∀ x, o ≤ x → x < o + l → WasPushed h x) :=
  gapRep_isPushed (runPushes_rep h hok) o l ⟨hl, hb⟩

/-- C04.  The first gap offset is the least offset that was never pushed. -/
theorem C04_gaptr_first_gap (h : List (Nat × Nat)) (hok : ∀ p ∈ h, PushOk p) :
    ¬ WasPushed h (gaptrFirstGapOffset (runPushes h)) ∧
    ∀ x, x < gaptrFirstGapOffset (runPushes h) → WasPushed h x := by
  have := runPushes_rep h hok
  generalize runPushes h = g at this
  rcases this with ⟨rfl, hS⟩ | ⟨hne, hok', hin, -⟩
  · exact ⟨hS _, fun x hx => by simp [gaptrFirstGapOffset] at hx⟩
  · cases g with
    | nil => exact absurd rfl hne
    | cons k t =>
      have hk : k.b < UINT64_MAX ∧ ¬ WasPushed h k.b :=
        (hin k.b).1 ⟨k, by simp, Nat.le_refl _, hok'.2.1⟩
      refine ⟨hk.2, fun x hx => ?_⟩
      simp only [gaptrFirstGapOffset] at hx
      by_contra hns
      have := (hin x).2 ⟨by omega, hns⟩
      have := GapsOk.lower (lo := k.b) (gaps := k :: t) ⟨Nat.le_refl _, hok'.2⟩ this
      omega

/-- C04.  The first gap after `offset` is a maximal unpushed interval reaching beyond `offset`, and
nothing between `offset` and its start is unpushed. -/
theorem C04_gaptr_first_gap_after (h : List (Nat × Nat)) (hok : ∀ p ∈ h, PushOk p) (o : Nat)
    (hb : o + 1 < 2 ^ 64 - 1) :
    ∃ r, gaptrGetFirstGapAfter (runPushes h) o = some r ∧
      (∀ x, r.b ≤ x → x < r.e → ¬ WasPushed h x) ∧ o < r.e ∧
      (∀ x, o ≤ x → x < r.b → WasPushed h x) := by
  have hb : o + 1 < UINT64_MAX := hb
  have := runPushes_rep h hok
  generalize runPushes h = g at this
  rcases this with ⟨rfl, hS⟩ | ⟨hne, hok', hin, hlast⟩
  · exact ⟨⟨0, UINT64_MAX⟩, rfl, fun x _ _ => hS x, by simp; omega, fun x _ hx => by simp at hx⟩
  · unfold gaptrGetFirstGapAfter
    rw [if_neg (by simpa using hne)]
    have hf := find_spec ⟨o, o + 1⟩ (by simp) g 0 hok'
    split at hf
    · exfalso
      have := hf _ ((hin _).2 ⟨by decide, hlast⟩)
      simp at this; omega
    · rename_i k heq
      obtain ⟨hmem, hmin, hpos⟩ := hf
      simp only at hmin hpos
      have hkk : k.b < k.e := by
        have hgen : ∀ (l : List Range) lo, GapsOk lo l → ∀ g ∈ l, g.b < g.e := by
          intro l
          induction l with
          | nil => intro lo _ g hg; simp at hg
          | cons a s ih =>
            intro lo ho g hg
            rcases List.mem_cons.1 hg with rfl | hg
            · exact ho.2.1
            · exact ih _ ho.2.2 g hg
        exact hgen g 0 hok' k hmem
      refine ⟨k, heq, fun x h1 h2 => ((hin x).1 ⟨k, hmem, h1, h2⟩).2, by omega, fun x h1 h2 => ?_⟩
      by_contra hns
      have hkU : InGaps g k.b := ⟨k, hmem, Nat.le_refl _, hkk⟩
      have := ((hin _).1 hkU).1
      have := hmin x ((hin x).2 ⟨by omega, hns⟩) h1
      omega

/-- A history of stream opens: each step returns its result. -/
def runOpens (ids : List Nat) : List OpenRes × List Range :=
  ids.foldl (fun st id => let r := idtrOpen st.2 id; (st.1 ++ [r.1], r.2)) ([], [])

/-- C04 (stream IDs).  Opening client-initiated bidirectional stream IDs in any order: the n-th open
reports STREAM_IN_USE iff the same ID was opened before, and succeeds otherwise (no assertion ever
fails); afterwards an ID is reported open iff it occurs in the history. -/
theorem C04_idtr (ids : List Nat) (h : ∀ id ∈ ids, id % 4 = 0 ∧ id < 2 ^ 62) :
    (runOpens ids).1 = ids.mapIdx (fun i id => if id ∈ ids.take i then OpenRes.streamInUse else OpenRes.ok) ∧
    ∀ id, id % 4 = 0 → id < 2 ^ 62 → idtrIsOpen (runOpens ids).2 id = some (decide (id ∈ ids)) := by
  have hq : ∀ id : Nat, id >>> 2 = id / 4 := fun id => Nat.shiftRight_eq_div_pow id 2
  have key : ∀ ids : List Nat, (∀ id ∈ ids, id % 4 = 0 ∧ id < 2 ^ 62) →
      (runOpens ids).1 = ids.mapIdx (fun i id => if id ∈ ids.take i then OpenRes.streamInUse else OpenRes.ok) ∧
      GapRep (runOpens ids).2 (fun x => ∃ id ∈ ids, id / 4 = x) := by
    intro ids
    induction ids using List.reverseRecOn with
    | nil => intro _; exact ⟨rfl, Or.inl ⟨rfl, by simp⟩⟩
    | append_singleton l a ih =>
      intro hh
      obtain ⟨i1, i2⟩ := ih (fun x hx => hh x (by simp [hx]))
      obtain ⟨ha4, ha⟩ := hh a (by simp)
      have hrun : runOpens (l ++ [a]) =
          ((runOpens l).1 ++ [(idtrOpen (runOpens l).2 a).1], (idtrOpen (runOpens l).2 a).2) := by
        simp [runOpens, List.foldl_append]
      have hU : a / 4 + 1 < UINT64_MAX := by unfold UINT64_MAX; omega
      obtain ⟨r, hr1, hr2⟩ := gapRep_isPushed i2 (a / 4) 1 ⟨by simp, hU⟩
      have hmem : (∃ id ∈ l, id / 4 = a / 4) ↔ a ∈ l := by
        constructor
        · rintro ⟨id, hid, he⟩
          have := (hh id (by simp [hid])).1
          have : id = a := by omega
          exact this ▸ hid
        · intro h; exact ⟨a, h, rfl⟩
      have hr3 : r = true ↔ a ∈ l := by
        rw [hr2, ← hmem]
        constructor
        · intro h; exact h (a / 4) (Nat.le_refl _) (by omega)
        · intro h x h1 h2
          have : x = a / 4 := by omega
          subst this; exact h
      rw [hrun]
      unfold idtrOpen
      dsimp only
      rw [hq, hr1]
      have hmap : (l ++ [a]).mapIdx (fun i id => if id ∈ (l ++ [a]).take i then OpenRes.streamInUse else OpenRes.ok) =
          l.mapIdx (fun i id => if id ∈ l.take i then OpenRes.streamInUse else OpenRes.ok) ++
            [if a ∈ l then OpenRes.streamInUse else OpenRes.ok] := by
        rw [List.mapIdx_append]
        congr 1
        · apply List.ext_getElem
          · simp
          · intro i h1 h2
            simp at h1
            simp [List.take_append_of_le_length (Nat.le_of_lt h1)]
        · simp
      rw [hmap, ← i1]
      cases r with
      | true =>
        have hal := hr3.1 rfl
        simp only [hal, if_true, true_and]
        refine gapRep_congr i2 fun x => ?_
        constructor
        · rintro ⟨id, hid, he⟩; exact ⟨id, by simp [hid], he⟩
        · rintro ⟨id, hid, he⟩
          rcases List.mem_append.1 hid with hid | hid
          · exact ⟨id, hid, he⟩
          · simp at hid; subst hid; exact ⟨id, hal, he⟩
      | false =>
        have hal : a ∉ l := fun h => by simpa using hr3.2 h
        simp only [hal, if_false, true_and]
        have hpush := gapRep_push i2 (a / 4) 1 ⟨by simp, hU⟩
        refine gapRep_congr hpush fun x => ?_
        constructor
        · rintro (⟨id, hid, he⟩ | hx)
          · exact ⟨id, by simp [hid], he⟩
          · exact ⟨a, by simp, by omega⟩
        · rintro ⟨id, hid, he⟩
          rcases List.mem_append.1 hid with hid | hid
          · exact Or.inl ⟨id, hid, he⟩
          · simp at hid; subst hid; right; omega
  obtain ⟨k1, k2⟩ := key ids h
  refine ⟨k1, fun id hid4 hid => ?_⟩
  have hU : id / 4 + 1 < UINT64_MAX := by unfold UINT64_MAX; omega
  obtain ⟨r, hr1, hr2⟩ := gapRep_isPushed k2 (id / 4) 1 ⟨by simp, hU⟩
  rw [idtrIsOpen, hq, hr1]
  congr 1
  have : r = true ↔ id ∈ ids := by
    rw [hr2]
    constructor
    · intro hx
      obtain ⟨i, hi, he⟩ := hx (id / 4) (Nat.le_refl _) (by omega)
      have := (h i hi).1
      have : i = id := by omega
      exact this ▸ hi
    · intro hx x h1 h2
      exact ⟨id, hx, by omega⟩
  rcases Bool.eq_false_or_eq_true r with hr | hr
  · rw [hr, decide_eq_true (this.1 hr)]
  · rw [hr, decide_eq_false]; intro hx; rw [this.2 hx] at hr; simp at hr

/-- A history of opens with the connection's cap of 32 gaps. -/
def runConnOpens (ids : List Nat) : List OpenRes × List Range :=
  ids.foldl (fun st id => let r := connBidiIdtrOpen st.2 id; (st.1 ++ [r.1], r.2)) ([], [])

/-- C04 (bounded memory).  With the cap used by the connection, the tracker never holds more than 32
gaps, no assertion fails, and it never forgets: an ID that was opened successfully is refused forever
after.  (The cap may make it refuse IDs never opened; that is its documented purpose.) -/
theorem C04_conn_idtr (ids : List Nat) (h : ∀ id ∈ ids, id % 4 = 0 ∧ id < 2 ^ 62) :
    (runConnOpens ids).2.length ≤ 32 ∧
    OpenRes.abort ∉ (runConnOpens ids).1 ∧
    ∀ id ∈ ids, (connBidiIdtrOpen (runConnOpens ids).2 id).1 = OpenRes.streamInUse := by
  have hq : ∀ id : Nat, id >>> 2 = id / 4 := fun id => Nat.shiftRight_eq_div_pow id 2
  -- the set S of offsets marked as used contains the opened ones
  have key : ∀ ids : List Nat, (∀ id ∈ ids, id % 4 = 0 ∧ id < 2 ^ 62) →
      (runConnOpens ids).2.length ≤ 32 ∧ OpenRes.abort ∉ (runConnOpens ids).1 ∧
      ∃ S, GapRep (runConnOpens ids).2 S ∧ ∀ id ∈ ids, S (id / 4) := by
    intro ids
    induction ids using List.reverseRecOn with
    | nil => intro _; exact ⟨by simp [runConnOpens], by simp [runConnOpens], fun _ => False, Or.inl ⟨rfl, fun _ h => h⟩, by simp⟩
    | append_singleton l a ih =>
      intro hh
      obtain ⟨i1, i2, S, i3, i4⟩ := ih (fun x hx => hh x (by simp [hx]))
      obtain ⟨ha4, ha⟩ := hh a (by simp)
      have hrun : runConnOpens (l ++ [a]) =
          ((runConnOpens l).1 ++ [(connBidiIdtrOpen (runConnOpens l).2 a).1],
            (connBidiIdtrOpen (runConnOpens l).2 a).2) := by
        simp [runConnOpens, List.foldl_append]
      have hU : a / 4 + 1 < UINT64_MAX := by unfold UINT64_MAX; omega
      obtain ⟨r, hr1, hr2⟩ := gapRep_isPushed i3 (a / 4) 1 ⟨by simp, hU⟩
      rw [hrun]
      unfold connBidiIdtrOpen idtrOpen
      dsimp only
      rw [hq, hr1]
      cases r with
      | true =>
        dsimp only
        refine ⟨i1, by simpa using i2, S, i3, ?_⟩
        intro id hid
        rcases List.mem_append.1 hid with hid | hid
        · exact i4 id hid
        · simp at hid; subst hid; exact hr2.1 rfl _ (Nat.le_refl _) (by omega)
      | false =>
        dsimp only
        have hpush := gapRep_push i3 (a / 4) 1 ⟨by simp, hU⟩
        have hS' : ∀ id ∈ l ++ [a], S (id / 4) ∨ (a / 4 ≤ id / 4 ∧ id / 4 < a / 4 + 1) := by
          intro id hid
          rcases List.mem_append.1 hid with hid | hid
          · exact Or.inl (i4 id hid)
          · simp at hid; subst hid; right; omega
        have hplen : (gaptrPush (runConnOpens l).2 (a / 4) 1).length ≤ 33 := by
          have hloop : ∀ (g : List Range), True ∧
              (∀ lo, GapsOk lo g → a / 4 + 1 ≤ lo → gapPushLoop ⟨a / 4, a / 4 + 1⟩ g = g) := by
            intro g
            induction g with
            | nil => simp [gapPushLoop]
            | cons k t ih =>
              constructor
              · trivial
              · intro lo hok hlo
                have := hok.1
                exact gapPushLoop_noov (by simp only; omega)
          have hloop2 : ∀ (g : List Range) lo, GapsOk lo g →
              (gapPushLoop ⟨a / 4, a / 4 + 1⟩ g).length ≤ g.length + 1 := by
            intro g lo hok
            cases g with
            | nil => simp [gapPushLoop]
            | cons k t =>
              by_cases hov : max (a / 4) k.b < min (a / 4 + 1) k.e
              · have ht := (hloop t).2 (k.e + 1) hok.2.2 (by omega)
                rw [gapPushLoop_ov hok.2.1 hov, ht]
                split_ifs <;> simp <;> omega
              · rw [gapPushLoop_noov hov]; simp
          have hfrom : ∀ (g : List Range) lo, GapsOk lo g →
              (gapPushFrom ⟨a / 4, a / 4 + 1⟩ g).length ≤ g.length + 1 := by
            intro g
            induction g with
            | nil => intro lo _; simp [gapPushFrom]
            | cons k t ih =>
              intro lo hok
              unfold gapPushFrom
              split_ifs
              · have := ih _ hok.2.2; simp; omega
              · exact hloop2 _ lo hok
          have hinit : GapsOk 0 (gapInit (runConnOpens l).2) ∧ (gapInit (runConnOpens l).2).length ≤ 32 := by
            rcases i3 with ⟨h0, -⟩ | ⟨hne, hok, -⟩
            · rw [h0]; exact ⟨⟨by simp, by decide, trivial⟩, by decide⟩
            · unfold gapInit; rw [if_neg (by simpa using hne)]; exact ⟨hok, i1⟩
          have := hfrom _ 0 hinit.1
          rw [gaptrPush]; omega
        refine ⟨?_, by simpa using i2, ?_⟩
        · split_ifs with hlen
          · simp [gaptrDropFirstGap]; omega
          · omega
        · split_ifs with hlen
          · -- dropping the first gap
            generalize hg : gaptrPush (runConnOpens l).2 (a / 4) 1 = g at *
            rcases hpush with ⟨h0, -⟩ | ⟨hne, hok, hin, hlast⟩
            · rw [h0] at hlen; simp at hlen
            · cases g with
              | nil => simp at hlen
              | cons k t =>
                refine ⟨fun x => ¬ InGaps t x ∧ x < UINT64_MAX, ?_, ?_⟩
                · right
                  have hgt : ∀ x, InGaps t x → InGaps (k :: t) x := fun x hx => inGaps_cons.2 (Or.inr hx)
                  refine ⟨?_, hok.2.2.mono (by omega), ?_, ?_⟩
                  · simp [gaptrDropFirstGap]; rintro rfl; simp at hlen
                  · intro x
                    simp only [gaptrDropFirstGap, List.drop_succ_cons, List.drop_zero]
                    constructor
                    · intro hx; exact ⟨((hin x).1 (hgt x hx)).1, fun hh => hh.1 hx⟩
                    · rintro ⟨hx, hn⟩; by_contra hc; exact hn ⟨hc, hx⟩
                  · rintro ⟨hn, -⟩
                    have h1 : InGaps (k :: t) (UINT64_MAX - 1) := (hin _).2 ⟨by decide, hlast⟩
                    rcases inGaps_cons.1 h1 with h1 | h1
                    · -- k reaches the end; but t is non-empty and lies above
                      cases t with
                      | nil => simp at hlen
                      | cons k2 t2 =>
                        have h2 : InGaps (k :: k2 :: t2) k2.b :=
                          ⟨k2, by simp, Nat.le_refl _, hok.2.2.2.1⟩
                        have := ((hin _).1 h2).1
                        have := hok.2.2.1
                        omega
                    · exact hn h1
                · intro id hid
                  have hUid : id / 4 < UINT64_MAX := by
                    have := (hh id hid).2
                    unfold UINT64_MAX; omega
                  refine ⟨fun hx => ?_, hUid⟩
                  have := ((hin _).1 (inGaps_cons.2 (Or.inr hx))).2
                  exact this (hS' id hid)
          · exact ⟨_, hpush, hS'⟩
  obtain ⟨k1, k2, S, k3, k4⟩ := key ids h
  refine ⟨k1, k2, fun id hid => ?_⟩
  have hU : id / 4 + 1 < UINT64_MAX := by
    have := (h id hid).2
    unfold UINT64_MAX; omega
  obtain ⟨r, hr1, hr2⟩ := gapRep_isPushed k3 (id / 4) 1 ⟨by simp, hU⟩
  have : r = true := hr2.2 (fun x h1 h2 => by
    have : x = id / 4 := by omega
    subst this; exact k4 id hid)
  unfold connBidiIdtrOpen idtrOpen
  dsimp only
  rw [hq, hr1, this]

example : (runOpens [0, 8, 4, 8, 400, 0]).1 =
    [.ok, .ok, .ok, .streamInUse, .ok, .streamInUse] := by decide
example : gaptrFirstGapOffset (runPushes [(0, 5), (10, 2), (5, 4)]) = 9 := by decide

/-- Observation: the hypothesis that pushes stay below the last offset is needed.  Once the whole
64-bit range has been pushed the tracker is indistinguishable from a fresh one. -/
theorem C04_full_range_forgets : gaptrIsPushed (gaptrPush [] 0 UINT64_MAX) 7 1 = some false := by
  decide

end Props
end Nghttp3
