import Verif.Model.Ksl
import Verif.Spec.Sorted
import Verif.Spec.Order
import Mathlib.Tactic.SplitIfs

namespace Nghttp3
namespace Ksl
variable {K D : Type} {lt : K → K → Bool}

/-! ### lists -/

theorem search_split {X : Type} (before : K → Bool) (b : List (K × X)) :
    ∃ pre post, b = pre ++ post ∧ search before b = pre.length ∧ (∀ p ∈ pre, before p.1 = true) ∧
      (∀ p t, post = p :: t → before p.1 = false) := by
  refine ⟨b.takeWhile (fun p => before p.1), b.dropWhile (fun p => before p.1),
    List.takeWhile_append_dropWhile.symm, rfl, fun p hp => ?_, fun p t hpt => ?_⟩
  · have := List.all_takeWhile (p := fun p : K × X => before p.1) (l := b)
    rw [List.all_eq_true] at this
    exact this p hp
  · have := List.head?_dropWhile_not (p := fun p : K × X => before p.1) b
    rw [hpt] at this
    simpa using this

theorem span_app (lt : K → K → Bool) (key : K) {A C B : List (K × D)} (hA : ∀ x ∈ A, lt x.1 key = true)
    (hB : ∀ x ∈ B, lt x.1 key = false) :
    Spec.before lt key (A ++ (C ++ B)) = A ++ Spec.before lt key C ∧
    Spec.from_ lt key (A ++ (C ++ B)) = Spec.from_ lt key C ++ B := by
  unfold Spec.before Spec.from_
  have hBt : B.takeWhile (fun p => lt p.1 key) = [] := by
    cases B with
    | nil => rfl
    | cons b t => rw [List.takeWhile_cons, hB b (by simp)]; rfl
  have hBd : B.dropWhile (fun p => lt p.1 key) = B := by
    cases B with
    | nil => rfl
    | cons b t => rw [List.dropWhile_cons, hB b (by simp)]; rfl
  rw [List.takeWhile_append_of_pos (by simpa using hA), List.dropWhile_append_of_pos (by simpa using hA)]
  induction C with
  | nil => simp [hBt, hBd]
  | cons c t ih =>
    simp only [List.append_cancel_left_eq] at ih ⊢
    rw [List.cons_append, List.takeWhile_cons, List.dropWhile_cons, List.takeWhile_cons, List.dropWhile_cons]
    cases lt c.1 key with
    | true => simp only [if_true]; exact ⟨by rw [ih.1], ih.2⟩
    | false => simp

theorem present_app (lt : K → K → Bool) (key : K) {A C B : List (K × D)} (hA : ∀ x ∈ A, lt x.1 key = true)
    (hB : ∀ x ∈ B, lt x.1 key = false) (hB2 : ∀ x ∈ B, lt key x.1 = true) :
    Spec.present lt key (A ++ (C ++ B)) = Spec.present lt key C := by
  unfold Spec.present
  rw [(span_app lt key hA hB).2]
  cases Spec.from_ lt key C with
  | nil =>
    cases B with
    | nil => rfl
    | cons b t => simp [hB2 b (by simp)]
  | cons p t => rfl

theorem insert_app (lt : K → K → Bool) (key : K) (d : D) {A C B : List (K × D)} (hA : ∀ x ∈ A, lt x.1 key = true)
    (hB : ∀ x ∈ B, lt x.1 key = false) (hB2 : ∀ x ∈ B, lt key x.1 = true) :
    Spec.insert lt key d (A ++ (C ++ B)) =
      ((Spec.insert lt key d C).1, A ++ ((Spec.insert lt key d C).2 ++ B)) := by
  unfold Spec.insert
  rw [present_app lt key hA hB hB2, (span_app lt key hA hB).1, (span_app lt key hA hB).2]
  split_ifs <;> simp

theorem remove_app (lt : K → K → Bool) (key : K) {A C B : List (K × D)} (hA : ∀ x ∈ A, lt x.1 key = true)
    (hB : ∀ x ∈ B, lt x.1 key = false) (hB2 : ∀ x ∈ B, lt key x.1 = true) :
    Spec.remove lt key (A ++ (C ++ B)) =
      ((Spec.remove lt key C).1, A ++ ((Spec.remove lt key C).2 ++ B)) := by
  unfold Spec.remove
  rw [present_app lt key hA hB hB2, (span_app lt key hA hB).1, (span_app lt key hA hB).2]
  split_ifs with h
  · unfold Spec.present at h
    cases hf : Spec.from_ lt key C with
    | nil => rw [hf] at h; simp at h
    | cons p t => simp
  · rfl

theorem mem_insert {key : K} {d : D} {l : List (K × D)} {x : K × D} (h : x ∈ (Spec.insert lt key d l).2) :
    x ∈ l ∨ x = (key, d) := by
  unfold Spec.insert at h
  split_ifs at h
  · exact Or.inl h
  · simp only [List.mem_append, List.mem_cons] at h
    rcases h with h | h | h
    · exact Or.inl ((List.takeWhile_sublist _).subset h)
    · exact Or.inr h
    · exact Or.inl ((List.dropWhile_sublist _).subset h)

theorem mem_remove {key : K} {l : List (K × D)} {x : K × D} (h : x ∈ (Spec.remove lt key l).2) : x ∈ l := by
  unfold Spec.remove at h
  split_ifs at h
  · simp only [List.mem_append] at h
    rcases h with h | h
    · exact (List.takeWhile_sublist _).subset h
    · exact (List.dropWhile_sublist _).subset (List.mem_of_mem_tail h)
  · exact h

/-! ### well-formed blocks -/

variable (lt) in
/-- `k` is at or above every key of the block -/
def Bnd {X : Type} (k : K) (b : List (K × X)) : Prop := ∀ q ∈ b, lt k q.1 = false

variable (lt) in
def WFB : (h : Nat) → Blk K D h → Prop
  | 0, b => List.Pairwise (fun p q => lt p.1 q.1 = true) b
  | h + 1, b => (∀ p ∈ b, WFB h (child p.2) ∧ MIN ≤ (child p.2).length ∧ (child p.2).length ≤ MAX ∧
        Bnd lt p.1 (child p.2)) ∧
      List.Pairwise (fun p q => ∀ x ∈ flat h (child q.2), lt p.1 x.1 = true) b

theorem flat_succ_append {h : Nat} (a b : Blk K D (h + 1)) :
    flat (h + 1) (a ++ b) = flat (h + 1) a ++ flat (h + 1) b := by
  simp [flat]

theorem flat_append : (h : Nat) → (a b : Blk K D h) → flat h (a ++ b) = flat h a ++ flat h b
  | 0, _, _ => rfl
  | _ + 1, a, b => flat_succ_append a b

theorem flat_cons {h : Nat} (p : K × Sub K D (h + 1)) (b : Blk K D (h + 1)) :
    flat (h + 1) (p :: b) = flat h (child p.2) ++ flat (h + 1) b := by
  simp [flat]

theorem flat_nil {h : Nat} : flat (h + 1) ([] : Blk K D (h + 1)) = [] := rfl

theorem mem_flat {h : Nat} {b : Blk K D (h + 1)} {x : K × D} :
    x ∈ flat (h + 1) b ↔ ∃ p ∈ b, x ∈ flat h (child p.2) := by
  simp [flat]

theorem flat_bnd (hl : StrictWeak lt) : (h : Nat) → (b : Blk K D h) → (k : K) → WFB lt h b → Bnd lt k b →
    ∀ x ∈ flat h b, lt k x.1 = false
  | 0, _, _, _, hb => hb
  | h + 1, b, k, hw, hb => by
    intro x hx
    obtain ⟨p, hp, hx⟩ := mem_flat.1 hx
    obtain ⟨w1, _, _, w2⟩ := hw.1 p hp
    exact hl.ntrans _ _ _ (hb p hp) (flat_bnd hl h _ p.1 w1 w2 x hx)

theorem flat_ne_nil : (h : Nat) → (b : Blk K D h) → WFB lt h b → b ≠ [] → flat h b ≠ []
  | 0, _, _, hb => hb
  | h + 1, b, hw, hb => by
    cases b with
    | nil => exact absurd rfl hb
    | cons p t =>
      obtain ⟨w1, w3, _, w2⟩ := hw.1 p (by simp)
      have hc : child p.2 ≠ [] := by
        intro e; rw [e] at w3; simp [MIN, DEGR] at w3
      rw [flat_cons]
      simp [flat_ne_nil h _ w1 hc]

theorem WFB_sub : (h : Nat) → {a b : Blk K D h} → a.Sublist b → WFB lt h b → WFB lt h a
  | 0, _, _, hs, hw => List.Pairwise.sublist hs hw
  | _ + 1, _, _, hs, hw => ⟨fun p hp => hw.1 p (hs.subset hp), hw.2.sublist hs⟩

theorem WFB_concat (hl : StrictWeak lt) : (h : Nat) → (l r : Blk K D h) → (k : K) → WFB lt h l → WFB lt h r →
    Bnd lt k l → (∀ x ∈ flat h r, lt k x.1 = true) → WFB lt h (l ++ r)
  | 0, l, r, k, w1, w2, hb, hk => by
    show List.Pairwise _ (l ++ r)
    rw [List.pairwise_append]
    exact ⟨w1, w2, fun p hp q hq => hl.le_lt (hb p hp) (hk q hq)⟩
  | h + 1, l, r, k, w1, w2, hb, hk => by
    refine ⟨fun p hp => ?_, ?_⟩
    · rcases List.mem_append.1 hp with hp | hp
      · exact w1.1 p hp
      · exact w2.1 p hp
    · rw [List.pairwise_append]
      exact ⟨w1.2, w2.2, fun p hp q hq x hx => hl.le_lt (hb p hp) (hk x (mem_flat.2 ⟨q, hq, hx⟩))⟩

theorem lastKey_mem {X : Type} {b : List (K × X)} {k : K} (h : lastKey b = some k) : ∃ c, (k, c) ∈ b := by
  unfold lastKey at h
  cases hb : b.getLast? with
  | none => rw [hb] at h; cases h
  | some p =>
    rw [hb] at h; simp at h; subst h
    exact ⟨p.2, List.mem_of_getLast? hb⟩

theorem lastKey_some {X : Type} {b : List (K × X)} (h : b ≠ []) : ∃ k, lastKey b = some k := by
  unfold lastKey
  rw [List.getLast?_eq_some_getLast h]
  exact ⟨_, rfl⟩

theorem lastKey_append {X : Type} {l r : List (K × X)} (h : r ≠ []) : lastKey (l ++ r) = lastKey r := by
  unfold lastKey
  rw [List.getLast?_append, List.getLast?_eq_some_getLast h]
  rfl

theorem lastKey_bnd (hl : StrictWeak lt) {h : Nat} {b : Blk K D h} {k : K} (hw : WFB lt h b)
    (hk : lastKey b = some k) : Bnd lt k b := by
  have hne : b ≠ [] := by rintro rfl; simp [lastKey] at hk
  rw [← List.dropLast_concat_getLast hne] at hk hw ⊢
  generalize b.dropLast = i at *
  generalize b.getLast hne = p at *
  have hkp : k = p.1 := by simpa [lastKey] using hk.symm
  subst hkp
  intro q hq
  rcases List.mem_append.1 hq with hq | hq
  · cases h with
    | zero =>
      have hw : List.Pairwise _ (i ++ [p]) := hw
      rw [List.pairwise_append] at hw
      exact hl.asymm _ _ (hw.2.2 q hq p (by simp))
    | succ h =>
      have hw2 := hw.2
      rw [List.pairwise_append] at hw2
      obtain ⟨w1, w3, _, w2⟩ := hw.1 p (by simp)
      have hc : child p.2 ≠ [] := by
        intro e; rw [e] at w3; simp [MIN, DEGR] at w3
      obtain ⟨x, hx⟩ := List.exists_mem_of_ne_nil _ (flat_ne_nil h _ w1 hc)
      have h1 := hw2.2.2 q hq p (by simp) x hx
      have h2 := flat_bnd hl h _ _ w1 w2 x hx
      exact hl.asymm _ _ (hl.lt_le h1 h2)
  · simp at hq; subst hq; exact hl.irr _

theorem lastKey_lt {h : Nat} {l r : Blk K D h} {k : K} (hw : WFB lt h (l ++ r)) (hk : lastKey l = some k) :
    ∀ x ∈ flat h r, lt k x.1 = true := by
  obtain ⟨c, hc⟩ := lastKey_mem hk
  cases h with
  | zero =>
    have hw : List.Pairwise _ (l ++ r) := hw
    rw [List.pairwise_append] at hw
    intro x hx
    exact hw.2.2 (k, c) hc x hx
  | succ h =>
    intro x hx
    obtain ⟨q, hq, hx⟩ := mem_flat.1 hx
    have hw2 := hw.2
    rw [List.pairwise_append] at hw2
    exact hw2.2.2 (k, c) hc q hq x hx

theorem sorted_flat (hl : StrictWeak lt) : (h : Nat) → (b : Blk K D h) → WFB lt h b →
    (flat h b).Pairwise (fun p q => lt p.1 q.1 = true)
  | 0, _, hw => hw
  | h + 1, b, hw => by
    induction b with
    | nil => simp [flat]
    | cons p t ih =>
      rw [flat_cons, List.pairwise_append]
      obtain ⟨w1, _, _, w2⟩ := hw.1 p (by simp)
      have hp2 := hw.2
      rw [List.pairwise_cons] at hp2
      refine ⟨sorted_flat hl h _ w1, ih ⟨fun q hq => hw.1 q (by simp [hq]), hp2.2⟩, fun x hx y hy => ?_⟩
      obtain ⟨q, hq, hy⟩ := mem_flat.1 hy
      exact hl.le_lt (flat_bnd hl h _ _ w1 w2 x hx) (hp2.1 q hq y hy)

/-- replacing a run of nodes -/
theorem WFB_replace {h : Nat} {pre old mid post : Blk K D (h + 1)} (hw : WFB lt (h + 1) (pre ++ (old ++ post)))
    (hm : WFB lt (h + 1) mid) (h1 : ∀ p ∈ pre, ∀ q ∈ mid, ∀ x ∈ flat h (child q.2), lt p.1 x.1 = true)
    (h2 : ∀ p ∈ mid, ∀ q ∈ post, ∀ x ∈ flat h (child q.2), lt p.1 x.1 = true) :
    WFB lt (h + 1) (pre ++ (mid ++ post)) := by
  obtain ⟨a, b⟩ := hw
  rw [List.pairwise_append, List.pairwise_append] at b
  obtain ⟨b1, ⟨b2, b3, b4⟩, b5⟩ := b
  refine ⟨fun p hp => ?_, ?_⟩
  · simp only [List.mem_append] at hp
    rcases hp with hp | hp | hp
    · exact a p (by simp [hp])
    · exact hm.1 p hp
    · exact a p (by simp [hp])
  · rw [List.pairwise_append, List.pairwise_append]
    refine ⟨b1, ⟨hm.2, b3, h2⟩, fun p hp q hq => ?_⟩
    rcases List.mem_append.1 hq with hq | hq
    · exact h1 p hp q hq
    · exact b5 p hp q (by simp [hq])

theorem WFB_one {h : Nat} {k : K} {c : Sub K D (h + 1)} (h1 : WFB lt h (child c)) (h2 : MIN ≤ (child c).length)
    (h3 : (child c).length ≤ MAX) (h4 : Bnd lt k (child c)) : WFB lt (h + 1) [(k, c)] :=
  ⟨fun p hp => by simp at hp; subst hp; exact ⟨h1, h2, h3, h4⟩, by simp⟩

theorem WFB_two {h : Nat} {k k' : K} {c c' : Sub K D (h + 1)} (h1 : WFB lt h (child c)) (h2 : MIN ≤ (child c).length)
    (h3 : (child c).length ≤ MAX) (h4 : Bnd lt k (child c)) (g1 : WFB lt h (child c')) (g2 : MIN ≤ (child c').length)
    (g3 : (child c').length ≤ MAX) (g4 : Bnd lt k' (child c')) (hx : ∀ x ∈ flat h (child c'), lt k x.1 = true) :
    WFB lt (h + 1) [(k, c), (k', c')] :=
  ⟨fun p hp => by
    simp at hp
    rcases hp with rfl | rfl
    · exact ⟨h1, h2, h3, h4⟩
    · exact ⟨g1, g2, g3, g4⟩, by simpa using hx⟩

/-- decomposition of facts about a node in the middle -/
theorem WFB_mid {h : Nat} {pre post : Blk K D (h + 1)} {k : K} {c : Sub K D (h + 1)}
    (hw : WFB lt (h + 1) (pre ++ (k, c) :: post)) :
    WFB lt h (child c) ∧ MIN ≤ (child c).length ∧ (child c).length ≤ MAX ∧ Bnd lt k (child c) ∧
    (∀ p ∈ pre, ∀ x ∈ flat h (child c), lt p.1 x.1 = true) ∧
    (∀ q ∈ post, ∀ x ∈ flat h (child q.2), lt k x.1 = true) ∧
    (∀ p ∈ pre, ∀ q ∈ post, ∀ x ∈ flat h (child q.2), lt p.1 x.1 = true) := by
  obtain ⟨a, b⟩ := hw
  obtain ⟨c1, c2, c3, c4⟩ := a (k, c) (by simp)
  rw [List.pairwise_append, List.pairwise_cons] at b
  exact ⟨c1, c2, c3, c4, fun p hp => b.2.2 p hp (k, c) (by simp), b.2.1.1,
    fun p hp q hq => b.2.2 p hp q (by simp [hq])⟩

/-- elements under nodes whose keys are before `key` are before `key` -/
theorem flat_lt_key (hl : StrictWeak lt) {h : Nat} {pre : Blk K D (h + 1)} {key : K}
    (hw : ∀ p ∈ pre, WFB lt h (child p.2) ∧ Bnd lt p.1 (child p.2)) (hp : ∀ p ∈ pre, lt p.1 key = true) :
    ∀ x ∈ flat (h + 1) pre, lt x.1 key = true := by
  intro x hx
  obtain ⟨p, hpm, hx⟩ := mem_flat.1 hx
  obtain ⟨w1, w2⟩ := hw p hpm
  exact hl.le_lt (flat_bnd hl h _ _ w1 w2 x hx) (hp p hpm)

theorem splitBlk_full {h : Nat} {b : Blk K D h} (hb : b.length = MAX) :
    (splitBlk b).1 ++ (splitBlk b).2 = b ∧ (splitBlk b).1.length = 16 ∧ (splitBlk b).2.length = 15 := by
  unfold splitBlk
  simp only [MAX, DEGR] at hb
  refine ⟨List.take_append_drop _ _, ?_, ?_⟩
  · rw [List.length_take]; omega
  · rw [List.length_drop]; omega

theorem splitNode_eq {h : Nat} {pre post : Blk K D (h + 1)} {k : K} {c : Sub K D (h + 1)} :
    splitNode (pre ++ (k, c) :: post) pre.length =
      pre ++ ((lastKey (splitBlk (child c)).1).getD k, mkChild (splitBlk (child c)).1) ::
        ((lastKey (splitBlk (child c)).2).getD k, mkChild (splitBlk (child c)).2) :: post := by
  unfold splitNode
  simp

/-- splitting a full child in place -/
theorem splitNode_spec (hl : StrictWeak lt) {h : Nat} {pre post : Blk K D (h + 1)} {k : K} {c : Sub K D (h + 1)}
    (hw : WFB lt (h + 1) (pre ++ (k, c) :: post)) (hc : (child c).length = MAX) :
    ∃ kl kr, ∃ l r : Blk K D h, splitNode (pre ++ (k, c) :: post) pre.length =
        pre ++ (kl, mkChild l) :: (kr, mkChild r) :: post ∧
      l ++ r = child c ∧ l.length = 16 ∧ r.length = 15 ∧
      WFB lt (h + 1) (pre ++ (kl, mkChild l) :: (kr, mkChild r) :: post) ∧
      lt k kl = false ∧ lt k kr = false ∧ Bnd lt kr r := by
  obtain ⟨e1, e2, e3⟩ := splitBlk_full hc
  obtain ⟨c1, c2, c3, c4, c5, c6, c7⟩ := WFB_mid hw
  rw [splitNode_eq]
  generalize hL : (splitBlk (child c)).1 = l at *
  generalize hR : (splitBlk (child c)).2 = r at *
  obtain ⟨kl, hkl⟩ := lastKey_some (b := l) (by intro e; simp [e] at e2)
  obtain ⟨kr, hkr⟩ := lastKey_some (b := r) (by intro e; simp [e] at e3)
  rw [hkl, hkr]
  simp only [Option.getD_some]
  have wl : WFB lt h l := WFB_sub h (List.sublist_append_left l r) (e1 ▸ c1)
  have wr : WFB lt h r := WFB_sub h (List.sublist_append_right l r) (e1 ▸ c1)
  have hklk : lt k kl = false := by
    obtain ⟨x, hx⟩ := lastKey_mem hkl
    exact c4 (kl, x) (by rw [← e1]; simp [hx])
  have hkrk : lt k kr = false := by
    obtain ⟨x, hx⟩ := lastKey_mem hkr
    exact c4 (kr, x) (by rw [← e1]; simp [hx])
  have hfl : flat h (child c) = flat h l ++ flat h r := by rw [← e1, flat_append]
  have hbr := lastKey_bnd hl wr hkr
  refine ⟨kl, kr, l, r, rfl, e1, e2, e3, ?_, hklk, hkrk, hbr⟩
  apply WFB_replace (pre := pre) (old := [(k, c)]) (mid := [(kl, mkChild l), (kr, mkChild r)]) hw
  · exact WFB_two wl (by show _ ≤ l.length; rw [e2]; decide) (by show l.length ≤ _; rw [e2]; decide)
      (lastKey_bnd hl wl hkl) wr (by show _ ≤ r.length; rw [e3]; decide) (by show r.length ≤ _; rw [e3]; decide) hbr
      (lastKey_lt (e1 ▸ c1) hkl)
  · intro p hp q hq x hx
    simp at hq
    rcases hq with rfl | rfl
    · exact c5 p hp x (by rw [hfl]; exact List.mem_append_left _ hx)
    · exact c5 p hp x (by rw [hfl]; exact List.mem_append_right _ hx)
  · intro p hp q hq x hx
    simp at hp
    rcases hp with rfl | rfl
    · exact hl.le_lt hklk (c6 q hq x hx)
    · exact hl.le_lt hkrk (c6 q hq x hx)

/-! ### insertion -/

/-- what an insertion into a block guarantees -/
structure InsOk (lt : K → K → Bool) (h : Nat) (b b' : Blk K D h) (key : K) : Prop where
  wf : WFB lt h b'
  len1 : b.length ≤ b'.length
  len2 : b'.length ≤ b.length + 1
  bnd : ∀ B, Bnd lt B b → lt B key = false → Bnd lt B b'

theorem leaf_insLast (b : List (K × D)) (key : K) (d : D)
    (hw : List.Pairwise (fun p q => lt p.1 q.1 = true) b) (hk : ∀ q ∈ b, lt q.1 key = true) :
    insertNode b b.length key d = b ++ [(key, d)] ∧
    List.Pairwise (fun p q => lt p.1 q.1 = true) (insertNode b b.length key d) ∧
    b.length ≤ (insertNode b b.length key d).length ∧ (insertNode b b.length key d).length ≤ b.length + 1 ∧
    ∀ B, Bnd lt B b → lt B key = false → Bnd lt B (insertNode b b.length key d) := by
  have e : insertNode b b.length key d = b ++ [(key, d)] := by
    unfold insertNode
    rw [List.take_length, List.drop_length]
  rw [e]
  refine ⟨rfl, ?_, by simp, by simp, ?_⟩
  · rw [List.pairwise_append]
    exact ⟨hw, by simp, fun p hp q hq => by simp at hq; subst hq; exact hk p hp⟩
  · intro B h1 h2 q hq
    rcases List.mem_append.1 hq with hq | hq
    · exact h1 q hq
    · simp at hq; subst hq; exact h2

theorem before_from (lt : K → K → Bool) (key : K) (b : List (K × D)) :
    Spec.before lt key b ++ Spec.from_ lt key b = b := by
  unfold Spec.before Spec.from_; rw [List.takeWhile_append_dropWhile]

theorem before_lt (lt : K → K → Bool) (key : K) (b : List (K × D)) : ∀ x ∈ Spec.before lt key b, lt x.1 key = true := by
  intro x hx
  have := List.all_takeWhile (p := fun p : K × D => lt p.1 key) (l := b)
  rw [List.all_eq_true] at this
  exact this x hx

theorem leaf_insert (hl : StrictWeak lt) (b : List (K × D)) (key : K) (d : D)
    (hw : List.Pairwise (fun p q => lt p.1 q.1 = true) b) :
    List.Pairwise (fun p q => lt p.1 q.1 = true) (Spec.insert lt key d b).2 ∧
    b.length ≤ (Spec.insert lt key d b).2.length ∧ (Spec.insert lt key d b).2.length ≤ b.length + 1 ∧
    ∀ B, Bnd lt B b → lt B key = false → Bnd lt B (Spec.insert lt key d b).2 := by
  have hlenI : (Spec.insert lt key d b).2.length ≤ b.length + 1 ∧ b.length ≤ (Spec.insert lt key d b).2.length := by
    unfold Spec.insert
    split_ifs
    · simp
    · have := congrArg List.length (before_from lt key b)
      simp at this ⊢; omega
  refine ⟨?_, hlenI.2, hlenI.1, ?_⟩
  · unfold Spec.insert
    split_ifs with hpres
    · exact hw
    · have hw' := hw
      rw [← before_from lt key b, List.pairwise_append] at hw'
      obtain ⟨p1, p2, p3⟩ := hw'
      have haft : ∀ x ∈ Spec.from_ lt key b, lt key x.1 = true := by
        unfold Spec.present at hpres
        cases hf : Spec.from_ lt key b with
        | nil => simp
        | cons p t =>
          rw [hf] at hpres p2
          have hp : lt key p.1 = true := by simpa using hpres
          rw [List.pairwise_cons] at p2
          intro x hx
          rcases List.mem_cons.1 hx with rfl | hx
          · exact hp
          · exact hl.trans hp (p2.1 x hx)
      show List.Pairwise _ (Spec.before lt key b ++ (key, d) :: Spec.from_ lt key b)
      rw [List.pairwise_append, List.pairwise_cons]
      refine ⟨p1, ⟨haft, p2⟩, fun x hx y hy => ?_⟩
      rcases List.mem_cons.1 hy with rfl | hy
      · exact before_lt lt key b x hx
      · exact p3 x hx y hy
  · intro B h1 h2 q hq
    rcases mem_insert hq with hq | hq
    · exact h1 q hq
    · subst hq; exact h2

theorem insLast_spec (hl : StrictWeak lt) (key : K) (d : D) : (h : Nat) → (b : Blk K D h) → WFB lt h b →
    b.length < MAX → (h ≠ 0 → b ≠ []) → (∀ q ∈ b, lt q.1 key = true) →
    flat h (insLast h b key d) = flat h b ++ [(key, d)] ∧ InsOk lt h b (insLast h b key d) key
  | 0, b, hw, hlen, _, hk => by
    have a := leaf_insLast (lt := lt) b key d hw hk
    exact ⟨a.1, a.2.1, a.2.2.1, a.2.2.2.1, a.2.2.2.2⟩
  | h + 1, b, hw, hlen, hne, hk => by
    have hne' := hne (by omega)
    -- decompose at the last node
    obtain ⟨pre, ⟨k, c⟩, rfl⟩ : ∃ pre p, b = pre ++ [p] :=
      ⟨b.dropLast, b.getLast hne', (List.dropLast_concat_getLast hne').symm⟩
    have hkk : lt k key = true := hk (k, c) (by simp)
    -- the final descent
    have fin : ∀ (pre' : Blk K D (h + 1)) (k' : K) (c' : Sub K D (h + 1)), WFB lt (h + 1) (pre' ++ [(k', c')]) →
        (child c').length < MAX → Bnd lt k' (child c') → lt k' key = true → (∀ p ∈ pre', lt p.1 key = true) →
        flat (h + 1) (pre' ++ [(key, mkChild (insLast h (child c') key d))]) =
          flat (h + 1) (pre' ++ [(k', c')]) ++ [(key, d)] ∧
        WFB lt (h + 1) (pre' ++ [(key, mkChild (insLast h (child c') key d))]) := by
      intro pre' k' c' hw' hlc hbk hk'k hpk
      obtain ⟨c1, c2, c3, c4, c5, c6, c7⟩ := WFB_mid hw'
      have hcne : child c' ≠ [] := by intro e; rw [e] at c2; simp [MIN, DEGR] at c2
      obtain ⟨i1, i2⟩ := insLast_spec hl key d h (child c') c1 hlc (fun _ => hcne)
        (fun q hq => hl.le_lt (hbk q hq) hk'k)
      have hbkey : Bnd lt key (child c') := fun q hq => hl.asymm _ _ (hl.le_lt (hbk q hq) hk'k)
      constructor
      · rw [flat_succ_append, flat_succ_append, flat_cons, flat_cons, flat_nil]
        show _ ++ (flat h (insLast h (child c') key d) ++ []) = _
        rw [i1]; simp
      · have := WFB_replace (pre := pre') (old := [(k', c')]) (mid := [(key, mkChild (insLast h (child c') key d))])
          (post := []) (by simpa using hw')
          (WFB_one i2.wf (Nat.le_trans c2 i2.len1) (by have := i2.len2; show (insLast h (child c') key d).length ≤ _; omega)
            (i2.bnd key hbkey (hl.irr _)))
          (by
            intro p hp q hq x hx
            simp at hq; subst hq
            have hx' : x ∈ flat h (insLast h (child c') key d) := hx
            rw [i1, List.mem_append] at hx'
            rcases hx' with hx' | hx'
            · exact c5 p hp x hx'
            · simp at hx'; subst hx'; exact hpk p hp)
          (by simp)
        simpa using this
    have hpre : ∀ p ∈ pre, lt p.1 key = true := fun p hp => hk p (by simp [hp])
    obtain ⟨c1, c2, c3, c4, c5, c6, c7⟩ := WFB_mid hw
    unfold insLast
    simp only [List.getLast?_append, List.getLast?_singleton, Option.some_or]
    by_cases hfull : (child c).length = MAX
    · rw [if_pos hfull]
      obtain ⟨kl, kr, l, r, e, e1, e2, e3, hw1, hkl, hkr, hbr⟩ := splitNode_spec hl hw hfull
      have hlenpre : (pre ++ [(k, c)]).length - 1 = pre.length := by simp
      rw [hlenpre, e]
      have e' : pre ++ [(kl, mkChild l), (kr, mkChild r)] = (pre ++ [(kl, mkChild l)]) ++ [(kr, mkChild r)] := by simp
      rw [e', List.getLast?_append, List.getLast?_singleton, Option.some_or]
      dsimp only
      rw [List.dropLast_concat]
      obtain ⟨f1, f2⟩ := fin (pre ++ [(kl, mkChild l)]) kr (mkChild r) (by rw [← e']; exact hw1)
        (by show r.length < _; rw [e3]; decide) hbr (hl.le_lt hkr hkk)
        (fun p hp => by
          rcases List.mem_append.1 hp with hp | hp
          · exact hpre p hp
          · simp at hp; subst hp; exact hl.le_lt hkl hkk)
      refine ⟨?_, f2, ?_, ?_, ?_⟩
      · rw [f1, ← e']
        have : flat (h + 1) (pre ++ [(kl, mkChild l), (kr, mkChild r)]) = flat (h + 1) (pre ++ [(k, c)]) := by
          rw [flat_succ_append, flat_succ_append, flat_cons, flat_cons, flat_cons, flat_nil]
          show _ ++ (flat h l ++ (flat h r ++ [])) = _
          rw [← e1, flat_append]; simp
        rw [this]
      · simp
      · simp
      · intro B h1 h2 q hq
        rcases List.mem_append.1 hq with hq | hq
        · rcases List.mem_append.1 hq with hq | hq
          · exact h1 q (by simp [hq])
          · simp at hq; subst hq; exact hl.ntrans _ _ _ (h1 (k, c) (by simp)) hkl
        · simp at hq; subst hq; exact h2
    · rw [if_neg hfull]
      simp only [List.getLast?_append, List.getLast?_singleton, Option.some_or, List.dropLast_concat]
      obtain ⟨f1, f2⟩ := fin pre k c hw (by omega) c4 hkk hpre
      refine ⟨f1, f2, by simp, by simp, ?_⟩
      intro B h1 h2 q hq
      rcases List.mem_append.1 hq with hq | hq
      · exact h1 q (by simp [hq])
      · simp at hq; subst hq; exact h2

theorem leafIns_eq (lt : K → K → Bool) (b : List (K × D)) (key : K) (d : D) :
    leafIns lt b key d = Spec.insert lt key d b := by
  obtain ⟨pre, post, rfl, hs, hp, hq⟩ := search_split (fun k => lt k key) b
  unfold leafIns
  rw [hs]
  have hA : ∀ x ∈ pre, lt x.1 key = true := hp
  have ht : Spec.before lt key (pre ++ post) = pre := by
    unfold Spec.before
    rw [List.takeWhile_append_of_pos (by simpa using hA)]
    cases post with
    | nil => simp
    | cons p t => rw [List.takeWhile_cons, hq p t rfl]; simp
  have hd : Spec.from_ lt key (pre ++ post) = post := by
    unfold Spec.from_
    rw [List.dropWhile_append_of_pos (by simpa using hA)]
    cases post with
    | nil => simp
    | cons p t => rw [List.dropWhile_cons, hq p t rfl]; simp
  unfold Spec.insert Spec.present insertNode
  rw [ht, hd]
  cases post with
  | nil => simp
  | cons p t =>
    simp only [List.getElem?_append_right (Nat.le_refl _), Nat.sub_self, List.getElem?_cons_zero, List.take_left',
      List.drop_left']

/-- descending into one child on insertion -/
theorem desc_ins (hl : StrictWeak lt) {h : Nat} {pre post : Blk K D (h + 1)} {k k' key : K} {d : D} {c : Sub K D (h + 1)}
    {r : Bool × Blk K D h}
    (hw : WFB lt (h + 1) (pre ++ (k, c) :: post)) (hpre : ∀ p ∈ pre, lt p.1 key = true)
    (hb : Bnd lt k' (child c)) (hk' : lt k' key = false)
    (hpost : ∀ q ∈ post, ∀ x ∈ flat h (child q.2), lt k' x.1 = true)
    (hr1 : r = ((Spec.insert lt key d (flat h (child c))).1, r.2))
    (hr2 : flat h r.2 = (Spec.insert lt key d (flat h (child c))).2)
    (hok : InsOk lt h (child c) r.2 key) (hlen : (child c).length < MAX) :
    r.1 = (Spec.insert lt key d (flat (h + 1) (pre ++ (k, c) :: post))).1 ∧
    flat (h + 1) (pre ++ (k', mkChild r.2) :: post) =
      (Spec.insert lt key d (flat (h + 1) (pre ++ (k, c) :: post))).2 ∧
    WFB lt (h + 1) (pre ++ (k', mkChild r.2) :: post) := by
  obtain ⟨c1, c2, c3, c4, c5, c6, c7⟩ := WFB_mid hw
  have hfl : flat (h + 1) (pre ++ (k, c) :: post) = flat (h + 1) pre ++ (flat h (child c) ++ flat (h + 1) post) := by
    rw [flat_succ_append, flat_cons]
  have hA := flat_lt_key hl (key := key)
    (fun p hp => ⟨(hw.1 p (List.mem_append_left _ hp)).1, (hw.1 p (List.mem_append_left _ hp)).2.2.2⟩) hpre
  have hB2 : ∀ x ∈ flat (h + 1) post, lt key x.1 = true := by
    intro x hx
    obtain ⟨q, hq, hx⟩ := mem_flat.1 hx
    exact hl.le_lt hk' (hpost q hq x hx)
  have hB : ∀ x ∈ flat (h + 1) post, lt x.1 key = false := fun x hx => hl.asymm _ _ (hB2 x hx)
  have hins := insert_app lt key d (C := flat h (child c)) hA hB hB2
  rw [hfl, hins]
  refine ⟨by rw [hr1], ?_, ?_⟩
  · rw [flat_succ_append, flat_cons]
    show _ ++ (flat h r.2 ++ _) = _
    rw [hr2]
  · have := WFB_replace (pre := pre) (old := [(k, c)]) (mid := [(k', mkChild r.2)]) (post := post) hw
      (WFB_one hok.wf (Nat.le_trans c2 hok.len1) (by have := hok.len2; show r.2.length ≤ _; omega)
        (hok.bnd k' hb hk'))
      (by
        intro p hp q hq x hx
        simp at hq; subst hq
        have hx' : x ∈ flat h r.2 := hx
        rw [hr2] at hx'
        rcases mem_insert hx' with hx' | hx'
        · exact c5 p hp x hx'
        · subst hx'; exact hpre p hp)
      (by
        intro p hp q hq x hx
        simp at hp; subst hp
        exact hpost q hq x hx)
    exact this

theorem ins_spec (hl : StrictWeak lt) (key : K) (d : D) : (h : Nat) → (b : Blk K D h) → WFB lt h b →
    b.length < MAX → (h ≠ 0 → b ≠ []) →
    (ins lt h b key d).1 = (Spec.insert lt key d (flat h b)).1 ∧
    flat h (ins lt h b key d).2 = (Spec.insert lt key d (flat h b)).2 ∧
    InsOk lt h b (ins lt h b key d).2 key
  | 0, b, hw, hlen, _ => by
    have e : ins lt 0 b key d = Spec.insert lt key d b := leafIns_eq lt b key d
    rw [e]
    have a := leaf_insert hl b key d hw
    exact ⟨rfl, rfl, a.1, a.2.1, a.2.2.1, a.2.2.2⟩
  | h + 1, b, hw, hlen, hne => by
    obtain ⟨pre, post, rfl, hs, hpre, hpost⟩ := search_split (fun k => lt k key) b
    unfold ins
    dsimp only
    rw [hs]
    cases post with
    | nil =>
      rw [List.append_nil] at *
      rw [List.getElem?_eq_none (Nat.le_refl _)]
      dsimp only
      obtain ⟨i1, i2⟩ := insLast_spec hl key d (h + 1) pre hw hlen hne hpre
      have hA := flat_lt_key hl (key := key) (fun p hp => ⟨(hw.1 p hp).1, (hw.1 p hp).2.2.2⟩) hpre
      have hsp := span_app lt key (C := []) (B := []) hA (by simp)
      simp only [List.append_nil] at hsp
      have hspec : Spec.insert lt key d (flat (h + 1) pre) = (true, flat (h + 1) pre ++ [(key, d)]) := by
        unfold Spec.insert Spec.present
        rw [hsp.1, hsp.2]
        simp [Spec.from_, Spec.before]
      rw [hspec]
      exact ⟨rfl, i1, i2⟩
    | cons p post =>
      obtain ⟨k, c⟩ := p
      have hk : lt k key = false := hpost _ _ rfl
      rw [List.getElem?_append_right (Nat.le_refl _), Nat.sub_self, List.getElem?_cons_zero]
      dsimp only
      obtain ⟨c1, c2, c3, c4, c5, c6, c7⟩ := WFB_mid hw
      have hcne : child c ≠ [] := by intro e; rw [e] at c2; simp [MIN, DEGR] at c2
      by_cases hfull : (child c).length = MAX
      · rw [if_pos hfull]
        obtain ⟨kl, kr, l, r, e, e1, e2, e3, hw1, hkl, hkr, hbr⟩ := splitNode_spec hl hw hfull
        rw [e]
        have hflat : flat (h + 1) (pre ++ (kl, mkChild l) :: (kr, mkChild r) :: post) =
            flat (h + 1) (pre ++ (k, c) :: post) := by
          rw [flat_succ_append, flat_succ_append, flat_cons, flat_cons, flat_cons]
          show _ ++ (flat h l ++ (flat h r ++ _)) = _
          rw [← e1, flat_append]; simp
        have g0 : (pre ++ (kl, mkChild l) :: (kr, mkChild r) :: post)[pre.length]? = some (kl, mkChild l) := by simp
        have g1 : (pre ++ (kl, mkChild l) :: (kr, mkChild r) :: post)[pre.length + 1]? = some (kr, mkChild r) := by
          rw [List.getElem?_append_right (by omega)]; simp
        rw [g0, g1]
        dsimp only
        by_cases hlt : lt kl key = true
        · rw [if_pos hlt]
          have e' : pre ++ (kl, mkChild l) :: (kr, mkChild r) :: post =
              (pre ++ [(kl, mkChild l)]) ++ (kr, mkChild r) :: post := by simp
          have hset : ∀ v, (pre ++ (kl, mkChild l) :: (kr, mkChild r) :: post).set (pre.length + 1) v =
              (pre ++ [(kl, mkChild l)]) ++ v :: post := by
            intro v; simp
          rw [hset]
          have ih := ins_spec hl key d h r (WFB_mid (e' ▸ hw1)).1 (by rw [e3]; decide) (fun _ h0 => by simp [h0] at e3)
          obtain ⟨i1, i2, i3⟩ := ih
          -- the possibly raised key
          have hk1 : lt (if lt kr key = true then key else kr) key = false := by
            split_ifs with hh
            · exact hl.irr _
            · simpa using hh
          have hk1k : lt k (if lt kr key = true then key else kr) = false := by
            split_ifs
            · exact hk
            · exact hkr
          have hbk1 : Bnd lt (if lt kr key = true then key else kr) r := by
            intro q hq
            split_ifs with hh
            · exact hl.asymm _ _ (hl.le_lt (hbr q hq) hh)
            · exact hbr q hq
          have hdesc := desc_ins hl (c := mkChild r) (r := ins lt h r key d) (k' := if lt kr key = true then key else kr)
            (e' ▸ hw1) (fun p hp => by
              rcases List.mem_append.1 hp with hp | hp
              · exact hpre p hp
              · simp at hp; subst hp; exact hlt) hbk1 hk1
            (fun q hq x hx => hl.le_lt hk1k (c6 q hq x hx))
            (by show ins lt h r key d = ((Spec.insert lt key d (flat h r)).1, _); rw [← i1]) i2 i3
            (by show r.length < _; rw [e3]; decide)
          rw [← e', hflat] at hdesc
          obtain ⟨d1, d2, d3⟩ := hdesc
          refine ⟨d1, d2, d3, ?_, ?_, ?_⟩
          · simp
          · simp; omega
          · intro B h1 h2 q hq
            simp only [List.mem_append, List.mem_cons, List.not_mem_nil, or_false] at hq
            rcases hq with (hq | hq) | hq | hq
            · exact h1 q (by simp [hq])
            · subst hq; exact hl.ntrans _ _ _ (h1 (k, c) (by simp)) hkl
            · subst hq
              show lt B (if lt kr key = true then key else kr) = false
              exact hl.ntrans _ _ _ (h1 (k, c) (by simp)) hk1k
            · exact h1 q (by simp [hq])
        · rw [if_neg hlt]
          have hlt' : lt kl key = false := by simpa using hlt
          have hset : ∀ v, (pre ++ (kl, mkChild l) :: (kr, mkChild r) :: post).set pre.length v =
              pre ++ v :: (kr, mkChild r) :: post := by
            intro v; simp
          rw [hset]
          obtain ⟨m1, m2, m3, m4, m5, m6, m7⟩ := WFB_mid hw1
          obtain ⟨i1, i2, i3⟩ := ins_spec hl key d h l m1 (by rw [e2]; decide) (fun _ h0 => by simp [h0] at e2)
          have hdesc := desc_ins hl (c := mkChild l) (r := ins lt h l key d) (k' := kl) hw1 hpre m4 hlt' m6
            (by show ins lt h l key d = ((Spec.insert lt key d (flat h l)).1, _); rw [← i1]) i2 i3
            (by show l.length < _; rw [e2]; decide)
          rw [hflat] at hdesc
          obtain ⟨d1, d2, d3⟩ := hdesc
          refine ⟨d1, d2, d3, ?_, ?_, ?_⟩
          · simp
          · simp; omega
          · intro B h1 h2 q hq
            simp only [List.mem_append, List.mem_cons] at hq
            rcases hq with hq | hq | hq | hq
            · exact h1 q (by simp [hq])
            · subst hq; exact hl.ntrans _ _ _ (h1 (k, c) (by simp)) hkl
            · subst hq; exact hl.ntrans _ _ _ (h1 (k, c) (by simp)) hkr
            · exact h1 q (by simp [hq])
      · rw [if_neg hfull]
        have hset : ∀ v, (pre ++ (k, c) :: post).set pre.length v = pre ++ v :: post := by intro v; simp
        rw [hset]
        obtain ⟨i1, i2, i3⟩ := ins_spec hl key d h (child c) c1 (by omega) (fun _ => hcne)
        obtain ⟨d1, d2, d3⟩ := desc_ins hl (r := ins lt h (child c) key d) (k' := k) hw hpre c4 hk c6
          (by rw [← i1]) i2 i3 (by omega)
        refine ⟨d1, d2, d3, by simp, by simp, ?_⟩
        intro B h1 h2 q hq
        simp only [List.mem_append, List.mem_cons] at hq
        rcases hq with hq | hq | hq
        · exact h1 q (by simp [hq])
        · subst hq; exact h1 (k, c) (by simp)
        · exact h1 q (by simp [hq])

end Ksl
end Nghttp3
