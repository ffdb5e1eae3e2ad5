import Verif.Lemmas.KslRem

namespace Nghttp3
namespace Ksl
variable {K D : Type} {lt : K → K → Bool}

theorem span_eq (lt : K → K → Bool) (key : K) {pre post : List (K × D)} (hA : ∀ x ∈ pre, lt x.1 key = true)
    (hq : ∀ p t, post = p :: t → lt p.1 key = false) :
    Spec.before lt key (pre ++ post) = pre ∧ Spec.from_ lt key (pre ++ post) = post := by
  unfold Spec.before Spec.from_
  rw [List.takeWhile_append_of_pos (by simpa using hA), List.dropWhile_append_of_pos (by simpa using hA)]
  cases post with
  | nil => simp
  | cons p t => rw [List.takeWhile_cons, List.dropWhile_cons, hq p t rfl]; simp

theorem get_split {X : Type} (pre : List X) (p : X) (t : List X) : (pre ++ p :: t)[pre.length]? = some p := by simp

theorem removeNode_eq {X : Type} (pre : List (K × X)) (p : K × X) (t : List (K × X)) :
    removeNode (pre ++ p :: t) pre.length = pre ++ t := by
  unfold removeNode
  rw [List.take_left', List.drop_append]
  · simp
  · rfl

theorem leafRem_eq (lt : K → K → Bool) (b : List (K × D)) (key : K) : leafRem lt b key = Spec.remove lt key b := by
  obtain ⟨pre, post, rfl, hs, hp, hq⟩ := search_split (fun k => lt k key) b
  unfold leafRem
  rw [hs]
  obtain ⟨ht, hd⟩ := span_eq lt key (pre := pre) (post := post) hp hq
  unfold Spec.remove Spec.present
  rw [ht, hd]
  cases post with
  | nil => simp
  | cons p t =>
    dsimp only
    rw [get_split]
    dsimp only
    rw [removeNode_eq]
    by_cases hh : lt key p.1 = true <;> simp [hh]

theorem leaf_remove (b : List (K × D)) (key : K) (hw : List.Pairwise (fun p q => lt p.1 q.1 = true) b) :
    List.Pairwise (fun p q => lt p.1 q.1 = true) (Spec.remove lt key b).2 ∧
    (Spec.remove lt key b).2.length ≤ b.length ∧ b.length ≤ (Spec.remove lt key b).2.length + 1 ∧
    (∀ B, Bnd lt B b → Bnd lt B (Spec.remove lt key b).2) := by
  unfold Spec.remove
  split_ifs with h
  · have e := before_from lt key b
    have hsub : (Spec.before lt key b ++ (Spec.from_ lt key b).tail).Sublist b := by
      conv => rhs; rw [← e]
      exact List.Sublist.append_left (List.tail_sublist _) _
    refine ⟨hw.sublist hsub, hsub.length_le, ?_, fun B hB q hq => hB q (hsub.subset hq)⟩
    have := congrArg List.length e
    simp only [List.length_append, List.length_tail] at this ⊢
    omega
  · exact ⟨hw, Nat.le_refl _, Nat.le_succ _, fun B hB => hB⟩

theorem not_present_of_lt (l : List (K × D)) (key : K) (h : ∀ x ∈ l, lt x.1 key = true) :
    Spec.present lt key l = false := by
  have := span_eq lt key (pre := l) (post := []) h (by simp)
  rw [List.append_nil] at this
  unfold Spec.present
  rw [this.2]

structure RemOk (lt : K → K → Bool) (h : Nat) (b b' : Blk K D h) : Prop where
  wf : WFB lt h b'
  len1 : b'.length ≤ b.length
  len2 : b.length ≤ b'.length + 1
  two : h ≠ 0 → 2 ≤ b'.length
  bnd : ∀ B, Bnd lt B b → Bnd lt B b'

/-- descending into one child on removal -/
theorem desc_rem (hl : StrictWeak lt) {h : Nat} {pre post : Blk K D (h + 1)} {k key : K} {c : Sub K D (h + 1)}
    {rv : Bool} {c' : Blk K D h}
    (hw : WFB lt (h + 1) (pre ++ (k, c) :: post)) (hpre : ∀ p ∈ pre, lt p.1 key = true)
    (hpost : ∀ x ∈ flat (h + 1) post, lt key x.1 = true)
    (hr1 : rv = (Spec.remove lt key (flat h (child c))).1)
    (hr2 : flat h c' = (Spec.remove lt key (flat h (child c))).2)
    (hwf : WFB lt h c') (hmin : MIN ≤ c'.length) (hmax : c'.length ≤ MAX)
    (hbnd : ∀ B, Bnd lt B (child c) → Bnd lt B c') :
    rv = (Spec.remove lt key (flat (h + 1) (pre ++ (k, c) :: post))).1 ∧
    flat (h + 1) (pre ++ (k, mkChild c') :: post) = (Spec.remove lt key (flat (h + 1) (pre ++ (k, c) :: post))).2 ∧
    WFB lt (h + 1) (pre ++ (k, mkChild c') :: post) := by
  obtain ⟨c1, c2, c3, c4, c5, c6, c7⟩ := WFB_mid hw
  have hfl : flat (h + 1) (pre ++ (k, c) :: post) = flat (h + 1) pre ++ (flat h (child c) ++ flat (h + 1) post) := by
    rw [flat_succ_append, flat_cons]
  have hA := flat_lt_key hl (key := key)
    (fun p hp => ⟨(hw.1 p (List.mem_append_left _ hp)).1, (hw.1 p (List.mem_append_left _ hp)).2.2.2⟩) hpre
  have hB : ∀ x ∈ flat (h + 1) post, lt x.1 key = false := fun x hx => hl.asymm _ _ (hpost x hx)
  rw [hfl, remove_app lt key (C := flat h (child c)) hA hB hpost]
  refine ⟨hr1, ?_, ?_⟩
  · rw [flat_succ_append, flat_cons]
    show _ ++ (flat h c' ++ _) = _
    rw [hr2]
  · exact WFB_replace (pre := pre) (old := [(k, c)]) (mid := [(k, mkChild c')]) (post := post) hw
      (WFB_one hwf hmin hmax (hbnd k c4))
      (by
        intro p hp q hq x hx
        simp at hq; subst hq
        have hx' : x ∈ flat h c' := hx
        rw [hr2] at hx'
        exact c5 p hp x (mem_remove hx'))
      (by
        intro p hp q hq x hx
        simp at hp; subst hp
        exact c6 q hq x hx)

theorem set_split {X : Type} (pre : List X) (p v : X) (t : List X) : (pre ++ p :: t).set pre.length v = pre ++ v :: t := by simp

theorem rem_spec (hl : StrictWeak lt) (key : K) : (h : Nat) → (root : Bool) → (b : Blk K D h) → WFB lt h b →
    (∀ h', (e : h = h' + 1) → 2 ≤ b.length ∧ (b.length = 2 → ∃ p ∈ (e ▸ b : Blk K D (h' + 1)), MIN < (child p.2).length)) →
    ∃ b', rem lt root h b key = some ((Spec.remove lt key (flat h b)).1, b') ∧
      flat h b' = (Spec.remove lt key (flat h b)).2 ∧ RemOk lt h b b'
  | 0, root, b, hw, _ => by
    have a := leaf_remove (lt := lt) b key hw
    refine ⟨(Spec.remove lt key b).2, ?_, rfl, a.1, a.2.1, a.2.2.1, fun h => absurd rfl h, a.2.2.2⟩
    show some (leafRem lt b key) = _
    rw [leafRem_eq]; rfl
  | h + 1, root, b, hw, hsz => by
    obtain ⟨hlen, h2⟩ := hsz h rfl
    dsimp only at h2
    obtain ⟨pre, post, rfl, hs, hpre, hpost⟩ := search_split (fun k => lt k key) b
    unfold rem
    dsimp only
    rw [hs]
    cases post with
    | nil =>
      rw [List.append_nil] at *
      rw [if_pos (Nat.le_refl _)]
      have hA := flat_lt_key hl (key := key) (fun p hp => ⟨(hw.1 p hp).1, (hw.1 p hp).2.2.2⟩) hpre
      have hn := not_present_of_lt _ key hA
      have hsp : Spec.remove lt key (flat (h + 1) pre) = (false, flat (h + 1) pre) := by
        unfold Spec.remove; rw [hn]; rfl
      rw [hsp]
      exact ⟨pre, rfl, rfl, hw, Nat.le_refl _, Nat.le_succ _, fun _ => hlen, fun B hB => hB⟩
    | cons p post =>
      obtain ⟨k, c⟩ := p
      have hk : lt k key = false := hpost _ _ rfl
      rw [if_neg (by simp)]
      obtain ⟨pre', k', c', post', e, p1, p2, p3, p4, p5, p6, p7, p8, p9⟩ :=
        prep_spec hl (root := root) hw hpre hk hlen h2
      rw [e]
      dsimp only
      rw [get_split]
      dsimp only
      obtain ⟨c1, c2, c3, c4, c5, c6, c7⟩ := WFB_mid p2
      obtain ⟨b', r1, r2, r3⟩ := rem_spec hl key h false (child c') c1
        (fun h' e' => by subst e'; exact ⟨by simp only [MIN, DEGR] at p3; omega, fun e2 => by
          simp only [MIN, DEGR] at p3; exact absurd e2 (by show (child c').length ≠ 2; omega)⟩)
      rw [r1]
      dsimp only
      rw [set_split]
      have hl1 := r3.len1
      have hl2 := r3.len2
      obtain ⟨d1, d2, d3⟩ := desc_rem hl p2 p4 p5 rfl r2 r3.wf (by omega) (by omega) r3.bnd
      rw [p1] at d1 d2
      refine ⟨_, by rw [← d1], d2, d3, ?_, ?_, ?_, ?_⟩
      · simp only [List.length_append, List.length_cons] at p7 ⊢; omega
      · simp only [List.length_append, List.length_cons] at p8 ⊢; omega
      · intro _; simp only [List.length_append, List.length_cons] at p9 ⊢; omega
      · intro B hB q hq
        have hB' := p6 B hB
        simp only [List.mem_append, List.mem_cons] at hq
        rcases hq with hq | hq | hq
        · exact hB' q (by simp [hq])
        · subst hq; exact hB' (k', c') (by simp)
        · exact hB' q (by simp [hq])

/-! ### lower bound -/

theorem leafDrop_eq (b : List (K × D)) (key : K) (rest : List (K × D)) :
    leafDrop (fun k => lt k key) b rest = Spec.from_ lt key b ++ rest := by
  unfold leafDrop
  obtain ⟨pre, post, rfl, hs, hp, hq⟩ := search_split (fun k => lt k key) b
  rw [hs, (span_eq lt key hp hq).2]
  simp

theorem lb_spec (hl : StrictWeak lt) (key : K) : (h : Nat) → (b : Blk K D h) → (rest : List (K × D)) → WFB lt h b →
    lbAux (fun k => lt k key) h b rest = Spec.from_ lt key (flat h b) ++ rest
  | 0, b, rest, _ => by
    exact leafDrop_eq b key rest
  | h + 1, b, rest, hw => by
    obtain ⟨pre, post, rfl, hs, hpre, hpost⟩ := search_split (fun k => lt k key) b
    unfold lbAux
    dsimp only
    rw [hs]
    have hA := flat_lt_key hl (key := key) (pre := pre)
      (fun p hp => ⟨(hw.1 p (List.mem_append_left _ hp)).1, (hw.1 p (List.mem_append_left _ hp)).2.2.2⟩) hpre
    cases post with
    | nil =>
      rw [List.append_nil] at *
      rw [List.getElem?_eq_none (Nat.le_refl _)]
      have := span_eq lt key (post := []) hA (by simp)
      rw [List.append_nil] at this
      rw [this.2]; rfl
    | cons p post =>
      obtain ⟨k, c⟩ := p
      have hk : lt k key = false := hpost _ _ rfl
      rw [get_split]
      dsimp only
      obtain ⟨c1, c2, c3, c4, c5, c6, c7⟩ := WFB_mid hw
      have hd : (pre ++ (k, c) :: post).drop (pre.length + 1) = post := by rw [List.drop_append]; simp
      rw [hd, lb_spec hl key h (child c) _ c1, flat_succ_append, flat_cons]
      have hB : ∀ x ∈ flat (h + 1) post, lt x.1 key = false := by
        intro x hx
        obtain ⟨q, hq, hx⟩ := mem_flat.1 hx
        exact hl.asymm _ _ (hl.le_lt hk (c6 q hq x hx))
      rw [(span_app lt key (C := flat h (child c)) hA hB).2]
      simp

/-! ### removal at an iterator -/

theorem present_split (lt : K → K → Bool) (key : K) (l : List (K × D)) (h : Spec.present lt key l = true) :
    ∃ pre p t, l = pre ++ p :: t ∧ (∀ x ∈ pre, lt x.1 key = true) ∧ lt p.1 key = false ∧ lt key p.1 = false := by
  obtain ⟨pre, post, rfl, hs, hp, hq⟩ := search_split (fun k => lt k key) l
  have := span_eq lt key (pre := pre) (post := post) hp hq
  unfold Spec.present at h
  rw [this.2] at h
  cases post with
  | nil => simp at h
  | cons p t => exact ⟨pre, p, t, rfl, hp, hq p t rfl, by simpa using h⟩

theorem hint_leaf (b : List (K × D)) (key : K) (h : Spec.present lt key b = true) :
    removeNode b (search (fun k => lt k key) b) = (Spec.remove lt key b).2 := by
  rw [← leafRem_eq]
  obtain ⟨pre, p, t, rfl, h1, h2, h3⟩ := present_split lt key b h
  have hs : search (fun k => lt k key) (pre ++ p :: t) = pre.length := by
    have := (span_eq lt key (pre := pre) (post := p :: t) h1 (by intro a s e; cases e; exact h2)).1
    unfold search
    unfold Spec.before at this
    rw [this]
  unfold leafRem
  rw [hs]
  dsimp only
  rw [get_split]
  simp [h3]

theorem hint_spec (hl : StrictWeak lt) (key : K) : (h : Nat) → (b : Blk K D h) → WFB lt h b →
    Spec.present lt key (flat h b) = true → MIN < hintLeafLen lt h b key → b.length ≤ MAX →
    flat h (hintErase lt h b key) = (Spec.remove lt key (flat h b)).2 ∧ WFB lt h (hintErase lt h b key) ∧
    (hintErase lt h b key).length ≤ b.length ∧ (h = 0 → b.length ≤ (hintErase lt h b key).length + 1) ∧
    (h ≠ 0 → b.length = (hintErase lt h b key).length) ∧
    (MIN ≤ b.length → MIN ≤ (hintErase lt h b key).length) ∧
    (∀ B, Bnd lt B b → Bnd lt B (hintErase lt h b key))
  | 0, b, hw, hp, hn, _ => by
    have e : hintErase lt 0 b key = (Spec.remove lt key b).2 := hint_leaf b key hp
    have a := leaf_remove (lt := lt) b key hw
    rw [e]
    have hn' : MIN < b.length := hn
    have a2 := a.2.2.1
    refine ⟨rfl, a.1, a.2.1, fun _ => a.2.2.1, fun h => absurd rfl h, fun _ => ?_, a.2.2.2⟩
    show MIN ≤ (Spec.remove lt key b).2.length
    have : b.length ≤ (Spec.remove lt key b).2.length + 1 := a2
    omega
  | h + 1, b, hw, hp, hn, hmax => by
    obtain ⟨pre, post, rfl, hs, hpre, hpost⟩ := search_split (fun k => lt k key) b
    unfold hintLeafLen at hn
    unfold hintErase
    dsimp only
    rw [hs] at hn ⊢
    have hA := flat_lt_key hl (key := key) (pre := pre)
      (fun p hp => ⟨(hw.1 p (List.mem_append_left _ hp)).1, (hw.1 p (List.mem_append_left _ hp)).2.2.2⟩) hpre
    cases post with
    | nil =>
      rw [List.append_nil] at *
      rw [List.getElem?_eq_none (Nat.le_refl _)] at hn
      simp at hn
    | cons p post =>
      obtain ⟨k, c⟩ := p
      have hk : lt k key = false := hpost _ _ rfl
      rw [get_split] at hn ⊢
      dsimp only at hn ⊢
      rw [set_split]
      obtain ⟨c1, c2, c3, c4, c5, c6, c7⟩ := WFB_mid hw
      have hB2 : ∀ x ∈ flat (h + 1) post, lt key x.1 = true := by
        intro x hx
        obtain ⟨q, hq, hx⟩ := mem_flat.1 hx
        exact hl.le_lt hk (c6 q hq x hx)
      have hB : ∀ x ∈ flat (h + 1) post, lt x.1 key = false := fun x hx => hl.asymm _ _ (hB2 x hx)
      have hp' : Spec.present lt key (flat h (child c)) = true := by
        rw [flat_succ_append, flat_cons, present_app lt key hA hB hB2] at hp
        exact hp
      obtain ⟨i1, i2, i3, i4, i5, i6, i7⟩ := hint_spec hl key h (child c) c1 hp' hn c3
      obtain ⟨_, d2, d3⟩ := desc_rem hl hw hpre hB2 rfl i1 i2 (i6 c2) (by omega) i7
      refine ⟨d2, d3, by simp, fun h => absurd h (by omega), fun _ => by simp, fun h0 => by simpa using h0, ?_⟩
      intro B hB q hq
      simp only [List.mem_append, List.mem_cons] at hq
      rcases hq with hq | hq | hq
      · exact hB q (by simp [hq])
      · subst hq; exact hB (k, c) (by simp)
      · exact hB q (by simp [hq])

/-! ### replacing a key -/

theorem rekey_app (lt : K → K → Bool) (old new : K) {A C B : List (K × D)} (hA : ∀ x ∈ A, lt x.1 old = true)
    (hB : ∀ x ∈ B, lt x.1 old = false) (hp : Spec.present lt old C = true) :
    Spec.rekey lt old new (A ++ (C ++ B)) = A ++ (Spec.rekey lt old new C ++ B) := by
  unfold Spec.rekey
  rw [(span_app lt old hA hB).1, (span_app lt old hA hB).2]
  unfold Spec.present at hp
  cases hf : Spec.from_ lt old C with
  | nil => rw [hf] at hp; simp at hp
  | cons p t => simp

/-- where `new` may be put: after everything before `old`, before everything after it, and not below `old` -/
def Fits (lt : K → K → Bool) (old new : K) (l : List (K × D)) : Prop :=
  (∀ x ∈ l, lt x.1 old = true → lt x.1 new = true) ∧ (∀ x ∈ l, lt old x.1 = true → lt new x.1 = true) ∧
  lt new old = false

theorem leafUpd_eq (hl : StrictWeak lt) (b : List (K × D)) (old new : K) (hp : Spec.present lt old b = true)
    (hw : List.Pairwise (fun p q => lt p.1 q.1 = true) b) (hf : Fits lt old new b) :
    leafUpd lt b old new = some (Spec.rekey lt old new b) ∧
    List.Pairwise (fun p q => lt p.1 q.1 = true) (Spec.rekey lt old new b) ∧
    (Spec.rekey lt old new b).length = b.length ∧
    (∀ B, Bnd lt B b → lt B new = false → Bnd lt B (Spec.rekey lt old new b)) ∧
    (∀ x ∈ Spec.rekey lt old new b, x ∈ b ∨ x.1 = new) := by
  obtain ⟨pre, p, t, rfl, h1, h2, h3⟩ := present_split lt old b hp
  have hsp := span_eq lt old (pre := pre) (post := p :: t) h1 (by intro a s e; cases e; exact h2)
  have hs : search (fun k => lt k old) (pre ++ p :: t) = pre.length := by
    unfold search
    unfold Spec.before at hsp
    rw [hsp.1]
  have hr : Spec.rekey lt old new (pre ++ p :: t) = pre ++ (new, p.2) :: t := by
    unfold Spec.rekey; rw [hsp.1, hsp.2]
  rw [hr]
  refine ⟨?_, ?_, by simp, ?_, ?_⟩
  · unfold leafUpd
    rw [hs]
    dsimp only
    rw [get_split]
    dsimp only
    rw [h2, h3, set_split]
    rfl
  · rw [List.pairwise_append, List.pairwise_cons] at hw ⊢
    refine ⟨hw.1, ⟨fun q hq => ?_, hw.2.1.2⟩, fun a ha q hq => ?_⟩
    · exact hf.2.1 q (by simp [hq]) (hl.le_lt h2 (hw.2.1.1 q hq))
    · rcases List.mem_cons.1 hq with rfl | hq
      · exact hf.1 a (by simp [ha]) (h1 a ha)
      · exact hw.2.2 a ha q (by simp [hq])
  · intro B hB hn q hq
    simp only [List.mem_append, List.mem_cons] at hq
    rcases hq with hq | rfl | hq
    · exact hB q (by simp [hq])
    · exact hn
    · exact hB q (by simp [hq])
  · intro x hx
    simp only [List.mem_append, List.mem_cons] at hx
    rcases hx with hx | rfl | hx
    · left; simp [hx]
    · right; rfl
    · left; simp [hx]

theorem upd_spec (hl : StrictWeak lt) (old new : K) : (h : Nat) → (b : Blk K D h) → WFB lt h b →
    Spec.present lt old (flat h b) = true → Fits lt old new (flat h b) →
    ∃ b', updKey lt h b old new = some b' ∧ flat h b' = Spec.rekey lt old new (flat h b) ∧ WFB lt h b' ∧
      b'.length = b.length ∧ (∀ B, Bnd lt B b → lt B new = false → Bnd lt B b') ∧
      (∀ x ∈ flat h b', x ∈ flat h b ∨ x.1 = new)
  | 0, b, hw, hp, hf => by
    obtain ⟨a1, a2, a3, a4, a5⟩ := leafUpd_eq hl b old new hp hw hf
    exact ⟨Spec.rekey lt old new b, a1, rfl, a2, a3, a4, a5⟩
  | h + 1, b, hw, hp, hf => by
    obtain ⟨pre, post, rfl, hs, hpre, hpost⟩ := search_split (fun k => lt k old) b
    unfold updKey
    dsimp only
    rw [hs]
    have hA := flat_lt_key hl (key := old) (pre := pre)
      (fun p hp => ⟨(hw.1 p (List.mem_append_left _ hp)).1, (hw.1 p (List.mem_append_left _ hp)).2.2.2⟩) hpre
    cases post with
    | nil =>
      rw [List.append_nil] at *
      rw [not_present_of_lt _ old hA] at hp
      cases hp
    | cons p post =>
      obtain ⟨k, c⟩ := p
      have hk : lt k old = false := hpost _ _ rfl
      rw [get_split]
      dsimp only
      obtain ⟨c1, c2, c3, c4, c5, c6, c7⟩ := WFB_mid hw
      have hB2 : ∀ x ∈ flat (h + 1) post, lt old x.1 = true := by
        intro x hx
        obtain ⟨q, hq, hx⟩ := mem_flat.1 hx
        exact hl.le_lt hk (c6 q hq x hx)
      have hB : ∀ x ∈ flat (h + 1) post, lt x.1 old = false := fun x hx => hl.asymm _ _ (hB2 x hx)
      have hfl : flat (h + 1) (pre ++ (k, c) :: post) = flat (h + 1) pre ++ (flat h (child c) ++ flat (h + 1) post) := by
        rw [flat_succ_append, flat_cons]
      have hp' : Spec.present lt old (flat h (child c)) = true := by
        rw [hfl, present_app lt old hA hB hB2] at hp
        exact hp
      have hmem : ∀ x ∈ flat h (child c), x ∈ flat (h + 1) (pre ++ (k, c) :: post) := by
        intro x hx; rw [hfl]; simp [hx]
      have hf' : Fits lt old new (flat h (child c)) :=
        ⟨fun x hx => hf.1 x (hmem x hx), fun x hx => hf.2.1 x (hmem x hx), hf.2.2⟩
      obtain ⟨b', i1, i2, i3, i4, i5, i6⟩ := upd_spec hl old new h (child c) c1 hp' hf'
      rw [i1]
      simp only [Option.map_some, set_split]
      have hnp : ∀ q ∈ post, ∀ x ∈ flat h (child q.2), lt new x.1 = true := by
        intro q hq x hx
        have hx1 : x ∈ flat (h + 1) post := mem_flat.2 ⟨q, hq, hx⟩
        exact hf.2.1 x (by rw [hfl]; simp [hx1]) (hB2 x hx1)
      obtain ⟨k', hk', hkb, hkn, hkp⟩ : ∃ k', (if (!lt k old && !lt old k || lt k new) = true then new else k) = k' ∧
          Bnd lt k' (child c) ∧ lt k' new = false ∧ (∀ q ∈ post, ∀ x ∈ flat h (child q.2), lt k' x.1 = true) := by
        refine ⟨_, rfl, ?_, ?_, ?_⟩
        · split_ifs with hc
          · intro q hq
            have := c4 q hq
            rw [hk] at hc
            have hko : lt k new = true ∨ lt old k = false := by
              cases h3 : lt k new with
              | true => exact Or.inl rfl
              | false => rw [h3] at hc; right; simpa using hc
            rcases hko with h3 | h3
            · exact hl.asymm _ _ (hl.le_lt this h3)
            · exact hl.ntrans _ _ _ (hl.ntrans _ _ _ hf.2.2 h3) this
          · exact c4
        · split_ifs with hc
          · exact hl.irr _
          · cases h3 : lt k new with
            | false => rfl
            | true => simp [h3] at hc
        · split_ifs
          · exact hnp
          · exact c6
      rw [hk']
      refine ⟨_, rfl, ?_, ?_, by simp, ?_, ?_⟩
      · rw [hfl, rekey_app lt old new hA hB hp', flat_succ_append, flat_cons]
        show _ ++ (flat h b' ++ _) = _
        rw [i2]
      · refine WFB_replace (pre := pre) (old := [(k, c)]) (mid := [(k', mkChild b')]) (post := post) hw ?_ ?_ ?_
        · exact WFB_one i3 (by show _ ≤ b'.length; omega) (by show b'.length ≤ _; omega) (i5 k' hkb hkn)
        · intro p hp q hq x hx
          simp at hq; subst hq
          rcases i6 x hx with h0 | h0
          · exact c5 p hp x h0
          · rw [h0]; exact hl.lt_le (hpre p hp) hf.2.2
        · intro p hp q hq x hx
          simp at hp; subst hp
          exact hkp q hq x hx
      · intro B hB1 hB2 q hq
        simp only [List.mem_append, List.mem_cons] at hq
        rcases hq with hq | hq | hq
        · exact hB1 q (by simp [hq])
        · subst hq
          show lt B k' = false
          rw [← hk']
          split_ifs
          · exact hB2
          · exact hB1 (k, c) (by simp)
        · exact hB1 q (by simp [hq])
      · intro x hx
        rw [flat_succ_append, flat_cons] at hx
        simp only [List.mem_append] at hx
        rw [hfl]
        rcases hx with hx | hx | hx
        · left; simp [hx]
        · rcases i6 x hx with h0 | h0
          · left; simp [h0]
          · right; exact h0
        · left; simp [hx]

end Ksl
end Nghttp3
