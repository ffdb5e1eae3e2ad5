import Verif.Lemmas.Ksl

namespace Nghttp3
namespace Ksl
variable {K D : Type} {lt : K → K → Bool}

theorem mem_flat_sub : (h : Nat) → {a b : Blk K D h} → a.Sublist b → ∀ x ∈ flat h a, x ∈ flat h b
  | 0, _, _, hs => fun _ hx => hs.subset hx
  | _ + 1, _, _, hs => fun _ hx => by
    obtain ⟨p, hp, hx⟩ := mem_flat.1 hx
    exact mem_flat.2 ⟨p, hs.subset hp, hx⟩

local macro "lens" : tactic => `(tactic| (simp only [List.length_append, List.length_cons, List.length_nil] <;> omega))

/-- facts about two adjacent nodes -/
theorem WFB_pair {h : Nat} {pre post : Blk K D (h + 1)} {kl kr : K} {l r : Sub K D (h + 1)}
    (hl : StrictWeak lt) (hw : WFB lt (h + 1) (pre ++ (kl, l) :: (kr, r) :: post)) :
    WFB lt h (child l ++ child r) ∧ Bnd lt kr (child l ++ child r) ∧ Bnd lt kl (child l) ∧
    (∀ x ∈ flat h (child r), lt kl x.1 = true) ∧ (∀ q ∈ post, ∀ x ∈ flat h (child q.2), lt kr x.1 = true) ∧
    (∀ p ∈ pre, ∀ x ∈ flat h (child l ++ child r), lt p.1 x.1 = true) ∧
    (MIN ≤ (child l).length ∧ (child l).length ≤ MAX) ∧ (MIN ≤ (child r).length ∧ (child r).length ≤ MAX) := by
  obtain ⟨c1, c2, c3, c4, c5, c6, c7⟩ := WFB_mid hw
  have e : pre ++ (kl, l) :: (kr, r) :: post = (pre ++ [(kl, l)]) ++ (kr, r) :: post := by simp
  obtain ⟨d1, d2, d3, d4, d5, d6, d7⟩ := WFB_mid (e ▸ hw)
  have hlr : ∀ x ∈ flat h (child r), lt kl x.1 = true := c6 (kr, r) (by simp)
  have hne : child r ≠ [] := by intro e; rw [e] at d2; simp [MIN, DEGR] at d2
  have hkk : lt kl kr = true := by
    obtain ⟨x, hx⟩ := List.exists_mem_of_ne_nil _ (flat_ne_nil h _ d1 hne)
    exact hl.lt_le (hlr x hx) (flat_bnd hl h _ _ d1 d4 x hx)
  refine ⟨WFB_concat hl h _ _ kl c1 d1 c4 hlr, ?_, c4, hlr, d6, ?_, ⟨c2, c3⟩, ⟨d2, d3⟩⟩
  · intro q hq
    rcases List.mem_append.1 hq with hq | hq
    · exact hl.asymm _ _ (hl.le_lt (c4 q hq) hkk)
    · exact d4 q hq
  · intro p hp x hx
    rw [flat_append, List.mem_append] at hx
    rcases hx with hx | hx
    · exact c5 p hp x hx
    · exact d5 p (by simp [hp]) x hx

theorem redist_spec (hl : StrictWeak lt) {h : Nat} {pre post : Blk K D (h + 1)} {kl kr k' : K} {l r : Sub K D (h + 1)}
    {l' r' : Blk K D h} (hw : WFB lt (h + 1) (pre ++ (kl, l) :: (kr, r) :: post)) (e : l' ++ r' = child l ++ child r)
    (hl' : MIN ≤ l'.length ∧ l'.length ≤ MAX) (hr' : MIN ≤ r'.length ∧ r'.length ≤ MAX) (hk : lastKey l' = some k') :
    WFB lt (h + 1) (pre ++ (k', mkChild l') :: (kr, mkChild r') :: post) ∧
    flat (h + 1) (pre ++ (k', mkChild l') :: (kr, mkChild r') :: post) =
      flat (h + 1) (pre ++ (kl, l) :: (kr, r) :: post) ∧ lt kr k' = false := by
  obtain ⟨c1, c2, c3, c4, c5, c6, c7, c8⟩ := WFB_pair hl hw
  have hkk : lt kr k' = false := by
    obtain ⟨x, hx⟩ := lastKey_mem hk
    exact c2 (k', x) (by rw [← e]; exact List.mem_append_left _ hx)
  rw [← e] at c1 c2 c6
  have sl : l'.Sublist (l' ++ r') := List.sublist_append_left _ _
  have sr : r'.Sublist (l' ++ r') := List.sublist_append_right _ _
  refine ⟨?_, ?_, hkk⟩
  · refine WFB_replace (pre := pre) (old := [(kl, l), (kr, r)]) (mid := [(k', mkChild l'), (kr, mkChild r')])
      (post := post) hw ?_ ?_ ?_
    · exact WFB_two (WFB_sub h sl c1) hl'.1 hl'.2 (lastKey_bnd hl (WFB_sub h sl c1) hk) (WFB_sub h sr c1) hr'.1 hr'.2
        (fun q hq => c2 q (sr.subset hq)) (lastKey_lt c1 hk)
    · intro p hp q hq x hx
      simp at hq
      rcases hq with rfl | rfl
      · exact c6 p hp x (mem_flat_sub h sl x hx)
      · exact c6 p hp x (mem_flat_sub h sr x hx)
    · intro p hp q hq x hx
      simp at hp
      rcases hp with rfl | rfl
      · exact hl.le_lt hkk (c5 q hq x hx)
      · exact c5 q hq x hx
  · rw [flat_succ_append, flat_succ_append, flat_cons, flat_cons, flat_cons, flat_cons]
    show _ ++ (flat h l' ++ (flat h r' ++ _)) = _
    rw [← List.append_assoc (flat h l'), ← List.append_assoc (flat h (child l)), ← flat_append, ← flat_append, e]

theorem merge_spec (hl : StrictWeak lt) {h : Nat} {pre post : Blk K D (h + 1)} {kl kr k' : K} {l r : Sub K D (h + 1)}
    (hw : WFB lt (h + 1) (pre ++ (kl, l) :: (kr, r) :: post))
    (hlen : (child l).length + (child r).length ≤ MAX) (hk : lastKey (child l ++ child r) = some k') :
    WFB lt (h + 1) (pre ++ (k', mkChild (child l ++ child r)) :: post) ∧
    flat (h + 1) (pre ++ (k', mkChild (child l ++ child r)) :: post) =
      flat (h + 1) (pre ++ (kl, l) :: (kr, r) :: post) ∧ lt kr k' = false := by
  obtain ⟨c1, c2, c3, c4, c5, c6, c7, c8⟩ := WFB_pair hl hw
  have hkk : lt kr k' = false := by
    obtain ⟨x, hx⟩ := lastKey_mem hk
    exact c2 (k', x) hx
  refine ⟨?_, ?_, hkk⟩
  · refine WFB_replace (pre := pre) (old := [(kl, l), (kr, r)]) (mid := [(k', mkChild (child l ++ child r))])
      (post := post) hw ?_ ?_ ?_
    · exact WFB_one c1 (by show _ ≤ (child l ++ child r).length; rw [List.length_append]; omega)
        (by show (child l ++ child r).length ≤ _; rw [List.length_append]; omega)
        (lastKey_bnd hl c1 hk)
    · intro p hp q hq x hx
      simp at hq; subst hq
      exact c6 p hp x hx
    · intro p hp q hq x hx
      simp at hp; subst hp
      exact hl.le_lt hkk (c5 q hq x hx)
  · rw [flat_succ_append, flat_succ_append, flat_cons, flat_cons, flat_cons]
    show _ ++ (flat h (child l ++ child r) ++ _) = _
    rw [← List.append_assoc (flat h (child l)), ← flat_append]

/-! the three rebalancing steps on explicit neighbours -/

theorem shiftLeft_eq {h : Nat} {pre post : Blk K D (h + 1)} {kl kr : K} {l r : Sub K D (h + 1)}
    (h1 : (child l).length = MIN) (h2 : MIN < (child r).length) (h3 : (child r).length ≤ MAX) :
    ∃ n, 0 < n ∧ MIN + n ≤ (child r).length ∧ MIN + n ≤ MAX ∧
    shiftLeft (pre ++ (kl, l) :: (kr, r) :: post) (pre.length + 1) =
      some (pre ++ ((lastKey (child l ++ (child r).take n)).getD kl, mkChild (child l ++ (child r).take n)) ::
        (kr, mkChild ((child r).drop n)) :: post) := by
  refine ⟨((child l).length + (child r).length + 1) / 2 - (child l).length, ?_, ?_, ?_, ?_⟩
  · simp only [MIN, MAX, DEGR] at *; omega
  · simp only [MIN, MAX, DEGR] at *; omega
  · simp only [MIN, MAX, DEGR] at *; omega
  unfold shiftLeft
  rw [if_neg (by omega)]
  have g0 : (pre ++ (kl, l) :: (kr, r) :: post)[pre.length + 1 - 1]? = some (kl, l) := by simp
  have g1 : (pre ++ (kl, l) :: (kr, r) :: post)[pre.length + 1]? = some (kr, r) := by
    rw [List.getElem?_append_right (by omega)]; simp
  rw [g0, g1]
  dsimp only
  rw [if_neg (by simp only [MIN, MAX, DEGR] at *; omega), if_neg (by simp only [MIN, MAX, DEGR] at *; omega)]
  congr 1
  have t1 : (pre ++ (kl, l) :: (kr, r) :: post).take (pre.length + 1 - 1) = pre := by simp
  have t2 : (pre ++ (kl, l) :: (kr, r) :: post).drop (pre.length + 1 + 1) = post := by
    rw [List.drop_append]; simp [Nat.add_assoc]
  rw [t1, t2]

theorem shiftRight_eq {h : Nat} {pre post : Blk K D (h + 1)} {kl kr : K} {l r : Sub K D (h + 1)}
    (h1 : (child r).length = MIN) (h2 : MIN < (child l).length) (h3 : (child l).length ≤ MAX) :
    ∃ n, 0 < n ∧ MIN + n ≤ (child l).length ∧ MIN + n ≤ MAX ∧
    shiftRight (pre ++ (kl, l) :: (kr, r) :: post) pre.length =
      some (pre ++ ((lastKey ((child l).take ((child l).length - n))).getD kl,
          mkChild ((child l).take ((child l).length - n))) ::
        (kr, mkChild ((child l).drop ((child l).length - n) ++ child r)) :: post) := by
  refine ⟨((child l).length + (child r).length + 1) / 2 - (child r).length, ?_, ?_, ?_, ?_⟩
  · simp only [MIN, MAX, DEGR] at *; omega
  · simp only [MIN, MAX, DEGR] at *; omega
  · simp only [MIN, MAX, DEGR] at *; omega
  unfold shiftRight
  have g0 : (pre ++ (kl, l) :: (kr, r) :: post)[pre.length]? = some (kl, l) := by simp
  have g1 : (pre ++ (kl, l) :: (kr, r) :: post)[pre.length + 1]? = some (kr, r) := by
    rw [List.getElem?_append_right (by omega)]; simp
  rw [g0, g1]
  dsimp only
  rw [if_neg (by simp only [MIN, MAX, DEGR] at *; omega), if_neg (by simp only [MIN, MAX, DEGR] at *; omega)]
  congr 1
  have t1 : (pre ++ (kl, l) :: (kr, r) :: post).take pre.length = pre := by simp
  have t2 : (pre ++ (kl, l) :: (kr, r) :: post).drop (pre.length + 2) = post := by
    rw [List.drop_append]; simp
  rw [t1, t2]

theorem mergeNode_eq {h : Nat} {pre post : Blk K D (h + 1)} {kl kr : K} {l r : Sub K D (h + 1)}
    (h1 : (child r).length + (child l).length < MAX) :
    mergeNode (pre ++ (kl, l) :: (kr, r) :: post) pre.length =
      some (pre ++ ((lastKey (child l ++ child r)).getD kl, mkChild (child l ++ child r)) :: post) := by
  unfold mergeNode
  have g0 : (pre ++ (kl, l) :: (kr, r) :: post)[pre.length]? = some (kl, l) := by simp
  have g1 : (pre ++ (kl, l) :: (kr, r) :: post)[pre.length + 1]? = some (kr, r) := by
    rw [List.getElem?_append_right (by omega)]; simp
  rw [g0, g1]
  dsimp only
  rw [if_neg (by omega)]
  have t1 : (pre ++ (kl, l) :: (kr, r) :: post).take pre.length = pre := by simp
  have t2 : (pre ++ (kl, l) :: (kr, r) :: post).drop (pre.length + 2) = post := by
    rw [List.drop_append]; simp
  rw [t1, t2]

theorem lenAt_eq {h : Nat} {pre post : Blk K D (h + 1)} {k : K} {c : Sub K D (h + 1)} :
    lenAt (pre ++ (k, c) :: post) pre.length = (child c).length := by
  unfold lenAt; simp

/-- a sublist of a nonempty block has a last key -/
theorem lastKey_len {X : Type} {b : List (K × X)} (h : 0 < b.length) : ∃ k, lastKey b = some k :=
  lastKey_some (by rintro rfl; simp at h)

theorem prep_spec (hl : StrictWeak lt) {root : Bool} {h : Nat} {pre post : Blk K D (h + 1)} {k key : K}
    {c : Sub K D (h + 1)} (hw : WFB lt (h + 1) (pre ++ (k, c) :: post)) (hpre : ∀ p ∈ pre, lt p.1 key = true)
    (hk : lt k key = false) (hlen : 2 ≤ (pre ++ (k, c) :: post).length)
    (h2 : (pre ++ (k, c) :: post).length = 2 → ∃ p ∈ (pre ++ (k, c) :: post), MIN < (child p.2).length) :
    ∃ pre' k' c' post', prep root (pre ++ (k, c) :: post) pre.length = some (pre' ++ (k', c') :: post', pre'.length) ∧
      flat (h + 1) (pre' ++ (k', c') :: post') = flat (h + 1) (pre ++ (k, c) :: post) ∧
      WFB lt (h + 1) (pre' ++ (k', c') :: post') ∧ MIN < (child c').length ∧
      (∀ p ∈ pre', lt p.1 key = true) ∧ (∀ x ∈ flat (h + 1) post', lt key x.1 = true) ∧
      (∀ B, Bnd lt B (pre ++ (k, c) :: post) → Bnd lt B (pre' ++ (k', c') :: post')) ∧
      (pre' ++ (k', c') :: post').length ≤ (pre ++ (k, c) :: post).length ∧
      (pre ++ (k, c) :: post).length ≤ (pre' ++ (k', c') :: post').length + 1 ∧
      2 ≤ (pre' ++ (k', c') :: post').length := by
  obtain ⟨c1, c2, c3, c4, c5, c6, c7⟩ := WFB_mid hw
  have hpost : ∀ x ∈ flat (h + 1) post, lt key x.1 = true := by
    intro x hx
    obtain ⟨q, hq, hx⟩ := mem_flat.1 hx
    exact hl.le_lt hk (c6 q hq x hx)
  unfold prep
  rw [lenAt_eq]
  by_cases g1 : (child c).length > MIN
  · rw [if_pos g1]
    exact ⟨pre, k, c, post, rfl, rfl, hw, g1, hpre, hpost, fun B hB => hB, Nat.le_refl _, by omega, hlen⟩
  rw [if_neg g1]
  have hc : (child c).length = MIN := by omega
  rw [if_neg (by omega)]
  by_cases g2 : pre.length + 1 < (pre ++ (k, c) :: post).length ∧ lenAt (pre ++ (k, c) :: post) (pre.length + 1) > MIN
  · rw [if_pos g2]
    obtain ⟨g2a, g2b⟩ := g2
    cases post with
    | nil => simp at g2a
    | cons q post =>
      obtain ⟨kr, r⟩ := q
      have er : lenAt (pre ++ (k, c) :: (kr, r) :: post) (pre.length + 1) = (child r).length := by
        unfold lenAt; rw [List.getElem?_append_right (by omega)]; simp
      rw [er] at g2b
      obtain ⟨d1, d2, d3, d4, d5, d6, d7, d8⟩ := WFB_pair hl hw
      obtain ⟨n, n1, n2, n3, e⟩ := shiftLeft_eq (pre := pre) (post := post) (kl := k) (kr := kr) hc g2b d8.2
      rw [e]
      have hlen' : (child c ++ (child r).take n).length = MIN + n := by
        rw [List.length_append, List.length_take]; omega
      have hlenr : ((child r).drop n).length = (child r).length - n := by rw [List.length_drop]
      obtain ⟨k', hk'⟩ := lastKey_len (b := child c ++ (child r).take n) (by omega)
      rw [hk', Option.getD_some]
      obtain ⟨f1, f2, f3⟩ := redist_spec hl (l' := child c ++ (child r).take n) (r' := (child r).drop n) hw
        (by rw [List.append_assoc, List.take_append_drop]) (by omega) (by omega) hk'
      refine ⟨pre, k', mkChild (child c ++ (child r).take n), (kr, mkChild ((child r).drop n)) :: post, rfl, f2, f1, ?_,
        hpre, ?_, ?_, by lens, by lens, by lens⟩
      · show _ < (child c ++ (child r).take n).length
        omega
      · intro x hx
        rw [flat_cons, List.mem_append] at hx
        rcases hx with hx | hx
        · exact hl.le_lt hk (d4 x (mem_flat_sub h (List.drop_sublist n (child r)) x hx))
        · exact hpost x (by rw [flat_cons]; exact List.mem_append_right _ hx)
      · intro B hB q hq
        simp only [List.mem_append, List.mem_cons] at hq
        rcases hq with hq | hq | hq | hq
        · exact hB q (by simp [hq])
        · subst hq; exact hl.ntrans _ _ _ (hB (kr, r) (by simp)) f3
        · subst hq; exact hB (kr, r) (by simp)
        · exact hB q (by simp [hq])
  rw [if_neg g2]
  by_cases g3 : pre.length > 0 ∧ lenAt (pre ++ (k, c) :: post) (pre.length - 1) > MIN
  · rw [if_pos g3]
    obtain ⟨g3a, g3b⟩ := g3
    obtain ⟨pre, ⟨kl, l⟩, rfl⟩ : ∃ pre0 p, pre = pre0 ++ [p] :=
      ⟨pre.dropLast, pre.getLast (by rintro rfl; simp at g3a), (List.dropLast_concat_getLast _).symm⟩
    have e0 : (pre ++ [(kl, l)]) ++ (k, c) :: post = pre ++ (kl, l) :: (k, c) :: post := by simp
    have e1 : (pre ++ [(kl, l)]).length - 1 = pre.length := by simp
    rw [e1, e0, lenAt_eq] at g3b
    rw [e1]
    rw [e0] at hw ⊢
    obtain ⟨d1, d2, d3, d4, d5, d6, d7, d8⟩ := WFB_pair hl hw
    obtain ⟨n, n1, n2, n3, e⟩ := shiftRight_eq (pre := pre) (post := post) (kl := kl) (kr := k) hc g3b d7.2
    rw [e]
    have hlen' : ((child l).take ((child l).length - n)).length = (child l).length - n := by
      rw [List.length_take]; omega
    have hlenr : ((child l).drop ((child l).length - n) ++ child c).length = MIN + n := by
      rw [List.length_append, List.length_drop]; omega
    obtain ⟨k', hk'⟩ := lastKey_len (b := (child l).take ((child l).length - n)) (by simp only [MIN, DEGR] at *; omega)
    rw [hk', Option.getD_some]
    obtain ⟨f1, f2, f3⟩ := redist_spec hl (l' := (child l).take ((child l).length - n))
      (r' := (child l).drop ((child l).length - n) ++ child c) hw
      (by rw [← List.append_assoc, List.take_append_drop]) (by omega) (by omega) hk'
    have hklk : lt kl k' = false := by
      obtain ⟨x, hx⟩ := lastKey_mem hk'
      exact d3 (k', x) ((List.take_sublist _ _).subset hx)
    have e2 : ∀ (v w : K × Sub K D (h + 1)), pre ++ v :: w :: post = (pre ++ [v]) ++ w :: post := by simp
    rw [e2] at f1 f2 ⊢
    refine ⟨pre ++ [(k', mkChild ((child l).take ((child l).length - n)))], k,
      mkChild ((child l).drop ((child l).length - n) ++ child c), post, by simp, f2, f1, ?_, ?_, hpost, ?_, by lens, by lens, by lens⟩
    · show _ < ((child l).drop ((child l).length - n) ++ child c).length
      omega
    · intro p hp
      rcases List.mem_append.1 hp with hp | hp
      · exact hpre p (by simp [hp])
      · simp at hp; subst hp
        exact hl.le_lt hklk (hpre (kl, l) (by simp))
    · intro B hB q hq
      simp only [List.mem_append, List.mem_cons, List.not_mem_nil, or_false] at hq
      rcases hq with (hq | hq) | hq | hq
      · exact hB q (by simp [hq])
      · subst hq; exact hl.ntrans _ _ _ (hB (kl, l) (by simp)) hklk
      · subst hq; exact hB (k, c) (by simp)
      · exact hB q (by simp [hq])
  rw [if_neg g3]
  -- neither neighbour can spare a node
  have hn2 : (pre ++ (k, c) :: post).length ≠ 2 := by
    intro e
    obtain ⟨p, hp, hpm⟩ := h2 e
    simp only [List.mem_append, List.mem_cons] at hp
    simp only [List.length_append, List.length_cons] at e
    rcases hp with hp | hp | hp
    · apply g3
      cases pre with
      | nil => cases hp
      | cons a t =>
        have : t = [] := List.eq_nil_of_length_eq_zero (by simp at e; omega)
        subst this
        simp at hp; subst hp
        refine ⟨by simp, ?_⟩
        unfold lenAt; simpa using hpm
    · subst hp; exact g1 hpm
    · apply g2
      cases post with
      | nil => cases hp
      | cons a t =>
        have ht : t = [] := List.eq_nil_of_length_eq_zero (by simp at e; omega)
        subst ht
        simp at hp; subst hp
        refine ⟨by simp, ?_⟩
        unfold lenAt; rw [List.getElem?_append_right (by omega)]; simpa using hpm
  rw [if_neg (by rintro ⟨_, e⟩; exact hn2 e)]
  by_cases g4 : pre.length + 1 < (pre ++ (k, c) :: post).length
  · rw [if_pos g4]
    cases post with
    | nil => simp at g4
    | cons q post =>
      obtain ⟨kr, r⟩ := q
      have er : lenAt (pre ++ (k, c) :: (kr, r) :: post) (pre.length + 1) = (child r).length := by
        unfold lenAt; rw [List.getElem?_append_right (by omega)]; simp
      rw [er] at g2
      obtain ⟨d1, d2, d3, d4, d5, d6, d7, d8⟩ := WFB_pair hl hw
      have hr : (child r).length = MIN := by omega
      rw [mergeNode_eq (by rw [hr, hc]; decide)]
      have hlenm : (child c ++ child r).length = 30 := by rw [List.length_append, hr, hc]; rfl
      obtain ⟨k', hk'⟩ := lastKey_len (b := child c ++ child r) (by omega)
      rw [hk', Option.getD_some]
      obtain ⟨f1, f2, f3⟩ := merge_spec hl hw (by rw [hr, hc]; decide) hk'
      refine ⟨pre, k', mkChild (child c ++ child r), post, rfl, f2, f1, ?_, hpre, ?_, ?_, by lens, by lens, ?_⟩
      · show _ < (child c ++ child r).length
        rw [hlenm]; decide
      · intro x hx
        exact hpost x (by rw [flat_cons]; exact List.mem_append_right _ hx)
      · intro B hB q hq
        simp only [List.mem_append, List.mem_cons] at hq
        rcases hq with hq | hq | hq
        · exact hB q (by simp [hq])
        · subst hq; exact hl.ntrans _ _ _ (hB (kr, r) (by simp)) f3
        · exact hB q (by simp [hq])
      · simp only [List.length_append, List.length_cons] at hlen hn2 ⊢; omega
  rw [if_neg g4]
  have hpost0 : post = [] := List.eq_nil_of_length_eq_zero (by simp only [List.length_append, List.length_cons] at g4; omega)
  subst hpost0
  have hpl : pre.length ≠ 0 := by simp at hlen; omega
  rw [if_neg hpl]
  obtain ⟨pre, ⟨kl, l⟩, rfl⟩ : ∃ pre0 p, pre = pre0 ++ [p] :=
    ⟨pre.dropLast, pre.getLast (by rintro rfl; simp at hpl), (List.dropLast_concat_getLast _).symm⟩
  have e0 : (pre ++ [(kl, l)]) ++ [(k, c)] = pre ++ [(kl, l), (k, c)] := by simp
  have e1 : (pre ++ [(kl, l)]).length - 1 = pre.length := by simp
  rw [e1, e0, lenAt_eq] at g3
  rw [e1]
  rw [e0] at hw hn2 ⊢
  obtain ⟨d1, d2, d3, d4, d5, d6, d7, d8⟩ := WFB_pair hl hw
  have hll : (child l).length = MIN := by simp at g3; omega
  rw [mergeNode_eq (by rw [hll, hc]; decide)]
  have hlenm : (child l ++ child c).length = 30 := by rw [List.length_append, hll, hc]; rfl
  obtain ⟨k', hk'⟩ := lastKey_len (b := child l ++ child c) (by omega)
  rw [hk', Option.getD_some]
  obtain ⟨f1, f2, f3⟩ := merge_spec hl hw (by rw [hll, hc]; decide) hk'
  refine ⟨pre, k', mkChild (child l ++ child c), [], rfl, f2, f1, ?_, fun p hp => hpre p (by simp [hp]), by simp [flat], ?_, by lens,
    by lens, ?_⟩
  · show _ < (child l ++ child c).length
    rw [hlenm]; decide
  · intro B hB q hq
    simp only [List.mem_append, List.mem_cons, List.not_mem_nil, or_false] at hq
    rcases hq with hq | hq
    · exact hB q (by simp [hq])
    · subst hq; exact hl.ntrans _ _ _ (hB (k, c) (by simp)) f3
  · simp only [List.length_append, List.length_cons, List.length_nil] at hlen hn2 ⊢; omega

end Ksl
end Nghttp3
