import Verif.Lemmas.KslOps

/-! Property theorem C08: the skip list is an ordered map. -/

namespace Nghttp3
namespace Ksl
variable {K D : Type}

/-- operations -/
inductive Op (K D : Type)
  | insert (key : K) (d : D)
  | remove (key : K)
  | removeHint (key : K)
  | updateKey (old new : K)
  | lowerBound (key : K)
  | clear

/-- what a caller sees of one operation: success, and for lower bound the elements from the position found -/
inductive Out (K D : Type)
  | rv (ok : Bool)
  | elems (l : List (K × D))

/-- one operation on the skip list; `none`: an assert fails -/
def step (lt : K → K → Bool) (t : T K D) : Op K D → Option (Out K D × T K D)
  | .insert k d => some (.rv (insert lt t k d).1, (insert lt t k d).2)
  | .remove k => (remove lt t k).map fun r => (.rv r.1, r.2)
  | .removeHint k => (removeHint lt t k).map fun t' => (.rv true, t')
  | .updateKey o n => (updateKey lt t o n).map fun t' => (.rv true, t')
  | .lowerBound k => some (.elems (lowerBound (fun x => lt x k) t), t)
  | .clear => some (.rv true, clear t)

/-- the same on a sorted list -/
def specStep (lt : K → K → Bool) (l : List (K × D)) : Op K D → Out K D × List (K × D)
  | .insert k d => (.rv (Spec.insert lt k d l).1, (Spec.insert lt k d l).2)
  | .remove k => (.rv (Spec.remove lt k l).1, (Spec.remove lt k l).2)
  | .removeHint k => (.rv true, (Spec.remove lt k l).2)
  | .updateKey o n => (.rv true, Spec.rekey lt o n l)
  | .lowerBound k => (.elems (Spec.from_ lt k l), l)
  | .clear => (.rv true, [])

/-- preconditions: a hint points at an element; a replaced key exists, the new key keeps its place between
the neighbours, and is not below the old one (see `C08_update_key_down_loses_element` for why) -/
def Pre (lt : K → K → Bool) (l : List (K × D)) : Op K D → Prop
  | .removeHint k => Spec.present lt k l = true
  | .updateKey o n => Spec.present lt o l = true ∧ Fits lt o n l
  | _ => True

def run (lt : K → K → Bool) : T K D → List (Op K D) → Option (List (Out K D) × T K D)
  | t, [] => some ([], t)
  | t, op :: r =>
    match step lt t op with
    | none => none
    | some (o, t') =>
      match run lt t' r with
      | none => none
      | some (os, t'') => some (o :: os, t'')

def specRun (lt : K → K → Bool) : List (K × D) → List (Op K D) → List (Out K D) × List (K × D)
  | l, [] => ([], l)
  | l, op :: r =>
    let s := specStep lt l op
    let q := specRun lt s.2 r
    (s.1 :: q.1, q.2)

def Valid (lt : K → K → Bool) : List (K × D) → List (Op K D) → Prop
  | _, [] => True
  | l, op :: r => Pre lt l op ∧ Valid lt (specStep lt l op).2 r

/-- invariant of a nonempty head -/
structure HeadOk (lt : K → K → Bool) (h : Nat) (b : Blk K D h) : Prop where
  wf : WFB lt h b
  len : b.length ≤ MAX
  two : h ≠ 0 → 2 ≤ b.length

structure Inv (lt : K → K → Bool) (t : T K D) (l : List (K × D)) : Prop where
  head : ∀ hd, t.head = some hd → HeadOk lt hd.1 hd.2
  list : toList t = l
  n : t.n = l.length

variable {lt : K → K → Bool}

theorem len_insert (key : K) (d : D) (l : List (K × D)) :
    (Spec.insert lt key d l).2.length = if (Spec.insert lt key d l).1 then l.length + 1 else l.length := by
  unfold Spec.insert
  split_ifs with h
  · simp at *
  · simp at *
  · have := congrArg List.length (before_from lt key l)
    simp at this ⊢; omega
  · simp at *

theorem len_remove (key : K) (l : List (K × D)) :
    (Spec.remove lt key l).2.length = if (Spec.remove lt key l).1 then l.length - 1 else l.length := by
  unfold Spec.remove
  split_ifs with h
  · obtain ⟨pre, p, t, rfl, h1, h2, h3⟩ := present_split lt key l h
    have hsp := span_eq lt key (pre := pre) (post := p :: t) h1 (by intro a s e; cases e; exact h2)
    rw [hsp.1, hsp.2]
    simp
  · simp at *
  · simp at *
  · rfl

theorem remove_true_of_present {key : K} {l : List (K × D)} (h : Spec.present lt key l = true) :
    (Spec.remove lt key l).1 = true := by
  unfold Spec.remove; rw [h]; rfl

theorem len_rekey (old new : K) (l : List (K × D)) : (Spec.rekey lt old new l).length = l.length := by
  unfold Spec.rekey
  have := congrArg List.length (before_from lt old l)
  cases hf : Spec.from_ lt old l with
  | nil => rfl
  | cons p t => rw [hf] at this; simp at this ⊢; omega

theorem insert_inv (hl : StrictWeak lt) {t : T K D} {l : List (K × D)} (hi : Inv lt t l) (key : K) (d : D) :
    (insert lt t key d).1 = (Spec.insert lt key d l).1 ∧ Inv lt (insert lt t key d).2 (Spec.insert lt key d l).2 := by
  -- the head used
  obtain ⟨hd, hhd, hok, hfl⟩ : ∃ hd : (h : Nat) × Blk K D h, hd = (match t.head with
      | none => ⟨0, []⟩
      | some x => x) ∧ HeadOk lt hd.1 hd.2 ∧ flat hd.1 hd.2 = l := by
    cases hh : t.head with
    | none =>
      refine ⟨_, rfl, ⟨List.Pairwise.nil, by simp, fun h => absurd rfl h⟩, ?_⟩
      have := hi.list
      unfold toList at this; rw [hh] at this
      exact this
    | some hd =>
      refine ⟨hd, rfl, hi.head hd hh, ?_⟩
      have := hi.list
      unfold toList at this; rw [hh] at this
      exact this
  -- after splitting a full head
  obtain ⟨hd', hhd', hwf', hlen', htwo', hne', hfl'⟩ : ∃ hd' : (h : Nat) × Blk K D h, hd' =
      (if hd.2.length = MAX then
        ⟨hd.1 + 1, [((lastKey (splitBlk hd.2).1).getD key, mkChild (splitBlk hd.2).1),
          ((lastKey (splitBlk hd.2).2).getD key, mkChild (splitBlk hd.2).2)]⟩
      else hd) ∧ WFB lt hd'.1 hd'.2 ∧ hd'.2.length < MAX ∧ (hd'.1 ≠ 0 → 2 ≤ hd'.2.length) ∧
      (hd'.1 ≠ 0 → hd'.2 ≠ []) ∧ flat hd'.1 hd'.2 = l := by
    by_cases hf : hd.2.length = MAX
    · rw [if_pos hf]
      obtain ⟨e1, e2, e3⟩ := splitBlk_full hf
      generalize hL : (splitBlk hd.2).1 = L at *
      generalize hR : (splitBlk hd.2).2 = R at *
      obtain ⟨kl, hkl⟩ := lastKey_some (b := L) (by intro e; simp [e] at e2)
      obtain ⟨kr, hkr⟩ := lastKey_some (b := R) (by intro e; simp [e] at e3)
      have hw := hok.wf
      rw [← e1] at hw
      have wl : WFB lt hd.1 L := WFB_sub _ (List.sublist_append_left _ _) hw
      have wr : WFB lt hd.1 R := WFB_sub _ (List.sublist_append_right _ _) hw
      refine ⟨_, rfl, ?_, by show 2 < MAX; decide, fun _ => Nat.le_refl _, fun _ => by simp, ?_⟩
      · rw [hkl, hkr]
        exact WFB_two wl (by show _ ≤ L.length; rw [e2]; decide) (by show L.length ≤ _; rw [e2]; decide)
          (lastKey_bnd hl wl hkl) wr (by show _ ≤ R.length; rw [e3]; decide) (by show R.length ≤ _; rw [e3]; decide)
          (lastKey_bnd hl wr hkr) (lastKey_lt hw hkl)
      · show flat (hd.1 + 1) [_, _] = l
        rw [flat_cons, flat_cons, flat_nil, ← hfl]
        show flat hd.1 L ++ (flat hd.1 R ++ []) = _
        rw [List.append_nil, ← flat_append, e1]
    · rw [if_neg hf]
      refine ⟨hd, rfl, hok.wf, Nat.lt_of_le_of_ne hok.len hf, hok.two, ?_, hfl⟩
      intro h0 h1
      have := hok.two h0
      rw [h1] at this; simp at this
  obtain ⟨i1, i2, i3⟩ := ins_spec hl key d hd'.1 hd'.2 hwf' hlen' hne'
  have heq : insert lt t key d = ((ins lt hd'.1 hd'.2 key d).1,
      ⟨some ⟨hd'.1, (ins lt hd'.1 hd'.2 key d).2⟩, if (ins lt hd'.1 hd'.2 key d).1 then t.n + 1 else t.n⟩) := by
    rw [hhd', hhd]; rfl
  rw [heq]
  rw [hfl'] at i1 i2
  have hl1 := i3.len1
  have hl2 := i3.len2
  refine ⟨i1, ?_, i2, ?_⟩
  · intro x hx
    cases hx
    exact ⟨i3.wf, by show (ins lt hd'.1 hd'.2 key d).2.length ≤ _; omega,
      fun h0 => by have := htwo' h0; show 2 ≤ (ins lt hd'.1 hd'.2 key d).2.length; omega⟩
  · show (if (ins lt hd'.1 hd'.2 key d).1 then t.n + 1 else t.n) = _
    rw [i1, hi.n, len_insert]

theorem inv_of_rem {h : Nat} {b b' : Blk K D h} {n : Nat} {l : List (K × D)} (hlen : b.length ≤ MAX)
    (ho : RemOk lt h b b') (hfl : flat h b' = l) (hn : n = l.length) : Inv lt ⟨some ⟨h, b'⟩, n⟩ l :=
  ⟨fun x hx => by cases hx; exact ⟨ho.wf, Nat.le_trans ho.len1 hlen, ho.two⟩, hfl, hn⟩

theorem removeRoot_spec (hl : StrictWeak lt) (key : K) : (h : Nat) → (b : Blk K D h) → HeadOk lt h b →
    ∃ hd', removeRoot lt h b key = some ((Spec.remove lt key (flat h b)).1, hd') ∧
      HeadOk lt hd'.1 hd'.2 ∧ flat hd'.1 hd'.2 = (Spec.remove lt key (flat h b)).2
  | 0, b, hok => by
    obtain ⟨b', r1, r2, r3⟩ := rem_spec hl key 0 true b hok.wf (fun h' e => by omega)
    refine ⟨⟨0, b'⟩, ?_, ⟨r3.wf, Nat.le_trans r3.len1 hok.len, r3.two⟩, r2⟩
    have e : removeRoot lt 0 b key = (rem lt true 0 b key).map fun r => (r.1, ⟨0, r.2⟩) := rfl
    rw [e, r1]; rfl
  | h + 1, b, hok => by
    by_cases hm : ∃ kl l kr r, b = [(kl, l), (kr, r)] ∧ (child l).length = MIN ∧ (child r).length = MIN
    · obtain ⟨kl, l, kr, r, rfl, h1, h2⟩ := hm
      have hp := WFB_pair (pre := []) (post := []) hl hok.wf
      have hlen : (child l ++ child r).length = 30 := by rw [List.length_append, h1, h2]; rfl
      obtain ⟨b', r1, r2, r3⟩ := rem_spec hl key h true (child l ++ child r) hp.1
        (fun h' e => by
          subst e
          exact ⟨by omega, fun e2 => absurd e2 (by show (child l ++ child r).length ≠ 2; omega)⟩)
      have hfl : flat (h + 1) [(kl, l), (kr, r)] = flat h (child l ++ child r) := by
        rw [flat_cons, flat_cons, flat_nil, List.append_nil, flat_append]
      rw [hfl]
      refine ⟨⟨h, b'⟩, ?_, ⟨r3.wf, ?_, r3.two⟩, r2⟩
      · show (if (child l).length = MIN ∧ (child r).length = MIN then _ else _) = _
        rw [if_pos ⟨h1, h2⟩, r1]; rfl
      · have := r3.len1
        show b'.length ≤ _
        simp only [MAX, DEGR]; omega
    · obtain ⟨b', r1, r2, r3⟩ := rem_spec hl key (h + 1) true b hok.wf (fun h' e => by
        cases e
        refine ⟨hok.two (by omega), fun e2 => ?_⟩
        match b, e2, hok, hm with
        | [(kl, l), (kr, r)], _, hok, hm =>
          have hp := WFB_pair (pre := []) (post := []) hl hok.wf
          obtain ⟨_, _, _, _, _, _, g1, g2⟩ := hp
          by_cases hx : (child l).length = MIN
          · by_cases hy : (child r).length = MIN
            · exact absurd ⟨kl, l, kr, r, rfl, hx, hy⟩ hm
            · exact ⟨(kr, r), by simp, by show MIN < (child r).length; omega⟩
          · exact ⟨(kl, l), by simp, by show MIN < (child l).length; omega⟩)
      refine ⟨⟨h + 1, b'⟩, ?_, ⟨r3.wf, Nat.le_trans r3.len1 hok.len, r3.two⟩, r2⟩
      have hgen : removeRoot lt (h + 1) b key = (rem lt true (h + 1) b key).map fun r => (r.1, ⟨h + 1, r.2⟩) := by
        show removeRootS lt b key = _
        unfold removeRootS
        split
        · rename_i kl l kr r
          rw [if_neg (fun hc => hm ⟨kl, l, kr, r, rfl, hc.1, hc.2⟩)]
        · rfl
      rw [hgen, r1]; rfl

theorem remove_inv (hl : StrictWeak lt) {t : T K D} {l : List (K × D)} (hi : Inv lt t l) (key : K) :
    ∃ t', remove lt t key = some ((Spec.remove lt key l).1, t') ∧ Inv lt t' (Spec.remove lt key l).2 := by
  unfold remove
  have hlist := hi.list
  unfold toList at hlist
  cases hh : t.head with
  | none =>
    rw [hh] at hlist
    subst hlist
    exact ⟨t, rfl, hi⟩
  | some hd =>
    rw [hh] at hlist
    obtain ⟨hd', r1, r2, r3⟩ := removeRoot_spec hl key hd.1 hd.2 (hi.head hd hh)
    dsimp only at hlist ⊢
    rw [hlist] at r1 r3
    rw [r1]
    refine ⟨_, rfl, ?_, r3, ?_⟩
    · intro x hx; cases hx; exact r2
    · show (if (Spec.remove lt key l).1 then t.n - 1 else t.n) = _
      rw [len_remove, hi.n]

theorem step_inv (hl : StrictWeak lt) {t : T K D} {l : List (K × D)} (hi : Inv lt t l) (op : Op K D)
    (hp : Pre lt l op) :
    ∃ t', step lt t op = some ((specStep lt l op).1, t') ∧ Inv lt t' (specStep lt l op).2 := by
  cases op with
  | insert k d =>
    obtain ⟨a, b⟩ := insert_inv hl hi k d
    exact ⟨_, by show some _ = _; rw [a]; rfl, b⟩
  | remove k =>
    obtain ⟨t', a, b⟩ := remove_inv hl hi k
    exact ⟨t', by show (remove lt t k).map _ = _; rw [a]; rfl, b⟩
  | removeHint k =>
    have hp : Spec.present lt k l = true := hp
    have hlist := hi.list
    unfold toList at hlist
    show ∃ t', (removeHint lt t k).map _ = _ ∧ Inv lt t' (Spec.remove lt k l).2
    unfold removeHint
    cases hh : t.head with
    | none =>
      rw [hh] at hlist
      subst hlist
      cases hp
    | some hd =>
      rw [hh] at hlist
      dsimp only at hlist ⊢
      split_ifs with hlen
      · obtain ⟨t', a, b⟩ := remove_inv hl hi k
        exact ⟨t', by rw [a]; rfl, b⟩
      · have hok := hi.head hd hh
        obtain ⟨a1, a2, a3, a4, a5, a6, a7⟩ := hint_spec hl k hd.1 hd.2 hok.wf (by rw [hlist]; exact hp) (by omega) hok.len
        rw [hlist] at a1
        refine ⟨_, rfl, ?_, a1, ?_⟩
        · intro x hx; cases hx
          refine ⟨a2, Nat.le_trans a3 hok.len, fun h0 => ?_⟩
          have := a5 h0
          have := hok.two h0
          show 2 ≤ (hintErase lt hd.1 hd.2 k).length
          omega
        · show t.n - 1 = _
          rw [len_remove, remove_true_of_present hp, hi.n]; rfl
  | updateKey o n =>
    obtain ⟨hp, hf⟩ : Spec.present lt o l = true ∧ Fits lt o n l := hp
    have hlist := hi.list
    unfold toList at hlist
    show ∃ t', (updateKey lt t o n).map _ = _ ∧ Inv lt t' (Spec.rekey lt o n l)
    unfold updateKey
    cases hh : t.head with
    | none =>
      rw [hh] at hlist
      subst hlist
      cases hp
    | some hd =>
      rw [hh] at hlist
      dsimp only at hlist ⊢
      have hok := hi.head hd hh
      obtain ⟨b', u1, u2, u3, u4, u5, u6⟩ := upd_spec hl o n hd.1 hd.2 hok.wf (by rw [hlist]; exact hp) (by rw [hlist]; exact hf)
      rw [u1]
      rw [hlist] at u2
      refine ⟨_, rfl, ?_, u2, ?_⟩
      · intro x hx; cases hx
        refine ⟨u3, by show b'.length ≤ _; rw [u4]; exact hok.len, fun h0 => by show 2 ≤ b'.length; rw [u4]; exact hok.two h0⟩
      · show t.n = _
        rw [len_rekey, hi.n]
  | lowerBound k =>
    refine ⟨t, ?_, hi⟩
    show some (Out.elems (lowerBound (fun x => lt x k) t), t) = some (Out.elems (Spec.from_ lt k l), t)
    have hlist := hi.list
    unfold toList at hlist
    unfold lowerBound
    cases hh : t.head with
    | none => rw [hh] at hlist; subst hlist; rfl
    | some hd =>
      rw [hh] at hlist
      dsimp only at hlist ⊢
      rw [lb_spec hl k hd.1 hd.2 [] (hi.head hd hh).wf, hlist, List.append_nil]
  | clear =>
    exact ⟨init, rfl, ⟨fun x hx => (by cases hx), rfl, rfl⟩⟩

theorem inv_sorted (hl : StrictWeak lt) {t : T K D} {l : List (K × D)} (hi : Inv lt t l) :
    l.Pairwise (fun p q => lt p.1 q.1 = true) := by
  have hlist := hi.list
  unfold toList at hlist
  cases hh : t.head with
  | none => rw [hh] at hlist; subst hlist; exact List.Pairwise.nil
  | some hd =>
    rw [hh] at hlist
    rw [← hlist]
    exact sorted_flat hl hd.1 hd.2 (hi.head hd hh).wf

end Ksl

namespace Props
open Ksl

/-- C08.  For every strict weak order and every history of operations meeting their preconditions, no assert
of the skip list fails, every operation returns what it returns on a sorted list (insertion and removal report
whether the key was absent/present, lower bound gives the elements from the first key not before the argument), the
iteration order afterwards is that sorted list, strictly increasing, and the length is its length. -/
theorem C08_ksl_ordered_map {K D : Type} {lt : K → K → Bool} (hl : StrictWeak lt) (ops : List (Op K D))
    (hv : Valid lt [] ops) :
    ∃ t, run lt init ops = some ((specRun lt [] ops).1, t) ∧ toList t = (specRun lt [] ops).2 ∧
      (toList t).Pairwise (fun p q => lt p.1 q.1 = true) ∧ t.n = (toList t).length := by
  have key : ∀ (ops : List (Op K D)) (t : T K D) (l : List (K × D)), Inv lt t l → Valid lt l ops →
      ∃ t', run lt t ops = some ((specRun lt l ops).1, t') ∧ Inv lt t' (specRun lt l ops).2 := by
    intro ops
    induction ops with
    | nil => intro t l hi _; exact ⟨t, rfl, hi⟩
    | cons op r ih =>
      intro t l hi hv
      obtain ⟨t1, s1, s2⟩ := step_inv hl hi op hv.1
      obtain ⟨t2, r1, r2⟩ := ih t1 _ s2 hv.2
      refine ⟨t2, ?_, r2⟩
      unfold run
      rw [s1]
      dsimp only
      rw [r1]
      rfl
  obtain ⟨t, e, hi⟩ := key ops init [] ⟨fun x hx => (by cases hx), rfl, rfl⟩ hv
  refine ⟨t, e, hi.list, ?_, ?_⟩
  · rw [hi.list]; exact inv_sorted hl hi
  · rw [hi.list]; exact hi.n

/-- natural numbers with `<` -/
def natLt (a b : Nat) : Bool := a < b

theorem natLt_sw : StrictWeak natLt :=
  ⟨fun a b h => by simp [natLt] at *; omega, fun a b c h1 h2 => by simp [natLt] at *; omega⟩

/-- insert 0,10,…,310 and 5, remove 150, then lower key 160 to 145, which is strictly between its neighbours 140
and 170 -/
def downOps : List (Op Nat Unit) :=
  ((List.range 32).map fun i => Op.insert (10 * i) ()) ++ [.insert 5 (), .remove 150, .updateKey 160 145]

set_option maxRecDepth 100000 in
/-- C08, negative part.  The documented precondition of nghttp3_ksl_update_key ("strictly greater than the previous
node and strictly smaller than the next node") is not enough: after this history the list is in order and contains
145, yet removing 145 reports that there is no such key, and inserting it succeeds a second time.  (The parent's
copy of the removed key 150 is stale.)  The library itself only moves keys upward. -/
theorem C08_update_key_down_loses_element :
    ∃ t, (run natLt init downOps).map (·.2) = some t ∧ (145, ()) ∈ toList t ∧
      (toList t).Pairwise (fun p q => natLt p.1 q.1 = true) ∧
      (remove natLt t 145).map (·.1) = some false ∧ (insert natLt t 145 ()).1 = true := by
  have hs : ((run natLt init downOps).map (·.2)).isSome = true := by decide +kernel
  have hg : ((run natLt init downOps).map (·.2)) = some (((run natLt init downOps).map (·.2)).getD init) := by
    cases h : (run natLt init downOps).map (·.2) with
    | none => rw [h] at hs; cases hs
    | some t => rfl
  refine ⟨((run natLt init downOps).map (·.2)).getD init, hg, ?_, ?_, ?_, ?_⟩ <;> decide +kernel

instance (l : List (Nat × Unit)) (op : Op Nat Unit) : Decidable (Pre natLt l op) := by
  cases op <;> unfold Pre <;> try unfold Fits
  all_goals infer_instance

instance decValid : (ops : List (Op Nat Unit)) → (l : List (Nat × Unit)) → Decidable (Valid natLt l ops)
  | [], _ => isTrue trivial
  | op :: r, l => by
    have := decValid r (specStep natLt l op).2
    unfold Valid
    infer_instance

/-- the hypotheses of `C08_ksl_ordered_map` are met by a history that splits, merges and moves a key -/
example : Valid natLt [] (((List.range 33).map fun i => Op.insert (10 * i) ()) ++
    [.remove 150, .removeHint 160, .lowerBound 145, .updateKey 170 175] ++
    (List.range 20).map fun i => Op.remove (10 * i)) := by
  decide +kernel

end Props
end Nghttp3
