import Verif.Lemmas.NetStr
/-! Two endpoints of this library: the invariant. -/
namespace Nghttp3
namespace Net
open Http Qpack Bidi

structure Core (P : Par) (l : Loop) (n : Sys) : Prop where
  loop : LoopOk P.H l
  sys : n.sys = l.p.sys
  dec : n.dec = l.p.dec
  ech : n.ech = l.p.ech
  dch : n.dch = l.q.flatMap DIns.bytes
  lim : ∃ ops, (ESys.init P.H).run ops = .ok l.p.sys ∧ ∀ k ∈ Props.limits ops, k ≤ P.B

/-- `N`: how far the encoder stream had been read when the streams waiting for it were looked at -/
def Strs (P : Par) (l : Loop) (N : Nat) (n : Sys) : Prop := ∀ id ∈ P.ids, StrOk (P.cfg id) l N (n.str id)

/-! ### the encoder -/

/-- a section that has not been read is outstanding -/
theorem outst {H : Nat} {l : Loop} (h : LoopOk H l) {id : Nat} (hg : id ∉ l.gone) {f : Fly} (hf : f ∈ undone id l.p.flies) : f.sec.id = id ∧ (f.sec.ricnt ≠ 0 → f.sec ∈ l.p.sys.secs) := by
  unfold undone at hf
  obtain ⟨h1, h2⟩ := List.mem_filter.1 hf
  simp only [Bool.and_eq_true, decide_eq_true_eq, Bool.not_eq_true'] at h2
  refine ⟨h2.1, fun h0 => ?_⟩
  obtain ⟨k', secs', f1, f2, f3⟩ := h.feed
  apply f1.sub.subset
  have hm : f.sec ∈ secs'.filter (fun s => s.id == id) := by
    rw [f3 _ hg]
    unfold toRead
    rw [List.mem_map]
    exact ⟨f, List.mem_filter.2 ⟨h1, by simp [h2, h0]⟩, rfl⟩
  exact (List.mem_filter.1 hm).1

theorem known_le {H : Nat} {l : Loop} (h : LoopOk H l) : l.p.sys.known ≤ l.p.dec.writtenIcnt := by
  obtain ⟨k', secs', f1, f2, f3⟩ := h.feed
  rw [← f2]
  clear f2 f3
  generalize l.q ++ l.pend = qq at f1
  generalize l.p.sys.known = kk at f1 ⊢
  generalize l.p.sys.secs = ss at f1
  induction f1 with
  | nil => exact Nat.le_refl _
  | @cons op n t k l k' l' _ _ ih =>
    refine Nat.le_trans ?_ ih
    cases op with
    | icnt => exact Nat.le_add_right ..
    | cancel => exact Nat.le_refl _
    | ack =>
      unfold knownAfter
      dsimp only
      split <;> omega

theorem erun_snoc {s s' s2 : ESys} {ops : List EncOp} {o : EncOp} (h : s.run ops = .ok s') (h2 : s'.step o = .ok s2) : s.run (ops ++ [o]) = .ok s2 := by
  induction ops generalizing s with
  | nil =>
    cases h
    rw [List.nil_append, ESys.run, h2]
    rfl
  | cons a t ih =>
    rw [List.cons_append, ESys.run]
    rw [ESys.run] at h
    rcases hs : s.step a with _ | _ | s1 <;> rw [hs] at h <;> dsimp only at h ⊢
    · cases h
    · cases h
    · exact ih h

theorem limits_snoc (ops : List EncOp) (o : EncOp) {k : Nat} (h : k ∈ Props.limits (ops ++ [o])) : k ∈ Props.limits ops ∨ o = .setMaxBlocked k := by
  induction ops with
  | nil =>
    cases o <;> simp [Props.limits] at h
    right; rw [h]
  | cons a t ih =>
    rw [List.cons_append] at h
    cases a with
    | setMaxBlocked n =>
      simp only [Props.limits, List.mem_cons] at h ⊢
      rcases h with h | h
      · exact Or.inl (Or.inl h)
      · exact (ih h).imp Or.inr id
    | _ => exact ih h

theorem Core.step_sys {P : Par} {l : Loop} {n : Sys} (h : Core P l n) {o : EncOp} {s' : ESys} (hs : l.p.sys.step o = .ok s') (ho : ∀ k, o = .setMaxBlocked k → k ≤ P.B) :
    ∃ ops, (ESys.init P.H).run ops = .ok s' ∧ ∀ k ∈ Props.limits ops, k ≤ P.B := by
  obtain ⟨ops, h1, h2⟩ := h.lim
  refine ⟨ops ++ [o], erun_snoc h1 hs, fun k hk => ?_⟩
  rcases limits_snoc _ _ hk with hk | hk
  · exact h2 k hk
  · exact ho k hk

/-! ### blocked streams -/

theorem blocked_mem {P : Par} (hP : P.Ok) {l : Loop} {n : Sys} {N : Nat} (hl : LoopOk P.H l) (hN : l.p.sys.known ≤ N) (hs : Strs P l N n) {j : Nat} (hj : j ∈ P.ids) (hb : (n.str j).s.blocked = true) :
    j ∈ (l.p.sys.secs.filter fun x => decide (l.p.sys.known < x.ricnt)).map Sec.id := by
  obtain ⟨w1, f, w2, w3⟩ := (hs j hj).waits hb
  rw [hP.id] at w1 w2
  obtain ⟨o1, o2⟩ := outst hl w1 w2
  rw [List.mem_map]
  exact ⟨f.sec, List.mem_filter.2 ⟨o2 (by omega), by simp; omega⟩, o1⟩

/-- the number of blocked streams is within the limit -/
theorem blocked_le {P : Par} (hP : P.Ok) {l : Loop} {n : Sys} {N : Nat} (hc : Core P l n) (hN : l.p.sys.known ≤ N) (hs : Strs P l N n) :
    (P.ids.filter fun j => (n.str j).s.blocked).length ≤ P.B := by
  obtain ⟨ops, o1, o2⟩ := hc.lim
  refine Nat.le_trans ?_ (Props.C15_limit_respected P.H P.B ops o2 _ o1)
  apply List.Subperm.length_le
  apply List.subperm_of_subset (hP.nodup.filter _)
  intro j hj
  obtain ⟨h1, h2⟩ := List.mem_filter.1 hj
  rw [List.mem_dedup]
  exact blocked_mem hP hc.loop hN hs h1 h2

/-- there is room for another one -/
theorem room_ok {P : Par} (hP : P.Ok) {l : Loop} {n : Sys} {N : Nat} (hc : Core P l n) (hN : l.p.sys.known ≤ N) (hw : l.p.sys.known ≤ l.p.dec.ctx.next) (hs : Strs P l N n) {id : Nat} (hg : id ∉ l.gone) {g : Fly}
    (hm : g ∈ undone id l.p.flies) (hr : l.p.dec.ctx.next < g.sec.ricnt) : n.room P id = true := by
  obtain ⟨ops, o1, o2⟩ := hc.lim
  have hB := Props.C15_limit_respected P.H P.B ops o2 _ o1
  unfold Sys.room
  rw [decide_eq_true_eq]
  refine Nat.lt_of_lt_of_le ?_ hB
  have hsub : List.Subperm (id :: P.ids.filter fun j => decide (j ≠ id) && (n.str j).s.blocked) ((l.p.sys.secs.filter fun x => decide (l.p.sys.known < x.ricnt)).map Sec.id).dedup := by
    apply List.subperm_of_subset
    · rw [List.nodup_cons]
      refine ⟨?_, hP.nodup.filter _⟩
      intro hj
      have := (List.mem_filter.1 hj).2
      simp at this
    · intro j hj
      rw [List.mem_dedup]
      rcases List.mem_cons.1 hj with rfl | hj
      · obtain ⟨q1, q2⟩ := outst hc.loop hg hm
        rw [List.mem_map]
        exact ⟨g.sec, List.mem_filter.2 ⟨q2 (by omega), by simp; omega⟩, q1⟩
      · obtain ⟨h1, h2⟩ := List.mem_filter.1 hj
        simp only [Bool.and_eq_true] at h2
        exact blocked_mem hP hc.loop hN hs h1 h2.2
  have := hsub.length_le
  rw [List.length_cons] at this
  omega

/-! ### room for acknowledgements -/

theorem sum_sublist {a b : List Sec} (h : a.Sublist b) (f : Sec → Nat) : (a.map f).sum ≤ (b.map f).sum := by
  induction h with
  | slnil => exact Nat.le_refl _
  | cons x _ ih => rw [List.map_cons, List.sum_cons]; omega
  | cons_cons x _ ih => rw [List.map_cons, List.map_cons, List.sum_cons, List.sum_cons]; omega

theorem sum_perm {a b : List Nat} (h : a.Perm b) : a.sum = b.sum := by
  induction h with
  | nil => rfl
  | cons x _ ih => rw [List.sum_cons, List.sum_cons, ih]
  | swap x y l => simp only [List.sum_cons]; omega
  | trans _ _ h1 h2 => exact h1.trans h2

theorem toAck_le {H : Nat} {l : Loop} (h : LoopOk H l) {p : Nat → Bool} (hp : ∀ id, p id = true → id ∉ l.gone) :
    toAck p l.p.flies ≤ ((l.p.sys.secs.filter fun x => p x.id).map fun x => ackLen x.id).sum := by
  obtain ⟨k', secs', f1, f2, f3⟩ := h.feed
  refine Nat.le_trans ?_ (sum_sublist (f1.sub.filter _) _)
  apply Nat.le_of_eq
  unfold toAck
  have e1 : ((l.p.flies.filter fun f => p f.sec.id && !f.done && f.sec.ricnt != 0).map fun f => ackLen f.sec.id) =
      (((l.p.flies.filter fun f => p f.sec.id && !f.done && f.sec.ricnt != 0).map fun f => f.sec.id).map ackLen) := by
    rw [List.map_map]; rfl
  have e2 : ((secs'.filter fun x => p x.id).map fun x => ackLen x.id) = (((secs'.filter fun x => p x.id).map Sec.id).map ackLen) := by
    rw [List.map_map]; rfl
  rw [e1, e2]
  apply sum_perm
  apply List.Perm.map
  rw [List.perm_iff_count]
  intro a
  rw [List.count_eq_countP, List.count_eq_countP, List.countP_map, List.countP_map, List.countP_eq_length_filter, List.countP_eq_length_filter, List.filter_filter, List.filter_filter]
  cases hpa : p a
  · rw [List.filter_eq_nil_iff.2, List.filter_eq_nil_iff.2]
    · rfl
    · intro x _
      simp only [Function.comp, Bool.and_eq_true, beq_iff_eq, not_and]
      rintro rfl; rw [hpa]; simp
    · intro x _
      simp only [Function.comp, Bool.and_eq_true, beq_iff_eq, not_and]
      rintro rfl; rw [hpa]; simp
  · have := congrArg List.length (f3 a (hp a hpa))
    unfold toRead at this
    rw [List.length_map] at this
    have g1 : (secs'.filter fun x => (((fun y => y == a) ∘ Sec.id) x && p x.id)) = secs'.filter (fun s => s.id == a) := by
      apply List.filter_congr
      intro x _
      by_cases hx : x.id = a
      · simp [hx, hpa]
      · simp [hx]
    have g2 : (l.p.flies.filter fun f => (((fun y => y == a) ∘ fun (f : Fly) => f.sec.id) f && (p f.sec.id && !f.done && f.sec.ricnt != 0))) =
        l.p.flies.filter fun f => f.sec.id == a && !f.done && f.sec.ricnt != 0 := by
      apply List.filter_congr
      intro x _
      by_cases hx : x.sec.id = a
      · simp [hx, hpa]
      · have hx' : (x.sec.id == a) = false := by simpa using hx
        simp only [Function.comp, hx', Bool.false_and]
    rw [g1, g2, this]

/-! ### calls of the receiver -/

theorem core_eff {P : Par} {l l' : Loop} {n : Sys} {id : Nat} (hc : Core P l n) (hl : LoopOk P.H l') (he : Eff id l l') (st : NStr) : Core P l' ({ n with dec := l'.p.dec }.set id st) :=
  ⟨hl, by rw [he.sys]; exact hc.sys, rfl, by rw [he.ech]; exact hc.ech, by rw [he.q]; exact hc.dch, by rw [he.sys]; exact hc.lim⟩

theorem strs_set {P : Par} (hP : P.Ok) {l l' : Loop} {n : Sys} {N N' id : Nat} {st : NStr} {d : Dec} (hs : Strs P l N n) (hc : CtxOk l'.p.dec.ctx) (hu : ∀ j, j ≠ id → undone j l'.p.flies = undone j l.p.flies)
    (hg : ∀ j, j ≠ id → (j ∈ l'.gone ↔ j ∈ l.gone)) (hN : N' ≤ N) (h : StrOk (P.cfg id) l' N' st) : Strs P l' N' ({ n with dec := d }.set id st) := by
  intro j hj
  show StrOk (P.cfg j) l' N' (if j = id then st else n.str j)
  by_cases hji : j = id
  · rw [if_pos hji, hji]; exact h
  · rw [if_neg hji]
    exact (hs j hj).frame hc (by rw [hP.id]; exact hu j hji) (by rw [hP.id]; exact hg j hji) hN

theorem may_read {P : Par} (hP : P.Ok) {l : Loop} {n : Sys} {N id : Nat} (hc : Core P l n) (hs : Strs P l N n) (hN : l.p.sys.known ≤ N) {p : Nat → Bool} (hp : p id = true) (hb : bud p l ≤ lim l)
    (hw : ∀ x ∈ l.p.sys.secs, x.id = id → x.ricnt ≤ l.p.dec.ctx.next + P.H / 32) : MayRead (P.cfg id) P.H l (n.room P id) := by
  have hk : l.p.sys.known ≤ l.p.dec.ctx.next := Nat.le_trans (known_le hc.loop) hc.loop.wi
  refine ⟨?_, ?_, ?_⟩ <;> rw [hP.id]
  · intro hg g hm
    obtain ⟨o1, o2⟩ := outst hc.loop hg hm
    by_cases h0 : g.sec.ricnt = 0
    · omega
    · exact hw _ (o2 h0) o1
  · exact fun _ => ⟨p, hp, hb⟩
  · intro hg g hm hr
    exact room_ok hP hc hN hk hs hg hm hr

theorem wakeAll_ok {P : Par} (hP : P.Ok) {N : Nat} (order : List Nat) {l : Loop} {n : Sys} (hc : Core P l n) (hs : Strs P l N n) (hN : l.p.sys.known ≤ N) (hNn : N ≤ l.p.dec.ctx.next)
    (hw : ∀ x ∈ l.p.sys.secs, x.ricnt ≤ l.p.dec.ctx.next + P.H / 32) {p : Nat → Bool} (hp : ∀ j, j ∉ l.gone → p j = true) (hb : bud p l ≤ lim l) (ho : ∀ id ∈ order, id ∈ P.ids) :
    ∃ n' l', wakeAll P n order = .ok n' ∧ Core P l' n' ∧ l'.p.dec.ctx.next = l.p.dec.ctx.next ∧
      ∀ id ∈ P.ids, (id ∈ order ∨ StrOk (P.cfg id) l l.p.dec.ctx.next (n.str id)) → StrOk (P.cfg id) l' l'.p.dec.ctx.next (n'.str id) := by
  induction order generalizing l n with
  | nil =>
    refine ⟨n, l, rfl, hc, rfl, fun id hid h => ?_⟩
    rcases h with h | h
    · cases h
    · exact h
  | cons id t ih =>
    rw [wakeAll]
    have hid : id ∈ P.ids := ho id (by simp)
    have hmay : MayRead (P.cfg id) P.H l (n.room P id) := by
      by_cases hg : id ∈ l.gone
      · refine ⟨?_, ?_, ?_⟩ <;> rw [hP.id] <;> exact fun h => absurd hg h
      · exact may_read hP hc hs hN (hp id hg) hb (fun x hx _ => hw x hx)
    obtain ⟨l', s', ev, n', rest, w1, w2, w3, w4, w5⟩ := wake_str hc.loop (hs id hid) hmay
    rw [hP.id] at w3
    rw [hc.dec, w1]
    dsimp only [Sys.after]
    have hctx : l'.p.dec.ctx.next = l.p.dec.ctx.next := by rw [w3.ctx]
    have hcok : CtxOk l'.p.dec.ctx := by rw [w3.ctx]; exact hc.loop.pair.wf.ctx
    have hself : StrOk (P.cfg id) l' N { n.str id with s := s', ev := (n.str id).ev ++ ev } := w4.frame hcok rfl Iff.rfl (by rw [hctx]; exact hNn)
    have hs' := strs_set (d := l'.p.dec) hP hs hcok w3.oth (fun j _ => by rw [w3.gone]) (Nat.le_refl N) hself
    have hbud : bud p l' ≤ lim l' := by
      by_cases hg : id ∈ l.gone
      · -- nothing happens
        have hb0 : (n.str id).s.blocked = false := by
          by_contra hne
          have := ((hs id hid).waits (by simpa using hne)).1
          rw [hP.id] at this
          exact this hg
        rw [w5 hb0]; exact hb
      · have := w3.bud p (hp id hg)
        unfold lim at hb ⊢
        rw [w3.conc]; omega
    obtain ⟨n2, l2, i1, i2, i3, i4⟩ := ih (core_eff hc w2 w3 _) hs' (by rw [w3.sys]; exact hN) (by rw [hctx]; exact hNn) (by rw [w3.sys, hctx]; exact hw)
      (by rw [w3.gone]; exact hp) hbud (fun j hj => ho j (by simp [hj]))
    refine ⟨n2, l2, i1, i2, i3.trans hctx, fun j hj hor => ?_⟩
    apply i4 j hj
    by_cases hji : j = id
    · right
      show StrOk (P.cfg j) l' l'.p.dec.ctx.next (if j = id then _ else n.str j)
      rw [if_pos hji, hji]; exact w4
    · rcases hor with hor | hor
      · rcases List.mem_cons.1 hor with hor | hor
        · exact absurd hor hji
        · exact Or.inl hor
      · right
        show StrOk (P.cfg j) l' l'.p.dec.ctx.next (if j = id then _ else n.str j)
        rw [if_neg hji]
        exact hor.frame hcok (by rw [hP.id]; exact w3.oth j hji) (by rw [w3.gone]) (by rw [hctx])

end Net
end Nghttp3
