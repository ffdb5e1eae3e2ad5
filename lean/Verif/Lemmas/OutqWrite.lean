import Verif.Lemmas.Outq
/-! Writing and acknowledging: effect on the queue of outgoing buffers. -/
namespace Nghttp3
namespace Outq
variable {F : Type}

theorem written_zero {t : List Ent} (h : ∀ e ∈ t, e.pos = e.beg) : written t = 0 := by
  induction t with
  | nil => rfl
  | cons a l ih =>
    have h1 := ih (fun x hx => h x (List.mem_cons_of_mem _ hx))
    have h2 := h a List.mem_cons_self
    unfold written at h1 ⊢
    rw [List.map_cons, List.sum_cons, h1]
    omega

/-- the bytes of a buffer not yet written -/
def Ent.rest (cs : List Chunk) (e : Ent) : Bytes := slice ((e.region cs).getD []) e.pos e.last

theorem slice_split (r : Bytes) (a b c : Nat) (h1 : a ≤ b) (h2 : b ≤ c) : slice r a c = slice r a b ++ slice r b c := by
  unfold slice
  have e : c - a = (b - a) + (c - b) := by omega
  rw [e, List.take_add, List.drop_drop]
  congr 3
  omega

theorem tag_fst (cs : List Chunk) (e : Ent) (h : e.beg ≤ e.pos ∧ e.pos ≤ e.last) :
    (e.tag cs).map Prod.fst = slice ((e.region cs).getD []) e.beg e.pos ++ e.rest cs := by
  unfold Ent.tag tags Ent.rest
  rw [List.map_map, ← slice_split _ _ _ _ h.1 h.2]
  exact List.map_id _

theorem rest_length (cs : List Chunk) (e : Ent) (h : e.Live cs) : (e.rest cs).length = e.len := by
  obtain ⟨r, h1, h2⟩ := h
  unfold Ent.rest Ent.len
  rw [h1]
  exact slice_length r _ _ h2

/-- unwritten bytes -/
theorem pend_eq {T : Tagged} {oq : List Ent} {cs : List Chunk} {idx : Nat} (h : QInv T oq cs idx) :
    (T.map Prod.fst).drop (written oq) = ((oq.drop idx).map (Ent.rest cs)).flatten := by
  have key : ∀ (oq : List Ent) (idx : Nat), (∀ e ∈ oq, e.beg ≤ e.pos ∧ e.pos ≤ e.last) → (∀ e ∈ oq, e.Live cs) →
      (∀ e ∈ oq.take idx, e.pos = e.last) → (∀ e ∈ oq.drop (idx + 1), e.pos = e.beg) → idx ≤ oq.length →
      ((oq.map (Ent.tag cs)).flatten.map Prod.fst).drop (written oq) = ((oq.drop idx).map (Ent.rest cs)).flatten := by
    intro oq
    induction oq with
    | nil => intro idx _ _ _ _ _; simp
    | cons e t ih =>
      intro idx hw hl hb ha hi
      have hwe := hw e List.mem_cons_self
      have hle := hl e List.mem_cons_self
      have hwr : written (e :: t) = (e.pos - e.beg) + written t := by unfold written; simp
      have hsl : (slice ((e.region cs).getD []) e.beg e.pos).length = e.pos - e.beg := by
        obtain ⟨r, h1, h2⟩ := hle
        rw [h1]; exact slice_length r _ _ (by omega)
      have hrl := rest_length cs e hle
      unfold Ent.len at hrl
      cases idx with
      | zero =>
        have hz : ∀ e ∈ t, e.pos = e.beg := by simpa using ha
        have hwt : written t = 0 := written_zero hz
        have iht := ih 0 (fun x hx => hw x (List.mem_cons_of_mem _ hx)) (fun x hx => hl x (List.mem_cons_of_mem _ hx)) (by simp)
          (fun x hx => hz x (List.mem_of_mem_drop hx)) (by omega)
        rw [hwt, List.drop_zero, List.drop_zero] at iht
        rw [hwr, hwt, List.drop_zero]
        simp only [List.map_cons, List.flatten_cons, List.map_append]
        rw [tag_fst cs e hwe, ← iht, List.append_assoc]
        rw [Nat.add_zero, ← hsl, List.drop_left]
      | succ i =>
        have hp : e.pos = e.last := hb e (by simp)
        have iht := ih i (fun x hx => hw x (List.mem_cons_of_mem _ hx)) (fun x hx => hl x (List.mem_cons_of_mem _ hx))
          (fun x hx => hb x (by simp [hx])) (fun x hx => ha x (by simpa using hx)) (by simpa using hi)
        rw [List.drop_succ_cons, ← iht, hwr]
        simp only [List.map_cons, List.flatten_cons, List.map_append]
        have hr : e.rest cs = [] := List.length_eq_zero_iff.1 (by rw [hrl]; omega)
        rw [tag_fst cs e hwe, hr, List.append_nil, ← List.drop_drop, ← hsl, List.drop_left]
  rw [← h.content]
  exact key oq idx h.wf h.live h.before h.after h.idx_le

theorem writevLoop_spec (cs : List Chunk) : ∀ (l : List Ent) (k : Nat), (∀ e ∈ l, e.Live cs) → (∀ e ∈ l, e.pos ≤ e.last) →
    ∃ vs b, writevLoop cs l k = some (vs, b) ∧ vs.flatten <+: (l.map (Ent.rest cs)).flatten ∧
      (b = true → vs.flatten = (l.map (Ent.rest cs)).flatten) ∧ (0 < k → (l.map (Ent.rest cs)).flatten ≠ [] → vs.flatten ≠ []) ∧
      vs.length ≤ k ∧ (∀ v ∈ vs, v ≠ []) ∧ (l.length < k → b = true)
  | [], k, _, _ => ⟨[], true, by rw [writevLoop], by simp, by simp, by simp, by simp, by simp, by simp⟩
  | e :: t, 0, _, _ => ⟨[], false, by rw [writevLoop], by simp, by simp, by simp, by simp, by simp, by simp⟩
  | e :: t, k + 1, hl, hw => by
    have hle := hl e List.mem_cons_self
    have hrl := rest_length cs e hle
    rw [writevLoop]
    by_cases hz : e.len = 0
    · rw [if_pos hz]
      have hr : e.rest cs = [] := List.length_eq_zero_iff.1 (by rw [hrl]; exact hz)
      obtain ⟨vs, b, h1, h2, h3, h4, h5, h6, h7⟩ := writevLoop_spec cs t (k + 1) (fun x hx => hl x (List.mem_cons_of_mem _ hx))
        (fun x hx => hw x (List.mem_cons_of_mem _ hx))
      refine ⟨vs, b, h1, ?_, ?_, ?_, h5, h6, ?_⟩
      · rw [List.map_cons, List.flatten_cons, hr]; exact h2
      · rw [List.map_cons, List.flatten_cons, hr]; exact h3
      · rw [List.map_cons, List.flatten_cons, hr]; exact h4
      · intro hk; rw [List.length_cons] at hk; exact h7 (by omega)
    · rw [if_neg hz]
      obtain ⟨vs, b, h1, h2, h3, _, h5, h6, h7⟩ := writevLoop_spec cs t k (fun x hx => hl x (List.mem_cons_of_mem _ hx))
        (fun x hx => hw x (List.mem_cons_of_mem _ hx))
      obtain ⟨r, hr1, hr2⟩ := hle
      have hrest : slice r e.pos e.last = e.rest cs := by unfold Ent.rest; rw [hr1]; rfl
      have hne : e.rest cs ≠ [] := by
        intro h; rw [h] at hrl; exact hz hrl.symm
      rw [hr1, h1]
      refine ⟨_, _, rfl, ?_, ?_, ?_, ?_, ?_, ?_⟩
      · rw [hrest, List.map_cons, List.flatten_cons, List.flatten_cons]; exact (List.prefix_append_right_inj _).2 h2
      · intro hb; rw [hrest, List.map_cons, List.flatten_cons, List.flatten_cons, h3 hb]
      · intro _ _; rw [hrest, List.flatten_cons]; simp [hne]
      · rw [List.length_cons]; omega
      · intro v hv
        rcases List.mem_cons.1 hv with rfl | hv
        · rw [hrest]; exact hne
        · exact h6 v hv
      · intro hk; rw [List.length_cons] at hk; exact h7 (by omega)

/-- what nghttp3_stream_writev offers -/
theorem writev_spec {Q : Tagged} {s : St F} (h : Inv Q s) (k : Nat) (hk : 0 < k) :
    ∃ vs fin, writev s k = .ok (vs, fin) ∧ vs.flatten <+: (Q.map Prod.fst).drop (s.ackBase + written s.outq) ∧
      (fin = true → s.frq = [] ∧ s.endStream = true ∧ vs.flatten = (Q.map Prod.fst).drop (s.ackBase + written s.outq)) ∧
      (0 < s.unsent → vs.flatten ≠ []) ∧ vs.length ≤ k ∧ (∀ v ∈ vs, v ≠ []) ∧
      (s.frq = [] → s.endStream = true → s.outq.length < k → fin = true) := by
  have hp := pend_eq h.q
  rw [List.map_drop, List.drop_drop] at hp
  obtain ⟨vs, b, h1, h2, h3, h4, h5, h6, h7⟩ := writevLoop_spec s.chunks (s.outq.drop s.outqIdx) k
    (fun e he => h.q.live e (List.mem_of_mem_drop he)) (fun e he => (h.q.wf e (List.mem_of_mem_drop he)).2)
  rw [← hp] at h2 h3 h4
  unfold writev
  rw [if_neg (by omega), h1]
  refine ⟨_, _, rfl, h2, ?_, ?_, h5, h6, ?_⟩
  · intro hf
    simp only [Bool.and_eq_true, List.isEmpty_iff] at hf
    exact ⟨hf.1.1, hf.2, h3 hf.1.2⟩
  · intro hu
    apply h4 hk
    intro hn
    have := congrArg List.length hn
    rw [List.length_drop, List.length_map, List.length_nil] at this
    have := h.sent
    omega
  · intro e1 e2 hlt
    rw [e1, e2, h7 (by rw [List.length_drop]; omega)]
    rfl

/-- the part of a buffer that writing does not change -/
def Ent.base (e : Ent) : Src × Nat × Nat := (e.src, e.beg, e.last)

theorem addLoop_spec : ∀ (l : List Ent) (n : Nat), (∀ e ∈ l, e.beg ≤ e.pos ∧ e.pos ≤ e.last) → n ≤ (l.map Ent.len).sum →
    (addLoop l n).2.2 = 0 ∧ (addLoop l n).1.map Ent.base = l.map Ent.base ∧ (addLoop l n).2.1 ≤ l.length ∧
    (∀ e ∈ (addLoop l n).1.take (addLoop l n).2.1, e.pos = e.last) ∧
    (addLoop l n).1.drop ((addLoop l n).2.1 + 1) = l.drop ((addLoop l n).2.1 + 1) ∧
    written (addLoop l n).1 = written l + n ∧ (∀ e ∈ (addLoop l n).1, e.beg ≤ e.pos ∧ e.pos ≤ e.last)
  | [], n, _, hn => by simp at hn; subst hn; simp [addLoop]
  | e :: t, n, hw, hn => by
    have hwe := hw e List.mem_cons_self
    rw [addLoop]
    by_cases hlt : n < e.len
    · rw [if_pos hlt]
      dsimp only
      unfold Ent.len at hlt
      refine ⟨rfl, rfl, by simp, by simp, by simp, ?_, ?_⟩
      · unfold written; simp; omega
      · intro x hx
        rcases List.mem_cons.1 hx with rfl | hx
        · dsimp only; omega
        · exact hw x (List.mem_cons_of_mem _ hx)
    · rw [if_neg hlt]
      dsimp only
      simp only [List.map_cons, List.sum_cons] at hn
      obtain ⟨h1, h2, h3, h4, h5, h6, h7⟩ := addLoop_spec t (n - e.len) (fun x hx => hw x (List.mem_cons_of_mem _ hx)) (by omega)
      unfold Ent.len at hlt
      refine ⟨h1, ?_, ?_, ?_, ?_, ?_, ?_⟩
      · simp only [List.map_cons]; rw [h2]; rfl
      · rw [List.length_cons]; omega
      · intro x hx
        rw [List.take_succ_cons] at hx
        rcases List.mem_cons.1 hx with rfl | hx
        · rfl
        · exact h4 x hx
      · rw [List.drop_succ_cons, List.drop_succ_cons]; exact h5
      · have hc : ∀ (a : Ent) l, written (a :: l) = (a.pos - a.beg) + written l := by intro a l; unfold written; simp
        rw [hc, hc, h6]
        unfold Ent.len
        dsimp only
        omega
      · intro x hx
        rcases List.mem_cons.1 hx with rfl | hx
        · dsimp only; omega
        · exact h7 x hx

theorem base_congr {cs : List Chunk} {a b : Ent} (h : a.base = b.base) :
    a.tag cs = b.tag cs ∧ (a.Live cs ↔ b.Live cs) ∧ a.isAlien = b.isAlien ∧ pieces [a] = pieces [b] := by
  obtain ⟨s1, b1, p1, l1⟩ := a
  obtain ⟨s2, b2, p2, l2⟩ := b
  simp only [Ent.base, Prod.mk.injEq] at h
  obtain ⟨rfl, rfl, rfl⟩ := h
  exact ⟨rfl, Iff.rfl, rfl, rfl⟩

theorem base_list {cs : List Chunk} : ∀ {l l' : List Ent}, l'.map Ent.base = l.map Ent.base →
    l'.map (Ent.tag cs) = l.map (Ent.tag cs) ∧ ((∀ e ∈ l, e.Live cs) → ∀ e ∈ l', e.Live cs) ∧ pieces l' = pieces l ∧ l'.length = l.length
  | [], [], _ => ⟨rfl, fun h => h, rfl, rfl⟩
  | [], _ :: _, h => by cases h
  | _ :: _, [], h => by cases h
  | e :: t, e' :: t', h => by
    rw [List.map_cons, List.map_cons] at h
    obtain ⟨h1, h2⟩ := List.cons.inj h
    obtain ⟨a1, a2, a3, a4⟩ := base_congr (cs := cs) h1
    obtain ⟨b1, b2, b3, b4⟩ := base_list (cs := cs) h2
    refine ⟨?_, ?_, ?_, ?_⟩
    · rw [List.map_cons, List.map_cons, a1, b1]
    · intro hl x hx
      rcases List.mem_cons.1 hx with rfl | hx
      · exact a2.2 (hl e List.mem_cons_self)
      · exact b2 (fun y hy => hl y (List.mem_cons_of_mem _ hy)) x hx
    · have : ∀ (x : Ent) l, pieces (x :: l) = pieces [x] ++ pieces l := fun x l => pieces_append [x] l
      rw [this, this e, a4, b3]
    · rw [List.length_cons, List.length_cons, b4]

theorem sum_len (cs : List Chunk) : ∀ (l : List Ent), (∀ e ∈ l, e.Live cs) → ((l.map (Ent.rest cs)).flatten).length = (l.map Ent.len).sum
  | [], _ => rfl
  | e :: t, h => by
    simp only [List.map_cons, List.flatten_cons, List.length_append, List.sum_cons]
    rw [rest_length cs e (h e List.mem_cons_self), sum_len cs t (fun x hx => h x (List.mem_cons_of_mem _ hx))]

/-- nghttp3_stream_add_outq_offset -/
theorem addOffset_spec {Q : Tagged} {s : St F} (h : Inv Q s) (n : Nat) (hn : n ≤ s.unsent) :
    ∃ s', addOutqOffset s n = .ok s' ∧ Inv Q s' ∧ s'.ackBase + written s'.outq = s.ackBase + written s.outq + n ∧ s'.frq = s.frq ∧
      s'.endStream = s.endStream ∧ s'.readBlocked = s.readBlocked ∧ s'.ackOffset = s.ackOffset ∧ s'.unsent = s.unsent - n := by
  have hp := congrArg List.length (pend_eq h.q)
  rw [List.length_drop, List.length_map, List.length_drop] at hp
  rw [sum_len s.chunks _ (fun e he => h.q.live e (List.mem_of_mem_drop he))] at hp
  have hsent := h.sent
  have hbase := h.base
  have hw : ∀ e ∈ s.outq.drop s.outqIdx, e.beg ≤ e.pos ∧ e.pos ≤ e.last := fun e he => h.q.wf e (List.mem_of_mem_drop he)
  obtain ⟨h1, h2, h3, h4, h5, h6, h7⟩ := addLoop_spec (s.outq.drop s.outqIdx) n hw (by omega)
  unfold addOutqOffset
  dsimp only
  rw [if_neg (by rw [h1]; simp)]
  generalize hr : addLoop (s.outq.drop s.outqIdx) n = r at *
  obtain ⟨l', m, z⟩ := r
  dsimp only at *
  have hidx := h.q.idx_le
  have hbl : (s.outq.take s.outqIdx ++ l').map Ent.base = s.outq.map Ent.base := by
    rw [List.map_append, h2, ← List.map_append, List.take_append_drop]
  obtain ⟨b1, b2, b3, b4⟩ := base_list (cs := s.chunks) hbl
  have hwr : written (s.outq.take s.outqIdx ++ l') = written s.outq + n := by
    rw [written_append, h6]
    have := written_append (s.outq.take s.outqIdx) (s.outq.drop s.outqIdx)
    rw [List.take_append_drop] at this
    omega
  have htl : (s.outq.take s.outqIdx).length = s.outqIdx := by rw [List.length_take]; omega
  refine ⟨_, rfl, ⟨⟨?_, ?_, b2 h.q.live, ?_, ?_, ?_, ?_, h.q.ids⟩, h.base, h.fresh, h.tx, h.lim, ?_, h.ack0, ?_, ?_⟩, ?_, rfl, rfl, rfl, rfl, rfl⟩
  · dsimp only; rw [b1]; exact h.q.content
  · intro e he
    rcases List.mem_append.1 he with he | he
    · exact h.q.wf e (List.mem_of_mem_take he)
    · exact h7 e he
  · dsimp only
    intro e he
    rw [List.take_append, htl] at he
    rcases List.mem_append.1 he with he | he
    · exact h.q.before e (List.mem_of_mem_take he)
    · rw [Nat.add_sub_cancel_left] at he; exact h4 e he
  · dsimp only
    intro e he
    rw [List.drop_append, htl] at he
    rcases List.mem_append.1 he with he | he
    · rw [List.drop_of_length_le (by omega)] at he; cases he
    · have e0 : s.outqIdx + m + 1 - s.outqIdx = m + 1 := by omega
      rw [e0, h5, List.drop_drop] at he
      apply h.q.after e
      have e1 : s.outqIdx + (m + 1) = (s.outqIdx + 1) + m := by omega
      rw [e1, ← List.drop_drop] at he
      exact List.mem_of_mem_drop he
  · dsimp only
    rw [b4]
    rw [List.length_drop] at h3
    omega
  · dsimp only; rw [b3]; exact h.q.cov
  · dsimp only; rw [hwr]; omega
  · dsimp only; rw [hwr]; have := h.ack1; omega
  · dsimp only
    intro e he
    have hh : (s.outq.take s.outqIdx ++ l').map Ent.base = s.outq.map Ent.base := hbl
    cases hx : s.outq.take s.outqIdx ++ l' with
    | nil => rw [hx] at he; cases he
    | cons a l =>
      rw [hx] at he hh
      cases ho : s.outq with
      | nil => rw [ho] at hh; cases hh
      | cons a' l2 =>
        rw [ho, List.map_cons, List.map_cons] at hh
        have h8 := (List.cons.inj hh).1
        simp only [List.head?_cons, Option.some.injEq] at he
        subst he
        have h9 := h.ackHead a' (by rw [ho]; rfl)
        unfold Ent.base at h8
        simp only [Prod.mk.injEq] at h8
        omega
  · dsimp only; rw [hwr]; omega

/-! acknowledgement -/

/-- number of bytes from the application -/
def appBytes (T : Tagged) : Nat := T.countP (fun x => x.2)

theorem appBytes_append (a b : Tagged) : appBytes (a ++ b) = appBytes a + appBytes b := List.countP_append

theorem appBytes_tags (b : Bool) (bs : Bytes) : appBytes (tags b bs) = if b then bs.length else 0 := by
  unfold appBytes tags
  cases b <;> simp [List.countP_map, Function.comp_def]

theorem tags_drop (b : Bool) (bs : Bytes) (n : Nat) : (tags b bs).drop n = tags b (bs.drop n) := by
  unfold tags; rw [List.map_drop]

theorem tags_take (b : Bool) (bs : Bytes) (n : Nat) : (tags b bs).take n = tags b (bs.take n) := by
  unfold tags; rw [List.map_take]

theorem mem_cons_ne (c : Chunk) (ct : List Chunk) (id : Nat) (h : c.id ≠ id) : mem (c :: ct) id = mem ct id := by
  unfold mem
  rw [List.find?_cons]
  have : (c.id == id) = false := by simpa using h
  rw [this]

theorem pieces_mem {l : List Ent} {e : Ent} {id : Nat} (h : e ∈ l) (hs : e.src = .shared id) : (id, e.last) ∈ pieces l := by
  obtain ⟨a, b, rfl⟩ := List.append_of_mem h
  rw [pieces_append]
  apply List.mem_append_right
  simp [pieces, hs]

/-- removing the first buffer -/
theorem qinv_pop {T : Tagged} {e : Ent} {t : List Ent} {cs : List Chunk} {idx : Nat} (h : QInv T (e :: t) cs (idx + 1)) :
    ∃ cs', popChunks cs e = some cs' ∧ QInv (T.drop (e.last - e.beg)) t cs' idx ∧ (∀ c ∈ cs', c ∈ cs) := by
  have hT : T = e.tag cs ++ (t.map (Ent.tag cs)).flatten := by rw [← h.content]; simp
  have hTd : T.drop (e.last - e.beg) = (t.map (Ent.tag cs)).flatten := by
    rw [hT, ← tag_length cs e (h.live e List.mem_cons_self), List.drop_left]
  have hw : ∀ x ∈ t, x.beg ≤ x.pos ∧ x.pos ≤ x.last := fun x hx => h.wf x (List.mem_cons_of_mem _ hx)
  have hl : ∀ x ∈ t, x.Live cs := fun x hx => h.live x (List.mem_cons_of_mem _ hx)
  have hb : ∀ x ∈ t.take idx, x.pos = x.last := fun x hx => h.before x (by rw [List.take_succ_cons]; exact List.mem_cons_of_mem _ hx)
  have ha : ∀ x ∈ t.drop (idx + 1), x.pos = x.beg := fun x hx => h.after x (by rw [List.drop_succ_cons]; exact hx)
  have hi : idx ≤ t.length := by have := h.idx_le; simpa using this
  have hcov := h.cov
  have same : pieces (e :: t) = pieces t → ∃ cs', some cs = some cs' ∧ QInv (T.drop (e.last - e.beg)) t cs' idx ∧ (∀ c ∈ cs', c ∈ cs) := by
    intro hp
    rw [hp] at hcov
    exact ⟨cs, rfl, ⟨hTd.symm, hw, hl, hb, ha, hi, hcov, h.ids⟩, fun c hc => hc⟩
  unfold popChunks
  cases hs : e.src with
  | priv bs => exact same (by simp [pieces, hs])
  | alien bs => exact same (by simp [pieces, hs])
  | shared id =>
    have hp : pieces (e :: t) = (id, e.last) :: pieces t := by simp [pieces, hs]
    rw [hp] at hcov
    obtain ⟨c, ct, rfl, h1, h2⟩ := hcov
    dsimp only at h1 h2 ⊢
    rw [if_neg (by rw [h1]; simp)]
    rcases h2 with ⟨h2, h3⟩ | ⟨h2, h3⟩
    · rw [if_pos h2.symm]
      have hnd := h.ids
      rw [List.map_cons, List.nodup_cons] at hnd
      have hreg : ∀ x ∈ t, x.region (c :: ct) = x.region ct := by
        intro x hx
        unfold Ent.region
        cases hxs : x.src with
        | priv => rfl
        | alien => rfl
        | shared j =>
          dsimp only
          apply mem_cons_ne
          intro e0
          have := cov_mem h3 _ (pieces_mem hx hxs)
          dsimp only at this
          rw [← e0] at this
          exact hnd.1 this
      have htag : t.map (Ent.tag ct) = t.map (Ent.tag (c :: ct)) := by
        apply List.map_congr_left
        intro x hx
        unfold Ent.tag
        rw [hreg x hx]
      refine ⟨ct, rfl, ⟨?_, hw, ?_, hb, ha, hi, h3, hnd.2⟩, fun d hd => List.mem_cons_of_mem _ hd⟩
      · rw [hTd, htag]
      · intro x hx
        obtain ⟨r, hr⟩ := hl x hx
        exact ⟨r, by rw [← hreg x hx]; exact hr⟩
    · rw [if_neg (by omega)]
      exact ⟨c :: ct, rfl, ⟨hTd.symm, hw, hl, hb, ha, hi, h3, h.ids⟩, fun d hd => hd⟩

theorem ackLoop_spec (off : Nat) : ∀ (oq : List Ent) (T : Tagged) (cs : List Chunk) (idx base ao : Nat), QInv T oq cs idx →
    base ≤ ao → ao ≤ off → off ≤ base + written oq → (∀ e, oq.head? = some e → ao ≤ base + (e.last - e.beg)) →
    ∃ oq' cs' idx' base' rep k, ackLoop off oq cs idx base ao = some (oq', cs', idx', base', rep) ∧
      QInv (T.drop (base' - base)) oq' cs' idx' ∧ base ≤ base' ∧ base' ≤ off ∧ base' + written oq' = base + written oq ∧
      (∀ e, oq'.head? = some e → off ≤ base' + (e.last - e.beg)) ∧ (∀ c ∈ cs', c ∈ cs) ∧
      rep.sum = (appBytes ((T.drop (ao - base)).take (off - ao)) : Nat) ∧ (∀ x ∈ rep, 0 ≤ x) ∧
      oq = oq.take k ++ oq' ∧ base' = base + ((oq.take k).map fun e => e.last - e.beg).sum
  | [], T, cs, idx, base, ao, h, h1, h2, h3, _ => by
    have hw : written ([] : List Ent) = 0 := rfl
    have hT : T = [] := by rw [← h.content]; rfl
    refine ⟨[], cs, idx, base, [], 0, rfl, ?_, by omega, by omega, rfl, by simp, fun c hc => hc, ?_, by simp, by simp, by simp⟩
    · rw [Nat.sub_self, List.drop_zero]; exact h
    · rw [hT]; simp [appBytes]
  | e :: t, T, cs, idx, base, ao, h, h1, h2, h3, h4 => by
    have hae := h4 e rfl
    have hwe := h.wf e List.mem_cons_self
    have hle := h.live e List.mem_cons_self
    have htl := tag_length cs e hle
    have hT : T = e.tag cs ++ (t.map (Ent.tag cs)).flatten := by rw [← h.content]; simp
    have hwc : written (e :: t) = (e.pos - e.beg) + written t := by unfold written; simp
    -- the report
    have hrep : ∀ lim, lim = min off (base + (e.last - e.beg)) →
        (if e.isAlien && decide (ao < off) then [((lim : Nat) : Int) - (ao : Int)] else []).sum =
          ((appBytes (((e.tag cs).drop (ao - base)).take (off - ao)) : Nat) : Int) ∧
        ∀ x ∈ (if e.isAlien && decide (ao < off) then [((lim : Nat) : Int) - (ao : Int)] else []), (0 : Int) ≤ x := by
      intro lim hlim
      have hlen : ((slice ((e.region cs).getD []) e.beg e.last).drop (ao - base)).length = e.last - e.beg - (ao - base) := by
        obtain ⟨r, hr1, hr2⟩ := hle
        rw [List.length_drop, hr1]
        show (slice r e.beg e.last).length - _ = _
        rw [slice_length r _ _ hr2]
      constructor
      · unfold Ent.tag
        rw [tags_drop, tags_take, appBytes_tags, List.length_take, hlen]
        cases e.isAlien with
        | false => simp
        | true =>
          by_cases hlt : ao < off
          · simp only [hlt, decide_true, Bool.and_self, if_true, List.sum_cons, List.sum_nil]
            omega
          · have : off - ao = 0 := by omega
            simp [hlt, this]
      · intro x hx
        split_ifs at hx with hc
        · rw [List.mem_singleton.1 hx]; omega
        · cases hx
    rw [ackLoop]
    by_cases hpop : idx > 0 ∧ off ≥ base + (e.last - e.beg)
    · rw [if_pos hpop]
      obtain ⟨i, rfl⟩ : ∃ i, idx = i + 1 := ⟨idx - 1, by omega⟩
      obtain ⟨cs1, hp1, hp2, hp3⟩ := qinv_pop h
      have hpe : e.pos = e.last := h.before e (by simp)
      have hhead : ∀ x, t.head? = some x → base + (e.last - e.beg) ≤ base + (e.last - e.beg) + (x.last - x.beg) := by intro x _; omega
      obtain ⟨oq', cs', idx', base', rep, k, g1, g2, g3, g4, g5, g6, g7, g8, g9, g10, g11⟩ := ackLoop_spec off t _ cs1 i (base + (e.last - e.beg))
        (base + (e.last - e.beg)) hp2 (Nat.le_refl _) hpop.2 (by omega) hhead
      rw [hp1]
      dsimp only
      rw [Nat.add_sub_cancel, g1]
      refine ⟨oq', cs', idx', base', _, k + 1, rfl, ?_, by omega, g4, by omega, g6, fun c hc => hp3 c (g7 c hc), ?_, ?_, ?_, ?_⟩
      · rw [List.drop_drop] at g2
        have e0 : e.last - e.beg + (base' - (base + (e.last - e.beg))) = base' - base := by omega
        rw [e0] at g2
        exact g2
      · have hr := (hrep _ rfl).1
        rw [List.sum_append, g8, hr]
        norm_cast
        rw [← appBytes_append]
        congr 1
        rw [Nat.sub_self, List.drop_zero]
        have hTd : T.drop (e.last - e.beg) = (t.map (Ent.tag cs)).flatten := by rw [hT, ← htl, List.drop_left]
        rw [hTd]
        conv_rhs => rw [hT]
        rw [List.drop_append_of_le_length (by rw [htl]; omega)]
        rw [List.take_append]
        congr 2
        rw [List.length_drop, htl]
        omega
      · intro x hx
        rcases List.mem_append.1 hx with hx | hx
        · exact (hrep _ rfl).2 x hx
        · exact g9 x hx
      · rw [List.take_succ_cons, List.cons_append, ← g10]
      · rw [List.take_succ_cons, List.map_cons, List.sum_cons]; omega
    · rw [if_neg hpop]
      have hoff : off ≤ base + (e.last - e.beg) := by
        by_cases hi : idx > 0
        · by_contra hc; exact hpop ⟨hi, by omega⟩
        · have hi0 : idx = 0 := by omega
          have hz : ∀ x ∈ t, x.pos = x.beg := fun x hx => h.after x (by rw [hi0]; simpa using hx)
          have hwt : written t = 0 := written_zero hz
          omega
      refine ⟨e :: t, cs, idx, base, _, 0, rfl, ?_, by omega, by omega, rfl, ?_, fun c hc => hc, ?_, (hrep _ rfl).2, by simp, by simp⟩
      · rw [Nat.sub_self, List.drop_zero]; exact h
      · intro x hx; simp only [List.head?_cons, Option.some.injEq] at hx; subst hx; exact hoff
      · rw [(hrep _ rfl).1]
        norm_cast
        congr 1
        conv_rhs => rw [hT]
        rw [List.drop_append_of_le_length (by rw [htl]; omega)]
        rw [List.take_append_of_le_length (by rw [List.length_drop, htl]; omega)]

/-- nghttp3_stream_update_ack_offset -/
theorem ack_spec {Q : Tagged} {s : St F} (h : Inv Q s) (off : Nat) (h1 : s.ackOffset ≤ off) (h2 : off ≤ s.ackBase + written s.outq) :
    ∃ s' rep k, updateAckOffset s off = .ok (s', rep) ∧ Inv Q s' ∧ s'.ackOffset = off ∧
      s'.ackBase + written s'.outq = s.ackBase + written s.outq ∧ s'.frq = s.frq ∧ s'.endStream = s.endStream ∧
      s'.readBlocked = s.readBlocked ∧ s'.unsent = s.unsent ∧
      rep.sum = (appBytes ((Q.drop s.ackOffset).take (off - s.ackOffset)) : Nat) ∧ (∀ x ∈ rep, 0 ≤ x) ∧
      s.outq = s.outq.take k ++ s'.outq ∧ s'.ackBase = s.ackBase + ((s.outq.take k).map fun e => e.last - e.beg).sum ∧ s'.ackBase ≤ off := by
  obtain ⟨oq', cs', idx', base', rep, k, g1, g2, g3, g4, g5, g6, g7, g8, g9, g10, g11⟩ := ackLoop_spec off s.outq _ s.chunks s.outqIdx
    s.ackBase s.ackOffset h.q h.ack0 h1 h2 h.ackHead
  have hsent := h.sent
  unfold updateAckOffset
  rw [g1]
  have hq : QInv (Q.drop base') oq' cs' idx' := by
    rw [List.drop_drop] at g2
    have : s.ackBase + (base' - s.ackBase) = base' := by omega
    rw [this] at g2; exact g2
  refine ⟨_, _, k, rfl, ⟨hq, by dsimp only; omega, fun c hc => h.fresh c (g7 c hc), h.tx, h.lim, by dsimp only; omega, g4, by dsimp only; omega, g6⟩,
    rfl, by dsimp only; omega, rfl, rfl, rfl, rfl, ?_, g9, g10, g11, g4⟩
  rw [g8, List.drop_drop]
  have hao := h.ack0
  have : s.ackBase + (s.ackOffset - s.ackBase) = s.ackOffset := by omega
  rw [this]

end Outq
end Nghttp3
