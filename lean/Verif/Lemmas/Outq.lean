import Verif.Model.Outq
import Verif.Props.Frame
import Mathlib.Tactic.SplitIfs
import Mathlib.Tactic.Linarith
/-! The queue of outgoing buffers: invariant and operations. -/
namespace Nghttp3
namespace Outq
variable {F : Type}

/-- bytes, each with a mark: does it come from the application? -/
abbrev Tagged := List (UInt8 × Bool)

def tags (b : Bool) (bs : Bytes) : Tagged := bs.map fun x => (x, b)

/-- contents of a buffer -/
def Ent.tag (cs : List Chunk) (e : Ent) : Tagged := tags e.isAlien (slice ((e.region cs).getD []) e.beg e.last)

/-- live memory, with the end of the buffer in it -/
def Ent.Live (cs : List Chunk) (e : Ent) : Prop := ∃ r, e.region cs = some r ∧ e.last ≤ r.length

theorem slice_length (r : Bytes) (a b : Nat) (h : b ≤ r.length) : (slice r a b).length = b - a := by
  unfold slice; rw [List.length_take, List.length_drop]; omega

theorem tag_length (cs : List Chunk) (e : Ent) (h : e.Live cs) : (e.tag cs).length = e.last - e.beg := by
  obtain ⟨r, h1, h2⟩ := h
  unfold Ent.tag tags
  rw [List.length_map, h1]
  exact slice_length r _ _ h2

/-- memory only grows -/
def Ext (cs cs' : List Chunk) : Prop := ∀ id r, mem cs id = some r → ∃ bs, mem cs' id = some (r ++ bs)

theorem Ext.refl (cs : List Chunk) : Ext cs cs := fun _ r h => ⟨[], by rw [h, List.append_nil]⟩

theorem slice_append (r bs : Bytes) (a b : Nat) (h : b ≤ r.length) : slice (r ++ bs) a b = slice r a b := by
  unfold slice
  by_cases hab : a ≤ r.length
  · rw [List.drop_append_of_le_length hab, List.take_append_of_le_length (by rw [List.length_drop]; omega)]
  · have : b - a = 0 := by omega
    rw [this]; simp

theorem live_ext {cs cs' : List Chunk} (hx : Ext cs cs') {e : Ent} (h : e.Live cs) : e.Live cs' ∧ e.tag cs' = e.tag cs := by
  obtain ⟨r, h1, h2⟩ := h
  unfold Ent.Live Ent.tag Ent.region at *
  cases hs : e.src with
  | priv bs => rw [hs] at h1; dsimp only at h1 ⊢; exact ⟨⟨r, h1, h2⟩, rfl⟩
  | alien bs => rw [hs] at h1; dsimp only at h1 ⊢; exact ⟨⟨r, h1, h2⟩, rfl⟩
  | shared id =>
    rw [hs] at h1
    dsimp only at h1 ⊢
    obtain ⟨bs, hb⟩ := hx id r h1
    refine ⟨⟨r ++ bs, hb, by rw [List.length_append]; omega⟩, ?_⟩
    rw [h1, hb]
    simp only [Option.getD_some]
    rw [slice_append r bs _ _ h2]

/-- the buffers in chunks: address and end of each -/
def pieces : List Ent → List (Nat × Nat)
  | [] => []
  | e :: t => match e.src with
    | .shared id => (id, e.last) :: pieces t
    | _ => pieces t

theorem pieces_append (a b : List Ent) : pieces (a ++ b) = pieces a ++ pieces b := by
  induction a with
  | nil => rfl
  | cons e t ih =>
    rw [List.cons_append]
    cases he : e.src <;> simp only [pieces, he, ih, List.cons_append]

/-- the last buffer of each chunk ends where the chunk ends, the others end before -/
def Cov : List (Nat × Nat) → List Chunk → Prop
  | [], cs => cs = []
  | p :: t, cs => ∃ c ct, cs = c :: ct ∧ c.id = p.1 ∧ ((p.2 = c.data.length ∧ Cov t ct) ∨ (p.2 < c.data.length ∧ Cov t (c :: ct)))

theorem cov_nil_right {ps : List (Nat × Nat)} (h : Cov ps []) : ps = [] := by
  cases ps with
  | nil => rfl
  | cons p t => obtain ⟨c, ct, h, _⟩ := h; cases h

theorem cov_mem {ps : List (Nat × Nat)} {cs : List Chunk} (h : Cov ps cs) : ∀ p ∈ ps, p.1 ∈ cs.map (·.id) := by
  induction ps generalizing cs with
  | nil => simp
  | cons p t ih =>
    obtain ⟨c, ct, rfl, h1, h2⟩ := h
    intro q hq
    rcases List.mem_cons.1 hq with rfl | hq
    · rw [← h1]; simp
    · rcases h2 with ⟨_, h2⟩ | ⟨_, h2⟩
      · exact List.mem_cons_of_mem _ (ih h2 q hq)
      · exact ih h2 q hq

theorem cov_grow {ps : List (Nat × Nat)} {cs : List Chunk} {c : Chunk} {bs : Bytes} (h : Cov ps (cs ++ [c])) (hb : bs ≠ []) :
    Cov (ps ++ [(c.id, c.data.length + bs.length)]) (cs ++ [{ c with data := c.data ++ bs }]) := by
  have hpos : 0 < bs.length := List.length_pos_iff.2 hb
  induction ps generalizing cs with
  | nil => have h' : cs ++ [c] = [] := h; simp at h'
  | cons p t ih =>
    obtain ⟨d, ct, h0, h1, h2⟩ := h
    cases cs with
    | nil =>
      rw [List.nil_append] at h0
      obtain ⟨rfl, rfl⟩ := List.cons.inj h0
      refine ⟨_, [], rfl, h1, Or.inr ⟨?_, ?_⟩⟩
      · dsimp only; rw [List.length_append]; rcases h2 with ⟨h2, _⟩ | ⟨h2, _⟩ <;> omega
      · rcases h2 with ⟨h2, h3⟩ | ⟨h2, h3⟩
        · rw [cov_nil_right h3]
          refine ⟨_, [], rfl, rfl, Or.inl ⟨?_, rfl⟩⟩
          simp
        · exact ih (cs := []) h3
    | cons d' cs' =>
      rw [List.cons_append] at h0
      obtain ⟨rfl, rfl⟩ := List.cons.inj h0
      refine ⟨d', _, rfl, h1, ?_⟩
      rcases h2 with ⟨h2, h3⟩ | ⟨h2, h3⟩
      · exact Or.inl ⟨h2, ih h3⟩
      · exact Or.inr ⟨h2, ih (cs := d' :: cs') h3⟩

theorem cov_merge {ps : List (Nat × Nat)} {cs : List Chunk} {c : Chunk} {bs : Bytes} {l : Nat}
    (h : Cov (ps ++ [(c.id, l)]) (cs ++ [c])) :
    Cov (ps ++ [(c.id, c.data.length + bs.length)]) (cs ++ [{ c with data := c.data ++ bs }]) := by
  induction ps generalizing cs with
  | nil =>
    obtain ⟨d, ct, h0, h1, h2⟩ := h
    have hd : ct = [] := by
      rcases h2 with ⟨_, h2⟩ | ⟨_, h2⟩
      · exact h2
      · cases h2
    subst hd
    have hcs : cs = [] := by
      cases cs with
      | nil => rfl
      | cons a b => simp at h0
    subst hcs
    refine ⟨_, [], rfl, rfl, Or.inl ⟨by simp, rfl⟩⟩
  | cons p t ih =>
    rw [List.cons_append] at h
    obtain ⟨d, ct, h0, h1, h2⟩ := h
    cases cs with
    | nil =>
      rw [List.nil_append] at h0
      obtain ⟨rfl, rfl⟩ := List.cons.inj h0
      refine ⟨_, [], rfl, h1, Or.inr ⟨?_, ?_⟩⟩
      · rcases h2 with ⟨h2, h3⟩ | ⟨h2, _⟩
        · have := cov_nil_right h3; simp at this
        · dsimp only; rw [List.length_append]; omega
      · rcases h2 with ⟨h2, h3⟩ | ⟨h2, h3⟩
        · have := cov_nil_right h3; simp at this
        · exact ih (cs := []) h3
    | cons d' cs' =>
      rw [List.cons_append] at h0
      obtain ⟨rfl, rfl⟩ := List.cons.inj h0
      refine ⟨d', _, rfl, h1, ?_⟩
      rcases h2 with ⟨h2, h3⟩ | ⟨h2, h3⟩
      · exact Or.inl ⟨h2, ih h3⟩
      · exact Or.inr ⟨h2, ih (cs := d' :: cs') h3⟩

theorem cov_new {ps : List (Nat × Nat)} {cs : List Chunk} {c : Chunk} (h : Cov ps cs) :
    Cov (ps ++ [(c.id, c.data.length)]) (cs ++ [c]) := by
  induction ps generalizing cs with
  | nil =>
    have h' : cs = [] := h
    subst h'
    exact ⟨c, [], rfl, rfl, Or.inl ⟨rfl, rfl⟩⟩
  | cons p t ih =>
    obtain ⟨d, ct, rfl, h1, h2⟩ := h
    refine ⟨d, ct ++ [c], rfl, h1, ?_⟩
    rcases h2 with ⟨h2, h3⟩ | ⟨h2, h3⟩
    · exact Or.inl ⟨h2, ih h3⟩
    · exact Or.inr ⟨h2, ih (cs := d :: ct) h3⟩

theorem cov_last {ps : List (Nat × Nat)} {cs : List Chunk} {p : Nat × Nat} (h : Cov (ps ++ [p]) cs) :
    ∃ cs' c, cs = cs' ++ [c] ∧ c.id = p.1 ∧ p.2 = c.data.length := by
  induction ps generalizing cs with
  | nil =>
    obtain ⟨d, ct, rfl, h1, h2⟩ := h
    rcases h2 with ⟨h2, h3⟩ | ⟨_, h3⟩
    · have h3' : ct = [] := h3
      subst h3'; exact ⟨[], d, rfl, h1, h2⟩
    · cases h3
  | cons q t ih =>
    rw [List.cons_append] at h
    obtain ⟨d, ct, rfl, h1, h2⟩ := h
    rcases h2 with ⟨_, h3⟩ | ⟨_, h3⟩
    · obtain ⟨cs', c, h4, h5⟩ := ih h3; exact ⟨d :: cs', c, by rw [h4]; rfl, h5⟩
    · exact ih h3

/-! memory -/

theorem mem_append_ne (cs : List Chunk) (c : Chunk) (id : Nat) (h : id ≠ c.id) : mem (cs ++ [c]) id = mem cs id := by
  unfold mem
  rw [List.find?_append]
  have : List.find? (fun c => c.id == id) [c] = none := by
    rw [List.find?_cons]; have : (c.id == id) = false := by simpa using fun e => h e.symm
    rw [this]; rfl
  rw [this, Option.or_none]

theorem mem_append_eq (cs : List Chunk) (c : Chunk) (h : c.id ∉ cs.map (·.id)) : mem (cs ++ [c]) c.id = some c.data := by
  unfold mem
  rw [List.find?_append]
  have : cs.find? (fun d => d.id == c.id) = none := by
    rw [List.find?_eq_none]
    intro d hd
    simp only [beq_iff_eq]
    intro e
    exact h (by rw [← e]; exact List.mem_map_of_mem hd)
  rw [this, Option.none_or, List.find?_cons]
  simp

theorem mem_none (cs : List Chunk) (id : Nat) (h : id ∉ cs.map (·.id)) : mem cs id = none := by
  unfold mem
  rw [Option.map_eq_none_iff, List.find?_eq_none]
  intro d hd
  simp only [beq_iff_eq]
  intro e
  exact h (by rw [← e]; exact List.mem_map_of_mem hd)

theorem appendChunk_eq (cs : List Chunk) (c : Chunk) (bs : Bytes) (h : c.data.length + bs.length ≤ c.cap) :
    appendChunk (cs ++ [c]) bs = .ok (cs ++ [{ c with data := c.data ++ bs }], c.id, c.data.length) := by
  induction cs with
  | nil => rw [List.nil_append, appendChunk, if_pos h]; rfl
  | cons d t ih =>
    rw [List.cons_append]
    have : appendChunk (d :: (t ++ [c])) bs = (appendChunk (t ++ [c]) bs).bind fun r => .ok (d :: r.1, r.2) := by
      cases hx : t ++ [c] with
      | nil => simp at hx
      | cons a b => rfl
    rw [this, ih]
    rfl

theorem growTo_ge (need : Nat) : ∀ fuel n, 0 < n → need ≤ n + fuel → need ≤ growTo need fuel n
  | 0, n, _, h => by unfold growTo; omega
  | fuel + 1, n, hn, h => by
    unfold growTo
    split_ifs with h1
    · exact growTo_ge need fuel (n * 2) (by omega) (by omega)
    · omega

/-- the invariant of the queue: contents `T` -/
structure QInv (T : Tagged) (oq : List Ent) (cs : List Chunk) (idx : Nat) : Prop where
  content : (oq.map (Ent.tag cs)).flatten = T
  wf : ∀ e ∈ oq, e.beg ≤ e.pos ∧ e.pos ≤ e.last
  live : ∀ e ∈ oq, e.Live cs
  before : ∀ e ∈ oq.take idx, e.pos = e.last
  after : ∀ e ∈ oq.drop (idx + 1), e.pos = e.beg
  idx_le : idx ≤ oq.length
  cov : Cov (pieces oq) cs
  ids : (cs.map (·.id)).Nodup

/-- bytes of the queue already written -/
def written (oq : List Ent) : Nat := (oq.map fun e => e.pos - e.beg).sum

structure Inv (Q : Tagged) (s : St F) : Prop where
  q : QInv (Q.drop s.ackBase) s.outq s.chunks s.outqIdx
  base : s.ackBase ≤ Q.length
  fresh : ∀ c ∈ s.chunks, c.id < s.nextId
  tx : s.txOffset = Q.length
  lim : Q.length ≤ 2 ^ 62 - 1
  sent : s.unsent + (s.ackBase + written s.outq) = Q.length
  ack0 : s.ackBase ≤ s.ackOffset
  ack1 : s.ackOffset ≤ s.ackBase + written s.outq
  ackHead : ∀ e, s.outq.head? = some e → s.ackOffset ≤ s.ackBase + (e.last - e.beg)

theorem inv_init : Inv ([] : Tagged) ({} : St F) :=
  ⟨⟨rfl, by simp, by simp, by simp, by simp, by simp, rfl, by simp⟩, by simp, by simp, rfl, by simp, rfl, by simp, by simp, by simp⟩

theorem written_append (a b : List Ent) : written (a ++ b) = written a + written b := by
  unfold written; rw [List.map_append, List.sum_append]

theorem content_length {cs : List Chunk} {oq : List Ent} (h : ∀ e ∈ oq, e.Live cs) :
    ((oq.map (Ent.tag cs)).flatten).length = (oq.map fun e => e.last - e.beg).sum := by
  induction oq with
  | nil => rfl
  | cons e t ih =>
    simp only [List.map_cons, List.flatten_cons, List.length_append, List.sum_cons]
    rw [ih (fun x hx => h x (List.mem_cons_of_mem _ hx)), tag_length cs e (h e List.mem_cons_self)]

/-- change of memory -/
theorem content_ext {cs cs' : List Chunk} (hx : Ext cs cs') {oq : List Ent} (h : ∀ e ∈ oq, e.Live cs) :
    (oq.map (Ent.tag cs')).flatten = (oq.map (Ent.tag cs)).flatten ∧ ∀ e ∈ oq, e.Live cs' := by
  constructor
  · congr 1
    exact List.map_congr_left fun e he => (live_ext hx (h e he)).2
  · exact fun e he => (live_ext hx (h e he)).1

/-- a new buffer at the end -/
theorem qinv_push {T : Tagged} {oq : List Ent} {cs cs' : List Chunk} {idx : Nat} (h : QInv T oq cs idx) (hx : Ext cs cs') (t : Ent)
    (hl : t.Live cs') (hb : t.beg ≤ t.last) (hp : t.pos = t.beg) (hcov : Cov (pieces (oq ++ [t])) cs') (hid : (cs'.map (·.id)).Nodup) :
    QInv (T ++ t.tag cs') (oq ++ [t]) cs' idx := by
  obtain ⟨hc1, hc2⟩ := content_ext hx h.live
  refine ⟨?_, ?_, ?_, ?_, ?_, ?_, hcov, hid⟩
  · rw [List.map_append, List.flatten_append, hc1, h.content]; simp
  · intro e he
    rcases List.mem_append.1 he with he | he
    · exact h.wf e he
    · rw [List.mem_singleton.1 he]; omega
  · intro e he
    rcases List.mem_append.1 he with he | he
    · exact hc2 e he
    · rw [List.mem_singleton.1 he]; exact hl
  · intro e he
    rw [List.take_append_of_le_length h.idx_le] at he
    exact h.before e he
  · intro e he
    rcases List.mem_append.1 (by rw [List.drop_append] at he; exact he) with he | he
    · exact h.after e he
    · have := List.mem_of_mem_drop he
      rw [List.mem_singleton.1 this]; exact hp
  · rw [List.length_append]; have := h.idx_le; omega

/-- outqAdd without merging -/
theorem outqAdd_push (s : St F) (t : Ent) (hm : ∀ d, s.outq.getLast? = some d → mergeable d t = false) :
    outqAdd s t = if t.len > MAX_VARINT - s.txOffset then .overflow
      else .ok { s with txOffset := s.txOffset + t.len, unsent := s.unsent + t.len, outq := s.outq ++ [t] } := by
  unfold outqAdd
  split_ifs with h
  · rfl
  · dsimp only
    cases hl : s.outq.getLast? with
    | none => rfl
    | some d =>
      dsimp only
      rw [hm d hl]
      rfl

/-- queueing a buffer of its own -/
theorem inv_own {Q : Tagged} {s : St F} (h : Inv Q s) (t : Ent) (bs : Bytes) (b : Bool)
    (ht : t = (if b then alienEnt bs else privEnt bs)) :
    (outqAdd s t = .overflow) ∨ ∃ s', outqAdd s t = .ok s' ∧ Inv (Q ++ tags b bs) s' ∧ s'.frq = s.frq ∧ s'.endStream = s.endStream ∧
      s'.readBlocked = s.readBlocked ∧ s'.ackOffset = s.ackOffset ∧ s'.ackBase + written s'.outq = s.ackBase + written s.outq := by
  have hsrc : ∀ id, t.src ≠ .shared id := by intro id; rw [ht]; cases b <;> simp [alienEnt, privEnt]
  rw [outqAdd_push s t (by
    intro d _
    unfold mergeable
    cases hd : d.src with
    | priv => rfl
    | alien => rfl
    | shared i =>
      cases hs : t.src with
      | priv => rfl
      | alien => rfl
      | shared j => exact absurd hs (hsrc j))]
  have hbeg : t.beg = 0 ∧ t.pos = 0 ∧ t.last = bs.length := by rw [ht]; cases b <;> simp [alienEnt, privEnt]
  have hlen : t.len = bs.length := by unfold Ent.len; omega
  have hreg : t.region s.chunks = some bs := by rw [ht]; cases b <;> rfl
  have hal : t.isAlien = b := by rw [ht]; cases b <;> rfl
  have htag : t.tag s.chunks = tags b bs := by
    unfold Ent.tag; rw [hreg, hal, hbeg.1, hbeg.2.2]; simp [slice]
  split_ifs with hov
  · exact Or.inl rfl
  · right
    refine ⟨_, rfl, ?_, rfl, rfl, rfl, rfl, ?_⟩
    · have hp : pieces (s.outq ++ [t]) = pieces s.outq := by
        rw [pieces_append]
        have : pieces [t] = [] := by
          unfold pieces
          cases hs : t.src with
          | priv => rfl
          | alien => rfl
          | shared j => exact absurd hs (hsrc j)
        rw [this, List.append_nil]
      have hq := qinv_push h.q (Ext.refl _) t ⟨bs, hreg, by omega⟩ (by omega) (by omega) (by rw [hp]; exact h.q.cov) h.q.ids
      rw [htag] at hq
      have hw : written (s.outq ++ [t]) = written s.outq := by
        rw [written_append]; unfold written; simp; omega
      have hbase := h.base
      have hsent := h.sent
      refine ⟨?_, ?_, h.fresh, ?_, ?_, ?_, h.ack0, ?_, ?_⟩
      · dsimp only; rw [List.drop_append_of_le_length h.base]; exact hq
      · dsimp only; rw [List.length_append]; omega
      · dsimp only; rw [h.tx, List.length_append, hlen]; unfold tags; simp
      · have hl0 := h.tx; have hl1 := h.lim; rw [hlen] at hov; unfold MAX_VARINT at hov; rw [List.length_append]; unfold tags; rw [List.length_map]; omega
      · dsimp only; rw [hw, List.length_append, hlen]; unfold tags; simp; omega
      · dsimp only; rw [hw]; exact h.ack1
      · dsimp only
        intro e he
        cases ho : s.outq with
        | nil =>
          rw [ho] at he
          have h1 := h.ack1
          rw [ho] at h1
          simp only [written, List.map_nil, List.sum_nil] at h1
          omega
        | cons a l =>
          rw [ho] at he
          simp only [List.cons_append, List.head?_cons, Option.some.injEq] at he
          exact h.ackHead e (by rw [ho, ← he]; rfl)
    · dsimp only
      rw [written_append]; unfold written; simp; omega

theorem ext_append {cs : List Chunk} {c : Chunk} {bs : Bytes} (hn : ((cs ++ [c]).map (·.id)).Nodup) :
    Ext (cs ++ [c]) (cs ++ [{ c with data := c.data ++ bs }]) := by
  have hc : c.id ∉ cs.map (·.id) := by
    rw [List.map_append] at hn
    intro h
    exact (List.nodup_append.1 hn).2.2 _ h c.id (by simp) rfl
  intro id r hr
  by_cases he : id = c.id
  · subst he
    rw [mem_append_eq cs c hc] at hr
    cases hr
    exact ⟨bs, mem_append_eq cs { c with data := c.data ++ bs } hc⟩
  · rw [mem_append_ne _ _ _ he] at hr
    refine ⟨[], ?_⟩
    rw [mem_append_ne _ _ _ (by exact he), hr, List.append_nil]

theorem ext_new {cs : List Chunk} {c : Chunk} (hc : c.id ∉ cs.map (·.id)) : Ext cs (cs ++ [c]) := by
  intro id r hr
  have he : id ≠ c.id := by
    intro e
    rw [e, mem_none _ _ hc] at hr
    cases hr
  exact ⟨[], by rw [mem_append_ne _ _ _ he, hr, List.append_nil]⟩

/-- a write into a chunk -/
theorem inv_shared {Q : Tagged} {s : St F} (h : Inv Q s) (need : Nat) (bs : Bytes) (hb : bs ≠ []) (hn : bs.length ≤ need) :
    (sharedWrite s need bs = .overflow) ∨ ∃ s', sharedWrite s need bs = .ok s' ∧ Inv (Q ++ tags false bs) s' ∧ s'.frq = s.frq ∧
      s'.endStream = s.endStream ∧ s'.readBlocked = s.readBlocked ∧ s'.ackOffset = s.ackOffset ∧
      s'.ackBase + written s'.outq = s.ackBase + written s.outq := by
  have hpos : 0 < bs.length := List.length_pos_iff.2 hb
  have hbase := h.base
  have hsent := h.sent
  -- the chunk written to, and its state before
  have key : ∀ (s1 : St F) (cs : List Chunk) (c : Chunk), s1.chunks = cs ++ [c] → c.data.length + bs.length ≤ c.cap →
      s1.frq = s.frq → s1.outq = s.outq → s1.outqIdx = s.outqIdx → s1.unsent = s.unsent → s1.txOffset = s.txOffset → s1.ackBase = s.ackBase →
      s1.ackOffset = s.ackOffset → s1.endStream = s.endStream → s1.readBlocked = s.readBlocked →
      ((cs ++ [c]).map (·.id)).Nodup → (∀ d ∈ cs ++ [c], d.id < s1.nextId) →
      Ext s.chunks (cs ++ [c]) →
      (Cov (pieces s.outq) (cs ++ [c]) ∨ (c.data = [] ∧ s.chunks = cs)) →
      let r : R (St F) := (appendChunk s1.chunks bs).bind fun r =>
        outqAdd { s1 with chunks := r.1 } ⟨.shared r.2.1, r.2.2, r.2.2, r.2.2 + bs.length⟩
      (r = .overflow) ∨ ∃ s', r = .ok s' ∧ Inv (Q ++ tags false bs) s' ∧ s'.frq = s.frq ∧
        s'.endStream = s.endStream ∧ s'.readBlocked = s.readBlocked ∧ s'.ackOffset = s.ackOffset ∧
        s'.ackBase + written s'.outq = s.ackBase + written s.outq := by
    intro s1 cs c e1 hcap e2 e3 e4 e5 e6 e7 e8 e9 e10 hnd hfr hext hcov r
    have hr : r = outqAdd { s1 with chunks := cs ++ [{ c with data := c.data ++ bs }] }
        ⟨.shared c.id, c.data.length, c.data.length, c.data.length + bs.length⟩ := by
      show (appendChunk s1.chunks bs).bind _ = _
      rw [e1, appendChunk_eq cs c bs hcap]
      rfl
    rw [hr]
    have hcnot : c.id ∉ cs.map (·.id) := by
      intro hm
      rw [List.map_append] at hnd
      exact (List.nodup_append.1 hnd).2.2 _ hm c.id (by simp) rfl
    set c' : Chunk := { c with data := c.data ++ bs } with hc'
    have hnd' : ((cs ++ [c']).map (·.id)).Nodup := by
      have : (cs ++ [c']).map (·.id) = (cs ++ [c]).map (·.id) := by simp [hc']
      rw [this]; exact hnd
    have hfr' : ∀ d ∈ cs ++ [c'], d.id < s1.nextId := by
      intro d hd
      rcases List.mem_append.1 hd with hd | hd
      · exact hfr d (List.mem_append_left _ hd)
      · rw [List.mem_singleton.1 hd]; exact hfr c (by simp)
    have hext' : Ext s.chunks (cs ++ [c']) := by
      intro id r0 h0
      obtain ⟨b1, h1⟩ := hext id r0 h0
      obtain ⟨b2, h2⟩ := ext_append (bs := bs) hnd id _ h1
      exact ⟨b1 ++ b2, by rw [h2, List.append_assoc]⟩
    have hmem : mem (cs ++ [c']) c.id = some (c.data ++ bs) := mem_append_eq cs c' hcnot
    set t : Ent := ⟨.shared c.id, c.data.length, c.data.length, c.data.length + bs.length⟩ with ht
    have htl : t.Live (cs ++ [c']) := ⟨c.data ++ bs, hmem, by rw [List.length_append]⟩
    have htag : t.tag (cs ++ [c']) = tags false bs := by
      unfold Ent.tag
      have : t.region (cs ++ [c']) = some (c.data ++ bs) := hmem
      rw [this]
      show tags false (slice (c.data ++ bs) c.data.length (c.data.length + bs.length)) = _
      unfold slice; simp
    have hlen : t.len = bs.length := by unfold Ent.len; rw [ht]; dsimp only; omega
    by_cases hmg : ∃ oq d, s.outq = oq ++ [d] ∧ d.src = .shared c.id ∧ d.last = c.data.length
    · -- merged with the last buffer
      obtain ⟨oq, d, ho, hd1, hd2⟩ := hmg
      have hcov1 : Cov (pieces oq ++ [(c.id, c.data.length)]) (cs ++ [c]) := by
        rcases hcov with hcov | ⟨_, hcs⟩
        · rw [ho, pieces_append] at hcov
          have : pieces [d] = [(c.id, c.data.length)] := by unfold pieces; rw [hd1]; simp [pieces, hd2]
          rw [this] at hcov
          exact hcov
        · exfalso
          have := cov_mem h.q.cov (c.id, c.data.length) (by
            rw [ho, pieces_append]
            have : pieces [d] = [(c.id, c.data.length)] := by unfold pieces; rw [hd1]; simp [pieces, hd2]
            rw [this]; simp)
          rw [hcs] at this
          exact hcnot this
      obtain ⟨nidx, hnidx⟩ : ∃ n, n = (if s.outq.length = s.outqIdx then s.outqIdx - 1 else s.outqIdx) := ⟨_, rfl⟩
      have hadd : outqAdd { s1 with chunks := cs ++ [c'] } t = if t.len > MAX_VARINT - s.txOffset then .overflow
          else .ok { s1 with chunks := cs ++ [c'], txOffset := s.txOffset + t.len, unsent := s.unsent + t.len,
                             outq := oq ++ [{ d with last := t.last }], outqIdx := nidx } := by
        have hgl : s1.outq.getLast? = some d := by rw [e3, ho]; simp
        have hsame : mergeable d t = true := by
          unfold mergeable
          rw [hd1]
          show ((c.id == c.id) && d.last == c.data.length) = true
          rw [hd2]; simp
        unfold outqAdd
        dsimp only
        by_cases hov : t.len > MAX_VARINT - s.txOffset
        · rw [e6, if_pos hov, if_pos hov]
        · rw [e6, if_neg hov, if_neg hov, hgl]
          dsimp only
          rw [if_pos hsame, hnidx, e3, e4, e5]
          simp only [ho, List.dropLast_concat]
      rw [hadd]
      split_ifs with hov
      · exact Or.inl rfl
      · right
        have hdw := h.q.wf d (by rw [ho]; simp)
        have hdl : d.Live s.chunks := h.q.live d (by rw [ho]; simp)
        have hlive' := content_ext hext' h.q.live
        have hd' : ({ d with last := t.last } : Ent).Live (cs ++ [c']) := by
          refine ⟨c.data ++ bs, ?_, ?_⟩
          · unfold Ent.region; rw [hd1]; exact hmem
          · show c.data.length + bs.length ≤ _; rw [List.length_append]
        have hreg : d.region (cs ++ [c']) = some (c.data ++ bs) := by unfold Ent.region; rw [hd1]; exact hmem
        have htagd : ({ d with last := t.last } : Ent).tag (cs ++ [c']) = d.tag (cs ++ [c']) ++ tags false bs := by
          unfold Ent.tag
          have : ({ d with last := t.last } : Ent).region (cs ++ [c']) = some (c.data ++ bs) := hreg
          rw [this, hreg]
          have hal : ({ d with last := t.last } : Ent).isAlien = false := by unfold Ent.isAlien; dsimp only; rw [hd1]
          have hal' : d.isAlien = false := by unfold Ent.isAlien; rw [hd1]
          rw [hal, hal']
          unfold tags
          rw [← List.map_append]
          congr 1
          simp only [Option.getD_some]
          rw [hd2]
          unfold slice
          show List.take (c.data.length + bs.length - d.beg) _ = _
          have hle : d.beg ≤ c.data.length := by omega
          rw [List.drop_append_of_le_length hle]
          rw [List.take_of_length_le (by rw [List.length_append, List.length_drop]; omega)]
          rw [List.take_append_of_le_length (by rw [List.length_drop]), List.take_of_length_le (by rw [List.length_drop])]
        refine ⟨_, rfl, ?_, e2, e9, e10, e8, ?_⟩
        · have hw : written (oq ++ [{ d with last := t.last }]) = written s.outq := by
            rw [ho, written_append, written_append]; rfl
          refine ⟨⟨?_, ?_, ?_, ?_, ?_, ?_, ?_, hnd'⟩, ?_, hfr', ?_, ?_, ?_, ?_, ?_, ?_⟩
          · dsimp only
            rw [e7, List.drop_append_of_le_length h.base, ← h.q.content, ← hlive'.1, ho]
            simp only [List.map_append, List.flatten_append, List.map_cons, List.map_nil, List.flatten_cons, List.flatten_nil, List.append_nil]
            rw [htagd, List.append_assoc]
          · intro e he
            rcases List.mem_append.1 he with he | he
            · exact h.q.wf e (by rw [ho]; exact List.mem_append_left _ he)
            · rw [List.mem_singleton.1 he]
              show d.beg ≤ d.pos ∧ d.pos ≤ c.data.length + bs.length
              omega
          · intro e he
            rcases List.mem_append.1 he with he | he
            · exact hlive'.2 e (by rw [ho]; exact List.mem_append_left _ he)
            · rw [List.mem_singleton.1 he]; exact hd'
          · intro e he
            have hidx := h.q.idx_le
            have hbef := h.q.before
            dsimp only at he
            rw [hnidx] at he
            rw [ho] at hidx hbef he
            rw [List.length_append] at hidx he
            simp only [List.length_singleton] at hidx he
            split_ifs at he with hz
            · rw [List.take_append_of_le_length (by omega)] at he
              exact hbef e (by
                rw [← hz, List.take_of_length_le (by simp)]
                exact List.mem_append_left _ (List.mem_of_mem_take he))
            · rw [List.take_append_of_le_length (by omega)] at he
              exact hbef e (by rw [List.take_append_of_le_length (by omega)]; exact he)
          · intro e he
            have hidx := h.q.idx_le
            have haft := h.q.after
            dsimp only at he
            rw [hnidx] at he
            rw [ho] at hidx haft he
            rw [List.length_append] at hidx he
            simp only [List.length_singleton] at hidx he
            split_ifs at he with hz
            · rw [List.drop_of_length_le (by simp; omega)] at he
              cases he
            · rw [List.drop_append] at he
              rcases List.mem_append.1 he with he | he
              · exact haft e (by rw [List.drop_append]; exact List.mem_append_left _ he)
              · by_cases hz2 : s.outqIdx + 1 - oq.length = 0
                · rw [hz2, List.drop_zero] at he
                  rw [List.mem_singleton.1 he]
                  exact haft d (by rw [List.drop_append, hz2]; simp)
                · rw [List.drop_of_length_le (by simp; omega)] at he
                  cases he
          · have hidx := h.q.idx_le
            rw [ho] at hidx
            dsimp only
            rw [hnidx, ho]
            rw [List.length_append] at hidx
            rw [List.length_append, List.length_append]
            simp only [List.length_singleton] at hidx ⊢
            split_ifs <;> omega
          · dsimp only
            rw [pieces_append]
            have : pieces [({ d with last := t.last } : Ent)] = [(c.id, c.data.length + bs.length)] := by
              unfold pieces; dsimp only; rw [hd1]; simp [pieces, ht]
            rw [this]
            exact cov_merge hcov1
          · dsimp only; rw [e7, List.length_append]; omega
          · dsimp only; rw [h.tx, List.length_append, hlen]; unfold tags; simp
          · have hl0 := h.tx; have hl1 := h.lim; rw [hlen] at hov; unfold MAX_VARINT at hov; rw [List.length_append]; unfold tags; rw [List.length_map]; omega
          · dsimp only; rw [hw, e7, List.length_append, hlen]; unfold tags; simp; omega
          · dsimp only; rw [e7, e8]; exact h.ack0
          · dsimp only; rw [hw, e7, e8]; exact h.ack1
          · dsimp only
            intro e he
            rw [e7, e8]
            cases hoq : oq with
            | nil =>
              rw [hoq] at he
              simp only [List.nil_append, List.head?_cons, Option.some.injEq] at he
              have := h.ackHead d (by rw [ho, hoq]; rfl)
              rw [← he]
              show s.ackOffset ≤ s.ackBase + (c.data.length + bs.length - d.beg)
              omega
            | cons a l =>
              rw [hoq] at he
              simp only [List.cons_append, List.head?_cons, Option.some.injEq] at he
              exact h.ackHead e (by rw [ho, hoq, ← he]; rfl)
        · dsimp only
          rw [e7, ho, written_append, written_append]; rfl
    · -- a new buffer
      have hno : ∀ d, s1.outq.getLast? = some d → mergeable d t = false := by
        intro d hd
        rw [e3] at hd
        obtain ⟨oq, ho⟩ := List.getLast?_eq_some_iff.1 hd
        rw [Bool.eq_false_iff]
        intro hc
        apply hmg
        refine ⟨oq, d, ho, ?_⟩
        unfold mergeable at hc
        cases hs : d.src with
        | priv => rw [hs] at hc; simp at hc
        | alien => rw [hs] at hc; simp at hc
        | shared i =>
          rw [hs] at hc
          have hc' : ((i == c.id) && d.last == c.data.length) = true := hc
          simp only [Bool.and_eq_true, beq_iff_eq] at hc'
          rw [hc'.1, hc'.2]
          exact ⟨rfl, rfl⟩
      rw [outqAdd_push { s1 with chunks := cs ++ [c'] } t hno]
      dsimp only
      rw [e6]
      split_ifs with hov
      · exact Or.inl rfl
      · right
        refine ⟨_, rfl, ?_, e2, e9, e10, e8, ?_⟩
        · have hpc : pieces (s.outq ++ [t]) = pieces s.outq ++ [(c.id, c.data.length + bs.length)] := by
            rw [pieces_append]; rfl
          have hcov' : Cov (pieces (s.outq ++ [t])) (cs ++ [c']) := by
            rw [hpc]
            rcases hcov with hcov | ⟨hd0, hcs⟩
            · exact cov_grow hcov hb
            · have := cov_new (c := c') h.q.cov
              rw [hcs] at this
              have hl' : c'.data.length = c.data.length + bs.length := by rw [hc']; simp
              rw [hl'] at this
              exact this
          have hq := qinv_push h.q hext' t htl (by rw [ht]; dsimp only; omega) rfl hcov' hnd'
          rw [htag] at hq
          have hw : written (s.outq ++ [t]) = written s.outq := by
            rw [written_append]; unfold written; simp [ht]
          refine ⟨?_, ?_, hfr', ?_, ?_, ?_, ?_, ?_, ?_⟩
          · dsimp only; rw [e3, e4, e7, List.drop_append_of_le_length h.base]; exact hq
          · dsimp only; rw [e7, List.length_append]; omega
          · dsimp only; rw [h.tx, List.length_append, hlen]; unfold tags; simp
          · have hl0 := h.tx; have hl1 := h.lim; rw [hlen] at hov; unfold MAX_VARINT at hov; rw [List.length_append]; unfold tags; rw [List.length_map]; omega
          · dsimp only; rw [e3, e5, hw, e7, List.length_append, hlen]; unfold tags; simp; omega
          · dsimp only; rw [e7, e8]; exact h.ack0
          · dsimp only; rw [e3, hw, e7, e8]; exact h.ack1
          · dsimp only
            intro e he
            rw [e7, e8]
            rw [e3] at he
            cases ho : s.outq with
            | nil =>
              have h1 := h.ack1
              rw [ho] at h1
              simp only [written, List.map_nil, List.sum_nil] at h1
              omega
            | cons a l =>
              rw [ho] at he
              simp only [List.cons_append, List.head?_cons, Option.some.injEq] at he
              exact h.ackHead e (by rw [ho, ← he]; rfl)
        · dsimp only
          rw [e3, e7, written_append]; unfold written; simp [ht]
  have hgrow : bs.length ≤ growTo need need MIN_CHUNK_SIZE := by
    have := growTo_ge need need MIN_CHUNK_SIZE (by decide) (by omega)
    omega
  have hnew : ∀ (s1 : St F), s1 = { s with chunks := s.chunks ++ [⟨s.nextId, growTo need need MIN_CHUNK_SIZE, []⟩], nextId := s.nextId + 1 } →
      s.nextId ∉ s.chunks.map (·.id) := by
    intro s1 _ hm
    obtain ⟨d, hd1, hd2⟩ := List.mem_map.1 hm
    have := h.fresh d hd1
    omega
  unfold sharedWrite ensureChunk
  dsimp only
  cases hl : s.chunks.getLast? with
  | none =>
    dsimp only
    have hni := hnew _ rfl
    refine key { s with chunks := s.chunks ++ [⟨s.nextId, growTo need need MIN_CHUNK_SIZE, []⟩], nextId := s.nextId + 1 } s.chunks ⟨s.nextId, growTo need need MIN_CHUNK_SIZE, []⟩ rfl (by simpa using hgrow) rfl rfl rfl rfl rfl rfl rfl rfl rfl ?_ ?_
      (ext_new hni) (Or.inr ⟨rfl, rfl⟩)
    · rw [List.map_append, List.nodup_append]
      refine ⟨h.q.ids, by simp, ?_⟩
      intro a ha b hb'
      simp only [List.map_cons, List.map_nil, List.mem_singleton] at hb'
      rw [hb']; intro e; exact hni (e ▸ ha)
    · intro d hd
      rcases List.mem_append.1 hd with hd | hd
      · have := h.fresh d hd; dsimp only; omega
      · rw [List.mem_singleton.1 hd]; dsimp only; omega
  | some c =>
    dsimp only
    obtain ⟨cs, hcs⟩ := List.getLast?_eq_some_iff.1 hl
    split_ifs with hroom
    · refine key s cs c hcs (by omega) rfl rfl rfl rfl rfl rfl rfl rfl rfl (by rw [← hcs]; exact h.q.ids) (by rw [← hcs]; exact h.fresh)
        (by rw [hcs]; exact Ext.refl _) (Or.inl (by rw [← hcs]; exact h.q.cov))
    · have hni := hnew _ rfl
      refine key { s with chunks := s.chunks ++ [⟨s.nextId, growTo need need MIN_CHUNK_SIZE, []⟩], nextId := s.nextId + 1 } s.chunks ⟨s.nextId, growTo need need MIN_CHUNK_SIZE, []⟩ rfl (by simpa using hgrow) rfl rfl rfl rfl rfl rfl rfl rfl rfl ?_ ?_
        (ext_new hni) (Or.inr ⟨rfl, rfl⟩)
      · rw [List.map_append, List.nodup_append]
        refine ⟨h.q.ids, by simp, ?_⟩
        intro a ha b hb'
        simp only [List.map_cons, List.map_nil, List.mem_singleton] at hb'
        rw [hb']; intro e; exact hni (e ▸ ha)
      · intro d hd
        rcases List.mem_append.1 hd with hd | hd
        · have := h.fresh d hd; dsimp only; omega
        · rw [List.mem_singleton.1 hd]; dsimp only; omega

end Outq
end Nghttp3
