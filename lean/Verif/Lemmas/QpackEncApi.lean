import Verif.Lemmas.QpackEnc
import Mathlib.Data.List.Nodup
import Mathlib.Data.List.Perm.Subperm
/-! Invariant of the QPACK encoder between API calls. -/
namespace Nghttp3
namespace Qpack

/-- what the encoder maintains between API calls -/
structure EInv (e : Enc) : Prop where
  ctx : CtxB e.ctx
  hsz : e.ctx.size ≤ e.ctx.hardMax
  ids : (e.streams.map Prod.fst).Nodup
  ne : ∀ s ∈ e.streams, s.2 ≠ []
  refs : ∀ s ∈ e.streams, ∀ r ∈ s.2, e.ctx.oldest < r.min ∧ r.min ≤ r.max ∧ r.max ≤ e.ctx.next
  mins : e.minCnts.Perm (e.streams.flatMap fun s => s.2.map Ref.min)
  bnd : e.blocked.Nodup
  blk : ∀ m i, (m, i) ∈ e.blocked ↔ ∃ refs, (i, refs) ∈ e.streams ∧ m = maxCnt refs ∧ e.krcnt < m
  kr : e.krcnt ≤ e.ctx.next
  cap : if e.pending then e.minUpd = some e.ctx.maxCap ∧ e.ctx.maxCap ≤ e.lastUpd ∧ e.lastUpd ≤ e.ctx.hardMax
    else e.minUpd = none ∧ e.ctx.size ≤ e.ctx.maxCap

theorem EInv.init (hardMax : Nat) : EInv (Enc.init hardMax) :=
  ⟨(CtxOk.init hardMax 0).toCtxB, Nat.zero_le _, by simp [Enc.init], by simp [Enc.init], by simp [Enc.init],
    by simp [Enc.init], by simp [Enc.init], by simp [Enc.init], Nat.zero_le _, by simp [Enc.init]⟩

/-! ### The stream map -/

theorem find_iff {e : Enc} (hn : (e.streams.map Prod.fst).Nodup) (id : Nat) (refs : List Ref) :
    e.find id = some refs ↔ (id, refs) ∈ e.streams := by
  unfold Enc.find
  revert hn
  generalize e.streams = l
  induction l with
  | nil => simp
  | cons s t ih =>
    intro hn
    simp only [List.map_cons, List.nodup_cons] at hn
    rw [List.find?_cons]
    by_cases hs : s.1 = id
    · have : (s.1 == id) = true := by simpa using hs
      rw [this]
      constructor
      · intro h; cases h; subst hs; exact List.mem_cons_self ..
      · intro h
        rcases List.mem_cons.1 h with h | h
        · rw [← h]; rfl
        · exfalso; apply hn.1; rw [hs]; exact List.mem_map_of_mem (f := Prod.fst) h
    · have : (s.1 == id) = false := by simpa using hs
      rw [this]
      dsimp only
      rw [ih hn.2]
      constructor
      · exact List.mem_cons_of_mem _
      · intro h
        rcases List.mem_cons.1 h with h | h
        · rw [← h] at hs; exact absurd rfl hs
        · exact h

theorem find_none {e : Enc} (hn : (e.streams.map Prod.fst).Nodup) (id : Nat) :
    e.find id = none ↔ ∀ refs, (id, refs) ∉ e.streams := by
  constructor
  · intro h refs hm
    rw [(find_iff hn id refs).2 hm] at h; cases h
  · intro h
    rcases hf : e.find id with _ | refs
    · rfl
    · exact absurd ((find_iff hn id refs).1 hf) (h refs)

theorem mem_ids {l : List (Nat × List Ref)} {id : Nat} : id ∈ l.map Prod.fst ↔ ∃ r, (id, r) ∈ l := by
  constructor
  · intro h
    obtain ⟨⟨a, r⟩, h1, h2⟩ := List.mem_map.1 h
    cases h2
    exact ⟨r, h1⟩
  · rintro ⟨r, h⟩
    exact List.mem_map_of_mem (f := Prod.fst) h

theorem delStream_eq {l : List (Nat × List Ref)} {id : Nat} (h : ∀ r, (id, r) ∉ l) : delStream id l = l := by
  unfold delStream
  rw [List.filter_eq_self]
  rintro ⟨a, r⟩ hm
  simp
  rintro rfl
  exact h r hm

theorem putStream_eq {l : List (Nat × List Ref)} {id : Nat} {refs : List Ref} (h : ∀ r, (id, r) ∉ l) : putStream id refs l = l := by
  unfold putStream
  conv => rhs; rw [← List.map_id l]
  apply List.map_congr_left
  rintro ⟨a, r⟩ hm
  rw [if_neg]; · rfl
  rintro rfl
  exact h r hm

/-- the map as the stream and the rest -/
theorem split_stream {l : List (Nat × List Ref)} (hn : (l.map Prod.fst).Nodup) {id : Nat} {refs : List Ref} (h : (id, refs) ∈ l) :
    l.Perm ((id, refs) :: delStream id l) ∧ ∀ refs', (putStream id refs' l).Perm ((id, refs') :: delStream id l) := by
  induction l with
  | nil => simp at h
  | cons s t ih =>
    simp only [List.map_cons, List.nodup_cons] at hn
    rcases List.mem_cons.1 h with h | h
    · subst h
      have hno : ∀ r, (id, r) ∉ t := fun r hr => hn.1 (mem_ids.2 ⟨r, hr⟩)
      have h1 : delStream id ((id, refs) :: t) = t := by
        have := delStream_eq hno
        simpa [delStream] using this
      refine ⟨by rw [h1], fun refs' => ?_⟩
      rw [h1]
      have := putStream_eq (refs := refs') hno
      have hc : putStream id refs' ((id, refs) :: t) = (id, refs') :: putStream id refs' t := by simp [putStream]
      rw [hc, this]
    · have hne : s.1 ≠ id := by
        rintro rfl
        exact hn.1 (mem_ids.2 ⟨refs, h⟩)
      obtain ⟨i1, i2⟩ := ih hn.2 h
      have hd : delStream id (s :: t) = s :: delStream id t := by simp [delStream, hne]
      rw [hd]
      refine ⟨(List.Perm.cons s i1).trans (List.Perm.swap ..), fun refs' => ?_⟩
      have hp : putStream id refs' (s :: t) = s :: putStream id refs' t := by simp [putStream, hne]
      rw [hp]
      exact (List.Perm.cons s (i2 refs')).trans (List.Perm.swap ..)

theorem mem_delStream {l : List (Nat × List Ref)} {id i : Nat} {r : List Ref} : (i, r) ∈ delStream id l ↔ (i, r) ∈ l ∧ i ≠ id := by
  simp [delStream, List.mem_filter]

theorem mem_putStream {l : List (Nat × List Ref)} (hn : (l.map Prod.fst).Nodup) {id i : Nat} {refs r refs' : List Ref} (h : (id, refs) ∈ l) :
    (i, r) ∈ putStream id refs' l ↔ (i = id ∧ r = refs') ∨ (i ≠ id ∧ (i, r) ∈ l) := by
  rw [((split_stream hn h).2 refs').mem_iff, List.mem_cons, mem_delStream]
  constructor
  · rintro (h | h)
    · cases h; exact Or.inl ⟨rfl, rfl⟩
    · exact Or.inr ⟨h.2, h.1⟩
  · rintro (⟨rfl, rfl⟩ | h)
    · exact Or.inl rfl
    · exact Or.inr ⟨h.2, h.1⟩

theorem ids_delStream {l : List (Nat × List Ref)} (hn : (l.map Prod.fst).Nodup) (id : Nat) : ((delStream id l).map Prod.fst).Nodup :=
  hn.sublist (List.Sublist.map _ List.filter_sublist)

theorem ids_putStream {l : List (Nat × List Ref)} (hn : (l.map Prod.fst).Nodup) (id : Nat) (refs : List Ref) :
    ((putStream id refs l).map Prod.fst).Nodup := by
  have : (putStream id refs l).map Prod.fst = l.map Prod.fst := by
    unfold putStream
    rw [List.map_map]
    apply List.map_congr_left
    rintro ⟨a, r⟩ _
    simp only [Function.comp]
    split_ifs with h
    · exact h.symm
    · rfl
  rw [this]; exact hn

theorem stream_unique {l : List (Nat × List Ref)} (hn : (l.map Prod.fst).Nodup) {id : Nat} {r r' : List Ref}
    (h1 : (id, r) ∈ l) (h2 : (id, r') ∈ l) : r = r' := by
  have hp := (split_stream hn h1).1
  rw [hp.mem_iff, List.mem_cons, mem_delStream] at h2
  rcases h2 with h2 | h2
  · cases h2; rfl
  · exact absurd rfl h2.2

theorem maxCnt_append (refs : List Ref) (r : Ref) : maxCnt (refs ++ [r]) = max (maxCnt refs) r.max := by
  unfold maxCnt
  induction refs with
  | nil => simp
  | cons a t ih =>
    simp only [List.map_cons, List.foldr_cons, List.cons_append] at *
    rw [ih]
    change max _ (max _ _) = max (max _ _) _
    rw [Nat.max_assoc]

theorem maxCnt_cons (r : Ref) (refs : List Ref) : maxCnt (r :: refs) = max r.max (maxCnt refs) := rfl

theorem maxCnt_le {refs : List Ref} {n : Nat} : maxCnt refs ≤ n ↔ ∀ r ∈ refs, r.max ≤ n := by
  induction refs with
  | nil => simp [maxCnt]
  | cons a t ih => rw [maxCnt_cons, Nat.max_le, ih]; simp

theorem lt_maxCnt {refs : List Ref} {n : Nat} : n < maxCnt refs ↔ ∃ r ∈ refs, n < r.max := by
  rw [← Nat.not_le, maxCnt_le]
  push Not
  rfl

/-! ### Capacity changes -/

theorem EInv.setMaxCap {e : Enc} (h : EInv e) (n : Nat) : EInv (e.setMaxCap n) := by
  have hc := h.cap
  unfold Enc.setMaxCap
  dsimp only
  by_cases h1 : e.ctx.maxCap = min n e.ctx.hardMax
  · rw [if_pos h1]; exact h
  rw [if_neg h1]
  have hn : min n e.ctx.hardMax ≤ e.ctx.hardMax := Nat.min_le_right _ _
  generalize min n e.ctx.hardMax = k at h1 hn ⊢
  have hctx : CtxB { e.ctx with maxCap := k } := ⟨h.ctx.size, hn, h.ctx.idx, h.ctx.len, h.ctx.tok, h.ctx.sums⟩
  have hset : EInv { e with pending := true, minUpd := some k, ctx := { e.ctx with maxCap := k }, lastUpd := k } := by
    refine ⟨hctx, h.hsz, h.ids, h.ne, h.refs, h.mins, h.bnd, h.blk, h.kr, ?_⟩
    simp [hn]
  cases hmu : e.minUpd with
  | none => simpa [hmu] using hset
  | some m =>
    dsimp only
    by_cases hlt : k < m
    · simpa [hmu, hlt] using hset
    · simp only [hlt, decide_false, Bool.false_eq_true, if_false]
      refine ⟨h.ctx, h.hsz, h.ids, h.ne, h.refs, h.mins, h.bnd, h.blk, h.kr, ?_⟩
      rw [if_pos rfl]
      split_ifs at hc with hp
      · rw [hmu] at hc
        have : m = e.ctx.maxCap := by have := hc.1; injection this
        exact ⟨by dsimp only; rw [this], by dsimp only; omega, hn⟩
      · rw [hmu] at hc; simp at hc

theorem EInv.setMaxBlocked {e : Enc} (h : EInv e) (n : Nat) : EInv (e.setMaxBlocked n) :=
  ⟨⟨h.ctx.size, h.ctx.hard, h.ctx.idx, h.ctx.len, h.ctx.tok, h.ctx.sums⟩, h.hsz, h.ids, h.ne, h.refs, h.mins, h.bnd, h.blk,
    h.kr, h.cap⟩

theorem shrinkOld_spec (cap : Nat) (mc : Option Nat) (l : List Ent) :
    ∃ k ≤ l.length, shrinkOld cap mc l (spaces l) = some (l.drop k, spaces (l.drop k)) ∧
      (spaces (l.drop k) ≤ cap ∨ ∃ x t, l.drop k = x :: t ∧ some (x.absidx + 1) = mc) ∧
      ∀ j < k, cap < spaces (l.drop j) ∧ ∀ x, l[j]? = some x → some (x.absidx + 1) ≠ mc := by
  induction l with
  | nil => exact ⟨0, Nat.le_refl _, by simp [shrinkOld], by simp, by simp⟩
  | cons x t ih =>
    by_cases h1 : spaces (x :: t) ≤ cap
    · exact ⟨0, Nat.zero_le _, by simp only [shrinkOld, if_pos h1, List.drop_zero], Or.inl h1, by simp⟩
    · by_cases h2 : some (x.absidx + 1) = mc
      · exact ⟨0, Nat.zero_le _, by simp only [shrinkOld, if_neg h1, if_pos h2, List.drop_zero], Or.inr ⟨x, t, rfl, h2⟩, by simp⟩
      · obtain ⟨k, hk, he, hor, hj⟩ := ih
        refine ⟨k + 1, by simp; omega, ?_, by simpa using hor, ?_⟩
        · simp only [shrinkOld, if_neg h1, if_neg h2, List.drop_succ_cons]
          rw [show spaces (x :: t) - x.space = spaces t by simp]
          exact he
        · intro j hjk
          cases j with
          | zero => exact ⟨by simpa using h1, fun y hy => by simp at hy; subst hy; exact h2⟩
          | succ j => simpa using hj j (by omega)

theorem CtxB.takeB {c : Ctx} (h : CtxB c) (n : Nat) : CtxB { c with ents := c.ents.take n, size := spaces (c.ents.take n) } where
  size := rfl
  hard := h.hard
  idx := by
    intro i e he
    rw [List.getElem?_take] at he
    split_ifs at he
    exact h.idx i e he
  len := by have := h.len; simp; omega
  tok := fun e he => h.tok e (List.mem_of_mem_take he)
  sums := by
    intro i e he
    rw [List.getElem?_take] at he
    split_ifs at he
    have := h.sums i e he
    simp only [List.take_take]
    rw [Nat.min_eq_left (by omega)]
    exact this

theorem minCnts_range {e : Enc} (h : EInv e) {m : Nat} (hm : m ∈ e.minCnts) : e.ctx.oldest < m ∧ m ≤ e.ctx.next := by
  rw [h.mins.mem_iff] at hm
  simp only [List.mem_flatMap, List.mem_map] at hm
  obtain ⟨s, hs, r, hr, rfl⟩ := hm
  have := h.refs s hs r hr
  omega

theorem ref_min_mem {e : Enc} (h : EInv e) {s : Nat × List Ref} (hs : s ∈ e.streams) {r : Ref} (hr : r ∈ s.2) : r.min ∈ e.minCnts := by
  rw [h.mins.mem_iff]
  simp only [List.mem_flatMap, List.mem_map]
  exact ⟨s, hs, r, hr, rfl⟩

/-- nghttp3_qpack_encoder_shrink_dtable: entries are dropped at the old end, never one that is referred to, until the size
fits or the oldest entry is referred to -/
theorem shrink_ok {e : Enc} (h : EInv e) :
    ∃ n ≤ e.ctx.ents.length,
      e.shrink = some { e with ctx := { e.ctx with ents := e.ctx.ents.take n, size := spaces (e.ctx.ents.take n) } } ∧
      (∀ m ∈ e.minCnts, e.ctx.next - n < m) ∧
      (e.ctx.maxCap < spaces (e.ctx.ents.take n) → ∃ m ∈ e.minCnts, m = e.ctx.next - n + 1) ∧
      (∀ j, n < j → j ≤ e.ctx.ents.length → e.ctx.maxCap < spaces (e.ctx.ents.take j)) := by
  obtain ⟨k, hk, he, hor, hj⟩ := shrinkOld_spec e.ctx.maxCap e.minCnts.min? e.ctx.ents.reverse
  simp only [List.length_reverse] at hk
  rw [spaces_reverse] at he
  have hlen := h.ctx.len
  have hdrop : spaces (e.ctx.ents.reverse.drop k) = spaces (e.ctx.ents.take (e.ctx.ents.length - k)) := by
    rw [← reverse_drop_reverse, spaces_reverse]
  refine ⟨e.ctx.ents.length - k, by omega, ?_, ?_, ?_, ?_⟩
  · unfold Enc.shrink
    rw [h.ctx.size, he]
    dsimp only
    rw [hdrop, reverse_drop_reverse]
  · intro m hm
    have hr := minCnts_range h hm
    rcases hmin : e.minCnts.min? with _ | m0
    · rw [minCnts_none hmin] at hm; simp at hm
    obtain ⟨h0, h1⟩ := minCnts_min hmin
    have hr0 := minCnts_range h h0
    have := h1 m hm
    by_contra hcon
    -- the entry `m0 - 1` would have been dropped
    have hold : e.ctx.oldest + e.ctx.ents.length = e.ctx.next := by unfold Ctx.oldest; omega
    have hjk : m0 - 1 - e.ctx.oldest < k := by omega
    have hlt : e.ctx.next - m0 < e.ctx.ents.length := by omega
    have hx := (hj _ hjk).2 (e.ctx.ents[e.ctx.next - m0]'hlt) (by
      rw [List.getElem?_reverse (by omega), List.getElem?_eq_some_iff]
      exact ⟨by omega, by congr 1; omega⟩)
    rw [hmin] at hx
    apply hx
    have := h.ctx.idx _ _ (List.getElem?_eq_getElem hlt)
    congr 1
    omega
  · intro hbig
    rcases hor with hor | ⟨x, t, hx, hmc⟩
    · rw [hdrop] at hor; omega
    · obtain ⟨h0, h1⟩ := minCnts_min hmc.symm
      refine ⟨_, h0, ?_⟩
      have hlt : 0 < (e.ctx.ents.reverse.drop k).length := by rw [hx]; simp
      simp only [List.length_drop, List.length_reverse] at hlt
      have hg : e.ctx.ents[e.ctx.ents.length - 1 - k]? = some x := by
        rw [← List.getElem?_reverse (by omega)]
        have : (e.ctx.ents.reverse.drop k)[0]? = some x := by rw [hx]; rfl
        rw [List.getElem?_drop] at this
        simpa using this
      have := h.ctx.idx _ _ hg
      omega
  · intro j h1 h2
    have := (hj (e.ctx.ents.length - j) (by omega)).1
    rw [← spaces_reverse, reverse_drop_reverse] at this
    rwa [show e.ctx.ents.length - (e.ctx.ents.length - j) = j by omega] at this

/-- what nghttp3_qpack_encoder_process_dtable_update does to the capacity -/
structure UpdPost (e e' : Enc) (upd : List EIns) : Prop where
  inv : EInv e'
  nv : NvInv e' 0 none
  ext : Ext e.ctx e'.ctx
  next : e'.ctx.next = e.ctx.next
  hard : e'.ctx.hardMax = e.ctx.hardMax
  lim : e'.ctx.maxBlocked = e.ctx.maxBlocked
  str : e'.streams = e.streams ∧ e'.minCnts = e.minCnts ∧ e'.krcnt = e.krcnt ∧ e'.blocked = e.blocked
  rd : e'.reading = e.reading ∧ e'.dop = e.dop ∧ e'.rs = e.rs
  ents : ∃ n ≤ e.ctx.ents.length, e'.ctx.ents = e.ctx.ents.take n ∧
    (∀ j, n < j → j ≤ e.ctx.ents.length → e.ctx.maxCap < spaces (e.ctx.ents.take j)) ∧
    ((upd = [] ∧ e'.ctx.maxCap = e.ctx.maxCap ∧ e'.pending = e.pending ∧ e'.minUpd = e.minUpd ∧ e'.lastUpd = e.lastUpd ∧
        (e.pending = false ∨ (e.ctx.maxCap < spaces (e.ctx.ents.take n) ∧ ∃ m ∈ e.minCnts, m = e.ctx.next - n + 1))) ∨
      (e.pending = true ∧ spaces (e.ctx.ents.take n) ≤ e.ctx.maxCap ∧ e'.pending = false ∧ e'.ctx.maxCap = e.lastUpd ∧
        upd = (if e.ctx.maxCap < e.lastUpd then [EIns.setCap e.ctx.maxCap] else []) ++ [EIns.setCap e.lastUpd]))

theorem processUpdate_ok {e : Enc} (h : EInv e) : ∃ e' upd, e.processUpdate = some (e', upd) ∧ UpdPost e e' upd := by
  obtain ⟨n, hn, he, hp, hfull, hmax⟩ := shrink_ok h
  have hlen := h.ctx.len
  have hcap := h.cap
  have hctx := h.ctx.takeB n
  have hext := ext_take h.ctx n e.ctx.maxCap (spaces (e.ctx.ents.take n)) hn
  have hsz : spaces (e.ctx.ents.take n) ≤ e.ctx.hardMax := by
    have := spaces_take_le e.ctx.ents n
    have := h.hsz
    have := h.ctx.size
    omega
  have hold : ({ e.ctx with ents := e.ctx.ents.take n, size := spaces (e.ctx.ents.take n) } : Ctx).oldest = e.ctx.next - n := hext.2
  have hrefs : ∀ s ∈ e.streams, ∀ r ∈ s.2,
      ({ e.ctx with ents := e.ctx.ents.take n, size := spaces (e.ctx.ents.take n) } : Ctx).oldest < r.min ∧
      r.min ≤ r.max ∧ r.max ≤ e.ctx.next := by
    intro s hs r hr
    have := h.refs s hs r hr
    rw [hold]
    exact ⟨hp _ (ref_min_mem h hs hr), this.2⟩
  unfold Enc.processUpdate
  rw [he]
  dsimp only
  by_cases hb : e.ctx.maxCap < spaces (e.ctx.ents.take n) ∨ e.pending = false
  · rw [if_pos hb]
    refine ⟨_, _, rfl, ?_⟩
    have hinv : EInv { e with ctx := { e.ctx with ents := e.ctx.ents.take n, size := spaces (e.ctx.ents.take n) } } := by
      refine ⟨hctx, hsz, h.ids, h.ne, hrefs, h.mins, h.bnd, h.blk, h.kr, ?_⟩
      dsimp only
      split_ifs at hcap ⊢ with hpd
      · exact hcap
      · refine ⟨hcap.1, ?_⟩
        have := spaces_take_le e.ctx.ents n
        have := h.ctx.size
        omega
    refine ⟨hinv, ⟨hctx, ?_, by simp, by simp, ?_, hsz⟩, hext.1, rfl, rfl, rfl, ⟨rfl, rfl, rfl, rfl⟩, ⟨rfl, rfl, rfl⟩, n, hn, rfl, hmax,
      Or.inl ⟨rfl, rfl, rfl, rfl, rfl, ?_⟩⟩
    · intro m hm; exact minCnts_range hinv hm
    · intro hbig
      obtain ⟨m, h1, h2⟩ := hfull hbig
      exact ⟨m, h1, by rw [h2, hold]⟩
    · rcases hb with hb | hb
      · exact Or.inr ⟨hb, hfull hb⟩
      · exact Or.inl hb
  · rw [if_neg hb]
    push Not at hb
    have hpd : e.pending = true := by cases hq : e.pending <;> simp_all
    rw [if_pos hpd] at hcap
    refine ⟨_, _, rfl, ?_⟩
    have hctx' : CtxB { e.ctx with ents := e.ctx.ents.take n, size := spaces (e.ctx.ents.take n), maxCap := e.lastUpd } :=
      ⟨hctx.size, hcap.2.2, hctx.idx, hctx.len, hctx.tok, hctx.sums⟩
    have hinv : EInv { e with pending := false, minUpd := none, ctx := { e.ctx with ents := e.ctx.ents.take n, size := spaces (e.ctx.ents.take n), maxCap := e.lastUpd } } := by
      refine ⟨hctx', hsz, h.ids, h.ne, hrefs, h.mins, h.bnd, h.blk, h.kr, ?_⟩
      rw [if_neg (by simp)]
      exact ⟨rfl, by dsimp only; omega⟩
    refine ⟨hinv, ⟨hctx', ?_, by simp, by simp, ?_, hsz⟩, (ext_take h.ctx n _ _ hn).1, rfl, rfl, rfl, ⟨rfl, rfl, rfl, rfl⟩, ⟨rfl, rfl, rfl⟩,
      n, hn, rfl, hmax, Or.inr ⟨hpd, hb.1, rfl, rfl, ?_⟩⟩
    · intro m hm; exact minCnts_range hinv hm
    · intro hbig; dsimp only at hbig; omega
    · rw [hcap.1]

/-! ### References -/

theorem NvInv.to_inv {e e' : Enc} {mx : Nat} {mn : Option Nat} (h : EInv e) (hx : Ext e.ctx e'.ctx) (hi : NvInv e' mx mn)
    (hs : e'.streams = e.streams) (hm : e'.minCnts = e.minCnts) (hk : e'.krcnt = e.krcnt) (hb : e'.blocked = e.blocked)
    (hcap : if e'.pending then e'.minUpd = some e'.ctx.maxCap ∧ e'.ctx.maxCap ≤ e'.lastUpd ∧ e'.lastUpd ≤ e'.ctx.hardMax
      else e'.minUpd = none ∧ e'.ctx.size ≤ e'.ctx.maxCap) : EInv e' := by
  refine ⟨hi.ctx, hi.hsz, hs ▸ h.ids, hs ▸ h.ne, ?_, by rw [hm, hs]; exact h.mins, hb ▸ h.bnd, ?_, ?_, hcap⟩
  · rw [hs]
    intro s hs' r hr
    have h1 := h.refs s hs' r hr
    have h2 := hi.prot r.min (by rw [hm]; exact ref_min_mem h hs' hr)
    have := hx.next
    omega
  · intro m i; rw [hb, hs, hk]; exact h.blk m i
  · rw [hk]; have := h.kr; have := hx.next; omega

/-- adding a reference to a stream that is in the map -/
theorem pushRef_ok {e : Enc} {id : Nat} {refs : List Ref} {r : Ref} (hctx : CtxB e.ctx) (hsz : e.ctx.size ≤ e.ctx.hardMax)
    (hids : (e.streams.map Prod.fst).Nodup)
    (hne : ∀ s ∈ e.streams, s.1 ≠ id → s.2 ≠ [])
    (hrefs : ∀ s ∈ e.streams, ∀ r ∈ s.2, e.ctx.oldest < r.min ∧ r.min ≤ r.max ∧ r.max ≤ e.ctx.next)
    (hmins : e.minCnts.Perm (e.streams.flatMap fun s => s.2.map Ref.min))
    (hbnd : e.blocked.Nodup)
    (hblk : ∀ m i, (m, i) ∈ e.blocked ↔ ∃ refs, (i, refs) ∈ e.streams ∧ m = maxCnt refs ∧ e.krcnt < m ∧ (i = id → r.max ≤ m))
    (hkr : e.krcnt ≤ e.ctx.next)
    (hcap : if e.pending then e.minUpd = some e.ctx.maxCap ∧ e.ctx.maxCap ≤ e.lastUpd ∧ e.lastUpd ≤ e.ctx.hardMax
      else e.minUpd = none ∧ e.ctx.size ≤ e.ctx.maxCap)
    (hmem : (id, refs) ∈ e.streams) (hr : e.ctx.oldest < r.min ∧ r.min ≤ r.max ∧ r.max ≤ e.ctx.next) :
    ∃ e', e.pushRef id refs (maxCnt refs) r = some e' ∧ EInv e' ∧ e'.streams = putStream id (refs ++ [r]) e.streams ∧
      e'.ctx = e.ctx ∧ e'.krcnt = e.krcnt ∧
      e' = { e with streams := e'.streams, minCnts := e'.minCnts, blocked := e'.blocked } ∧
      e'.blocked = (if maxCnt refs < r.max ∧ e.krcnt < r.max then (r.max, id) :: e.blocked else e.blocked) := by
  have hmx := maxCnt_append refs r
  have hsplit := split_stream hids hmem
  have hmins' : (r.min :: e.minCnts).Perm ((putStream id (refs ++ [r]) e.streams).flatMap fun s => s.2.map Ref.min) := by
    have h1 := (hsplit.2 (refs ++ [r])).flatMap_right (fun s => s.2.map Ref.min)
    have h2 := hsplit.1.flatMap_right (fun s => s.2.map Ref.min)
    refine List.Perm.trans ?_ h1.symm
    refine (List.Perm.cons _ (hmins.trans h2)).trans ?_
    simp only [List.flatMap_cons, List.map_append, List.map_cons, List.map_nil, List.append_assoc, List.singleton_append]
    exact List.perm_middle.symm
  have hne' : ∀ s ∈ putStream id (refs ++ [r]) e.streams, s.2 ≠ [] := by
    rintro ⟨i, rr⟩ hs
    rcases (mem_putStream hids hmem).1 hs with ⟨_, rfl⟩ | ⟨h1, h2⟩
    · simp
    · exact hne _ h2 h1
  have hrefs' : ∀ s ∈ putStream id (refs ++ [r]) e.streams, ∀ q ∈ s.2, e.ctx.oldest < q.min ∧ q.min ≤ q.max ∧ q.max ≤ e.ctx.next := by
    rintro ⟨i, rr⟩ hs q hq
    rcases (mem_putStream hids hmem).1 hs with ⟨_, rfl⟩ | ⟨h1, h2⟩
    · rcases List.mem_append.1 hq with hq | hq
      · exact hrefs _ hmem q hq
      · simp at hq; subst hq; exact hr
    · exact hrefs _ h2 q hq
  unfold Enc.pushRef
  dsimp only
  rw [hmx]
  by_cases hb : maxCnt refs < r.max ∧ e.krcnt < max (maxCnt refs) r.max
  · have hmax : max (maxCnt refs) r.max = r.max := by omega
    rw [if_pos hb, hmax]
    have hnot : (r.max, id) ∉ e.blocked := by
      intro hm
      obtain ⟨refs', h1, h2, h3, h4⟩ := (hblk _ _).1 hm
      have := stream_unique hids h1 hmem
      subst this
      omega
    rw [if_neg hnot]
    refine ⟨_, rfl, ?_, rfl, rfl, rfl, rfl, ?_⟩
    · refine ⟨hctx, hsz, ids_putStream hids _ _, hne', hrefs', hmins', List.nodup_cons.2 ⟨hnot, hbnd⟩, ?_, hkr, hcap⟩
      intro m i
      dsimp only
      rw [List.mem_cons, hblk]
      constructor
      · rintro (h1 | ⟨refs', h1, h2, h3, h4⟩)
        · injection h1 with h1 h2
          subst h1 h2
          exact ⟨_, (mem_putStream hids hmem).2 (Or.inl ⟨rfl, rfl⟩), by rw [hmx, hmax], by omega⟩
        · by_cases hi : i = id
          · subst hi
            have := stream_unique hids h1 hmem
            subst this
            have := h4 rfl
            omega
          · exact ⟨_, (mem_putStream hids hmem).2 (Or.inr ⟨hi, h1⟩), h2, h3⟩
      · rintro ⟨refs', h1, h2, h3⟩
        rcases (mem_putStream hids hmem).1 h1 with ⟨rfl, rfl⟩ | ⟨g1, g2⟩
        · left; rw [h2, hmx, hmax]
        · right; exact ⟨refs', g2, h2, h3, fun hi => absurd hi g1⟩
    · rw [if_pos ⟨hb.1, by omega⟩]
  · rw [if_neg hb]
    refine ⟨_, rfl, ?_, rfl, rfl, rfl, rfl, ?_⟩
    · refine ⟨hctx, hsz, ids_putStream hids _ _, hne', hrefs', hmins', hbnd, ?_, hkr, hcap⟩
      intro m i
      dsimp only
      rw [hblk]
      constructor
      · rintro ⟨refs', h1, h2, h3, h4⟩
        by_cases hi : i = id
        · subst hi
          have := stream_unique hids h1 hmem
          subst this
          have := h4 rfl
          exact ⟨_, (mem_putStream hids hmem).2 (Or.inl ⟨rfl, rfl⟩), by rw [hmx]; omega, by omega⟩
        · exact ⟨_, (mem_putStream hids hmem).2 (Or.inr ⟨hi, h1⟩), h2, h3⟩
      · rintro ⟨refs', h1, h2, h3⟩
        rcases (mem_putStream hids hmem).1 h1 with ⟨rfl, rfl⟩ | ⟨g1, g2⟩
        · rw [hmx] at h2
          exact ⟨refs, hmem, by omega, by omega, fun _ => by omega⟩
        · exact ⟨refs', g2, h2, h3, fun hi => absurd hi g1⟩
    · rw [if_neg (by omega)]

theorem find_put {e e' : Enc} (hn : (e.streams.map Prod.fst).Nodup) {id : Nat} {refs refs' : List Ref} (hm : (id, refs) ∈ e.streams)
    (he : e'.streams = putStream id refs' e.streams) (i : Nat) : e'.find i = if i = id then some refs' else e.find i := by
  have hn' : (e'.streams.map Prod.fst).Nodup := by rw [he]; exact ids_putStream hn _ _
  apply Option.ext
  intro r
  rw [find_iff hn', he, mem_putStream hn hm]
  split_ifs with hi
  · subst hi; simp [eq_comm]
  · rw [find_iff hn]; simp [hi]

theorem find_del {e e' : Enc} (hn : (e.streams.map Prod.fst).Nodup) {id : Nat}
    (he : e'.streams = delStream id e.streams) (i : Nat) : e'.find i = if i = id then none else e.find i := by
  have hn' : (e'.streams.map Prod.fst).Nodup := by rw [he]; exact ids_delStream hn _
  apply Option.ext
  intro r
  rw [find_iff hn', he, mem_delStream]
  split_ifs with hi
  · subst hi; simp
  · rw [find_iff hn]; simp [hi]

theorem find_cons {e e' : Enc} {id : Nat} {refs : List Ref} (he : e'.streams = (id, refs) :: e.streams) (i : Nat) :
    e'.find i = if i = id then some refs else e.find i := by
  unfold Enc.find
  rw [he, List.find?_cons]
  by_cases hi : i = id
  · subst hi; simp
  · rw [if_neg hi]
    have : ((id, refs).1 == i) = false := by simp [Ne.symm hi]
    rw [this]

theorem addStreamRef_ok {e : Enc} (h : EInv e) (id mx mn : Nat) (hr : e.ctx.oldest < mn ∧ mn ≤ mx ∧ mx ≤ e.ctx.next) :
    ∃ e', e.addStreamRef id mx (some mn) = some e' ∧ EInv e' ∧
      e' = { e with streams := e'.streams, minCnts := e'.minCnts, blocked := e'.blocked } ∧
      (∀ i, e'.find i = if i = id then some ((e.find id).getD [] ++ [⟨mx, mn⟩]) else e.find i) ∧
      e'.blocked.length = (if e.krcnt < mx ∧ maxCnt ((e.find id).getD []) ≤ e.krcnt then e.blocked.length + 1 else e.blocked.length) := by
  unfold Enc.addStreamRef
  dsimp only
  rcases hf : e.find id with _ | refs
  · have hno := (find_none h.ids id).1 hf
    obtain ⟨e', h1, h2, h3, h4, h5, h6, h7⟩ := pushRef_ok (e := { e with streams := (id, []) :: e.streams }) (id := id) (refs := [])
      (r := ⟨mx, mn⟩) h.ctx h.hsz
      (by simp only [List.map_cons, List.nodup_cons]; exact ⟨fun hm => by obtain ⟨r, hr⟩ := mem_ids.1 hm; exact hno r hr, h.ids⟩)
      (by
        intro s hs hi
        rcases List.mem_cons.1 hs with rfl | hs
        · exact absurd rfl hi
        · exact h.ne s hs)
      (by
        intro s hs
        rcases List.mem_cons.1 hs with rfl | hs
        · simp
        · exact h.refs s hs)
      (by simpa using h.mins) h.bnd
      (by
        intro m i
        rw [h.blk]
        constructor
        · rintro ⟨refs, g1, g2, g3⟩
          exact ⟨refs, List.mem_cons_of_mem _ g1, g2, g3, fun hi => absurd (hi ▸ g1) (hno refs)⟩
        · rintro ⟨refs, g1, g2, g3, _⟩
          rcases List.mem_cons.1 g1 with g1 | g1
          · injection g1 with g1 g1'
            subst g1'
            simp [maxCnt] at g2
            dsimp only at g3
            omega
          · exact ⟨refs, g1, g2, g3⟩)
      h.kr h.cap (List.mem_cons_self ..) hr
    refine ⟨e', h1, h2, ?_, ?_, ?_⟩
    · exact h6
    · intro i
      have := find_put (e := { e with streams := (id, []) :: e.streams }) (e' := e') (id := id) (refs := []) (refs' := [⟨mx, mn⟩])
        (by simp only [List.map_cons, List.nodup_cons]; exact ⟨fun hm => by obtain ⟨r, hr⟩ := mem_ids.1 hm; exact hno r hr, h.ids⟩)
        (List.mem_cons_self ..) h3 i
      rw [this]
      split_ifs with hi
      · rfl
      · rw [find_cons rfl, if_neg hi]
    · rw [h7]
      have h0 : maxCnt ([] : List Ref) = 0 := rfl
      have e1 : maxCnt ((none : Option (List Ref)).getD []) = 0 := rfl
      rw [h0, e1]
      by_cases hb : e.krcnt < mx
      · rw [if_pos ⟨by dsimp only; omega, hb⟩, if_pos ⟨hb, Nat.zero_le _⟩]; rfl
      · rw [if_neg (by dsimp only; omega), if_neg (by omega)]
  · have hmem := (find_iff h.ids id refs).1 hf
    dsimp only
    by_cases hb : e.krcnt < maxCnt refs ∧ maxCnt refs < mx
    · rw [if_pos hb]
      have hin : (maxCnt refs, id) ∈ e.blocked := (h.blk _ _).2 ⟨refs, hmem, rfl, hb.1⟩
      unfold Enc.unblockStream
      rw [if_pos hin]
      dsimp only
      obtain ⟨e', h1, h2, h3, h4, h5, h6, h7⟩ := pushRef_ok (e := { e with blocked := e.blocked.erase (maxCnt refs, id) }) (id := id)
        (refs := refs) (r := ⟨mx, mn⟩) h.ctx h.hsz h.ids (fun s hs _ => h.ne s hs) h.refs h.mins (h.bnd.erase _)
        (by
          intro m i
          dsimp only
          rw [h.bnd.mem_erase_iff, h.blk]
          constructor
          · rintro ⟨g0, refs', g1, g2, g3⟩
            refine ⟨refs', g1, g2, g3, fun hi => ?_⟩
            subst hi
            have := stream_unique h.ids g1 hmem
            subst this
            exact absurd (by rw [g2]) g0
          · rintro ⟨refs', g1, g2, g3, g4⟩
            refine ⟨fun hc => ?_, refs', g1, g2, g3⟩
            injection hc with hc1 hc2
            subst hc2
            have := g4 rfl
            omega)
        h.kr h.cap hmem hr
      refine ⟨e', h1, h2, h6, ?_, ?_⟩
      · intro i
        rw [find_put (e := { e with blocked := e.blocked.erase (maxCnt refs, id) }) h.ids hmem h3 i]
        rfl
      · rw [h7]
        dsimp only
        rw [if_pos ⟨hb.2, by omega⟩]
        have h0 : maxCnt ((some refs).getD []) = maxCnt refs := rfl
        rw [h0, if_neg (by omega)]
        rw [List.length_cons, List.length_erase_of_mem hin]
        have := List.length_pos_of_mem hin
        omega
    · rw [if_neg hb]
      obtain ⟨e', h1, h2, h3, h4, h5, h6, h7⟩ := pushRef_ok (e := e) (id := id)
        (refs := refs) (r := ⟨mx, mn⟩) h.ctx h.hsz h.ids (fun s hs _ => h.ne s hs) h.refs h.mins h.bnd
        (by
          intro m i
          rw [h.blk]
          constructor
          · rintro ⟨refs', g1, g2, g3⟩
            refine ⟨refs', g1, g2, g3, fun hi => ?_⟩
            subst hi
            have := stream_unique h.ids g1 hmem
            subst this
            dsimp only
            omega
          · rintro ⟨refs', g1, g2, g3, _⟩
            exact ⟨refs', g1, g2, g3⟩)
        h.kr h.cap hmem hr
      refine ⟨e', h1, h2, h6, ?_, ?_⟩
      · intro i
        rw [find_put h.ids hmem h3 i]
        rfl
      · rw [h7]
        have h0 : maxCnt ((some refs).getD []) = maxCnt refs := rfl
        rw [h0]
        dsimp only
        by_cases hq : e.krcnt < mx ∧ maxCnt refs ≤ e.krcnt
        · rw [if_pos hq, if_pos (by omega)]; rfl
        · rw [if_neg hq, if_neg (by omega)]

/-! ### Encoding a field section -/

/-- what a field section refers to and denotes -/
structure SecOk (c : Ctx) (ricnt : Nat) (reps : List Rep) (nvs : List Nv) : Prop where
  den : List.Forall₂ (fun rep nv => rep.denotes c nv) reps nvs
  refs : ∀ rep ∈ reps, ∀ a ∈ rep.refs, a < ricnt
  tight : ricnt ≠ 0 → ∃ rep ∈ reps, ∃ a ∈ rep.refs, a + 1 = ricnt

structure EncPost (e : Enc) (id : Nat) (nvs : List Nv) (o : EncOut) : Prop where
  inv : EInv o.e
  ext : Ext e.ctx o.e.ctx
  kr : o.e.krcnt = e.krcnt
  sec : SecOk o.e.ctx o.ricnt o.reps nvs
  base : o.base = e.ctx.next
  ric : o.ricnt ≤ o.e.ctx.next
  hard : o.e.ctx.hardMax = e.ctx.hardMax ∧ o.e.ctx.maxBlocked = e.ctx.maxBlocked
  rd : o.e.reading = e.reading ∧ o.e.dop = e.dop ∧ o.e.rs = e.rs
  find0 : o.ricnt = 0 → ∀ i, o.e.find i = e.find i
  find : o.ricnt ≠ 0 → ∃ m, (∀ rep ∈ o.reps, ∀ a ∈ rep.refs, m ≤ a + 1) ∧
    ∀ i, o.e.find i = if i = id then some ((e.find id).getD [] ++ [⟨o.ricnt, m⟩]) else e.find i
  blk : o.e.blocked.length ≤ max e.blocked.length e.ctx.maxBlocked
  pfx : prefixBytes e.ctx.hardMax o.ricnt o.base = some o.pfx
  upd : ∃ e1 upd ins, UpdPost e e1 upd ∧ o.ins = upd ++ ins ∧ InsRun (AmongNvs nvs) e1.ctx ins o.e.ctx ∧ o.e.ctx.maxCap = e1.ctx.maxCap ∧
    o.e.pending = e1.pending ∧ o.e.minUpd = e1.minUpd ∧ o.e.lastUpd = e1.lastUpd
  src : ∀ x ∈ o.e.ctx.ents, x ∈ e.ctx.ents ∨ ∃ nv ∈ nvs, nv.indexable ∧ x.name = nv.name ∧ x.value = nv.value

theorem spaces_mem {l : List Ent} {x : Ent} (h : x ∈ l) : x.space ≤ spaces l := by
  induction l with
  | nil => simp at h
  | cons a t ih =>
    rw [spaces_cons]
    rcases List.mem_cons.1 h with rfl | h
    · omega
    · have := ih h; omega

theorem InsRun.cap {P : Bytes → Bytes → Prop} {c c' : Ctx} {l : List EIns} (h : InsRun P c l c') : c.size ≤ c.maxCap → c'.size ≤ c'.maxCap := by
  induction h with
  | nil => exact fun h => h
  | cons _ _ _ _ _ _ g4 _ _ ih => exact fun _ => ih g4.cap

theorem encode_ok {e : Enc} (h : EInv e) (id : Nat) (nvs : List Nv) : ∃ o, e.encode id nvs = some o ∧ EncPost e id nvs o := by
  obtain ⟨e1, upd, hu, hp⟩ := processUpdate_ok h
  obtain ⟨r, hr, hq⟩ := encodeNvs_ok (e1.allowBlocking id) nvs hp.nv
  have hcap : if r.e.pending then r.e.minUpd = some r.e.ctx.maxCap ∧ r.e.ctx.maxCap ≤ r.e.lastUpd ∧ r.e.lastUpd ≤ r.e.ctx.hardMax
      else r.e.minUpd = none ∧ r.e.ctx.size ≤ r.e.ctx.maxCap := by
    have h1 := hp.inv.cap
    have h2 := hq.frame
    have h3 := hq.cfg
    rw [h2]
    dsimp only
    rw [h3.1, h3.2.1]
    split_ifs at h1 ⊢ with hpd
    · exact h1
    · refine ⟨h1.1, ?_⟩
      have := hq.run.cap h1.2
      omega
  have hinv1 : EInv r.e := NvInv.to_inv hp.inv hq.ext hq.inv (by rw [hq.frame]) (by rw [hq.frame]) (by rw [hq.frame]) (by rw [hq.frame]) hcap
  have hinv : EInv { r.e with uninterrupted := 0 } :=
    ⟨hinv1.ctx, hinv1.hsz, hinv1.ids, hinv1.ne, hinv1.refs, hinv1.mins, hinv1.bnd, hinv1.blk, hinv1.kr, hinv1.cap⟩
  have hstr : r.e.streams = e.streams := by rw [hq.frame]; exact hp.str.1
  have hblk : r.e.blocked = e.blocked := by rw [hq.frame]; exact hp.str.2.2.2
  have hkr : r.e.krcnt = e.krcnt := by rw [hq.frame]; exact hp.str.2.2.1
  have hfind : ∀ i, r.e.find i = e.find i := by intro i; unfold Enc.find; rw [hstr]
  have hrd : r.e.reading = e.reading ∧ r.e.dop = e.dop ∧ r.e.rs = e.rs := by
    rw [hq.frame]; exact hp.rd
  have hsec : SecOk r.e.ctx r.max r.reps nvs := by
    refine ⟨hq.den, ?_, ?_⟩
    · intro rep hrep a ha
      obtain ⟨m, _, _, h3⟩ := hq.refs rep hrep a ha
      omega
    · intro h0
      rcases hq.tight with h1 | h1
      · exact absurd h1 h0
      · exact h1
  have hhard : r.e.ctx.hardMax = e.ctx.hardMax ∧ r.e.ctx.maxBlocked = e.ctx.maxBlocked :=
    ⟨hq.cfg.2.1.trans hp.hard, hq.cfg.2.2.trans hp.lim⟩
  have hupd : ∃ e1 u ins, UpdPost e e1 u ∧ upd ++ r.ins = u ++ ins ∧ InsRun (AmongNvs nvs) e1.ctx ins r.e.ctx ∧ r.e.ctx.maxCap = e1.ctx.maxCap ∧
      r.e.pending = e1.pending ∧ r.e.minUpd = e1.minUpd ∧ r.e.lastUpd = e1.lastUpd :=
    ⟨e1, upd, r.ins, hp, rfl, hq.run, hq.cfg.1, by rw [hq.frame], by rw [hq.frame], by rw [hq.frame]⟩
  have hsrc : ∀ x ∈ r.e.ctx.ents, x ∈ e.ctx.ents ∨ ∃ nv ∈ nvs, nv.indexable ∧ x.name = nv.name ∧ x.value = nv.value := by
    intro x hx
    rcases hq.src x hx with h1 | h1
    · obtain ⟨n, _, hn, _⟩ := hp.ents
      rw [hn] at h1
      exact Or.inl (List.mem_of_mem_take h1)
    · exact Or.inr h1
  have hmax : r.max ≠ 0 → ∃ m, r.min = some m ∧ r.e.ctx.oldest < m ∧ m ≤ r.max ∧ r.max ≤ r.e.ctx.next := by
    intro h0
    rcases hmin : r.min with _ | m
    · exact absurd (hq.inv.zero hmin) h0
    · exact ⟨m, rfl, hq.inv.loc m hmin⟩
  have hpfx : ∃ pfx, prefixBytes e1.ctx.hardMax r.max e1.ctx.next = some pfx := by
    unfold prefixBytes
    dsimp only
    rw [if_neg]
    · exact ⟨_, rfl⟩
    · rintro ⟨h0, h1⟩
      obtain ⟨m, _, h2, h3, h4⟩ := hmax h0
      obtain ⟨x, _, _, hx⟩ := hinv1.ctx.get_some (a := m - 1) (by omega) (by omega)
      have hs := spaces_mem hx
      have h5 := hinv1.hsz
      have h6 := hinv1.ctx.size
      have h7 : 32 ≤ x.space := by unfold Ent.space tableSpace; omega
      rw [hhard.1, ← hp.hard] at h5
      omega
  obtain ⟨pfx, hpfx⟩ := hpfx
  unfold Enc.encode
  rw [hu]
  dsimp only
  rw [hr]
  dsimp only
  rw [hpfx]
  dsimp only
  by_cases h0 : r.max = 0
  · rw [if_pos h0]
    refine ⟨_, rfl, ⟨hinv, hp.ext.trans hq.ext, hkr, hsec, hp.next, ?_, hhard, hrd, fun _ => hfind, fun h1 => absurd h0 h1, ?_, ?_, hupd, hsrc⟩⟩
    · dsimp only; omega
    · dsimp only; rw [hblk]; omega
    · dsimp only; rw [← hp.hard]; exact hpfx
  · rw [if_neg h0]
    obtain ⟨m, hm, hrange⟩ := hmax h0
    obtain ⟨e', h1, h2, h3, h4, h5⟩ := addStreamRef_ok hinv id r.max m hrange
    rw [hm, h1]
    refine ⟨_, rfl, ⟨h2, ?_, ?_, ?_, hp.next, ?_, ?_, ?_, fun h1 => absurd h1 h0, fun _ => ⟨m, ?_, ?_⟩, ?_, ?_, ?_, ?_⟩⟩
    · rw [h3]; exact hp.ext.trans hq.ext
    · rw [h3]; exact hkr
    · rw [h3]; exact hsec
    · rw [h3]; exact hrange.2.2
    · rw [h3]; exact hhard
    · rw [h3]; exact hrd
    · intro rep hrep a ha
      obtain ⟨m', g1, g2, _⟩ := hq.refs rep hrep a ha
      rw [hm] at g1
      cases g1
      exact g2
    · intro i
      have := h4 i
      rw [this]
      have e1 : ({ r.e with uninterrupted := 0 } : Enc).find i = e.find i := hfind i
      have e2 : ({ r.e with uninterrupted := 0 } : Enc).find id = e.find id := hfind id
      rw [e1, e2]
    · dsimp only
      rw [h5]
      have e2 : ({ r.e with uninterrupted := 0 } : Enc).find id = e.find id := hfind id
      dsimp only
      rw [e2, hblk, hkr]
      split_ifs with hc
      · have hal : e1.allowBlocking id = true := by
          cases hal : e1.allowBlocking id with
          | true => rfl
          | false =>
            have := hq.noblock hal
            rw [hp.str.2.2.1] at this
            omega
        unfold Enc.allowBlocking at hal
        have e3 : e1.find id = e.find id := by unfold Enc.find; rw [hp.str.1]
        rw [e3, hp.str.2.2.1, hp.str.2.2.2, hp.lim] at hal
        rcases hf : e.find id with _ | refs
        · rw [hf] at hal; simp at hal; omega
        · rw [hf] at hal hc
          simp only [Option.getD_some] at hc
          simp at hal
          omega
      · omega
    · dsimp only; rw [← hp.hard]; exact hpfx
    · rw [h3]; exact hupd
    · rw [h3]; exact hsrc

/-! ### Feedback from the decoder -/

theorem blk_filter {e : Enc} (h : EInv e) (k : Nat) (hk : e.krcnt ≤ k) (m i : Nat) :
    (m, i) ∈ (e.blocked.filter fun q => decide (k < q.1)) ↔ ∃ refs, (i, refs) ∈ e.streams ∧ m = maxCnt refs ∧ k < m := by
  rw [List.mem_filter, h.blk]
  simp only [decide_eq_true_eq]
  constructor
  · rintro ⟨⟨refs, h1, h2, _⟩, h3⟩; exact ⟨refs, h1, h2, h3⟩
  · rintro ⟨refs, h1, h2, h3⟩; exact ⟨⟨refs, h1, h2, by omega⟩, h3⟩

/-- the known received count grows -/
theorem EInv.advance {e : Enc} (h : EInv e) {k : Nat} (hk : e.krcnt ≤ k) (hn : k ≤ e.ctx.next) :
    EInv ({ e with krcnt := k }.unblock k) :=
  ⟨h.ctx, h.hsz, h.ids, h.ne, h.refs, h.mins, h.bnd.filter _, fun m i => blk_filter h k hk m i, hn, h.cap⟩

theorem addIcnt_ok {e : Enc} (h : EInv e) (n : Nat) :
    (e.addIcnt n = .fail ∧ (n = 0 ∨ e.ctx.next < e.krcnt + n)) ∨
    (∃ e', e.addIcnt n = .ok e' ∧ 0 < n ∧ e.krcnt + n ≤ e.ctx.next ∧ EInv e' ∧ e'.krcnt = e.krcnt + n ∧
      e' = { e with krcnt := e'.krcnt, blocked := e'.blocked } ∧
      e'.blocked = e.blocked.filter fun q => decide (e.krcnt + n < q.1)) := by
  have := h.kr
  unfold Enc.addIcnt
  split_ifs with hc
  · left; exact ⟨rfl, by omega⟩
  · right
    exact ⟨_, rfl, by omega, by omega, h.advance (by omega) (by omega), rfl, rfl, rfl⟩

theorem eraseMins_ok (refs : List Ref) (l rest : List Nat) (h : l.Perm (refs.map Ref.min ++ rest)) :
    ∃ l', eraseMins refs l = some l' ∧ l'.Perm rest := by
  induction refs generalizing l with
  | nil => exact ⟨l, rfl, h⟩
  | cons r t ih =>
    simp only [List.map_cons, List.cons_append] at h
    have hm : r.min ∈ l := h.mem_iff.2 (List.mem_cons_self ..)
    simp only [eraseMins, if_pos hm]
    apply ih
    have := h.erase r.min
    rwa [List.erase_cons_head] at this

theorem ackHeader_ok {e : Enc} (h : EInv e) (id : Nat) :
    (e.find id = none ∧ e.ackHeader id = .fail) ∨
    (∃ r rest e', e.find id = some (r :: rest) ∧ e.ackHeader id = .ok e' ∧ EInv e' ∧ e'.krcnt = max e.krcnt r.max ∧
      (∀ i, e'.find i = if i = id then (if rest = [] then none else some rest) else e.find i) ∧
      e' = { e with krcnt := e'.krcnt, blocked := e'.blocked, minCnts := e'.minCnts, streams := e'.streams } ∧
      e'.blocked = e.blocked.filter fun q => decide (max e.krcnt r.max < q.1)) := by
  unfold Enc.ackHeader
  rcases hf : e.find id with _ | refs
  · left; exact ⟨rfl, rfl⟩
  right
  have hmem := (find_iff h.ids id refs).1 hf
  rcases refs with _ | ⟨r, rest⟩
  · exact absurd rfl (h.ne _ hmem)
  have hr := h.refs _ hmem r (List.mem_cons_self ..)
  have hblk0 : ∀ k, k = max e.krcnt r.max → ¬ e.krcnt < r.max → e.blocked = e.blocked.filter fun q => decide (k < q.1) := by
    intro k hk hlt
    symm
    rw [List.filter_eq_self]
    rintro ⟨m, i⟩ hm
    obtain ⟨_, _, _, h3⟩ := (h.blk m i).1 hm
    simp only [decide_eq_true_eq]; omega
  obtain ⟨e1, he1, hinv1, hk1, hb1⟩ : ∃ e1, (if e.krcnt < r.max then { e with krcnt := r.max }.unblock r.max else e) = e1 ∧ EInv e1 ∧
      e1 = { e with krcnt := max e.krcnt r.max, blocked := e1.blocked } ∧
      e1.blocked = e.blocked.filter fun q => decide (max e.krcnt r.max < q.1) := by
    refine ⟨_, rfl, ?_⟩
    by_cases hlt : e.krcnt < r.max
    · rw [if_pos hlt]
      have hm : max e.krcnt r.max = r.max := by omega
      refine ⟨h.advance (by omega) (by omega), ?_, by rw [hm]; rfl⟩
      rw [hm]; rfl
    · rw [if_neg hlt]
      have hm : max e.krcnt r.max = e.krcnt := by omega
      refine ⟨h, by rw [hm], hblk0 _ rfl hlt⟩
  dsimp only
  rw [he1]
  have hs1 : e1.streams = e.streams := by rw [hk1]
  have hmem1 : (id, r :: rest) ∈ e1.streams := by rw [hs1]; exact hmem
  have hkr1 : e1.krcnt = max e.krcnt r.max := by rw [hk1]
  have hsp := split_stream hinv1.ids hmem1
  have hm1 := hinv1.mins.trans (hsp.1.flatMap_right (fun s => s.2.map Ref.min))
  simp only [List.flatMap_cons, List.map_cons] at hm1
  obtain ⟨mc, hmc, hperm⟩ := eraseMins_ok [r] e1.minCnts _ hm1
  rw [hmc]
  dsimp only
  by_cases hrest : rest = []
  · subst hrest
    rw [if_pos rfl]
    refine ⟨r, [], _, rfl, rfl, ?_, hkr1, ?_, ?_, hb1⟩
    · refine ⟨hinv1.ctx, hinv1.hsz, ids_delStream hinv1.ids id, ?_, ?_, by simpa using hperm, hinv1.bnd, ?_, hinv1.kr, hinv1.cap⟩
      · rintro ⟨i, rr⟩ hs; exact hinv1.ne _ (mem_delStream.1 hs).1
      · rintro ⟨i, rr⟩ hs; exact hinv1.refs _ (mem_delStream.1 hs).1
      · intro m i
        dsimp only
        rw [hinv1.blk]
        constructor
        · rintro ⟨refs', g1, g2, g3⟩
          refine ⟨refs', mem_delStream.2 ⟨g1, ?_⟩, g2, g3⟩
          rintro rfl
          have := stream_unique hinv1.ids g1 hmem1
          subst this
          rw [maxCnt_cons] at g2
          have : maxCnt ([] : List Ref) = 0 := rfl
          omega
        · rintro ⟨refs', g1, g2, g3⟩
          exact ⟨refs', (mem_delStream.1 g1).1, g2, g3⟩
    · intro i
      rw [find_del (e := e1) hinv1.ids rfl i, if_pos rfl]
      split_ifs with hi
      · rfl
      · unfold Enc.find; rw [hs1]
    · rw [hk1]
  · rw [if_neg hrest]
    refine ⟨r, rest, _, rfl, rfl, ?_, hkr1, ?_, ?_, hb1⟩
    · refine ⟨hinv1.ctx, hinv1.hsz, ids_putStream hinv1.ids _ _, ?_, ?_, ?_, hinv1.bnd, ?_, hinv1.kr, hinv1.cap⟩
      · rintro ⟨i, rr⟩ hs
        rcases (mem_putStream hinv1.ids hmem1).1 hs with ⟨_, rfl⟩ | ⟨_, g⟩
        · exact hrest
        · exact hinv1.ne _ g
      · rintro ⟨i, rr⟩ hs q hq
        rcases (mem_putStream hinv1.ids hmem1).1 hs with ⟨_, rfl⟩ | ⟨_, g⟩
        · exact hinv1.refs _ hmem1 q (List.mem_cons_of_mem _ hq)
        · exact hinv1.refs _ g q hq
      · have := (hsp.2 rest).flatMap_right (fun s => s.2.map Ref.min)
        simp only [List.flatMap_cons] at this
        exact hperm.trans this.symm
      · intro m i
        dsimp only
        rw [hinv1.blk]
        constructor
        · rintro ⟨refs', g1, g2, g3⟩
          by_cases hi : i = id
          · subst hi
            have := stream_unique hinv1.ids g1 hmem1
            subst this
            rw [maxCnt_cons] at g2
            exact ⟨rest, (mem_putStream hinv1.ids hmem1).2 (Or.inl ⟨rfl, rfl⟩), by omega, g3⟩
          · exact ⟨refs', (mem_putStream hinv1.ids hmem1).2 (Or.inr ⟨hi, g1⟩), g2, g3⟩
        · rintro ⟨refs', g1, g2, g3⟩
          rcases (mem_putStream hinv1.ids hmem1).1 g1 with ⟨rfl, rfl⟩ | ⟨_, g⟩
          · exact ⟨_, hmem1, by rw [maxCnt_cons]; omega, g3⟩
          · exact ⟨_, g, g2, g3⟩
    · intro i
      rw [find_put (e := e1) hinv1.ids hmem1 rfl i, if_neg hrest]
      split_ifs with hi
      · rfl
      · unfold Enc.find; rw [hs1]
    · rw [hk1]

theorem cancelStream_ok {e : Enc} (h : EInv e) (id : Nat) :
    ∃ e', e.cancelStream id = .ok e' ∧ EInv e' ∧ (∀ i, e'.find i = if i = id then none else e.find i) ∧
      e' = { e with blocked := e'.blocked, minCnts := e'.minCnts, streams := e'.streams } ∧ e'.blocked.Sublist e.blocked := by
  unfold Enc.cancelStream
  rcases hf : e.find id with _ | refs
  · refine ⟨e, rfl, h, ?_, rfl, List.Sublist.refl _⟩
    intro i
    split_ifs with hi
    · rw [hi]; exact hf
    · rfl
  have hmem := (find_iff h.ids id refs).1 hf
  dsimp only
  obtain ⟨e1, he1, hfr, hbn, hsub, hb⟩ : ∃ e1, (if e.krcnt < maxCnt refs then e.unblockStream (maxCnt refs, id) else some e) = some e1 ∧
      e1 = { e with blocked := e1.blocked } ∧ e1.blocked.Nodup ∧ e1.blocked.Sublist e.blocked ∧
      ∀ m i, (m, i) ∈ e1.blocked ↔ ∃ refs, (i, refs) ∈ e.streams ∧ i ≠ id ∧ m = maxCnt refs ∧ e.krcnt < m := by
    by_cases hlt : e.krcnt < maxCnt refs
    · have hin : (maxCnt refs, id) ∈ e.blocked := (h.blk _ _).2 ⟨refs, hmem, rfl, hlt⟩
      refine ⟨{ e with blocked := e.blocked.erase (maxCnt refs, id) }, ?_, rfl, h.bnd.erase _, List.erase_sublist, ?_⟩
      · rw [if_pos hlt]; unfold Enc.unblockStream; rw [if_pos hin]
      · intro m i
        dsimp only
        rw [h.bnd.mem_erase_iff, h.blk]
        constructor
        · rintro ⟨g0, refs', g1, g2, g3⟩
          refine ⟨refs', g1, fun hi => ?_, g2, g3⟩
          subst hi
          have := stream_unique h.ids g1 hmem
          subst this
          exact absurd (by rw [g2]) g0
        · rintro ⟨refs', g1, g2, g3, g4⟩
          refine ⟨fun hc => ?_, refs', g1, g3, g4⟩
          injection hc with hc1 hc2
          exact g2 hc2
    · refine ⟨e, by rw [if_neg hlt], rfl, h.bnd, List.Sublist.refl _, ?_⟩
      intro m i
      rw [h.blk]
      constructor
      · rintro ⟨refs', g1, g2, g3⟩
        refine ⟨refs', g1, fun hi => ?_, g2, g3⟩
        subst hi
        have := stream_unique h.ids g1 hmem
        subst this
        omega
      · rintro ⟨refs', g1, _, g3, g4⟩
        exact ⟨refs', g1, g3, g4⟩
  rw [he1]
  dsimp only
  have hs1 : e1.streams = e.streams := by rw [hfr]
  have hsp := split_stream h.ids hmem
  have hm1 := h.mins.trans (hsp.1.flatMap_right (fun s => s.2.map Ref.min))
  simp only [List.flatMap_cons] at hm1
  have hmc1 : e1.minCnts = e.minCnts := by rw [hfr]
  rw [hmc1]
  obtain ⟨mc, hmc, hperm⟩ := eraseMins_ok refs e.minCnts _ hm1
  rw [hmc]
  dsimp only
  refine ⟨_, rfl, ?_, ?_, by rw [hfr], hsub⟩
  · rw [hs1]
    refine ⟨by rw [hfr]; exact h.ctx, by rw [hfr]; exact h.hsz, ids_delStream h.ids id, ?_, ?_, hperm, hbn, ?_, by rw [hfr]; exact h.kr,
      by rw [hfr]; exact h.cap⟩
    · rintro ⟨i, rr⟩ hs; exact h.ne _ (mem_delStream.1 hs).1
    · rintro ⟨i, rr⟩ hs; rw [hfr]; exact h.refs _ (mem_delStream.1 hs).1
    · intro m i
      dsimp only
      rw [hb]
      have : e1.krcnt = e.krcnt := by rw [hfr]
      rw [this]
      constructor
      · rintro ⟨refs', g1, g2, g3⟩; exact ⟨refs', mem_delStream.2 ⟨g1, g2⟩, g3⟩
      · rintro ⟨refs', g1, g2⟩; have := mem_delStream.1 g1; exact ⟨refs', this.1, this.2, g2⟩
  · intro i
    exact find_del (e := e) h.ids (by dsimp only; rw [hs1]) i

theorem ackEverything_ok {e : Enc} (h : EInv e) : EInv e.ackEverything ∧ ∀ i, e.ackEverything.find i = none :=
  ⟨⟨h.ctx, h.hsz, by simp [Enc.ackEverything], by simp [Enc.ackEverything], by simp [Enc.ackEverything],
    by simp [Enc.ackEverything], by simp [Enc.ackEverything], by simp [Enc.ackEverything], Nat.le_refl _, h.cap⟩,
    fun i => by simp [Enc.find, Enc.ackEverything]⟩

end Qpack
end Nghttp3
