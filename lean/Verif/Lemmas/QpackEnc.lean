import Verif.Spec.Ascii
import Verif.Spec.QpackSection
import Verif.Lemmas.QpackApi
import Verif.Props.StaticTable
/-! Invariants of the QPACK encoder: encoding of one field and of a list of fields. -/
namespace Nghttp3
namespace Qpack

/-- absolute index of the oldest entry (the insert count if the table is empty) -/
def Ctx.oldest (c : Ctx) : Nat := c.next - c.ents.length

/-- entries are only appended at the new end and dropped at the old end -/
structure Ext (c c' : Ctx) : Prop where
  next : c.next ≤ c'.next
  old : c.oldest ≤ c'.oldest
  same : ∀ a, c'.oldest ≤ a → a < c.next → c'.get a = c.get a

theorem Ext.refl (c : Ctx) : Ext c c := ⟨Nat.le_refl _, Nat.le_refl _, fun _ _ _ => rfl⟩

theorem Ext.trans {a b c : Ctx} (h1 : Ext a b) (h2 : Ext b c) : Ext a c :=
  ⟨Nat.le_trans h1.next h2.next, Nat.le_trans h1.old h2.old, fun i hi hn => by
    rw [h2.same i hi (Nat.lt_of_lt_of_le hn h1.next), h1.same i (Nat.le_trans h2.old hi) hn]⟩

theorem CtxB.get_some {c : Ctx} (h : CtxB c) {a : Nat} (h1 : c.oldest ≤ a) (h2 : a < c.next) :
    ∃ x, c.get a = some x ∧ x.absidx = a ∧ x ∈ c.ents := by
  apply h.get_valid
  have := h.len
  unfold Ctx.oldest at h1
  simp [validateIndex]; omega

theorem CtxB.get_range {c : Ctx} (h : CtxB c) {a : Nat} {x : Ent} (hg : c.get a = some x) :
    c.oldest ≤ a ∧ a < c.next ∧ x.absidx = a ∧ x ∈ c.ents := by
  unfold Ctx.get at hg
  split_ifs at hg with hn
  have hl := (List.getElem?_eq_some_iff.1 hg).1
  have := h.idx _ _ hg
  have := h.len
  unfold Ctx.oldest
  exact ⟨by omega, hn, by omega, List.mem_of_getElem? hg⟩

theorem CtxB.get_mem {c : Ctx} (h : CtxB c) {x : Ent} (hm : x ∈ c.ents) : c.get x.absidx = some x := by
  obtain ⟨i, hi⟩ := List.getElem?_of_mem hm
  have := h.idx i x hi
  unfold Ctx.get
  rw [if_pos (by omega), show c.next - x.absidx - 1 = i by omega]
  exact hi

theorem CtxB.mem_range {c : Ctx} (h : CtxB c) {x : Ent} (hm : x ∈ c.ents) : c.oldest ≤ x.absidx ∧ x.absidx < c.next := by
  have := h.get_range (h.get_mem hm)
  exact ⟨this.1, this.2.1⟩

/-- keeping the newest `n` entries, possibly after pushing new ones -/
theorem ext_pushed {c : Ctx} (h : CtxB c) (n : Nat) (name value : Bytes) (token : Option Nat) (hash : Nat) (hn : n ≤ c.ents.length) :
    Ext c (c.pushed n name value token hash) ∧ (c.pushed n name value token hash).oldest = c.next - n := by
  have hl := h.len
  have ho : (c.pushed n name value token hash).oldest = c.next - n := by
    simp [Ctx.oldest, Ctx.pushed]; omega
  refine ⟨⟨by simp [Ctx.pushed], by rw [ho]; unfold Ctx.oldest; omega, ?_⟩, ho⟩
  intro a h1 h2
  rw [ho] at h1
  unfold Ctx.get
  rw [if_pos h2, if_pos (by simp [Ctx.pushed]; omega)]
  simp only [Ctx.pushed]
  rw [show c.next + 1 - a - 1 = (c.next - a - 1) + 1 by omega, List.getElem?_cons_succ, List.getElem?_take, if_pos (by omega)]

theorem ext_take {c : Ctx} (h : CtxB c) (n cap size : Nat) (hn : n ≤ c.ents.length) :
    Ext c { c with ents := c.ents.take n, size := size, maxCap := cap } ∧
    ({ c with ents := c.ents.take n, size := size, maxCap := cap } : Ctx).oldest = c.next - n := by
  have hl := h.len
  have ho : ({ c with ents := c.ents.take n, size := size, maxCap := cap } : Ctx).oldest = c.next - n := by
    simp [Ctx.oldest]; omega
  refine ⟨⟨Nat.le_refl _, by rw [ho]; unfold Ctx.oldest; omega, ?_⟩, ho⟩
  intro a h1 h2
  rw [ho] at h1
  unfold Ctx.get
  rw [if_pos h2, if_pos h2]
  dsimp only
  rw [List.getElem?_take, if_pos (by omega)]

theorem Rep.denotes_ext {c c' : Ctx} (hc : CtxB c) (h : Ext c c') {rep : Rep} {nv : Nv} (hr : ∀ a ∈ rep.refs, c'.oldest ≤ a)
    (hd : rep.denotes c nv) : rep.denotes c' nv := by
  cases rep with
  | static i => exact hd
  | nameStatic i v nev => exact hd
  | lit n v nev => exact hd
  | dyn a =>
    obtain ⟨h1, x, h2, h3⟩ := hd
    exact ⟨h1, x, by rw [h.same a (hr a (by simp [Rep.refs])) (hc.get_range h2).2.1]; exact h2, h3⟩
  | nameDyn a v nev =>
    obtain ⟨h0, h1, x, h2, h3⟩ := hd
    exact ⟨h0, h1, x, by rw [h.same a (hr a (by simp [Rep.refs])) (hc.get_range h2).2.1]; exact h2, h3⟩

/-! ### Invariant while a list of fields is encoded -/

structure NvInv (e : Enc) (mx : Nat) (mn : Option Nat) : Prop where
  ctx : CtxB e.ctx
  prot : ∀ m ∈ e.minCnts, e.ctx.oldest < m ∧ m ≤ e.ctx.next
  loc : ∀ m, mn = some m → e.ctx.oldest < m ∧ m ≤ mx ∧ mx ≤ e.ctx.next
  zero : mn = none → mx = 0
  full : e.ctx.maxCap < e.ctx.size → ∃ m ∈ e.minCnts, m = e.ctx.oldest + 1
  hsz : e.ctx.size ≤ e.ctx.hardMax

theorem optMin_spec (a b : Option Nat) :
    (optMin a b = none ↔ a = none ∧ b = none) ∧
    ∀ m, optMin a b = some m → (a = some m ∨ b = some m) ∧ (∀ k, a = some k → m ≤ k) ∧ (∀ k, b = some k → m ≤ k) := by
  cases a <;> cases b <;> simp [optMin]
  omega

theorem minCnts_min {l : List Nat} {m : Nat} (h : l.min? = some m) : m ∈ l ∧ ∀ k ∈ l, m ≤ k := by
  have := List.min?_eq_some_iff.1 h
  exact ⟨this.1, fun k hk => this.2 k hk⟩

theorem minCnts_none {l : List Nat} (h : l.min? = none) : l = [] := List.min?_eq_none_iff.1 h

/-- what a positive answer of qpack_encoder_can_index guarantees -/
theorem canIndex_ok {e : Enc} {mx : Nat} {mn : Option Nat} (h : NvInv e mx mn) (need : Nat) :
    ∃ b, e.canIndex need mn = some b ∧ (b = true → need ≤ e.ctx.maxCap ∧ e.ctx.size ≤ e.ctx.maxCap ∧
      ∀ m, (m ∈ e.minCnts ∨ mn = some m) → spaces (e.ctx.ents.take (e.ctx.next - m + 1)) + need ≤ e.ctx.maxCap) := by
  have hsz := h.ctx.size
  unfold Enc.canIndex
  dsimp only
  by_cases h1 : e.ctx.size < e.ctx.maxCap ∧ need ≤ e.ctx.maxCap - e.ctx.size
  · rw [if_pos h1]
    refine ⟨true, rfl, fun _ => ⟨by omega, by omega, fun m _ => ?_⟩⟩
    have := spaces_take_le e.ctx.ents (e.ctx.next - m + 1)
    omega
  · rw [if_neg h1]
    have hs := optMin_spec mn e.minCnts.min?
    rcases ho : optMin mn e.minCnts.min? with _ | m0
    · obtain ⟨h2, h3⟩ := hs.1.1 ho
      have hnil := minCnts_none h3
      have hfit : e.ctx.size ≤ e.ctx.maxCap := by
        by_contra hc
        obtain ⟨m, hm, _⟩ := h.full (by omega)
        rw [hnil] at hm; simp at hm
      refine ⟨_, rfl, fun hb => ⟨by simpa using hb, hfit, fun m hm => ?_⟩⟩
      rw [hnil, h2] at hm; simp at hm
    · obtain ⟨h2, h3, h4⟩ := hs.2 m0 ho
      have hle : ∀ m, (m ∈ e.minCnts ∨ mn = some m) → m0 ≤ m := by
        intro m hm
        rcases hm with hm | hm
        · rcases hmin : e.minCnts.min? with _ | k
          · rw [minCnts_none hmin] at hm; simp at hm
          · have := (minCnts_min hmin).2 m hm
            have := h4 k hmin
            omega
        · exact h3 m hm
      have hr : e.ctx.oldest < m0 ∧ m0 ≤ e.ctx.next := by
        rcases h2 with h2 | h2
        · have := h.loc m0 h2; omega
        · exact h.prot m0 (minCnts_min h2).1
      have hlen := h.ctx.len
      have hlt : e.ctx.next - m0 < e.ctx.ents.length := by
        have := hr.1; unfold Ctx.oldest at this; omega
      obtain ⟨me, hme⟩ : ∃ me, e.ctx.ents[e.ctx.next - m0]? = some me := ⟨_, List.getElem?_eq_getElem hlt⟩
      have hget : e.ctx.get (m0 - 1) = some me := by
        unfold Ctx.get
        rw [if_pos (by omega), show e.ctx.next - (m0 - 1) - 1 = e.ctx.next - m0 by omega]; exact hme
      obtain ⟨le, hlast⟩ : ∃ le, e.ctx.ents[e.ctx.ents.length - 1]? = some le :=
        ⟨_, List.getElem?_eq_getElem (by omega)⟩
      have hgl : e.ctx.ents.getLast? = some le := by rw [List.getLast?_eq_getElem?]; exact hlast
      dsimp only
      rw [if_neg (by omega), hget, hgl]
      dsimp only
      have i1 := h.ctx.idx _ _ hme
      have i2 := h.ctx.idx _ _ hlast
      have s1 := h.ctx.sums _ _ hme
      have s2 := h.ctx.sums _ _ hlast
      rw [show e.ctx.ents.length - 1 + 1 = e.ctx.ents.length by omega, List.take_length] at s2
      by_cases heq : me.absidx = le.absidx
      · rw [if_pos heq]; exact ⟨false, rfl, by simp⟩
      · rw [if_neg heq]
        refine ⟨_, rfl, fun hb => ?_⟩
        have hb : need ≤ e.ctx.maxCap - e.ctx.size + me.sum - le.sum := by simpa using hb
        have hfit : e.ctx.size ≤ e.ctx.maxCap := by
          by_contra hc
          obtain ⟨m, hm, hmo⟩ := h.full (by omega)
          have := hle m (Or.inl hm)
          have := hr.1
          apply heq
          unfold Ctx.oldest at *
          omega
        refine ⟨by omega, hfit, fun m hm => ?_⟩
        have hm0 := hle m hm
        have : spaces (e.ctx.ents.take (e.ctx.next - m + 1)) ≤ spaces (e.ctx.ents.take (e.ctx.next - m0 + 1)) := by
          have : e.ctx.ents.take (e.ctx.next - m + 1) = (e.ctx.ents.take (e.ctx.next - m0 + 1)).take (e.ctx.next - m + 1) := by
            rw [List.take_take, Nat.min_eq_left (by omega)]
          rw [this]; exact spaces_take_le _ _
        have := spaces_take_le e.ctx.ents (e.ctx.next - m0 + 1)
        omega

/-- an insertion allowed by qpack_encoder_can_index keeps every protected entry -/
theorem insert_ok {e : Enc} {mx : Nat} {mn : Option Nat} (h : NvInv e mx mn) (name value : Bytes) (token : Option Nat) (hash : Nat)
    (ht : token = lookupToken name) (hc : e.canIndex (tableSpace name.length value.length) mn = some true) :
    ∃ c' x t, e.ctx.add name value token hash = some c' ∧ CtxOk c' ∧ Ext e.ctx c' ∧ c'.next = e.ctx.next + 1 ∧
      (∀ m, (m ∈ e.minCnts ∨ mn = some m) → c'.oldest < m) ∧ e.ctx.size ≤ e.ctx.maxCap ∧ c'.oldest ≤ e.ctx.next ∧
      c'.ents = x :: t ∧ x.absidx = e.ctx.next ∧ x.name = name ∧ x.value = value ∧ c'.get e.ctx.next = some x := by
  obtain ⟨b, hb, hk⟩ := canIndex_ok h (tableSpace name.length value.length)
  rw [hc] at hb
  cases hb
  obtain ⟨h1, h2, h3⟩ := hk rfl
  obtain ⟨n, hn, ha, hle, hmax⟩ := Ctx.add_spec h.ctx name value token hash h1
  have hext := ext_pushed h.ctx n name value token hash hn
  have hlen := h.ctx.len
  have hok := h.ctx.pushed (token := token) (hash := hash) hle ht
  refine ⟨_, ⟨name, value, token, e.ctx.sum, e.ctx.next, hash⟩, _, ha, hok, hext.1, rfl, ?_, h2, ?_, rfl, rfl, rfl, rfl, ?_⟩
  · intro m hm
    rw [hext.2]
    have hr : e.ctx.oldest < m ∧ m ≤ e.ctx.next := by
      rcases hm with hm | hm
      · exact h.prot m hm
      · have := h.loc m hm; omega
    by_contra hcon
    have := hmax (e.ctx.next - m + 1) (by omega) (by have := hr.1; unfold Ctx.oldest at this; omega)
    have := h3 m hm
    omega
  · rw [hext.2]; omega
  · unfold Ctx.get
    rw [if_pos (by simp [Ctx.pushed])]
    simp [Ctx.pushed]

/-! ### One field -/

/-- a field the encoder may put into its dynamic table: not flagged, not `authorization`, not a short `cookie` -/
def Nv.indexable (nv : Nv) : Prop :=
  nv.never = false ∧ nv.name ≠ Spec.ascii "authorization" ∧ ¬ (nv.name = Spec.ascii "cookie" ∧ nv.value.length < 20)

/-- what encoding one field guarantees -/
structure NvPost (e : Enc) (mx : Nat) (mn : Option Nat) (allow : Bool) (nv : Nv) (o : NvOut) : Prop where
  frame : o.e = { e with ctx := o.e.ctx }
  ctx : (o.ins = [] ∧ o.e.ctx = e.ctx) ∨ ∃ i name value hash, o.ins = [i] ∧ i.inserts e.ctx name value ∧
    e.ctx.add name value (lookupToken name) hash = some o.e.ctx ∧ CtxOk o.e.ctx ∧ e.ctx.size ≤ e.ctx.maxCap ∧
    nv.indexable ∧ name = nv.name ∧ value = nv.value
  ext : Ext e.ctx o.e.ctx
  den : o.rep.denotes o.e.ctx nv
  refs : ∀ a ∈ o.rep.refs, ∃ m, o.min = some m ∧ m ≤ a + 1 ∧ a + 1 ≤ o.max
  mono : mx ≤ o.max ∧ ∀ m, mn = some m → ∃ m', o.min = some m' ∧ m' ≤ m
  inv : NvInv o.e o.max o.min
  noblock : allow = false → o.max ≤ max mx e.krcnt
  tight : o.max = mx ∨ ∃ a ∈ o.rep.refs, a + 1 = o.max

theorem natmax_or (a b : Nat) : Nat.max a b = a ∨ b = Nat.max a b := by simp only [Nat.max_def]; split_ifs <;> simp

theorem add_frame {c c' : Ctx} {name value : Bytes} {token : Option Nat} {hash : Nat} (h : c.add name value token hash = some c') :
    c'.maxCap = c.maxCap ∧ c'.hardMax = c.hardMax ∧ c'.maxBlocked = c.maxBlocked ∧ c'.bad = c.bad := by
  unfold Ctx.add at h
  dsimp only at h
  split_ifs at h
  rcases he : evictOld c.maxCap (tableSpace name.length value.length) c.ents.reverse c.size with _ | ⟨o, s⟩ <;> rw [he] at h
  · cases h
  · cases h; exact ⟨rfl, rfl, rfl, rfl⟩

/-- using an existing entry `a` that may be referred to -/
theorem NvInv.refer {e : Enc} {mx : Nat} {mn : Option Nat} (h : NvInv e mx mn) {a : Nat} (h1 : e.ctx.oldest ≤ a) (h2 : a < e.ctx.next) :
    NvInv e (Nat.max mx (a + 1)) (optMin mn (some (a + 1))) ∧
    (∃ m, optMin mn (some (a + 1)) = some m ∧ m ≤ a + 1 ∧ a + 1 ≤ Nat.max mx (a + 1)) ∧
    (∀ m, mn = some m → ∃ m', optMin mn (some (a + 1)) = some m' ∧ m' ≤ m) := by
  have hmn := h.loc
  have hz := h.zero
  refine ⟨⟨h.ctx, h.prot, ?_, ?_, h.full, h.hsz⟩, ?_, ?_⟩
  · intro m hm
    rcases mn with _ | k
    · simp [optMin] at hm
      have := hz rfl
      subst hm
      refine ⟨by omega, ?_, ?_⟩ <;> simp only [Nat.max_def] <;> split_ifs <;> omega
    · simp [optMin] at hm
      have := hmn k rfl
      subst hm
      refine ⟨by omega, ?_, ?_⟩ <;> simp only [Nat.max_def] <;> split_ifs <;> omega
  · intro hm; rcases mn with _ | k <;> simp [optMin] at hm
  · rcases mn with _ | k
    · exact ⟨_, rfl, by omega, Nat.le_max_right _ _⟩
    · exact ⟨_, rfl, Nat.min_le_right _ _, Nat.le_max_right _ _⟩
  · intro m hm
    subst hm
    exact ⟨_, rfl, Nat.min_le_left _ _⟩

/-- inserting and referring to the new entry -/
theorem insert_refer {e : Enc} {mx : Nat} {mn : Option Nat} (h : NvInv e mx mn) (nv : Nv) (hnever : nv.indexable)
    (name value : Bytes) (token : Option Nat) (hash : Nat) (hname : name = nv.name) (hval : value = nv.value)
    (ht : token = lookupToken name) (i : EIns) (hi : i.inserts e.ctx name value)
    (hc : e.canIndex (tableSpace name.length value.length) mn = some true) :
    ∃ c x t, e.ctx.add name value token hash = some c ∧ c.ents = x :: t ∧
      NvPost e mx mn true nv ⟨{ e with ctx := c }, Nat.max mx (x.absidx + 1), optMin mn (some (x.absidx + 1)), [i], .dyn x.absidx⟩ := by
  obtain ⟨c, x, t, ha, hok, hext, hnext, hprot, hsz, hold, hents, hx, hxn, hxv, hget⟩ := insert_ok h name value token hash ht hc
  refine ⟨c, x, t, ha, hents, ?_⟩
  have hinv : NvInv { e with ctx := c } mx mn := by
    refine ⟨hok.toCtxB, ?_, ?_, h.zero, ?_, Nat.le_trans hok.cap hok.hard⟩
    · intro m hm
      have := h.prot m hm
      have := hprot m (Or.inl hm)
      dsimp only at *; omega
    · intro m hm
      have := h.loc m hm
      have := hprot m (Or.inr hm)
      dsimp only at *; omega
    · intro hf
      have := hok.cap
      dsimp only at hf; omega
  have hr := hinv.refer (a := x.absidx) (by dsimp only; omega) (by dsimp only; omega)
  refine ⟨rfl, ?_, hext, ⟨hnever.1, x, ?_, hxn.trans hname, hxv.trans hval⟩, ?_, ⟨Nat.le_max_left _ _, hr.2.2⟩, hr.1, by simp, ?_⟩
  · right
    exact ⟨i, name, value, hash, rfl, hi, by rw [← ht]; exact ha, hok, hsz, hnever, hname, hval⟩
  · dsimp only; rw [hx]; exact hget
  · intro a ha'
    simp [Rep.refs] at ha'
    subst ha'
    exact hr.2.1
  · rcases natmax_or mx (x.absidx + 1) with hq | hq
    · exact Or.inl hq
    · exact Or.inr ⟨_, by simp [Rep.refs], hq⟩

/-- inserting without referring to the new entry -/
theorem insert_only {e : Enc} {mx : Nat} {mn : Option Nat} (h : NvInv e mx mn) (name value : Bytes) (token : Option Nat) (hash : Nat)
    (ht : token = lookupToken name) (hc : e.canIndex (tableSpace name.length value.length) mn = some true) :
    ∃ c, e.ctx.add name value token hash = some c ∧ CtxOk c ∧ Ext e.ctx c ∧ e.ctx.size ≤ e.ctx.maxCap ∧
      NvInv { e with ctx := c } mx mn ∧ c.next = e.ctx.next + 1 ∧ ∀ m, (m ∈ e.minCnts ∨ mn = some m) → c.oldest < m := by
  obtain ⟨c, x, t, ha, hok, hext, hnext, hprot, hsz, hold, hents, hx, hxn, hxv, hget⟩ := insert_ok h name value token hash ht hc
  refine ⟨c, ha, hok, hext, hsz, ⟨hok.toCtxB, ?_, ?_, h.zero, ?_, Nat.le_trans hok.cap hok.hard⟩, hnext, hprot⟩
  · intro m hm
    have := h.prot m hm
    have := hprot m (Or.inl hm)
    dsimp only at *; omega
  · intro m hm
    have := h.loc m hm
    have := hprot m (Or.inr hm)
    dsimp only at *; omega
  · intro hf
    have := hok.cap
    dsimp only at hf; omega

/-- an entry a lookup may return -/
structure Found (e : Enc) (allow : Bool) (nv : Nv) (x : Ent) : Prop where
  mem : x ∈ e.ctx.ents
  name : x.name = nv.name
  ok : allow = true ∨ x.absidx + 1 ≤ e.krcnt

theorem mapFind_sound {e : Enc} (hc : CtxB e.ctx) (allow nameOnly : Bool) (nv : Nv) (hash : Nat) (l : List Ent)
    (hl : ∀ x ∈ l, x ∈ e.ctx.ents) (m pb : Option Ent) (hm : ∀ x, m = some x → Found e allow nv x)
    (hno : nameOnly = true → m = none) :
    let r := mapFind e.ctx e.krcnt allow nameOnly nv (lookupToken nv.name) hash l m pb
    (∀ x, r.2.1 = some x → Found e allow nv x) ∧
    (r.1 = true → nameOnly = false ∧ ∃ x, r.2.1 = some x ∧ x.value = nv.value) := by
  induction l generalizing m pb with
  | nil => exact ⟨hm, by simp [mapFind]⟩
  | cons p t ih =>
    have iht := ih (fun x hx => hl x (List.mem_cons_of_mem _ hx))
    dsimp only
    simp only [mapFind]
    split_ifs with h1 h2 h3 h4 h5
    · exact iht m pb hm hno
    all_goals
      have hf : (allow = true ∨ p.absidx + 1 ≤ e.krcnt) → Found e allow nv p := by
        intro hal
        refine ⟨hl p (List.mem_cons_self ..), ?_, hal⟩
        push Not at h1
        have htok := hc.tok p (hl p (List.mem_cons_self ..))
        rcases ht : lookupToken nv.name with _ | tk
        · exact (h1.2.1 ht).2
        · rw [h1.1] at ht
          rw [htok] at ht
          have h0 := h1.1
          rw [htok] at h0
          exact token_inj ht (h0.trans ht)
    · exact ⟨fun x hx => by cases hx; exact hf h2, by simp⟩
    · refine ⟨fun x hx => by cases hx; exact hf h2, fun _ => ⟨?_, p, rfl, h4⟩⟩
      rcases hn : nameOnly with _ | _
      · rfl
      · exact absurd ⟨hno hn, hn⟩ h3
    · refine iht _ _ (fun x hx => by cases hx; exact hf h2) (fun hn => absurd ⟨hno hn, hn⟩ h3)
    · exact iht _ _ hm hno
    · exact iht _ _ hm hno
    · exact iht _ _ hm hno

theorem lookupDtable_sound {e : Enc} (hc : CtxB e.ctx) (allow : Bool) (nv : Nv) (hash : Nat) (mode : Mode) :
    let r := e.lookupDtable nv (lookupToken nv.name) hash mode allow
    (∀ x, r.2.1 = some x → Found e allow nv x) ∧
    (r.1 = true → mode ≠ .never ∧ ∃ x, r.2.1 = some x ∧ x.value = nv.value) := by
  have := mapFind_sound hc allow (decide (mode = .never)) nv hash (e.ctx.ents.filter fun x => x.hash % 64 == hash % 64)
    (fun x hx => (List.mem_filter.1 hx).1) none none (by simp) (by simp)
  refine ⟨this.1, fun h => ⟨?_, (this.2 h).2⟩⟩
  simpa using (this.2 h).1

theorem NvPost.keep {e : Enc} {mx : Nat} {mn : Option Nat} {allow : Bool} {nv : Nv} (h : NvInv e mx mn) (rep : Rep)
    (hd : rep.denotes e.ctx nv) (hr : rep.refs = []) : NvPost e mx mn allow nv ⟨e, mx, mn, [], rep⟩ :=
  ⟨rfl, Or.inl ⟨rfl, rfl⟩, Ext.refl _, hd, by simp [hr], ⟨Nat.le_refl _, fun m hm => ⟨m, hm, Nat.le_refl _⟩⟩, h,
    fun _ => Nat.le_max_left _ _, Or.inl rfl⟩

theorem NvPost.use {e : Enc} {mx : Nat} {mn : Option Nat} {allow : Bool} {nv : Nv} (h : NvInv e mx mn) (rep : Rep) (x : Ent)
    (hx : Found e allow nv x) (hd : rep.denotes e.ctx nv) (hr : rep.refs = [x.absidx]) :
    NvPost e mx mn allow nv ⟨e, Nat.max mx (x.absidx + 1), optMin mn (some (x.absidx + 1)), [], rep⟩ := by
  have hrg := h.ctx.mem_range hx.mem
  have hu := h.refer hrg.1 hrg.2
  refine ⟨rfl, Or.inl ⟨rfl, rfl⟩, Ext.refl _, hd, ?_, ⟨Nat.le_max_left _ _, hu.2.2⟩, hu.1, fun ha => ?_, ?_⟩
  · intro a ha
    simp [hr] at ha
    subst ha
    exact hu.2.1
  · rcases hx.ok with h1 | h1
    · rw [ha] at h1; cases h1
    · simp only [Nat.max_def]; split_ifs <;> omega
  · rcases natmax_or mx (x.absidx + 1) with hq | hq
    · exact Or.inl hq
    · exact Or.inr ⟨_, by simp [hr], hq⟩

theorem encodeExact_ok {e : Enc} {mx : Nat} {mn : Option Nat} {allow : Bool} {nv : Nv} (h : NvInv e mx mn) (x : Ent)
    (hx : Found e allow nv x) (hv : x.value = nv.value) (hn : nv.indexable) :
    ∃ o, e.encodeExact mx mn allow x = some o ∧ NvPost e mx mn allow nv o := by
  have hget := h.ctx.get_mem hx.mem
  have hplain : NvPost e mx mn allow nv ⟨e, Nat.max mx (x.absidx + 1), optMin mn (some (x.absidx + 1)), [], .dyn x.absidx⟩ :=
    NvPost.use h _ x hx ⟨hn.1, x, hget, hx.name, hv⟩ rfl
  unfold Enc.encodeExact
  dsimp only
  split_ifs with hd
  · obtain ⟨b, hb, _⟩ := canIndex_ok h x.space
    rw [hb]
    cases b with
    | false => exact ⟨_, rfl, hplain⟩
    | true =>
      dsimp only
      have hrg := h.ctx.mem_range hx.mem
      obtain ⟨c, y, t, h1, h2, h3⟩ := insert_refer h nv hn x.name x.value x.token x.hash hx.name hv (h.ctx.tok x hx.mem)
        (.dup (e.ctx.next - x.absidx - 1)) ⟨by omega, x, by
          rw [show e.ctx.next - (e.ctx.next - x.absidx - 1) - 1 = x.absidx by omega]; exact hget, rfl, rfl⟩ hb
      rw [h1]
      dsimp only
      rw [h2]
      rw [hd.1]
      exact ⟨_, rfl, h3⟩
  · exact ⟨_, rfl, hplain⟩

/-- the shared tail: insert the field with `ins`, then refer to the new entry or use `rep` -/
theorem insertNv_ok {e : Enc} {mx : Nat} {mn : Option Nat} {allow : Bool} {nv : Nv} (h : NvInv e mx mn) (hn : nv.indexable)
    (name : Bytes) (hname : name = nv.name) (token : Option Nat) (ht : token = lookupToken name) (hash : Nat) (i : EIns)
    (hi : i.inserts e.ctx name nv.value) (mx' : Nat) (mn' : Option Nat) (h' : NvInv e mx' mn') (rep : Rep)
    (hd : rep.denotes e.ctx nv) (hrefs : ∀ a ∈ rep.refs, ∃ m, mn' = some m ∧ m ≤ a + 1 ∧ a + 1 ≤ mx')
    (hmono : mx ≤ mx' ∧ ∀ m, mn = some m → ∃ m', mn' = some m' ∧ m' ≤ m) (hno : allow = false → mx' ≤ max mx e.krcnt)
    (hti : mx' = mx ∨ ∃ a ∈ rep.refs, a + 1 = mx')
    (hc : e.canIndex (tableSpace nv.name.length nv.value.length) (if allow then mn else mn') = some true) :
    ∃ o, e.insertNv mx mn allow name nv.value token hash i (fun e ins => ⟨e, mx', mn', ins, rep⟩) = some o ∧
      NvPost e mx mn allow nv o := by
  unfold Enc.insertNv
  rw [← hname] at hc
  cases allow with
  | true =>
    simp only [if_true] at hc
    obtain ⟨c, x, t, h1, h2, h3⟩ := insert_refer h nv hn name nv.value token hash hname rfl ht i hi hc
    rw [h1]
    dsimp only
    rw [if_pos rfl, h2]
    exact ⟨_, rfl, h3⟩
  | false =>
    simp only [Bool.false_eq_true, if_false] at hc
    obtain ⟨c, h1, h2, h3, h4, h5, h6, h7⟩ := insert_only h' name nv.value token hash ht hc
    rw [h1]
    dsimp only
    rw [if_neg (by simp)]
    refine ⟨_, rfl, ⟨rfl, Or.inr ⟨i, name, nv.value, hash, rfl, hi, by rw [← ht]; exact h1, h2, h4, hn, hname, rfl⟩, h3, ?_, hrefs, hmono, h5, hno, hti⟩⟩
    apply Rep.denotes_ext h.ctx h3 _ hd
    intro a ha
    obtain ⟨m, hm, hma, _⟩ := hrefs a ha
    have := h7 m (Or.inr hm)
    omega

theorem encodeStaticName_ok {e : Enc} {mx : Nat} {mn : Option Nat} {allow just : Bool} {nv : Nv} (h : NvInv e mx mn)
    (hash i : Nat) (hi : ∃ v t, stable[i]? = some (nv.name, v, t) ∧ lookupToken nv.name = some t) (hn : just = true → nv.indexable) :
    ∃ o, e.encodeStaticName mx mn allow just nv hash i = some o ∧ NvPost e mx mn allow nv o := by
  obtain ⟨v, t, hi, htk⟩ := hi
  have hden : (Rep.nameStatic i nv.value nv.never).denotes e.ctx nv := ⟨rfl, rfl, v, t, hi⟩
  have hplain := NvPost.keep (allow := allow) h (.nameStatic i nv.value nv.never) hden rfl
  unfold Enc.encodeStaticName
  dsimp only
  split_ifs with hj
  · obtain ⟨b, hb, _⟩ := canIndex_ok h (tableSpace nv.name.length nv.value.length)
    rw [hb]
    cases b with
    | false => exact ⟨_, rfl, hplain⟩
    | true =>
      dsimp only
      rw [hi]
      exact insertNv_ok h (hn hj) nv.name rfl (some t) htk.symm hash (.insStatic i nv.value) ⟨rfl, v, t, hi⟩ mx mn h _ hden (by simp [Rep.refs])
        hplain.mono (fun _ => Nat.le_max_left _ _) (Or.inl rfl) (by cases allow <;> exact hb)
  · exact ⟨_, rfl, hplain⟩

theorem encodeDynName_ok {e : Enc} {mx : Nat} {mn : Option Nat} {allow just : Bool} {nv : Nv} (h : NvInv e mx mn)
    (hash : Nat) (x : Ent) (hx : Found e allow nv x) (hn : just = true → nv.indexable) :
    ∃ o, e.encodeDynName mx mn allow just nv hash x = some o ∧ NvPost e mx mn allow nv o := by
  have hget := h.ctx.get_mem hx.mem
  have hrg := h.ctx.mem_range hx.mem
  have hden : (Rep.nameDyn x.absidx nv.value nv.never).denotes e.ctx nv := ⟨rfl, rfl, x, hget, hx.name⟩
  have hplain := NvPost.use h (.nameDyn x.absidx nv.value nv.never) x hx hden rfl
  have hu := h.refer hrg.1 hrg.2
  unfold Enc.encodeDynName
  dsimp only
  by_cases hj : just = true
  · rw [if_pos hj]
    obtain ⟨b, hb⟩ : ∃ b, e.canIndex (tableSpace nv.name.length nv.value.length)
        (if allow = true then mn else optMin mn (some (x.absidx + 1))) = some b := by
      cases allow with
      | true => exact (canIndex_ok h _).imp fun _ h => h.1
      | false => exact (canIndex_ok hu.1 _).imp fun _ h => h.1
    have hins : EIns.inserts e.ctx (.insDyn (e.ctx.next - x.absidx - 1) nv.value) x.name nv.value :=
      ⟨rfl, by omega, x, by rw [show e.ctx.next - (e.ctx.next - x.absidx - 1) - 1 = x.absidx by omega]; exact hget, rfl⟩
    have hins' := insertNv_ok (allow := allow) h (hn hj) x.name hx.name x.token (h.ctx.tok x hx.mem) hash _ hins _ _ hu.1 _ hden hplain.refs
      hplain.mono hplain.noblock hplain.tight
    cases b with
    | false =>
      rw [hb]; exact ⟨_, rfl, hplain⟩
    | true =>
      have := hins' hb
      rw [hb]; exact this
  · rw [if_neg hj]; exact ⟨_, rfl, hplain⟩

theorem encodeLit_ok {e : Enc} {mx : Nat} {mn : Option Nat} {allow just : Bool} {nv : Nv} (h : NvInv e mx mn)
    (hash : Nat) (hn : just = true → nv.indexable) :
    ∃ o, e.encodeLit mx mn allow just nv (lookupToken nv.name) hash = some o ∧ NvPost e mx mn allow nv o := by
  have hden : (Rep.lit nv.name nv.value nv.never).denotes e.ctx nv := ⟨rfl, rfl, rfl⟩
  have hplain := NvPost.keep (allow := allow) h (.lit nv.name nv.value nv.never) hden rfl
  unfold Enc.encodeLit
  dsimp only
  split_ifs with hj
  · obtain ⟨b, hb, _⟩ := canIndex_ok h (tableSpace nv.name.length nv.value.length)
    rw [hb]
    cases b with
    | false => exact ⟨_, rfl, hplain⟩
    | true =>
      exact insertNv_ok h (hn hj) nv.name rfl _ rfl hash (.insLit nv.name nv.value) ⟨rfl, rfl⟩ mx mn h _ hden (by simp [Rep.refs])
        hplain.mono (fun _ => Nat.le_max_left _ _) (Or.inl rfl) (by cases allow <;> exact hb)
  · exact ⟨_, rfl, hplain⟩

theorem decideMode_never {cap : Nat} {nv : Nv} {t : Option Nat} (h : nv.never = true) : decideMode cap nv t = .never := by
  simp [decideMode, h]

theorem token_authorization : lookupToken (Spec.ascii "authorization") = some TOKEN_AUTHORIZATION := by decide +kernel
theorem token_cookie : lookupToken (Spec.ascii "cookie") = some TOKEN_COOKIE := by decide +kernel

theorem decideMode_indexable {cap : Nat} {nv : Nv} (h : ¬ nv.indexable) : decideMode cap nv (lookupToken nv.name) = .never := by
  cases hn : nv.never with
  | true => exact decideMode_never hn
  | false =>
    by_cases ha : nv.name = Spec.ascii "authorization"
    · rw [ha, token_authorization]; simp [decideMode, hn]
    · by_cases hc : nv.name = Spec.ascii "cookie" ∧ nv.value.length < 20
      · rw [hc.1, token_cookie]; simp [decideMode, hn, hc.2, TOKEN_COOKIE, TOKEN_AUTHORIZATION]
      · exact absurd ⟨hn, ha, hc⟩ h

theorem encodeNvDyn_ok {e : Enc} {mx : Nat} {mn : Option Nat} {allow : Bool} {nv : Nv} (h : NvInv e mx mn) (mode : Mode)
    (hmode : ¬ nv.indexable → mode = .never) (sidx : Option Nat)
    (hi : ∀ i, sidx = some i → ∃ v t, stable[i]? = some (nv.name, v, t) ∧ lookupToken nv.name = some t) :
    ∃ o, e.encodeNvDyn mx mn allow nv (lookupToken nv.name) mode sidx = some o ∧ NvPost e mx mn allow nv o := by
  unfold Enc.encodeNvDyn
  dsimp only
  have hres : ∀ dres : Bool × Option Ent × Option Ent, dres = (if e.streams.length < MAX_QPACK_STREAMS then
      e.lookupDtable nv (lookupToken nv.name) (nvHash nv (lookupToken nv.name)) mode allow else (false, none, none)) →
      (∀ x, dres.2.1 = some x → Found e allow nv x) ∧
      (dres.1 = true → mode ≠ .never ∧ ∃ x, dres.2.1 = some x ∧ x.value = nv.value) := by
    intro dres hd
    split_ifs at hd with hs
    · subst hd; exact lookupDtable_sound h.ctx allow nv _ mode
    · subst hd; simp
  generalize hd : (if e.streams.length < MAX_QPACK_STREAMS then
      e.lookupDtable nv (lookupToken nv.name) (nvHash nv (lookupToken nv.name)) mode allow else (false, none, none)) = dres
  obtain ⟨r1, r2⟩ := hres dres hd.symm
  obtain ⟨ex, m, pb⟩ := dres
  have hj : (decide (e.streams.length < MAX_QPACK_STREAMS) && decide (mode = .store) && decide (pb = none)) = true →
      nv.indexable := by
    intro hb
    simp only [Bool.and_eq_true, decide_eq_true_eq] at hb
    by_contra hnv
    rw [hmode hnv] at hb; simp at hb
  dsimp only at r1 r2 ⊢
  cases ex with
  | false =>
    cases sidx with
    | some i => exact encodeStaticName_ok h _ i (hi i rfl) hj
    | none =>
      cases m with
      | some x => exact encodeDynName_ok h _ x (r1 x rfl) hj
      | none => exact encodeLit_ok h _ hj
  | true =>
    obtain ⟨hm, x, hx, hv⟩ := r2 rfl
    subst hx
    refine encodeExact_ok h x (r1 x rfl) hv ?_
    by_contra hnv
    exact absurd (hmode hnv) hm

theorem encodeNv_ok {e : Enc} {mx : Nat} {mn : Option Nat} (h : NvInv e mx mn) (allow : Bool) (nv : Nv) :
    ∃ o, e.encodeNv mx mn allow nv = some o ∧ NvPost e mx mn allow nv o := by
  unfold Enc.encodeNv
  dsimp only
  have hlen : tokenStable.length = 99 := by decide +kernel
  rcases ht : lookupToken nv.name with _ | tk
  · have := encodeNvDyn_ok (allow := allow) h (decideMode e.ctx.maxCap nv none) (by rw [← ht]; exact decideMode_indexable) none (by simp)
    rw [ht] at this
    exact this
  · by_cases hs : tk < tokenStable.length
    · dsimp only
      rw [if_pos hs]
      have hl := (Props.C48_lookup_stable nv.name nv.value tk ht (by omega) (decideMode e.ctx.maxCap nv (some tk))).1
      generalize hq : lookupStable nv.value tk (decideMode e.ctx.maxCap nv (some tk)) = q at hl
      obtain ⟨i, b⟩ := q
      dsimp only at hl
      obtain ⟨v, hv, hb⟩ := hl
      have hi : i < 99 := by
        have hl : Spec.rfcStaticTable.length = 99 := by decide +kernel
        rw [List.getElem?_eq_some_iff] at hv
        obtain ⟨h, _⟩ := hv
        omega
      obtain ⟨n, v', t, g1, g2, g3⟩ := stable_get hi
      rw [hv] at g2
      injection g2 with g2
      injection g2 with g2a g2b
      subst g2a g2b
      cases b with
      | true =>
        refine ⟨_, rfl, NvPost.keep h _ ⟨?_, t, ?_⟩ rfl⟩
        · cases hnv : nv.never with
          | false => rfl
          | true => rw [decideMode_never hnv] at hq; simp [lookupStable] at hq
        · rw [g1, hb rfl]
      | false =>
        have := encodeNvDyn_ok (allow := allow) h (decideMode e.ctx.maxCap nv (some tk)) (by rw [← ht]; exact decideMode_indexable) (some i)
          (by intro j hj; cases hj; exact ⟨v, t, g1, g3⟩)
        rw [ht] at this
        exact this
    · dsimp only
      rw [if_neg hs]
      have := encodeNvDyn_ok (allow := allow) h (decideMode e.ctx.maxCap nv (some tk)) (by rw [← ht]; exact decideMode_indexable) none (by simp)
      rw [ht] at this
      exact this

/-! ### A list of fields -/

/-- running insertions -/
inductive InsRun (P : Bytes → Bytes → Prop) : Ctx → List EIns → Ctx → Prop
  | nil (c : Ctx) : InsRun P c [] c
  | cons {c c' c'' : Ctx} {i : EIns} {is : List EIns} (name value : Bytes) (hash : Nat) (h1 : i.inserts c name value)
      (h2 : c.add name value (lookupToken name) hash = some c') (h3 : c.size ≤ c.maxCap) (h4 : CtxOk c') (h0 : P name value)
      (h5 : InsRun P c' is c'') :
      InsRun P c (i :: is) c''

theorem InsRun.mono {P Q : Bytes → Bytes → Prop} (hpq : ∀ n v, P n v → Q n v) {c c' : Ctx} {l : List EIns} (h : InsRun P c l c') :
    InsRun Q c l c' := by
  induction h with
  | nil => exact .nil _
  | cons name value hash g1 g2 g3 g4 g0 _ ih => exact .cons name value hash g1 g2 g3 g4 (hpq _ _ g0) ih

/-- some field of the list has this name and value -/
def AmongNvs (nvs : List Nv) (name value : Bytes) : Prop := ∃ nv ∈ nvs, name = nv.name ∧ value = nv.value

structure NvsPost (e : Enc) (mx : Nat) (mn : Option Nat) (allow : Bool) (nvs : List Nv) (o : NvsOut) : Prop where
  frame : o.e = { e with ctx := o.e.ctx }
  cfg : o.e.ctx.maxCap = e.ctx.maxCap ∧ o.e.ctx.hardMax = e.ctx.hardMax ∧ o.e.ctx.maxBlocked = e.ctx.maxBlocked
  run : InsRun (AmongNvs nvs) e.ctx o.ins o.e.ctx
  ext : Ext e.ctx o.e.ctx
  den : List.Forall₂ (fun rep nv => rep.denotes o.e.ctx nv) o.reps nvs
  refs : ∀ rep ∈ o.reps, ∀ a ∈ rep.refs, ∃ m, o.min = some m ∧ m ≤ a + 1 ∧ a + 1 ≤ o.max
  mono : mx ≤ o.max ∧ ∀ m, mn = some m → ∃ m', o.min = some m' ∧ m' ≤ m
  inv : NvInv o.e o.max o.min
  noblock : allow = false → o.max ≤ max mx e.krcnt
  tight : o.max = mx ∨ ∃ rep ∈ o.reps, ∃ a ∈ rep.refs, a + 1 = o.max
  src : ∀ x ∈ o.e.ctx.ents, x ∈ e.ctx.ents ∨ ∃ nv ∈ nvs, nv.indexable ∧ x.name = nv.name ∧ x.value = nv.value

theorem add_mem {c c' : Ctx} {name value : Bytes} {token : Option Nat} {hash : Nat} (h : CtxB c)
    (ha : c.add name value token hash = some c') {x : Ent} (hx : x ∈ c'.ents) : x ∈ c.ents ∨ x.name = name ∧ x.value = value := by
  have hs : tableSpace name.length value.length ≤ c.maxCap := by
    unfold Ctx.add at ha
    dsimp only at ha
    split_ifs at ha with hc
    omega
  obtain ⟨n, _, hn, _⟩ := Ctx.add_spec h name value token hash hs
  rw [hn] at ha
  cases ha
  rcases List.mem_cons.1 hx with rfl | hx
  · exact Or.inr ⟨rfl, rfl⟩
  · exact Or.inl (List.mem_of_mem_take hx)

theorem encodeNvs_ok (allow : Bool) (nvs : List Nv) {e : Enc} {mx : Nat} {mn : Option Nat} (h : NvInv e mx mn) :
    ∃ o, e.encodeNvs mx mn allow nvs = some o ∧ NvsPost e mx mn allow nvs o := by
  induction nvs generalizing e mx mn with
  | nil =>
    exact ⟨_, rfl, ⟨rfl, ⟨rfl, rfl, rfl⟩, .nil _, Ext.refl _, .nil, by simp,
      ⟨Nat.le_refl _, fun m hm => ⟨m, hm, Nat.le_refl _⟩⟩, h, fun _ => Nat.le_max_left _ _, Or.inl rfl, fun x hx => Or.inl hx⟩⟩
  | cons nv t ih =>
    obtain ⟨o, ho, hp⟩ := encodeNv_ok h allow nv
    obtain ⟨r, hr, hq⟩ := ih hp.inv
    refine ⟨{ r with ins := o.ins ++ r.ins, reps := o.rep :: r.reps }, by simp only [Enc.encodeNvs, ho, hr], ?_⟩
    have hfr : r.e = { e with ctx := r.e.ctx } := by
      have h1 := hp.frame
      have h2 := hq.frame
      rw [h1] at h2
      exact h2
    have hkr : o.e.krcnt = e.krcnt := by rw [hp.frame]
    have hcfg : o.e.ctx.maxCap = e.ctx.maxCap ∧ o.e.ctx.hardMax = e.ctx.hardMax ∧ o.e.ctx.maxBlocked = e.ctx.maxBlocked := by
      rcases hp.ctx with ⟨_, h2⟩ | ⟨i, name, value, hash, _, _, h3, _, _⟩
      · rw [h2]; exact ⟨rfl, rfl, rfl⟩
      · have := add_frame h3; exact ⟨this.1, this.2.1, this.2.2.1⟩
    have hrefs1 : ∀ a ∈ o.rep.refs, ∃ m, r.min = some m ∧ m ≤ a + 1 ∧ a + 1 ≤ r.max := by
      intro a ha
      obtain ⟨m, h1, h2, h3⟩ := hp.refs a ha
      obtain ⟨m', h4, h5⟩ := hq.mono.2 m h1
      exact ⟨m', h4, by omega, by have := hq.mono.1; omega⟩
    refine ⟨hfr, ⟨hq.cfg.1.trans hcfg.1, hq.cfg.2.1.trans hcfg.2.1, hq.cfg.2.2.trans hcfg.2.2⟩, ?_, hp.ext.trans hq.ext,
      .cons ?_ hq.den, ?_, ⟨Nat.le_trans hp.mono.1 hq.mono.1, ?_⟩, hq.inv, ?_, ?_, ?_⟩
    · have hmono : InsRun (AmongNvs (nv :: t)) o.e.ctx r.ins r.e.ctx := hq.run.mono fun n v ⟨x, hx, h⟩ => ⟨x, List.mem_cons_of_mem _ hx, h⟩
      rcases hp.ctx with ⟨h1, h2⟩ | ⟨i, name, value, hash, h1, h2, h3, h4, h5, _, h6, h7⟩
      · rw [h2] at hmono
        dsimp only
        rw [h1]
        exact hmono
      · dsimp only
        rw [h1]
        exact .cons name value hash h2 h3 h5 h4 ⟨nv, List.mem_cons_self .., h6, h7⟩ hmono
    · apply Rep.denotes_ext hp.inv.ctx hq.ext _ hp.den
      intro a ha
      obtain ⟨m, h1, h2, h3⟩ := hrefs1 a ha
      have := hq.inv.loc m h1
      omega
    · intro rep hrep
      rcases List.mem_cons.1 hrep with rfl | hrep
      · exact hrefs1
      · exact hq.refs rep hrep
    · intro m hm
      obtain ⟨m', h1, h2⟩ := hp.mono.2 m hm
      obtain ⟨m'', h3, h4⟩ := hq.mono.2 m' h1
      exact ⟨m'', h3, by omega⟩
    · intro ha
      have h1 := hp.noblock ha
      have h2 := hq.noblock ha
      rw [hkr] at h2
      dsimp only; omega
    · rcases hq.tight with h1 | ⟨rep, h1, h2⟩
      · rcases hp.tight with h3 | ⟨a, h3, h4⟩
        · left; exact h1.trans h3
        · right; exact ⟨o.rep, List.mem_cons_self .., a, h3, h4.trans h1.symm⟩
      · right; exact ⟨rep, List.mem_cons_of_mem _ h1, h2⟩
    · intro x hx
      rcases hq.src x hx with h1 | ⟨nv', h1, h2⟩
      · rcases hp.ctx with ⟨_, g⟩ | ⟨i, name, value, hash, _, _, g3, _, _, g4, g5, g6⟩
        · rw [g] at h1; exact Or.inl h1
        · rcases add_mem h.ctx g3 h1 with g | g
          · exact Or.inl g
          · exact Or.inr ⟨nv, List.mem_cons_self .., g4, g.1.trans g5, g.2.trans g6⟩
      · exact Or.inr ⟨nv', List.mem_cons_of_mem _ h1, h2⟩

end Qpack
end Nghttp3
