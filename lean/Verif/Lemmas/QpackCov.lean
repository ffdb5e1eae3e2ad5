import Verif.Lemmas.QpackRep
/-! Decoding against the part of the dynamic table a field section refers to. -/
namespace Nghttp3
namespace Qpack

/-- the entries `m ≤ absidx < R` of a table, as a table of its own -/
def Ctx.slice (E : Ctx) (H m R : Nat) : Ctx where
  ents := (E.ents.drop (E.next - R)).take (R - m)
  size := spaces ((E.ents.drop (E.next - R)).take (R - m))
  sum := E.sum - spaces (E.ents.take (E.next - R))
  hardMax := H
  maxCap := H
  next := R

theorem slice_ok {E : Ctx} (hE : CtxB E) {H m R : Nat} (hs : spaces E.ents ≤ H) (hR : R ≤ E.next) : CtxOk (E.slice H m R) := by
  have hget : ∀ i e, ((E.ents.drop (E.next - R)).take (R - m))[i]? = some e → E.ents[E.next - R + i]? = some e ∧ i < R - m := by
    intro i e he
    rw [List.getElem?_take] at he
    split_ifs at he with hi
    rw [List.getElem?_drop] at he
    exact ⟨he, hi⟩
  have hsp : spaces ((E.ents.drop (E.next - R)).take (R - m)) ≤ spaces E.ents := by
    refine Nat.le_trans (spaces_take_le _ _) ?_
    have := congrArg spaces (List.take_append_drop (E.next - R) E.ents)
    rw [spaces_append] at this
    omega
  refine ⟨⟨rfl, Nat.le_refl _, ?_, ?_, ?_, ?_⟩, Nat.le_trans hsp hs⟩
  · intro i e he
    obtain ⟨h1, h2⟩ := hget i e he
    have := hE.idx _ _ h1
    show e.absidx + i + 1 = R
    omega
  · show ((E.ents.drop (E.next - R)).take (R - m)).length ≤ R
    rw [List.length_take]; omega
  · intro e he
    exact hE.tok e (List.mem_of_mem_drop (List.mem_of_mem_take he))
  · intro i e he
    obtain ⟨h1, h2⟩ := hget i e he
    have := hE.sums _ _ h1
    show e.sum + spaces (((E.ents.drop (E.next - R)).take (R - m)).take (i + 1)) = E.sum - spaces (E.ents.take (E.next - R))
    rw [List.take_take, Nat.min_eq_left (by omega)]
    rw [show E.next - R + i + 1 = (E.next - R) + (i + 1) by omega, List.take_add, spaces_append] at this
    omega

theorem slice_get {E : Ctx} {H m R a : Nat} (hR : R ≤ E.next) (h1 : m ≤ a) (h2 : a < R) : (E.slice H m R).get a = E.get a := by
  unfold Ctx.get Ctx.slice
  dsimp only
  rw [if_pos h2, if_pos (by omega), List.getElem?_take, if_pos (by omega), List.getElem?_drop]
  congr 1; omega

theorem slice_get_some {E : Ctx} {H m R a : Nat} {x : Ent} (hR : R ≤ E.next) (h : (E.slice H m R).get a = some x) :
    m ≤ a ∧ a < R ∧ E.get a = some x := by
  have h' := h
  unfold Ctx.get Ctx.slice at h
  dsimp only at h
  split_ifs at h with h2
  rw [List.getElem?_take] at h
  split_ifs at h with h3
  refine ⟨by omega, h2, ?_⟩
  rw [← slice_get (m := m) (H := H) hR (by omega) h2]; exact h'

theorem Rep.denotes_slice {E : Ctx} {H m R : Nat} (hR : R ≤ E.next) {rep : Rep} {nv : Nv} (hr : ∀ a ∈ rep.refs, m ≤ a ∧ a < R)
    (hd : rep.denotes E nv) : rep.denotes (E.slice H m R) nv := by
  cases rep with
  | static i => exact hd
  | dyn a =>
    obtain ⟨h1, x, h2, h3⟩ := hd
    obtain ⟨g1, g2⟩ := hr a (by simp [Rep.refs])
    exact ⟨h1, x, by rw [slice_get hR g1 g2]; exact h2, h3⟩
  | nameStatic i v n => exact hd
  | nameDyn a v n =>
    obtain ⟨h0, h1, x, h2, h3⟩ := hd
    obtain ⟨g1, g2⟩ := hr a (by simp [Rep.refs])
    exact ⟨h0, h1, x, by rw [slice_get hR g1 g2]; exact h2, h3⟩
  | lit n v ne => exact hd

/-- every entry of `c` is also in `c'`, with the same meaning -/
structure Cov (c c' : Ctx) : Prop where
  next : c.next ≤ c'.next
  get : ∀ a x, c.get a = some x → ∃ y, c'.get a = some y ∧ y.name = x.name ∧ y.value = x.value ∧ y.token = x.token

theorem Cov.valid {c c' : Ctx} (h : Cov c c') (hc : CtxOk c) {dy : Bool} {a : Nat} (hv : validateIndex c dy a = true) : validateIndex c' dy a = true := by
  cases dy with
  | false => exact hv
  | true =>
    obtain ⟨x, hx, _⟩ := hc.toCtxB.get_valid hv
    obtain ⟨y, hy, _⟩ := h.get _ _ hx
    exact validate_of_get hy

theorem Cov.brel {c c' : Ctx} (h : Cov c c') (hc : CtxOk c) {s s' : SCtx} (hb : brel2abs c s = some s') : brel2abs c' s = some s' := by
  unfold brel2abs at hb ⊢
  dsimp only at hb ⊢
  split_ifs at hb ⊢ with h1 h2 h3 h4 h5 h6 h7 <;> first | exact hb | exact absurd (h.valid hc (by assumption)) (by assumption)

theorem Cov.pbrel {c c' : Ctx} (h : Cov c c') (hc : CtxOk c) {s s' : SCtx} (hb : pbrel2abs c s = some s') : pbrel2abs c' s = some s' := by
  unfold pbrel2abs at hb ⊢
  dsimp only at hb ⊢
  split_ifs at hb ⊢ with h1 h2 h3 h4 <;> first | exact hb | exact absurd (h.valid hc (by assumption)) (by assumption)

theorem Cov.emitI {c c' : Ctx} (h : Cov c c') {r : RState} {q : QNv} (hq : emitIndexed c r = some q) : emitIndexed c' r = some q := by
  unfold emitIndexed at hq ⊢
  split_ifs at hq ⊢ with h1
  · rcases hg : c.get r.absidx with _ | x <;> rw [hg] at hq
    · cases hq
    · obtain ⟨y, h2, h3, h4, h5⟩ := h.get _ _ hg
      rw [h2, ← hq]
      simp only [Option.map_some, h3, h4, h5]
  · exact hq

theorem Cov.emitN {c c' : Ctx} (h : Cov c c') (hc : CtxOk c) {r : RState} {q : QNv} (hq : emitIndexedName c r = some (some q)) :
    emitIndexedName c' r = some (some q) := by
  unfold emitIndexedName at hq ⊢
  split_ifs at hq with h1 h2
  · rw [if_pos h1, if_pos (h.valid hc h2)]
    rcases hg : c.get r.absidx with _ | x <;> rw [hg] at hq
    · cases hq
    · obtain ⟨y, h2, h3, h4, h5⟩ := h.get _ _ hg
      rw [h2, ← hq]
      simp only [Option.map_some, h3, h5]
  · cases hq
  · rw [if_neg h1]; exact hq

/-- past the prefix of the field section -/
def SCtx.Post (s : SCtx) : Prop := s.state = .opcode ∨ s.state = .readIndex ∨ ∃ ph, s.state = .str ph

/-- an outcome that is neither an error nor a crash -/
def RRes.good : RRes → Prop
  | .crash => False
  | .fail _ => False
  | .blocked _ _ => False
  | .cont s _ _ => s.Post
  | .part s _ => s.Post
  | .emit s _ _ => s.Post

theorem Cov.step {c c' : Ctx} (h : Cov c c') (hc : CtxOk c) {s : SCtx} (hp : s.Post) (x : Bytes) :
    (∃ e, rsStep c s x = .fail e) ∨ rsStep c s x = .crash ∨ (rsStep c' s x = rsStep c s x ∧ (rsStep c s x).good) := by
  obtain ⟨id, st, op, rs, ricnt, sign, base⟩ := s
  rcases hp with hp | hp | ⟨ph, hp⟩ <;> dsimp only at hp <;> subst hp <;> unfold rsStep <;> dsimp only
  · by_cases h0 : rs.left ≠ 0 ∨ rs.shift ≠ 0
    · rw [if_pos h0]; exact Or.inr (Or.inl rfl)
    · rw [if_neg h0]
      cases x with
      | nil => exact Or.inr (Or.inl rfl)
      | cons b t =>
        refine Or.inr (Or.inr ⟨rfl, ?_⟩)
        show (rsOpcode _ b).Post
        unfold rsOpcode SCtx.Post
        dsimp only
        split_ifs <;> simp
  · rcases QInt.readInt rs.pfx rs.left rs.shift x with _ | _ | ⟨l, sh⟩ | ⟨l, sh, rest⟩ <;> dsimp only
    · exact Or.inr (Or.inl rfl)
    · exact Or.inl ⟨_, rfl⟩
    · exact Or.inr (Or.inr ⟨rfl, Or.inr (Or.inl rfl)⟩)
    · generalize hs1 : (SCtx.mk id RSt.readIndex op { rs with left := l, shift := sh } ricnt sign base) = s1
      unfold rsIndexDone
      have ho : s1.op = op := by rw [← hs1]
      rw [ho]
      cases op <;> dsimp only
      · rcases hb : brel2abs c s1 with _ | s2
        · exact Or.inl ⟨_, rfl⟩
        · rw [h.brel hc hb]
          dsimp only
          rcases he : emitIndexed c s2.rs with _ | q
          · exact Or.inr (Or.inl rfl)
          · rw [h.emitI he]; exact Or.inr (Or.inr ⟨rfl, Or.inl rfl⟩)
      · rcases hb : pbrel2abs c s1 with _ | s2
        · exact Or.inl ⟨_, rfl⟩
        · rw [h.pbrel hc hb]
          dsimp only
          rcases he : emitIndexed c s2.rs with _ | q
          · exact Or.inr (Or.inl rfl)
          · rw [h.emitI he]; exact Or.inr (Or.inr ⟨rfl, Or.inl rfl⟩)
      · rcases hb : brel2abs c s1 with _ | s2
        · exact Or.inl ⟨_, rfl⟩
        · rw [h.brel hc hb]; exact Or.inr (Or.inr ⟨rfl, Or.inr (Or.inr ⟨_, rfl⟩)⟩)
      · rcases hb : pbrel2abs c s1 with _ | s2
        · exact Or.inl ⟨_, rfl⟩
        · rw [h.pbrel hc hb]; exact Or.inr (Or.inr ⟨rfl, Or.inr (Or.inr ⟨_, rfl⟩)⟩)
      · exact Or.inr (Or.inl rfl)
  · rcases strStep ph rs x with _ | _ | _ | ⟨ph', r', rest, b⟩ | ⟨ph', r', rest⟩ | ⟨r', rest⟩ <;> dsimp only
    · exact Or.inr (Or.inl rfl)
    · exact Or.inl ⟨_, rfl⟩
    · exact Or.inl ⟨_, rfl⟩
    · exact Or.inr (Or.inr ⟨rfl, Or.inr (Or.inr ⟨_, rfl⟩)⟩)
    · exact Or.inr (Or.inr ⟨rfl, Or.inr (Or.inr ⟨_, rfl⟩)⟩)
    · unfold rsValueDone
      cases op <;> dsimp only
      · exact Or.inr (Or.inl rfl)
      · exact Or.inr (Or.inl rfl)
      · rcases he : emitIndexedName c r' with _ | _ | q
        · exact Or.inr (Or.inl rfl)
        · exact Or.inl ⟨_, rfl⟩
        · rw [h.emitN hc he]; exact Or.inr (Or.inr ⟨rfl, Or.inl rfl⟩)
      · rcases he : emitIndexedName c r' with _ | _ | q
        · exact Or.inr (Or.inl rfl)
        · exact Or.inl ⟨_, rfl⟩
        · rw [h.emitN hc he]; exact Or.inr (Or.inr ⟨rfl, Or.inl rfl⟩)
      · exact Or.inr (Or.inr ⟨rfl, Or.inl rfl⟩)

/-- decoding past the prefix gives the same with any table that has the entries -/
theorem Cov.run {c c' : Ctx} (h : Cov c c') (hc : CtxOk c) {s s' : SCtx} {acc acc' : List QNv} {x : Bytes} {b : Bool} (hp : s.Post)
    (hr : rsRun c (s, acc) x b = .ok (s', acc')) : rsRun c' (s, acc) x b = .ok (s', acc') ∧ s'.Post := by
  unfold rsRun Machine.run at hr ⊢
  generalize (8 * x.length + (s, acc).1.state.rank + 1) = f at hr ⊢
  induction f generalizing s acc x b with
  | zero => cases hr
  | succ f ih =>
    unfold Machine.loop at hr ⊢
    by_cases h0 : x = [] ∧ b = false
    · rw [if_pos h0] at hr ⊢
      cases hr
      exact ⟨rfl, hp⟩
    · rw [if_neg h0] at hr ⊢
      unfold rsM at hr ⊢
      dsimp only at hr ⊢
      rcases h.step hc hp x with ⟨e, h1⟩ | h1 | ⟨h1, h2⟩
      · rw [h1] at hr; cases hr
      · rw [h1] at hr; cases hr
      · rw [h1]
        rcases hs : rsStep c s x with _ | e | ⟨s1, rest, b'⟩ | ⟨s1, rest⟩ | ⟨s1, nv, rest⟩ | ⟨s1, rest⟩ <;> rw [hs] at hr h2
        · cases hr
        · cases hr
        · exact ih h2 hr
        · cases hr
          exact ⟨rfl, h2⟩
        · exact ih h2 hr
        · cases hr

end Qpack
end Nghttp3
