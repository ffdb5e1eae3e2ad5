import Verif.Lemmas.QpackSec
/-! The decoder's API calls: safety and effect on the table. -/
namespace Nghttp3
namespace Qpack

/-! ### What a pass may do to the table -/

inductive CtxStep (c : Ctx) : Ctx → Prop
  | same : CtxStep c c
  | cap (n : Nat) (c' : Ctx) (h : c.setCap n = some (some c')) : CtxStep c c'
  | add (name value : Bytes) (token : Option Nat) (c' : Ctx) (h : c.addChecked name value token = some (some c')) : CtxStep c c'

theorem finish_step {d : Dec} {rest : Bytes} {o : Option (Option Ctx)}
    (h : ∀ c, o = some (some c) → CtxStep d.ctx c) :
    match d.finish rest o with
    | .cont d' _ _ => CtxStep d.ctx d'.ctx
    | .ret d' _ => d'.ctx = d.ctx
    | .fail d' _ => d'.ctx = d.ctx
    | .crash => True := by
  rcases o with _ | _ | c
  · trivial
  · rfl
  · exact h c rfl

theorem indexedAdd_step {c : Ctx} {r : RState} {c' : Ctx} (h : indexedAdd c r = some (some c')) : CtxStep c c' := by
  unfold indexedAdd at h
  split_ifs at h
  · rcases hg : c.get r.absidx with _ | e <;> rw [hg] at h
    · cases h
    · exact .add _ _ _ _ h
  · rcases hg : stableGet r.absidx with _ | ⟨n, v, t⟩ <;> rw [hg] at h
    · cases h
    · exact .add _ _ _ _ h

theorem duplicateAdd_step {c : Ctx} {r : RState} {c' : Ctx} (h : duplicateAdd c r = some (some c')) : CtxStep c c' := by
  unfold duplicateAdd at h
  rcases hg : c.get r.absidx with _ | e <;> rw [hg] at h
  · cases h
  · exact .add _ _ _ _ h

theorem esStep_ctx (d : Dec) (x : Bytes) :
    match esStep d x with
    | .cont d' _ _ => CtxStep d.ctx d'.ctx
    | .ret d' _ => d'.ctx = d.ctx
    | .fail d' _ => d'.ctx = d.ctx
    | .crash => True := by
  unfold esStep
  cases d.state with
  | opcode =>
    cases x with
    | nil => trivial
    | cons b t =>
      have : (esOpcode d b).ctx = d.ctx := by unfold esOpcode; split_ifs <;> rfl
      dsimp only; rw [this]; exact .same
  | readIndex =>
    dsimp only; unfold esIndex
    rcases QInt.readInt d.rs.pfx d.rs.left d.rs.shift x with _ | _ | ⟨l, s⟩ | ⟨l, s, rest⟩
    · trivial
    · rfl
    · rfl
    · dsimp only; unfold esIndexDone; dsimp only
      cases d.op with
      | setCap => exact finish_step (d := { d with op := .setCap, rs := { d.rs with left := l, shift := s } }) fun c h => .cap _ _ h
      | duplicate =>
        dsimp only
        rcases rel2abs d.ctx _ with _ | r
        · rfl
        · exact finish_step (d := { d with op := .duplicate, rs := r }) fun c h => duplicateAdd_step h
      | insertIndexed =>
        dsimp only
        rcases rel2abs d.ctx _ with _ | r
        · rfl
        · exact .same
      | insert =>
        dsimp only
        rcases rel2abs d.ctx _ with _ | r
        · rfl
        · trivial
  | str ph =>
    dsimp only
    rcases strStep ph d.rs x with _ | _ | _ | ⟨ph', r', rest, b⟩ | ⟨ph', r', rest⟩ | ⟨r', rest⟩
    · trivial
    · rfl
    · rfl
    · exact .same
    · rfl
    · dsimp only; unfold esValueDone; dsimp only
      cases d.op with
      | insertIndexed => exact finish_step (d := { d with state := .str ph, op := .insertIndexed, rs := r' }) fun c h => indexedAdd_step h
      | insert => exact finish_step (d := { d with state := .str ph, op := .insert, rs := r' }) fun c h => .add _ _ _ _ h
      | setCap => trivial
      | duplicate => trivial

theorem CtxStep.hard {c c' : Ctx} (h : CtxStep c c') : c'.hardMax = c.hardMax := by
  cases h with
  | same => rfl
  | cap n _ h =>
    unfold Ctx.setCap at h
    split_ifs at h
    · cases h
    · rcases he : evictOld n 0 c.ents.reverse c.size with _ | ⟨o, s⟩ <;> rw [he] at h
      · cases h
      · cases h; rfl
  | add n v t _ h =>
    unfold Ctx.addChecked Ctx.add at h
    dsimp only at h
    split_ifs at h
    · cases h
    · rcases he : evictOld c.maxCap (tableSpace n.length v.length) c.ents.reverse c.size with _ | ⟨o, s⟩ <;> rw [he] at h
      · cases h
      · cases h; rfl

theorem esLoop_hard (f : Nat) (d : Dec) (x : Bytes) (b : Bool) :
    match esLoop f d x b with
    | .crash => True
    | .fail d' _ => d'.ctx.hardMax = d.ctx.hardMax
    | .ok d' => d'.ctx.hardMax = d.ctx.hardMax := by
  induction f generalizing d x b with
  | zero => trivial
  | succ f ih =>
    unfold esLoop
    split_ifs
    · rfl
    · have := esStep_ctx d x
      rcases hs : esStep d x with _ | ⟨d', e⟩ | ⟨d', rest, b'⟩ | ⟨d', rest⟩ <;> rw [hs] at this <;> dsimp only at this ⊢
      · rw [this]
      · have h1 := ih d' rest b'
        rw [this.hard] at h1; exact h1
      · rw [this]

theorem CtxStep.bad {c c' : Ctx} (h : CtxStep c c') : c'.bad = c.bad := by
  cases h with
  | same => rfl
  | cap n _ h =>
    unfold Ctx.setCap at h
    split_ifs at h
    · cases h
    · rcases he : evictOld n 0 c.ents.reverse c.size with _ | ⟨o, s⟩ <;> rw [he] at h
      · cases h
      · cases h; rfl
  | add n v t _ h =>
    unfold Ctx.addChecked Ctx.add at h
    dsimp only at h
    split_ifs at h
    · cases h
    · rcases he : evictOld c.maxCap (tableSpace n.length v.length) c.ents.reverse c.size with _ | ⟨o, s⟩ <;> rw [he] at h
      · cases h
      · cases h; rfl

theorem esLoop_bad (f : Nat) (d : Dec) (x : Bytes) (b : Bool) :
    match esLoop f d x b with
    | .crash => True
    | .fail d' _ => True
    | .ok d' => d'.ctx.bad = d.ctx.bad := by
  induction f generalizing d x b with
  | zero => trivial
  | succ f ih =>
    unfold esLoop
    split_ifs
    · rfl
    · have := esStep_ctx d x
      rcases hs : esStep d x with _ | ⟨d', e⟩ | ⟨d', rest, b'⟩ | ⟨d', rest⟩ <;> rw [hs] at this <;> dsimp only at this ⊢
      · have h1 := ih d' rest b'
        rw [this.bad] at h1; exact h1
      · rw [this]

/-- a failed pass leaves the table as the passes before it left it -/
theorem esLoop_fail_ok (f : Nat) (d : Dec) (x : Bytes) (b : Bool) (hw : DecWF d) (hb : b = true → d.state.vis = true) :
    ∀ d' e, esLoop f d x b = .fail d' e → CtxOk d'.ctx ∧ d'.ctx.bad = true := by
  induction f generalizing d x b with
  | zero => intro d' e h; simp [esLoop] at h
  | succ f ih =>
    intro d' e h
    unfold esLoop at h
    by_cases h0 : x = [] ∧ b = false
    · rw [if_pos h0] at h; cases h
    · rw [if_neg h0] at h
      have hx : x ≠ [] ∨ d.state.vis = true := by
        by_cases hx : x = []
        · right; apply hb; cases b <;> simp_all
        · left; exact hx
      have hg := esM_good.step d x hw hx
      have hctx := esStep_ctx d x
      unfold esM at hg
      rcases hs : esStep d x with _ | ⟨d'', e'⟩ | ⟨d'', rest, b'⟩ | ⟨d'', rest⟩ <;> rw [hs] at h hg hctx
      · cases h
      · cases h
        dsimp only at hctx ⊢
        have hok := hw.ctx
        rw [← hctx] at hok
        exact ⟨⟨⟨hok.size, hok.hard, hok.idx, hok.len, hok.tok, hok.sums⟩, hok.cap⟩, rfl⟩
      · exact ih d'' rest b' hg.1 hg.2.1 d' e h
      · cases h

theorem DecWF.withU {d : Dec} (h : DecWF d) (u : Nat) : DecWF { d with uninterrupted := u } := ⟨h.ctx, h.st⟩

theorem esRank_le (d : Dec) : d.state.rank ≤ 6 := by
  cases d.state with
  | str ph => cases ph <;> simp [ESt.rank, Ph.rank]
  | _ => simp [ESt.rank]

theorem esLoop_safe {d : Dec} (hw : DecWF d) (x : Bytes) :
    (∃ d', esLoop (esFuel x) d x false = .ok d' ∧ DecWF d') ∨ ∃ d' e, esLoop (esFuel x) d x false = .fail d' e := by
  have := esRank_le d
  have hs := Machine.loop_safe esM_good (esFuel x) d x false hw (by simp) (by unfold esFuel; omega)
  rw [← esLoop_view] at hs
  rcases h : esLoop (esFuel x) d x false with _ | ⟨d', e⟩ | d' <;> rw [h] at hs
  · exact absurd rfl hs.1
  · exact Or.inr ⟨_, _, rfl⟩
  · exact Or.inl ⟨_, rfl, hs.2 d' rfl⟩

theorem DecWF.same {d d' : Dec} (h : DecWF d) (h1 : d'.ctx = d.ctx) (h2 : d'.state = d.state) (h3 : d'.op = d.op)
    (h4 : d'.rs = d.rs) : DecWF d' := by
  refine ⟨h1 ▸ h.ctx, ?_⟩
  rw [h2, h3, h4, h1]
  exact h.st

theorem CtxOk.bad {c : Ctx} (h : CtxOk c) (b : Bool) : CtxOk { c with bad := b } :=
  ⟨⟨h.size, h.hard, h.idx, h.len, h.tok, h.sums⟩, h.cap⟩

theorem writeSectionAck_same {d d' : Dec} {s : SCtx} (h : d.writeSectionAck s = some d') :
    d'.ctx = d.ctx ∧ d'.state = d.state ∧ d'.op = d.op ∧ d'.rs = d.rs := by
  unfold Dec.writeSectionAck at h
  split_ifs at h <;> cases h <;> exact ⟨rfl, rfl, rfl, rfl⟩

/-- one call of nghttp3_qpack_decoder_read_request -/
theorem readRequest_safe {d : Dec} (hc : CtxOk d.ctx) (s : SCtx) (hw : SWF s) (hi : Idle s) (x : Bytes) (fin : Bool) :
    match d.readRequest s x fin with
    | .crash => False
    | .fail d' _ => (d.ctx.bad = true ∧ d' = d) ∨ d' = d.setBad
    | .more d' s' => d' = d ∧ SWF s' ∧ Idle s'
    | .final d' s' => (d'.ctx = d.ctx ∧ d'.state = d.state ∧ d'.op = d.op ∧ d'.rs = d.rs) ∧ SWF s' ∧ Idle s'
    | .emit d' s' _ rest => d' = d ∧ SWF s' ∧ Idle s' ∧ rest.length ≤ x.length
    | .blocked d' s' rest => d' = d ∧ SWF s' ∧ Idle s' ∧ d.ctx.next < s'.ricnt := by
  unfold Dec.readRequest
  by_cases hb : d.ctx.bad = true
  · rw [if_pos hb]; exact Or.inl ⟨hb, rfl⟩
  rw [if_neg hb]
  have g := rsM_good hc
  have hr := rank_le s
  have key : ∀ f s x b, SWF s → (Idle s ∨ b = true) → (b = true → s.state.vis = true) → 8 * x.length + s.state.rank < f →
      match rsLoop f d s x b fin with
      | .crash => False
      | .fail d' _ => (d.ctx.bad = true ∧ d' = d) ∨ d' = d.setBad
      | .more d' s' => d' = d ∧ SWF s' ∧ Idle s'
      | .final d' s' => (d'.ctx = d.ctx ∧ d'.state = d.state ∧ d'.op = d.op ∧ d'.rs = d.rs) ∧ SWF s' ∧ Idle s'
      | .emit d' s' _ rest => d' = d ∧ SWF s' ∧ Idle s' ∧ rest.length ≤ x.length
      | .blocked d' s' rest => d' = d ∧ SWF s' ∧ Idle s' ∧ d.ctx.next < s'.ricnt := by
    intro f
    induction f with
    | zero => intro s x b _ _ _ h; omega
    | succ f ih =>
      intro s x b hw hi hb hf
      have hal : ∀ s', SWF s' → Idle s' → match almostOk d s' fin with
        | .crash => False
        | .fail d' _ => (d.ctx.bad = true ∧ d' = d) ∨ d' = d.setBad
        | .more d' s' => d' = d ∧ SWF s' ∧ Idle s'
        | .final d' s' => (d'.ctx = d.ctx ∧ d'.state = d.state ∧ d'.op = d.op ∧ d'.rs = d.rs) ∧ SWF s' ∧ Idle s'
        | .emit d' s' _ rest => d' = d ∧ SWF s' ∧ Idle s' ∧ rest.length ≤ x.length
        | .blocked d' s' rest => d' = d ∧ SWF s' ∧ Idle s' ∧ d.ctx.next < s'.ricnt := by
        intro s' hs' hi'
        unfold almostOk
        split_ifs
        · exact Or.inr rfl
        · rcases hwa : d.writeSectionAck s' with _ | d'
          · exact Or.inr rfl
          · have := writeSectionAck_same hwa
            exact ⟨⟨this.1, this.2.1, this.2.2.1, this.2.2.2⟩, hs', hi'⟩
        · exact ⟨⟨rfl, rfl, rfl, rfl⟩, hs', hi'⟩
        · exact ⟨rfl, hs', hi'⟩
      unfold rsLoop
      by_cases h0 : x = [] ∧ b = false
      · rw [if_pos h0]
        rcases hi with hi | hi
        · exact hal s hw hi
        · rw [h0.2] at hi; cases hi
      · rw [if_neg h0]
        have hx : x ≠ [] ∨ s.state.vis = true := by
          by_cases hx : x = []
          · right; apply hb; cases b <;> simp_all
          · left; exact hx
        have hg := g.step (s, []) x hw hx
        have hm := rsStep_more d.ctx s x
        unfold rsM at hg
        dsimp only at hg
        rcases hr : rsStep d.ctx s x with _ | e | ⟨s', rest, b'⟩ | ⟨s', rest⟩ | ⟨s', nv, rest⟩ | ⟨s', rest⟩ <;> rw [hr] at hm hg
        · exact hg.elim
        · exact Or.inr rfl
        · have := ih s' rest b' hg.1 (by
            by_cases hv : s'.state.vis = true
            · exact Or.inr (hm.1 hv).1
            · exact Or.inl fun h => absurd h hv) hg.2.1 (by have := hg.2.2.1; dsimp only at this; omega)
          dsimp only at hm ⊢
          revert this
          generalize rsLoop f d s' rest b' fin = z
          intro hz
          cases z <;> try exact hz
          exact ⟨hz.1, hz.2.1, hz.2.2.1, by have := hm.2; have := hz.2.2.2; omega⟩
        · exact hal s' hg.1 hm
        · exact ⟨rfl, hg.1, hm.2.2, hm.2.1⟩
        · refine ⟨rfl, ?_, hm.1, ?_⟩
          · unfold SWF; rw [hm.2.2.1]; trivial
          · exact hm.2.2.2
  exact key _ s x false hw (Or.inl hi) (by simp) (by unfold rsFuel; omega)

theorem readEncoder_safe {d : Dec} (hw : d.ctx.bad = true ∨ DecWF d) (x : Bytes) :
    (∃ d', d.readEncoder x = .ok d' ∧ DecWF d' ∧ d'.ctx.hardMax = d.ctx.hardMax) ∨
    (∃ d' e, d.readEncoder x = .fail d' e ∧ (CtxOk d.ctx → CtxOk d'.ctx) ∧ d'.ctx.hardMax = d.ctx.hardMax ∧
      (d'.ctx.bad = true ∨ DecWF d')) := by
  unfold Dec.readEncoder
  by_cases hb : d.ctx.bad = true
  · rw [if_pos hb]
    exact Or.inr ⟨d, _, rfl, id, rfl, Or.inl hb⟩
  have hw : DecWF d := hw.resolve_left hb
  rw [if_neg hb]
  by_cases hx : x = []
  · rw [if_pos hx]; exact Or.inl ⟨d, rfl, hw, rfl⟩
  · rw [if_neg hx]
    dsimp only
    split_ifs
    · exact Or.inr ⟨_, _, rfl, id, rfl, Or.inr (hw.withU _)⟩
    · have hh := esLoop_hard (esFuel x) { d with uninterrupted := d.uninterrupted + x.length } x false
      rcases esLoop_safe (hw.withU (d.uninterrupted + x.length)) x with ⟨d', h1, h2⟩ | ⟨d', e, h1⟩
      · rw [h1] at hh
        exact Or.inl ⟨d', h1, h2, hh⟩
      · have h3 := esLoop_fail_ok _ _ _ _ (hw.withU _) (by simp) d' e h1
        rw [h1] at hh
        exact Or.inr ⟨d', e, h1, fun _ => h3.1, hh, Or.inl h3.2⟩

end Qpack
end Nghttp3
