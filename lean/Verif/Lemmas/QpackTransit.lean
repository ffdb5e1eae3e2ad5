import Verif.Lemmas.QpackPrefix
/-! The encoder stream in transit. -/
namespace Nghttp3
namespace Qpack

/-- the fields of a decoder that reading the encoder stream neither uses nor changes -/
def Dec.withOut (d d0 : Dec) : Dec :=
  { d with writtenIcnt := d0.writtenIcnt, maxConc := d0.maxConc, uninterrupted := d0.uninterrupted, dbuf := d0.dbuf }

def ERes.withOut (d0 : Dec) : ERes → ERes
  | .crash => .crash
  | .fail d e => .fail (d.withOut d0) e
  | .cont d r b => .cont (d.withOut d0) r b
  | .ret d r => .ret (d.withOut d0) r

theorem finish_withOut (d d0 : Dec) (rest : Bytes) (o : Option (Option Ctx)) :
    (d.withOut d0).finish rest o = (d.finish rest o).withOut d0 := by
  rcases o with _ | _ | c <;> rfl

theorem esStep_withOut (d d0 : Dec) (x : Bytes) : esStep (d.withOut d0) x = (esStep d x).withOut d0 := by
  obtain ⟨ctx, state, op, rs, wi, mc, u0, dbuf⟩ := d
  cases state with
  | opcode =>
    cases x with
    | nil => rfl
    | cons b t =>
      unfold esStep Dec.withOut
      dsimp only
      unfold esOpcode
      split_ifs <;> rfl
  | readIndex =>
    unfold esStep Dec.withOut
    dsimp only
    unfold esIndex
    dsimp only
    rcases QInt.readInt rs.pfx rs.left rs.shift x with _ | _ | ⟨l, s⟩ | ⟨l, s, rest⟩
    · rfl
    · rfl
    · rfl
    · dsimp only; unfold esIndexDone; dsimp only
      cases op with
      | setCap => exact finish_withOut ⟨ctx, .readIndex, .setCap, { rs with left := l, shift := s }, wi, mc, u0, dbuf⟩ d0 _ _
      | duplicate =>
        dsimp only
        rcases rel2abs ctx { rs with left := l, shift := s } with _ | r
        · rfl
        · exact finish_withOut ⟨ctx, .readIndex, .duplicate, r, wi, mc, u0, dbuf⟩ d0 _ _
      | insertIndexed =>
        dsimp only
        rcases rel2abs ctx { rs with left := l, shift := s } with _ | r <;> rfl
      | insert =>
        dsimp only
        rcases rel2abs ctx { rs with left := l, shift := s } with _ | r <;> rfl
  | str ph =>
    unfold esStep Dec.withOut
    dsimp only
    rcases strStep ph rs x with _ | _ | _ | ⟨ph', r', rest, b⟩ | ⟨ph', r', rest⟩ | ⟨r', rest⟩
    · rfl
    · rfl
    · rfl
    · rfl
    · rfl
    · dsimp only; unfold esValueDone; dsimp only
      cases op with
      | insertIndexed => exact finish_withOut ⟨ctx, .str ph, .insertIndexed, r', wi, mc, u0, dbuf⟩ d0 _ _
      | insert => exact finish_withOut ⟨ctx, .str ph, .insert, r', wi, mc, u0, dbuf⟩ d0 _ _
      | setCap => rfl
      | duplicate => rfl

theorem esRun_withOut {d d' : Dec} (d0 : Dec) {x : Bytes} {b : Bool} (h : esRun d x b = .ok d') : esRun (d.withOut d0) x b = .ok (d'.withOut d0) := by
  unfold esRun Machine.run at h ⊢
  have hr : (fun d : Dec => d.state.rank) (d.withOut d0) = (fun d : Dec => d.state.rank) d := rfl
  rw [hr]
  clear hr
  generalize (8 * x.length + (fun d : Dec => d.state.rank) d + 1) = f at h ⊢
  induction f generalizing d x b with
  | zero => cases h
  | succ f ih =>
    unfold Machine.loop at h ⊢
    by_cases h0 : x = [] ∧ b = false
    · rw [if_pos h0] at h ⊢
      cases h; rfl
    · rw [if_neg h0] at h ⊢
      rw [show esM (d.withOut d0) x = ((esStep d x).withOut d0).view by unfold esM; rw [esStep_withOut]]
      rw [show esM d x = (esStep d x).view from rfl] at h
      rcases he : esStep d x with _ | ⟨d1, e⟩ | ⟨d1, rest, b'⟩ | ⟨d1, rest⟩ <;> rw [he] at h
      · cases h
      · cases h
      · exact ih h
      · cases h; rfl

theorem CtxStep.ext {c c' : Ctx} (hc : CtxOk c) (h : CtxStep c c') : Ext c c' := by
  cases h with
  | same => exact Ext.refl c
  | cap n _ h =>
    by_cases hn : n ≤ c.hardMax
    · obtain ⟨k, hk, he, _⟩ := hc.setCap n hn
      rw [he] at h
      cases h
      exact (ext_take hc.toCtxB k n _ hk).1
    · unfold Ctx.setCap at h
      rw [if_pos (by omega)] at h; cases h
  | add name value token _ h =>
    unfold Ctx.addChecked at h
    by_cases hs : c.maxCap < tableSpace name.length value.length
    · rw [if_pos hs] at h; cases h
    rw [if_neg hs] at h
    obtain ⟨k, hk, he, _⟩ := Ctx.add_spec hc.toCtxB name value token 0 (by omega)
    rw [he] at h
    cases h
    exact (ext_pushed hc.toCtxB k name value token 0 hk).1

theorem esRun_ctx {d d' : Dec} {x : Bytes} {b : Bool} (hw : DecWF d) (hb : b = true → d.state.vis = true) (h : esRun d x b = .ok d') :
    Ext d.ctx d'.ctx ∧ d'.ctx.hardMax = d.ctx.hardMax ∧ d'.ctx.bad = d.ctx.bad ∧ DecWF d' ∧ Dec.SameOut d d' := by
  have hso : Dec.SameOut d d' := by
    have := esRun_withOut d h
    have hd : d.withOut d = d := rfl
    rw [hd, h] at this
    have e : d' = d'.withOut d := by injection this
    rw [e]; exact ⟨rfl, rfl, rfl, rfl⟩
  have hwf := (Machine.loop_safe esM_good (8 * x.length + d.state.rank + 1) d x b hw hb (Nat.lt_succ_self _)).2 d' h
  suffices hh : Ext d.ctx d'.ctx ∧ d'.ctx.hardMax = d.ctx.hardMax ∧ d'.ctx.bad = d.ctx.bad from ⟨hh.1, hh.2.1, hh.2.2, hwf, hso⟩
  clear hso hwf
  unfold esRun Machine.run at h
  have hf : 8 * x.length + d.state.rank < 8 * x.length + d.state.rank + 1 := Nat.lt_succ_self _
  generalize (8 * x.length + d.state.rank + 1) = f at h hf
  induction f generalizing d x b with
  | zero => cases h
  | succ f ih =>
    unfold Machine.loop at h
    by_cases h0 : x = [] ∧ b = false
    · rw [if_pos h0] at h
      cases h; exact ⟨Ext.refl _, rfl, rfl⟩
    · rw [if_neg h0] at h
      have hx : x ≠ [] ∨ d.state.vis = true := by
        by_cases hx : x = []
        · right; apply hb; cases b <;> simp_all
        · left; exact hx
      have hg := esM_good.step d x hw hx
      have hs := esStep_ctx d x
      unfold esM at h hg
      rcases he : esStep d x with _ | ⟨d1, e⟩ | ⟨d1, rest, b'⟩ | ⟨d1, rest⟩ <;> rw [he] at h hs hg
      · cases h
      · cases h
      · dsimp only at hs
        have hg' : DecWF d1 ∧ (b' = true → d1.state.vis = true) ∧ 8 * rest.length + d1.state.rank < 8 * x.length + d.state.rank := ⟨hg.1, hg.2.1, hg.2.2.1⟩
        obtain ⟨g1, g2, g3⟩ := ih hg'.1 hg'.2.1 h (by omega)
        exact ⟨(hs.ext hw.ctx).trans g1, by rw [g2, hs.hard], by rw [g3, hs.bad]⟩
      · cases h
        dsimp only at hs
        rw [hs]; exact ⟨Ext.refl _, rfl, rfl⟩

/-- the whole call -/
theorem readEncoder_run {d : Dec} (hw : DecWF d) (hb : d.ctx.bad = false) {x y : Bytes} {dF : Dec} (h : esRun d (x ++ y) false = .ok dF)
    (hu : d.uninterrupted + x.length ≤ 128 * 1024) :
    ∃ d' dF', d.readEncoder x = .ok d' ∧ esRun d' y false = .ok dF' ∧ DecWF d' ∧ d'.ctx.bad = false ∧ Ext d.ctx d'.ctx ∧ d'.ctx.hardMax = d.ctx.hardMax ∧
      dF'.ctx = dF.ctx ∧ dF'.state = dF.state ∧ dF'.op = dF.op ∧ dF'.rs = dF.rs ∧ d'.dbuf = d.dbuf ∧ d'.writtenIcnt = d.writtenIcnt ∧ d'.maxConc = d.maxConc := by
  unfold Dec.readEncoder
  rw [hb]
  by_cases hx : x = []
  · subst hx
    exact ⟨d, dF, rfl, h, hw, hb, Ext.refl _, rfl, rfl, rfl, rfl, rfl, rfl, rfl, rfl⟩
  · rw [if_neg (by simp), if_neg hx]
    dsimp only
    rw [if_neg (by omega)]
    generalize hd1 : ({ d with uninterrupted := d.uninterrupted + x.length } : Dec) = d1
    have hw1 : DecWF d1 := by rw [← hd1]; exact hw.withU _
    have h1 : esRun d1 (x ++ y) false = .ok (dF.withOut d1) := by
      have := esRun_withOut d1 h
      rw [show d.withOut d1 = d1 by rw [← hd1]; rfl] at this
      exact this
    rw [esRun, Machine.run_append esM_good _ _ _ _ hw1 (by simp)] at h1
    have hv : (esLoop (esFuel x) d1 x false).view = Machine.run esM (fun d => d.state.rank) d1 x false := by
      have hr := esRank_le d1
      rw [esLoop_view]
      exact Machine.loop_run esM_good hw1 (by simp) (by unfold esFuel; omega)
    rcases hr : Machine.run esM (fun d => d.state.rank) d1 x false with _ | o | ⟨o, rest⟩ | d' <;> rw [hr] at h1 hv
    · cases h1
    · cases h1
    · cases h1
    · obtain ⟨g1, g2, g3, g4, g5⟩ := esRun_ctx hw1 (by simp) hr
      have hc : d1.ctx = d.ctx := by rw [← hd1]
      rw [hc] at g1 g2 g3
      refine ⟨d', dF.withOut d1, ?_, ?_, g4, by rw [g3]; exact hb, g1, g2, rfl, rfl, rfl, rfl, ?_, ?_, ?_⟩
      · rcases hl : esLoop (esFuel x) d1 x false with _ | ⟨d2, e⟩ | d2 <;> rw [hl] at hv
        · cases hv
        · cases hv
        · cases hv; rfl
      · dsimp only at h1
        split_ifs at h1 with hy
        · subst hy
          cases h1
          rw [esRun, Machine.run_eq esM_good g4 (by simp), if_pos ⟨rfl, rfl⟩]
        · exact h1
      · rw [g5.2.2.2, ← hd1]
      · rw [g5.1, ← hd1]
      · rw [g5.2.1, ← hd1]

theorem esRun_then {d d1 d2 : Dec} {x y : Bytes} (hw : DecWF d) (h1 : esRun d x false = .ok d1) (h2 : esRun d1 y false = .ok d2) : esRun d (x ++ y) false = .ok d2 := by
  have hw1 := (esRun_ctx hw (by simp) h1).2.2.2.1
  rw [esRun, Machine.run_append esM_good _ _ _ _ hw (by simp), show Machine.run esM (fun d => d.state.rank) d x false = .ok d1 from h1]
  dsimp only
  split_ifs with hy
  · subst hy
    rw [esRun, Machine.run_eq esM_good hw1 (by simp), if_pos ⟨rfl, rfl⟩] at h2
    exact h2
  · exact h2

end Qpack
end Nghttp3
