import Verif.Lemmas.QpackSec
/-! A field section that does not refer to the dynamic table: what the decoder does with it does not depend on the dynamic table. -/
namespace Nghttp3
namespace Qpack

/-- the Required Insert Count is 0 (as far as it has been read), and no name comes from the dynamic table -/
def Zero (s : SCtx) : Prop := s.ricnt = 0 ∧ ∀ ph, s.state = .str ph → s.rs.dynamic = false

theorem Zero.init (id : Nat) : Zero (SCtx.init id) := ⟨rfl, fun ph h => by cases h⟩

def RRes.Keeps : RRes → Prop
  | .cont s _ _ => Zero s
  | .part s _ => Zero s
  | .emit s _ _ => Zero s
  | .blocked _ _ => False
  | _ => True

def SRes.rs? : SRes → Option RState
  | .cont _ r _ _ => some r
  | .ret _ r _ => some r
  | .done r _ => some r
  | _ => none

theorem strStep_dynamic (ph : Ph) (r : RState) (src : Bytes) : ∀ r', (strStep ph r src).rs? = some r' → r'.dynamic = r.dynamic := by
  intro r' h
  unfold strStep nameLenStep valueLenStep nameFin valueFin checkHuff at h
  split at h <;> repeat' (first | (split at h) | (cases h; done))
  all_goals first | (cases h; rfl) | (dsimp only [SRes.rs?] at h; cases h; done) | skip
  all_goals (repeat' (first | (split at h) | (cases h; done)))
  all_goals first | (cases h; rfl) | skip

theorem reconstruct_blank {c : Ctx} (h : c.hardMax = 0) (n : Nat) : reconstructRicnt c n = if n = 0 then some 0 else none := by
  unfold reconstructRicnt
  by_cases hn : n = 0
  · rw [if_pos hn, if_pos hn]
  · rw [if_neg hn, if_neg hn, h]
    dsimp only
    rw [if_pos (by omega)]

theorem brel_zero {c : Ctx} {s : SCtx} (hz : s.ricnt = 0) :
    brel2abs c s = if s.rs.dynamic then none else if s.rs.left < 99 then some { s with rs := { s.rs with absidx := s.rs.left } } else none := by
  unfold brel2abs validateIndex
  cases s.rs.dynamic
  · simp
  · simp only [if_true]
    rw [hz]
    split_ifs <;> first | rfl | omega

theorem pbrel_zero {c : Ctx} {s : SCtx} (hz : s.ricnt = 0) : pbrel2abs c s = none := by
  unfold pbrel2abs
  rw [hz]
  exact if_pos (Nat.zero_le _)

theorem emitRes_keeps {s : SCtx} {rest : Bytes} {o : Option QNv} (hz : s.ricnt = 0) : (emitRes s rest o).Keeps := by
  unfold emitRes
  cases o with
  | none => trivial
  | some nv => exact ⟨hz, fun ph h => by cases h⟩

theorem rsIndexDone_zero (c0 c : Ctx) (s : SCtx) (rest : Bytes) (hz : s.ricnt = 0) :
    rsIndexDone c s rest = rsIndexDone c0 s rest ∧ (rsIndexDone c0 s rest).Keeps := by
  unfold rsIndexDone
  cases s.op <;> dsimp only <;> (try rw [brel_zero hz, brel_zero hz]) <;> (try rw [pbrel_zero hz, pbrel_zero hz]) <;> (try exact ⟨rfl, trivial⟩)
  · cases hd : s.rs.dynamic
    · rw [if_neg (by simp)]
      by_cases h9 : s.rs.left < 99
      · rw [if_pos h9]
        dsimp only
        unfold emitIndexed
        dsimp only
        rw [hd]
        exact ⟨rfl, emitRes_keeps hz⟩
      · rw [if_neg h9]; exact ⟨rfl, trivial⟩
    · rw [if_pos rfl]; exact ⟨rfl, trivial⟩
  · cases hd : s.rs.dynamic
    · rw [if_neg (by simp)]
      by_cases h9 : s.rs.left < 99
      · rw [if_pos h9]
        exact ⟨rfl, hz, fun ph _ => hd⟩
      · rw [if_neg h9]; exact ⟨rfl, trivial⟩
    · rw [if_pos rfl]; exact ⟨rfl, trivial⟩

theorem rsValueDone_zero (c0 c : Ctx) (s : SCtx) (rest : Bytes) (hz : s.ricnt = 0) (hd : s.rs.dynamic = false) :
    rsValueDone c s rest = rsValueDone c0 s rest ∧ (rsValueDone c0 s rest).Keeps := by
  have he : ∀ c, emitIndexedName c s.rs = (stableGet s.rs.absidx).map fun x => some ⟨x.1, s.rs.value, some x.2.2, s.rs.never⟩ := by
    intro c; unfold emitIndexedName; rw [hd]; rfl
  unfold rsValueDone
  cases s.op <;> dsimp only <;> (try rw [he, he]) <;> (try exact ⟨rfl, trivial⟩)
  · refine ⟨rfl, ?_⟩
    rcases stableGet s.rs.absidx with _ | y
    · trivial
    · exact emitRes_keeps hz
  · refine ⟨rfl, ?_⟩
    rcases stableGet s.rs.absidx with _ | y
    · trivial
    · exact emitRes_keeps hz
  · exact ⟨rfl, emitRes_keeps hz⟩

theorem rsBase_zero (c0 c : Ctx) (s : SCtx) (src : Bytes) (hz : s.ricnt = 0) (hs : ∀ ph, s.state ≠ .str ph) :
    rsBase c s src = rsBase c0 s src ∧ (rsBase c0 s src).Keeps := by
  unfold rsBase
  rcases QInt.readInt s.rs.pfx s.rs.left s.rs.shift src with _ | _ | ⟨l, sh⟩ | ⟨l, sh, rest⟩ <;> dsimp only
  · exact ⟨rfl, trivial⟩
  · exact ⟨rfl, trivial⟩
  · exact ⟨rfl, hz, fun ph h => absurd h (hs ph)⟩
  · unfold rsBaseDone
    dsimp only
    by_cases h1 : (s.sign && decide (s.ricnt ≤ l)) = true
    · rw [if_pos h1, if_pos h1]; exact ⟨rfl, trivial⟩
    · rw [if_neg h1, if_neg h1, if_neg (show ¬ c.next < s.ricnt by omega), if_neg (show ¬ c0.next < s.ricnt by omega)]
      exact ⟨rfl, hz, fun ph h => by cases h⟩

/-- one pass -/
theorem rsStep_zero (c0 c : Ctx) (h0 : c0.hardMax = 0) (s : SCtx) (src : Bytes) (hz : Zero s) :
    (∃ e, rsStep c0 s src = .fail e) ∨ rsStep c s src = rsStep c0 s src ∧ (rsStep c0 s src).Keeps := by
  unfold rsStep
  rcases hst : s.state with _ | _ | _ | _ | _ | ph | _ <;> dsimp only
  · rcases QInt.readInt s.rs.pfx s.rs.left s.rs.shift src with _ | _ | ⟨l, sh⟩ | ⟨l, sh, rest⟩ <;> dsimp only
    · exact Or.inr ⟨rfl, trivial⟩
    · exact Or.inl ⟨_, rfl⟩
    · exact Or.inr ⟨rfl, hz.1, fun ph h => by cases h⟩
    · rw [reconstruct_blank h0]
      by_cases hl : l = 0
      · right
        rw [if_pos hl]
        have : reconstructRicnt c l = some 0 := by unfold reconstructRicnt; rw [if_pos hl]
        rw [this]
        exact ⟨rfl, rfl, fun ph h => by cases h⟩
      · rw [if_neg hl]; exact Or.inl ⟨_, rfl⟩
  · right
    rcases src with _ | ⟨b, t⟩
    · exact ⟨rfl, trivial⟩
    · exact rsBase_zero c0 c _ _ hz.1 (by intro ph h; cases h)
  · right; exact rsBase_zero c0 c _ _ hz.1 (by intro ph h; rw [hst] at h; cases h)
  · right
    split_ifs
    · exact ⟨rfl, trivial⟩
    rcases src with _ | ⟨b, t⟩
    · exact ⟨rfl, trivial⟩
    refine ⟨rfl, ?_⟩
    unfold rsOpcode
    dsimp only
    split_ifs <;> refine ⟨hz.1, fun ph h => ?_⟩ <;> first | (cases h; done) | rfl
  · rcases QInt.readInt s.rs.pfx s.rs.left s.rs.shift src with _ | _ | ⟨l, sh⟩ | ⟨l, sh, rest⟩ <;> dsimp only
    · exact Or.inr ⟨rfl, trivial⟩
    · exact Or.inl ⟨_, rfl⟩
    · exact Or.inr ⟨rfl, hz.1, fun ph h => by cases h⟩
    · exact Or.inr (rsIndexDone_zero c0 c _ _ hz.1)
  · have hd := hz.2 ph hst
    have hk := strStep_dynamic ph s.rs src
    rcases hr : strStep ph s.rs src with _ | _ | _ | ⟨p, r, rest, b⟩ | ⟨p, r, rest⟩ | ⟨r, rest⟩ <;> rw [hr] at hk <;> dsimp only
    · exact Or.inr ⟨rfl, trivial⟩
    · exact Or.inl ⟨_, rfl⟩
    · exact Or.inl ⟨_, rfl⟩
    · exact Or.inr ⟨rfl, hz.1, fun _ _ => (hk r rfl).trans hd⟩
    · exact Or.inr ⟨rfl, hz.1, fun _ _ => (hk r rfl).trans hd⟩
    · exact Or.inr (rsValueDone_zero c0 c _ _ hz.1 ((hk r rfl).trans hd))
  · right
    have := hz.1
    rw [if_neg (by omega), if_neg (by omega)]
    exact ⟨rfl, hz.1, fun ph h => by cases h⟩

/-- a decoder without dynamic table -/
def Blank (d : Dec) : Prop := d.ctx.hardMax = 0

/-- the same outcome, with another decoder -/
def ROut.Like : ROut → ROut → Prop
  | .more d s, o => Blank d ∧ Zero s ∧ ((∃ d' e, o = .fail d' e) ∨ ∃ d', o = .more d' s)
  | .final d s, o => Blank d ∧ Zero s ∧ ((∃ d' e, o = .fail d' e) ∨ ∃ d', o = .final d' s)
  | .emit d s nv rest, o => Blank d ∧ Zero s ∧ ((∃ d' e, o = .fail d' e) ∨ ∃ d', o = .emit d' s nv rest)
  | .blocked _ _ _, _ => False
  | _, _ => True

theorem almostOk_like (d0 d : Dec) (s : SCtx) (fin : Bool) (hb : Blank d0) (hz : Zero s) : (almostOk d0 s fin).Like (almostOk d s fin) := by
  unfold almostOk
  cases fin
  · exact ⟨hb, hz, Or.inr ⟨_, rfl⟩⟩
  simp only [if_true]
  by_cases hs : s.state ≠ .opcode
  · rw [if_pos hs]; trivial
  rw [if_neg hs, if_neg hs, if_neg (by simp [hz.1]), if_neg (by simp [hz.1])]
  exact ⟨hb, hz, Or.inr ⟨_, rfl⟩⟩

theorem rsLoop_like (f : Nat) (d0 d : Dec) (s : SCtx) (src : Bytes) (busy fin : Bool) (hb : Blank d0) (hz : Zero s) :
    (rsLoop f d0 s src busy fin).Like (rsLoop f d s src busy fin) := by
  induction f generalizing s src busy with
  | zero => trivial
  | succ f ih =>
    unfold rsLoop
    by_cases h0 : src = [] ∧ busy = false
    · rw [if_pos h0, if_pos h0]; exact almostOk_like d0 d s fin hb hz
    rw [if_neg h0, if_neg h0]
    rcases rsStep_zero d0.ctx d.ctx hb s src hz with ⟨e, he⟩ | ⟨he, hk⟩
    · rw [he]; trivial
    rw [he]
    rcases hr : rsStep d0.ctx s src with _ | e | ⟨s', rest, b⟩ | ⟨s', rest⟩ | ⟨s', nv, rest⟩ | ⟨s', rest⟩ <;> rw [hr] at hk <;> dsimp only
    · trivial
    · trivial
    · exact ih s' rest b hk
    · exact almostOk_like d0 d s' fin hb hk
    · exact ⟨hb, hk, Or.inr ⟨_, rfl⟩⟩
    · exact hk

theorem readRequest_like (d0 d : Dec) (s : SCtx) (src : Bytes) (fin : Bool) (hb : Blank d0) (hz : Zero s) :
    (d0.readRequest s src fin).Like (d.readRequest s src fin) := by
  unfold Dec.readRequest
  by_cases h0 : d0.ctx.bad = true
  · rw [if_pos h0]; trivial
  rw [if_neg h0]
  by_cases h1 : d.ctx.bad = true
  · rw [if_pos h1]
    have := rsLoop_like (rsFuel src) d0 d s src false fin hb hz
    rcases hr : rsLoop (rsFuel src) d0 s src false fin with _ | ⟨d', e⟩ | ⟨d', s'⟩ | ⟨d', s'⟩ | ⟨d', s', nv, rest⟩ | ⟨d', s', rest⟩ <;> rw [hr] at this
    · trivial
    · trivial
    · exact ⟨this.1, this.2.1, Or.inl ⟨_, _, rfl⟩⟩
    · exact ⟨this.1, this.2.1, Or.inl ⟨_, _, rfl⟩⟩
    · exact ⟨this.1, this.2.1, Or.inl ⟨_, _, rfl⟩⟩
    · exact this
  · rw [if_neg h1]; exact rsLoop_like _ d0 d s src false fin hb hz

end Qpack
end Nghttp3
