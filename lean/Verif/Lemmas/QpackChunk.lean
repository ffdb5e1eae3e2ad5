import Verif.Lemmas.QpackApi
/-! Chunk-invariance lemmas of the QPACK decoder. -/
namespace Nghttp3
namespace Qpack

/-! ### the byte counter does not influence decoding -/

def Dec.withU (d : Dec) (u : Nat) : Dec := { d with uninterrupted := u }

def ERes.withU (u : Nat) : ERes → ERes
  | .crash => .crash
  | .fail d e => .fail (d.withU u) e
  | .cont d r b => .cont (d.withU u) r b
  | .ret d r => .ret (d.withU u) r

def EOut.withU (u : Nat) : EOut → EOut
  | .crash => .crash
  | .fail d e => .fail (d.withU u) e
  | .ok d => .ok (d.withU u)

theorem finish_withU (d : Dec) (u : Nat) (rest : Bytes) (o : Option (Option Ctx)) :
    (d.withU u).finish rest o = (d.finish rest o).withU u := by
  rcases o with _ | _ | c <;> rfl

theorem esStep_withU (d : Dec) (u : Nat) (x : Bytes) : esStep (d.withU u) x = (esStep d x).withU u := by
  obtain ⟨ctx, state, op, rs, wi, mc, u0, dbuf⟩ := d
  cases state with
  | opcode =>
    cases x with
    | nil => rfl
    | cons b t =>
      unfold esStep Dec.withU
      dsimp only
      unfold esOpcode
      split_ifs <;> rfl
  | readIndex =>
    unfold esStep Dec.withU
    dsimp only
    unfold esIndex
    dsimp only
    rcases QInt.readInt rs.pfx rs.left rs.shift x with _ | _ | ⟨l, s⟩ | ⟨l, s, rest⟩
    · rfl
    · rfl
    · rfl
    · dsimp only; unfold esIndexDone; dsimp only
      cases op with
      | setCap => exact finish_withU ⟨ctx, .readIndex, .setCap, { rs with left := l, shift := s }, wi, mc, u0, dbuf⟩ u _ _
      | duplicate =>
        dsimp only
        rcases rel2abs ctx { rs with left := l, shift := s } with _ | r
        · rfl
        · exact finish_withU ⟨ctx, .readIndex, .duplicate, r, wi, mc, u0, dbuf⟩ u _ _
      | insertIndexed =>
        dsimp only
        rcases rel2abs ctx { rs with left := l, shift := s } with _ | r <;> rfl
      | insert =>
        dsimp only
        rcases rel2abs ctx { rs with left := l, shift := s } with _ | r <;> rfl
  | str ph =>
    unfold esStep Dec.withU
    dsimp only
    rcases strStep ph rs x with _ | _ | _ | ⟨ph', r', rest, b⟩ | ⟨ph', r', rest⟩ | ⟨r', rest⟩
    · rfl
    · rfl
    · rfl
    · rfl
    · rfl
    · dsimp only; unfold esValueDone; dsimp only
      cases op with
      | insertIndexed => exact finish_withU ⟨ctx, .str ph, .insertIndexed, r', wi, mc, u0, dbuf⟩ u _ _
      | insert => exact finish_withU ⟨ctx, .str ph, .insert, r', wi, mc, u0, dbuf⟩ u _ _
      | setCap => rfl
      | duplicate => rfl

theorem esLoop_withU (f : Nat) (d : Dec) (u : Nat) (x : Bytes) (b : Bool) :
    esLoop f (d.withU u) x b = (esLoop f d x b).withU u := by
  induction f generalizing d x b with
  | zero => rfl
  | succ f ih =>
    unfold esLoop
    rw [esStep_withU]
    by_cases h0 : x = [] ∧ b = false
    · rw [if_pos h0, if_pos h0]; rfl
    · rw [if_neg h0, if_neg h0]
      rcases esStep d x with _ | ⟨d', e⟩ | ⟨d', rest, b'⟩ | ⟨d', rest⟩
      · rfl
      · rfl
      · exact ih d' rest b'
      · rfl

/-- nothing on the encoder stream changes the counter except the addition at the start of the call -/
theorem esLoop_u (f : Nat) (d : Dec) (x : Bytes) (b : Bool) :
    match esLoop f d x b with
    | .crash => True
    | .fail d' _ => d'.uninterrupted = d.uninterrupted
    | .ok d' => d'.uninterrupted = d.uninterrupted := by
  have h := esLoop_withU f d d.uninterrupted x b
  have hd : d.withU d.uninterrupted = d := rfl
  rw [hd] at h
  revert h
  rcases esLoop f d x b with _ | ⟨d', e⟩ | d' <;> intro h
  · trivial
  · have : d' = d'.withU d.uninterrupted := by injection h
    dsimp only; rw [this]; rfl
  · have : d' = d'.withU d.uninterrupted := by injection h
    dsimp only; rw [this]; rfl

theorem esLoop_append {d : Dec} (hw : DecWF d) (x y : Bytes) :
    (esLoop (esFuel (x ++ y)) d (x ++ y) false).view =
      match esLoop (esFuel x) d x false with
      | .crash => .crash
      | .fail d' e => .fail (e, d'.ctx)
      | .ok d' => if y = [] then .ok d' else (esLoop (esFuel y) d' y false).view := by
  have hr := esRank_le d
  have run_x : ∀ (d : Dec) x, DecWF d →
      (esLoop (esFuel x) d x false).view = Machine.run esM (fun d => d.state.rank) d x false := by
    intro d x hw
    have hr := esRank_le d
    rw [esLoop_view]
    exact Machine.loop_run esM_good hw (by simp) (by unfold esFuel; omega)
  have hv := run_x d x hw
  rw [run_x _ _ hw, Machine.run_append esM_good _ _ _ _ hw (by simp), ← hv]
  rcases h : esLoop (esFuel x) d x false with _ | ⟨d', e⟩ | d'
  · rfl
  · rfl
  · dsimp only [EOut.view]
    have hd' : DecWF d' := by
      rcases esLoop_safe hw x with ⟨d'', h1, h2⟩ | ⟨d'', e, h1⟩
      · rw [h] at h1; cases h1; exact h2
      · rw [h] at h1; cases h1
    split_ifs
    · rfl
    · rw [← run_x _ _ hd']; rfl

/-! ### field lines already handed out do not influence decoding -/

def RStop.pre (a : List QNv) : RStop → RStop
  | .fail e acc => .fail e (a ++ acc)
  | .blocked s acc => .blocked s (a ++ acc)

def preOut (a : List QNv) : Machine.Out (SCtx × List QNv) RStop → Machine.Out (SCtx × List QNv) RStop
  | .crash => .crash
  | .fail o => .fail (o.pre a)
  | .stop o r => .stop (o.pre a) r
  | .ok (s, acc) => .ok (s, a ++ acc)

theorem rsLoop_pre (c : Ctx) (a : List QNv) (f : Nat) (s : SCtx) (acc : List QNv) (x : Bytes) (b : Bool) :
    Machine.loop (rsM c) f (s, a ++ acc) x b = preOut a (Machine.loop (rsM c) f (s, acc) x b) := by
  induction f generalizing s acc x b with
  | zero => rfl
  | succ f ih =>
    unfold Machine.loop
    by_cases h0 : x = [] ∧ b = false
    · rw [if_pos h0, if_pos h0]; rfl
    · rw [if_neg h0, if_neg h0]
      unfold rsM
      dsimp only
      rcases rsStep c s x with _ | e | ⟨s', rest, b'⟩ | ⟨s', rest⟩ | ⟨s', nv, rest⟩ | ⟨s', rest⟩
      · rfl
      · rfl
      · exact ih _ _ _ _
      · rfl
      · dsimp only [view_emit]
        rw [List.append_assoc]
        exact ih _ _ _ _
      · rfl

theorem rsRun_pre (c : Ctx) (a : List QNv) (s : SCtx) (x : Bytes) (b : Bool) :
    rsRun c (s, a) x b = preOut a (rsRun c (s, []) x b) := by
  have := rsLoop_pre c a (8 * x.length + s.state.rank + 1) s [] x b
  rw [List.append_nil] at this
  exact this

end Qpack
end Nghttp3
