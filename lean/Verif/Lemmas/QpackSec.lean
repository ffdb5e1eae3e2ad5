import Verif.Lemmas.QpackDec
/-! The driver that repeatedly calls the request-stream decoder is one run of the machine. -/
namespace Nghttp3
namespace Qpack
open QInt

/-- extra facts about one pass in a string state -/
theorem strStep_more (ph : Ph) (r : RState) (x : Bytes) :
    match strStep ph r x with
    | .cont ph' _ rest b => (ph'.isValue = true → b = true ∧ rest.length < x.length) ∧ rest.length ≤ x.length
    | .ret ph' r' _ => ph'.isValue = true → r'.left ≠ 0
    | .done _ rest => (r.left ≠ 0 → rest.length < x.length) ∧ rest.length ≤ x.length ∧ ph.isValue = true
    | _ => True := by
  have hlen : ∀ {left hctx buf cap} {buf' : Bytes} {left' hctx' rest},
      (readPlain left hctx buf cap x = .ok buf' left' hctx' rest ∨ readHuff left hctx buf cap x = .ok buf' left' hctx' rest) →
      rest.length ≤ x.length ∧ (left' = 0 → left ≠ 0 → rest.length < x.length) := by
    intro left hctx buf cap buf' left' hctx' rest h
    rcases h with h | h
    · unfold readPlain at h
      dsimp only at h
      split_ifs at h
      simp only [StrRes.ok.injEq] at h
      obtain ⟨_, h2, _, h4⟩ := h
      subst h4
      simp only [List.length_drop]
      omega
    · unfold readHuff at h
      dsimp only at h
      split_ifs at h with h1
      · rcases hd : Huff.decode hctx (List.take left x) (decide (left ≤ x.length)) with ⟨c, _ | o⟩
        · rw [hd] at h; simp at h
        · rw [hd] at h; dsimp only at h
          split_ifs at h
          simp only [StrRes.ok.injEq] at h
          obtain ⟨_, h2, _, h4⟩ := h
          subst h4
          simp only [List.length_drop]
          simp at h1
          omega
      · rcases hd : Huff.decode hctx (List.take x.length x) (decide (left ≤ x.length)) with ⟨c, _ | o⟩
        · rw [hd] at h; simp at h
        · rw [hd] at h; dsimp only at h
          split_ifs at h
          simp only [StrRes.ok.injEq] at h
          obtain ⟨_, h2, _, h4⟩ := h
          subst h4
          simp at h1
          simp only [List.length_drop]
          omega
  have hnl : ∀ r, match nameLenStep r x with
    | .cont ph' _ rest b => (ph'.isValue = true → b = true ∧ rest.length < x.length) ∧ rest.length ≤ x.length
    | .ret ph' r' _ => ph'.isValue = true → r'.left ≠ 0
    | .done _ rest => False
    | _ => True := by
    intro r
    unfold nameLenStep
    rcases hr : readInt r.pfx r.left r.shift x with _ | _ | ⟨l, s⟩ | ⟨l, s, rest⟩
    · trivial
    · trivial
    · exact fun h => by simp [Ph.isValue] at h
    · have := readInt_length hr
      dsimp only
      split_ifs
      · trivial
      · exact ⟨by simp [Ph.isValue], by omega⟩
      · exact ⟨by simp [Ph.isValue], by omega⟩
  have hvl : ∀ r, match valueLenStep r x with
    | .cont ph' _ rest b => (ph'.isValue = true → b = true ∧ rest.length < x.length) ∧ rest.length ≤ x.length
    | .ret ph' r' _ => ph'.isValue = true → r'.left ≠ 0
    | .done _ rest => False
    | _ => True := by
    intro r
    unfold valueLenStep
    rcases hr : readInt r.pfx r.left r.shift x with _ | _ | ⟨l, s⟩ | ⟨l, s, rest⟩
    · trivial
    · trivial
    · exact fun h => by simp [Ph.isValue] at h
    · have := readInt_length hr
      dsimp only
      split_ifs
      · trivial
      · exact ⟨fun _ => ⟨rfl, by omega⟩, by omega⟩
      · exact ⟨fun _ => ⟨rfl, by omega⟩, by omega⟩
  have weak : ∀ (z : SRes) , (match z with
    | .cont ph' _ rest b => (ph'.isValue = true → b = true ∧ rest.length < x.length) ∧ rest.length ≤ x.length
    | .ret ph' r' _ => ph'.isValue = true → r'.left ≠ 0
    | .done _ rest => False
    | _ => True) → (match z with
    | .cont ph' _ rest b => (ph'.isValue = true → b = true ∧ rest.length < x.length) ∧ rest.length ≤ x.length
    | .ret ph' r' _ => ph'.isValue = true → r'.left ≠ 0
    | .done _ rest => (r.left ≠ 0 → rest.length < x.length) ∧ rest.length ≤ x.length ∧ ph.isValue = true
    | _ => True) := by
    intro z h
    cases z <;> first | exact h | exact h.elim
  unfold strStep
  cases ph with
  | checkName => cases x with | nil => trivial | cons b t => exact weak _ (hnl _)
  | nameLen => exact weak _ (hnl _)
  | checkValue => cases x with | nil => trivial | cons b t => exact weak _ (hvl _)
  | valueLen => exact weak _ (hvl _)
  | nameHuff =>
    dsimp only; unfold nameFin
    rcases hr : readHuff r.left r.hctx r.name r.ncap x with _ | _ | ⟨b, l, h, rest⟩
    · trivial
    · trivial
    · have := hlen (Or.inr hr)
      dsimp only
      split_ifs <;> simp [Ph.isValue]
      omega
  | name =>
    dsimp only; unfold nameFin
    rcases hr : readPlain r.left r.hctx r.name r.ncap x with _ | _ | ⟨b, l, h, rest⟩
    · trivial
    · trivial
    · have := hlen (Or.inl hr)
      dsimp only
      split_ifs <;> simp [Ph.isValue]
      omega
  | valueHuff =>
    dsimp only; unfold valueFin
    rcases hr : readHuff r.left r.hctx r.value r.vcap x with _ | _ | ⟨b, l, h, rest⟩
    · trivial
    · trivial
    · have := hlen (Or.inr hr)
      dsimp only
      split_ifs with h1 h2
      · exact fun _ => h1
      · trivial
      · exact ⟨this.2 (by simpa using h1), this.1, rfl⟩
  | value =>
    dsimp only; unfold valueFin
    rcases hr : readPlain r.left r.hctx r.value r.vcap x with _ | _ | ⟨b, l, h, rest⟩
    · trivial
    · trivial
    · have := hlen (Or.inl hr)
      dsimp only
      split_ifs with h1 h2
      · exact fun _ => h1
      · trivial
      · exact ⟨this.2 (by simpa using h1), this.1, rfl⟩

/-- between calls, a string value in progress still needs bytes -/
def Idle (s : SCtx) : Prop := s.state.vis = true → s.rs.left ≠ 0

/-- extra facts about one pass -/
theorem rsStep_more (c : Ctx) (s : SCtx) (x : Bytes) :
    match rsStep c s x with
    | .cont s' rest b => (s'.state.vis = true → b = true ∧ rest.length < x.length) ∧ rest.length ≤ x.length
    | .part s' _ => Idle s'
    | .emit s' _ rest => ((s.state.vis = true → s.rs.left ≠ 0) → rest.length < x.length) ∧ rest.length ≤ x.length ∧ Idle s'
    | .blocked s' rest => Idle s' ∧ rest.length ≤ x.length ∧ s'.state = .blocked ∧ c.next < s'.ricnt
    | _ => True := by
  have hbase : ∀ s : SCtx, s.state.vis = false → match rsBase c s x with
    | .cont s' rest b => (s'.state.vis = true → b = true ∧ rest.length < x.length) ∧ rest.length ≤ x.length
    | .part s' _ => Idle s'
    | .emit s' _ rest => False
    | .blocked s' rest => Idle s' ∧ rest.length ≤ x.length ∧ s'.state = .blocked ∧ c.next < s'.ricnt
    | _ => True := by
    intro s hs
    unfold rsBase
    rcases hr : readInt s.rs.pfx s.rs.left s.rs.shift x with _ | _ | ⟨l, sh⟩ | ⟨l, sh, rest⟩
    · trivial
    · trivial
    · exact fun h => by rw [hs] at h; cases h
    · have := readInt_length hr
      dsimp only
      unfold rsBaseDone
      dsimp only
      by_cases h1 : (s.sign && decide (s.ricnt ≤ l)) = true
      · rw [if_pos h1]; trivial
      · rw [if_neg h1]
        by_cases h2 : c.next < s.ricnt
        · rw [if_pos h2]; exact ⟨fun h => (by cases h), by omega, rfl, h2⟩
        · rw [if_neg h2]; exact ⟨fun h => (by cases h), by omega⟩
  have weak : ∀ z : RRes, (match z with
    | .cont s' rest b => (s'.state.vis = true → b = true ∧ rest.length < x.length) ∧ rest.length ≤ x.length
    | .part s' _ => Idle s'
    | .emit s' _ rest => False
    | .blocked s' rest => Idle s' ∧ rest.length ≤ x.length ∧ s'.state = .blocked ∧ c.next < s'.ricnt
    | _ => True) → (match z with
    | .cont s' rest b => (s'.state.vis = true → b = true ∧ rest.length < x.length) ∧ rest.length ≤ x.length
    | .part s' _ => Idle s'
    | .emit s' _ rest => ((s.state.vis = true → s.rs.left ≠ 0) → rest.length < x.length) ∧ rest.length ≤ x.length ∧ Idle s'
    | .blocked s' rest => Idle s' ∧ rest.length ≤ x.length ∧ s'.state = .blocked ∧ c.next < s'.ricnt
    | _ => True) := by
    intro z h; cases z <;> first | exact h | exact h.elim
  unfold rsStep
  cases hst : s.state with
  | ricnt =>
    rcases hr : readInt s.rs.pfx s.rs.left s.rs.shift x with _ | _ | ⟨l, sh⟩ | ⟨l, sh, rest⟩
    · trivial
    · trivial
    · exact fun h => (by cases h)
    · have := readInt_length hr
      dsimp only
      rcases reconstructRicnt c l with _ | n
      · trivial
      · exact ⟨by simp [RSt.vis], by omega⟩
  | dbaseSign =>
    cases x with
    | nil => trivial
    | cons b t => rw [hst] at weak; exact weak _ (hbase _ rfl)
  | dbase => rw [hst] at weak; exact weak _ (hbase s (by rw [hst]; rfl))
  | opcode =>
    dsimp only
    split_ifs
    · trivial
    · cases x with
      | nil => trivial
      | cons b t =>
        dsimp only
        refine ⟨fun h => ?_, by omega⟩
        exfalso
        revert h
        unfold rsOpcode
        dsimp only
        split_ifs <;> simp [RSt.vis, Ph.isValue]
  | readIndex =>
    rcases hr : readInt s.rs.pfx s.rs.left s.rs.shift x with _ | _ | ⟨l, sh⟩ | ⟨l, sh, rest⟩
    · trivial
    · trivial
    · exact fun h => (by cases h)
    · have hl := readInt_length hr
      have hem : ∀ (s' : SCtx) o, match emitRes s' rest o with
        | .cont s' rest b => (s'.state.vis = true → b = true ∧ rest.length < x.length) ∧ rest.length ≤ x.length
        | .part s' _ => Idle s'
        | .emit s' _ rest => ((RSt.readIndex.vis = true → s.rs.left ≠ 0) → rest.length < x.length) ∧ rest.length ≤ x.length ∧ Idle s'
        | .blocked s' rest => Idle s' ∧ rest.length ≤ x.length ∧ s'.state = .blocked ∧ c.next < s'.ricnt
        | _ => True := by
        intro s' o
        cases o with
        | none => trivial
        | some nv => exact ⟨fun _ => hl, by omega, fun h => (by cases h)⟩
      dsimp only
      unfold rsIndexDone
      dsimp only
      cases s.op with
      | literal => trivial
      | indexed => dsimp only; rcases brel2abs c _ with _ | s'; exacts [trivial, hem _ _]
      | indexedPB => dsimp only; rcases pbrel2abs c _ with _ | s'; exacts [trivial, hem _ _]
      | indexedName =>
        dsimp only; rcases brel2abs c _ with _ | s'
        · trivial
        · exact ⟨by simp [RSt.vis, Ph.isValue], by omega⟩
      | indexedNamePB =>
        dsimp only; rcases pbrel2abs c _ with _ | s'
        · trivial
        · exact ⟨by simp [RSt.vis, Ph.isValue], by omega⟩
  | str ph =>
    have h := strStep_more ph s.rs x
    dsimp only
    rcases hr : strStep ph s.rs x with _ | _ | _ | ⟨ph', r', rest, b⟩ | ⟨ph', r', rest⟩ | ⟨r', rest⟩ <;> rw [hr] at h <;> dsimp only at h ⊢
    · exact h
    · exact h
    · have hem : ∀ (s' : SCtx) o, match emitRes s' rest o with
        | .cont s' rest b => (s'.state.vis = true → b = true ∧ rest.length < x.length) ∧ rest.length ≤ x.length
        | .part s' _ => Idle s'
        | .emit s' _ rest => (((RSt.str ph).vis = true → s.rs.left ≠ 0) → rest.length < x.length) ∧ rest.length ≤ x.length ∧ Idle s'
        | .blocked s' rest => Idle s' ∧ rest.length ≤ x.length ∧ s'.state = .blocked ∧ c.next < s'.ricnt
        | _ => True := by
        intro s' o
        cases o with
        | none => trivial
        | some nv => exact ⟨fun hl => h.1 (hl h.2.2), h.2.1, fun h => (by cases h)⟩
      unfold rsValueDone
      dsimp only
      cases s.op with
      | literal => exact hem { s with rs := r', op := .literal } (some (emitLiteral r'))
      | indexed => trivial
      | indexedPB => trivial
      | indexedName =>
        dsimp only; rcases emitIndexedName c _ with _ | _ | nv
        exacts [trivial, trivial, hem { s with state := .str ph, rs := r', op := .indexedName } (some nv)]
      | indexedNamePB =>
        dsimp only; rcases emitIndexedName c _ with _ | _ | nv
        exacts [trivial, trivial, hem { s with state := .str ph, rs := r', op := .indexedNamePB } (some nv)]
  | blocked =>
    dsimp only
    split_ifs with hn
    · exact ⟨fun h => by rw [hst] at h; simp [RSt.vis] at h, by omega, hst, hn⟩
    · exact ⟨by simp [RSt.vis], by omega⟩

abbrev rsRun (c : Ctx) (p : SCtx × List QNv) (x : Bytes) (b : Bool) : Machine.Out (SCtx × List QNv) RStop :=
  Machine.run (rsM c) (fun p => p.1.state.rank) p x b

/-- what the driver reports for an outcome of the machine -/
def secOut (d : Dec) (fin : Bool) : Machine.Out (SCtx × List QNv) RStop → List QNv × ROut
  | .crash => ([], .crash)
  | .fail (.fail e acc) => (acc, .fail d.setBad e)
  | .fail _ => ([], .crash)
  | .stop (.blocked s acc) rest => (acc, .blocked d s rest)
  | .stop _ _ => ([], .crash)
  | .ok (s, acc) => (acc, almostOk d s fin)

theorem almostOk_ne_emit (d : Dec) (s : SCtx) (fin : Bool) (d' : Dec) (s' : SCtx) (nv : QNv) (r : Bytes) :
    almostOk d s fin ≠ .emit d' s' nv r := by
  unfold almostOk
  split_ifs
  · simp
  · rcases d.writeSectionAck s with _ | d'' <;> simp
  · simp
  · simp

theorem rsLoop_run {d : Dec} (hc : CtxOk d.ctx) (fin : Bool) (f : Nat) (s : SCtx) (x : Bytes) (b : Bool)
    (acc : List QNv) (hw : SWF s) (hb : b = true → s.state.vis = true) (hf : 8 * x.length + s.state.rank < f) :
    (∃ s' nv rest, rsLoop f d s x b fin = .emit d s' nv rest ∧
      ((s.state.vis = true → s.rs.left ≠ 0) → rest.length < x.length) ∧ rest.length ≤ x.length ∧ SWF s' ∧ Idle s' ∧
      rsRun d.ctx (s, acc) x b = rsRun d.ctx (s', acc ++ [nv]) rest false) ∨
    ((∀ d' s' nv rest, rsLoop f d s x b fin ≠ .emit d' s' nv rest) ∧
      (acc, rsLoop f d s x b fin) = secOut d fin (rsRun d.ctx (s, acc) x b)) := by
  induction f generalizing s x b with
  | zero => omega
  | succ f ih =>
    have g := rsM_good hc
    rw [rsRun, Machine.run_eq g (s := (s, acc)) hw hb]
    unfold rsLoop
    by_cases h0 : x = [] ∧ b = false
    · rw [if_pos h0, if_pos h0]
      exact Or.inr ⟨fun d' s' nv rest => almostOk_ne_emit _ _ _ _ _ _ _, rfl⟩
    · rw [if_neg h0, if_neg h0]
      have hx : x ≠ [] ∨ s.state.vis = true := by
        by_cases hx : x = []
        · right; apply hb; cases b <;> simp_all
        · left; exact hx
      have hg := g.step (s, acc) x hw hx
      have hm := rsStep_more d.ctx s x
      unfold rsM at hg ⊢
      dsimp only at hg ⊢
      rcases hr : rsStep d.ctx s x with _ | e | ⟨s', rest, b'⟩ | ⟨s', rest⟩ | ⟨s', nv, rest⟩ | ⟨s', rest⟩ <;> rw [hr] at hm hg
      · exact hg.elim
      · exact Or.inr ⟨by simp, rfl⟩
      · dsimp only [view_cont] at hg ⊢
        rcases ih s' rest b' hg.1 hg.2.1 (by omega) with ⟨s'', nv, r', h1, h2, h3, h4, h5, h6⟩ | h
        · left
          refine ⟨s'', nv, r', h1, fun hl => ?_, Nat.le_trans h3 hm.2, h4, h5, h6⟩
          by_cases hv : s'.state.vis = true
          · have := (hm.1 hv).2; omega
          · have := h2 (fun h => absurd h hv); have := hm.2; omega
        · exact Or.inr h
      · dsimp only [view_part] at hg ⊢
        exact Or.inr ⟨fun d' s' nv rest => almostOk_ne_emit _ _ _ _ _ _ _, rfl⟩
      · dsimp only [view_emit] at hg hm ⊢
        exact Or.inl ⟨s', nv, rest, rfl, hm.1, hm.2.1, hg.1, hm.2.2, rfl⟩
      · exact Or.inr ⟨by simp, rfl⟩

theorem rank_le (s : SCtx) : s.state.rank ≤ 6 := by
  cases s.state with
  | str ph => cases ph <;> simp [RSt.rank, Ph.rank]
  | _ => simp [RSt.rank]

theorem secLoop_run {d : Dec} (hc : CtxOk d.ctx) (hbad : d.ctx.bad = false) (fin : Bool) (f : Nat) (s : SCtx) (x : Bytes)
    (acc : List QNv) (hw : SWF s) (hi : Idle s) (hf : x.length < f) :
    secLoop f d s x fin acc = secOut d fin (rsRun d.ctx (s, acc) x false) := by
  induction f generalizing s x acc with
  | zero => omega
  | succ f ih =>
    unfold secLoop Dec.readRequest
    rw [hbad]
    simp only [Bool.false_eq_true, if_false]
    have hrank := rank_le s
    rcases rsLoop_run hc fin (rsFuel x) s x false acc hw (by simp) (by unfold rsFuel; omega) with
      ⟨s', nv, rest, h1, h2, h3, h4, h5, h6⟩ | ⟨h1, h2⟩
    · rw [h1, h6]
      have := h2 hi
      dsimp only
      rw [if_neg (by omega)]
      exact ih s' rest (acc ++ [nv]) h4 h5 (by omega)
    · rw [← h2]
      rcases hr : rsLoop (rsFuel x) d s x false fin with _ | _ | _ | _ | _ | _ <;> try rfl
      exact absurd hr (h1 _ _ _ _)

theorem readSection_run {d : Dec} (hc : CtxOk d.ctx) (hbad : d.ctx.bad = false) (s : SCtx) (x : Bytes) (fin : Bool)
    (hw : SWF s) (hi : Idle s) :
    d.readSection s x fin = secOut d fin (rsRun d.ctx (s, []) x false) :=
  secLoop_run hc hbad fin _ s x [] hw hi (by omega)

/-- `ok` outcomes leave the stream context idle -/
theorem rsRun_idle {c : Ctx} (f : Nat) (p : SCtx × List QNv) (x : Bytes) (b : Bool)
    (hi : Idle p.1 ∨ b = true) (p' : SCtx × List QNv) (h : Machine.loop (rsM c) f p x b = .ok p') : Idle p'.1 := by
  induction f generalizing p x b with
  | zero => simp [Machine.loop] at h
  | succ f ih =>
    unfold Machine.loop at h
    by_cases h0 : x = [] ∧ b = false
    · rw [if_pos h0] at h; cases h
      rcases hi with hi | hi
      · exact hi
      · rw [h0.2] at hi; cases hi
    · rw [if_neg h0] at h
      have hm := rsStep_more c p.1 x
      unfold rsM at h
      rcases hr : rsStep c p.1 x with _ | e | ⟨s', rest, b'⟩ | ⟨s', rest⟩ | ⟨s', nv, rest⟩ | ⟨s', rest⟩ <;> rw [hr] at hm h
      · cases h
      · cases h
      · dsimp only [view_cont] at h
        refine ih _ _ _ ?_ h
        by_cases hv : s'.state.vis = true
        · exact Or.inr (hm.1 hv).1
        · exact Or.inl fun h => absurd h hv
      · cases h; exact hm
      · dsimp only [view_emit] at h hm
        exact ih _ _ _ (Or.inl hm.2.2) h
      · cases h

end Qpack
end Nghttp3
