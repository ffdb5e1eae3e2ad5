import Verif.Lemmas.BidiSec
/-! What the QPACK decoder leaves of a piece of a field section is the end of that piece. -/
namespace Nghttp3
namespace Qpack
open QInt

theorem readLoop_suffix {l s : Nat} {r : Bytes} (x : Bytes) : ∀ n sh, readLoop n sh x = .done l s r → r <:+ x := by
  induction x with
  | nil => intro n sh h; simp [readLoop] at h
  | cons b t ih =>
    intro n sh h
    rw [readLoop_cons] at h
    split_ifs at h
    · simp only [RV.done.injEq] at h; rw [← h.2.2]; exact List.suffix_cons _ _
    · exact (ih _ _ h).trans (List.suffix_cons _ _)

theorem readInt_suffix {pfx left shift l s : Nat} {x r : Bytes} (h : readInt pfx left shift x = .done l s r) : r <:+ x := by
  unfold readInt at h
  split_ifs at h with hl
  · match x with
    | b :: t =>
      dsimp only at h
      split_ifs at h
      · simp only [RV.done.injEq] at h; rw [← h.2.2]; exact List.suffix_cons _ _
      · match t with
        | c :: u => exact (readLoop_suffix _ _ _ h).trans (List.suffix_cons _ _)
  · exact readLoop_suffix _ _ _ h

theorem readPlain_suffix {left : Nat} {buf : Bytes} {cap : Nat} {x buf' : Bytes} {left' : Nat} {rest : Bytes}
    (h : readPlain left hctx buf cap x = .ok buf' left' hctx' rest) : rest <:+ x := by
  unfold readPlain at h
  dsimp only at h
  split_ifs at h
  simp only [StrRes.ok.injEq] at h
  rw [← h.2.2.2]
  exact List.drop_suffix _ _

theorem readHuff_suffix {left : Nat} {buf : Bytes} {cap : Nat} {x buf' : Bytes} {left' : Nat} {rest : Bytes}
    (h : readHuff left hctx buf cap x = .ok buf' left' hctx' rest) : rest <:+ x := by
  unfold readHuff at h
  dsimp only at h
  split_ifs at h with h1
  · rcases hd : Huff.decode hctx (List.take left x) (decide (left ≤ x.length)) with ⟨c, _ | o⟩
    · rw [hd] at h; simp at h
    · rw [hd] at h; dsimp only at h
      split_ifs at h
      simp only [StrRes.ok.injEq] at h
      rw [← h.2.2.2]; exact List.drop_suffix _ _
  · rcases hd : Huff.decode hctx (List.take x.length x) (decide (left ≤ x.length)) with ⟨c, _ | o⟩
    · rw [hd] at h; simp at h
    · rw [hd] at h; dsimp only at h
      split_ifs at h
      simp only [StrRes.ok.injEq] at h
      rw [← h.2.2.2]; exact List.drop_suffix _ _

theorem strStep_suffix (ph : Ph) (r : RState) (x : Bytes) :
    match strStep ph r x with
    | .cont _ _ rest _ => rest <:+ x
    | .done _ rest => rest <:+ x
    | _ => True := by
  have hnl : ∀ r, match nameLenStep r x with
    | .cont _ _ rest _ => rest <:+ x
    | .done _ rest => rest <:+ x
    | _ => True := by
    intro r
    unfold nameLenStep
    rcases hr : readInt r.pfx r.left r.shift x with _ | _ | ⟨l, s⟩ | ⟨l, s, rest⟩
    · trivial
    · trivial
    · trivial
    · have := readInt_suffix hr
      dsimp only
      split_ifs <;> first | trivial | exact this
  have hvl : ∀ r, match valueLenStep r x with
    | .cont _ _ rest _ => rest <:+ x
    | .done _ rest => rest <:+ x
    | _ => True := by
    intro r
    unfold valueLenStep
    rcases hr : readInt r.pfx r.left r.shift x with _ | _ | ⟨l, s⟩ | ⟨l, s, rest⟩
    · trivial
    · trivial
    · trivial
    · have := readInt_suffix hr
      dsimp only
      split_ifs <;> first | trivial | exact this
  unfold strStep
  cases ph with
  | checkName => cases x with | nil => trivial | cons b t => exact hnl _
  | nameLen => exact hnl _
  | checkValue => cases x with | nil => trivial | cons b t => exact hvl _
  | valueLen => exact hvl _
  | nameHuff =>
    dsimp only; unfold nameFin
    rcases hr : readHuff r.left r.hctx r.name r.ncap x with _ | _ | ⟨b, l, h, rest⟩
    · trivial
    · trivial
    · have := readHuff_suffix hr
      dsimp only
      split_ifs <;> first | trivial | exact this
  | name =>
    dsimp only; unfold nameFin
    rcases hr : readPlain r.left r.hctx r.name r.ncap x with _ | _ | ⟨b, l, h, rest⟩
    · trivial
    · trivial
    · have := readPlain_suffix hr
      dsimp only
      split_ifs <;> first | trivial | exact this
  | valueHuff =>
    dsimp only; unfold valueFin
    rcases hr : readHuff r.left r.hctx r.value r.vcap x with _ | _ | ⟨b, l, h, rest⟩
    · trivial
    · trivial
    · have := readHuff_suffix hr
      dsimp only
      split_ifs <;> first | trivial | exact this
  | value =>
    dsimp only; unfold valueFin
    rcases hr : readPlain r.left r.hctx r.value r.vcap x with _ | _ | ⟨b, l, h, rest⟩
    · trivial
    · trivial
    · have := readPlain_suffix hr
      dsimp only
      split_ifs <;> first | trivial | exact this

theorem rsStep_suffix (c : Ctx) (s : SCtx) (x : Bytes) :
    match rsStep c s x with
    | .cont _ rest _ => rest <:+ x
    | .emit _ _ rest => rest <:+ x
    | .blocked _ rest => rest <:+ x
    | _ => True := by
  have hbase : ∀ s : SCtx, match rsBase c s x with
    | .cont _ rest _ => rest <:+ x
    | .emit _ _ rest => rest <:+ x
    | .blocked _ rest => rest <:+ x
    | _ => True := by
    intro s
    unfold rsBase
    rcases hr : readInt s.rs.pfx s.rs.left s.rs.shift x with _ | _ | ⟨l, sh⟩ | ⟨l, sh, rest⟩
    · trivial
    · trivial
    · trivial
    · have := readInt_suffix hr
      dsimp only
      unfold rsBaseDone
      dsimp only
      split_ifs <;> first | trivial | exact this
  have hem : ∀ (s' : SCtx) (rest : Bytes) o, rest <:+ x → match emitRes s' rest o with
      | .cont _ rest _ => rest <:+ x
      | .emit _ _ rest => rest <:+ x
      | .blocked _ rest => rest <:+ x
      | _ => True := by
    intro s' rest o h
    cases o with
    | none => trivial
    | some nv => exact h
  unfold rsStep
  cases hst : s.state with
  | ricnt =>
    rcases hr : readInt s.rs.pfx s.rs.left s.rs.shift x with _ | _ | ⟨l, sh⟩ | ⟨l, sh, rest⟩
    · trivial
    · trivial
    · trivial
    · have := readInt_suffix hr
      dsimp only
      rcases reconstructRicnt c l with _ | n
      · trivial
      · exact this
  | dbaseSign =>
    cases x with
    | nil => trivial
    | cons b t => exact hbase _
  | dbase => exact hbase s
  | opcode =>
    dsimp only
    split_ifs
    · trivial
    · cases x with
      | nil => trivial
      | cons b t => exact List.suffix_refl _
  | readIndex =>
    rcases hr : readInt s.rs.pfx s.rs.left s.rs.shift x with _ | _ | ⟨l, sh⟩ | ⟨l, sh, rest⟩
    · trivial
    · trivial
    · trivial
    · have hl := readInt_suffix hr
      dsimp only
      unfold rsIndexDone
      dsimp only
      cases s.op with
      | literal => trivial
      | indexed => dsimp only; rcases brel2abs c _ with _ | s'; exacts [trivial, hem _ _ _ hl]
      | indexedPB => dsimp only; rcases pbrel2abs c _ with _ | s'; exacts [trivial, hem _ _ _ hl]
      | indexedName => dsimp only; rcases brel2abs c _ with _ | s'; exacts [trivial, hl]
      | indexedNamePB => dsimp only; rcases pbrel2abs c _ with _ | s'; exacts [trivial, hl]
  | str ph =>
    have h := strStep_suffix ph s.rs x
    dsimp only
    rcases hr : strStep ph s.rs x with _ | _ | _ | ⟨ph', r', rest, b⟩ | ⟨ph', r', rest⟩ | ⟨r', rest⟩ <;> rw [hr] at h <;> dsimp only at h ⊢
    · exact h
    · unfold rsValueDone
      dsimp only
      cases s.op with
      | literal => exact hem { s with rs := r', op := .literal } _ (some (emitLiteral r')) h
      | indexed => trivial
      | indexedPB => trivial
      | indexedName =>
        dsimp only; rcases emitIndexedName c _ with _ | _ | nv
        exacts [trivial, trivial, hem { s with state := .str ph, rs := r', op := .indexedName } _ (some nv) h]
      | indexedNamePB =>
        dsimp only; rcases emitIndexedName c _ with _ | _ | nv
        exacts [trivial, trivial, hem { s with state := .str ph, rs := r', op := .indexedNamePB } _ (some nv) h]
  | blocked =>
    dsimp only
    split_ifs <;> exact List.suffix_refl _

theorem almostOk_stop (d : Dec) (s : SCtx) (fin : Bool) : (∀ d' s' rest, almostOk d s fin ≠ .blocked d' s' rest) ∧ ∀ d' s' nv rest, almostOk d s fin ≠ .emit d' s' nv rest := by
  unfold almostOk
  rcases d.writeSectionAck s with _ | d'' <;> split_ifs <;> exact ⟨by simp, by simp⟩

theorem readRequest_suffix (d : Dec) (s : SCtx) (x : Bytes) (fin : Bool) :
    match d.readRequest s x fin with
    | .emit _ _ _ rest => rest <:+ x
    | .blocked _ _ rest => rest <:+ x
    | _ => True := by
  have key : ∀ (f : Nat) (s : SCtx) (x : Bytes) (b : Bool), match rsLoop f d s x b fin with
    | .emit _ _ _ rest => rest <:+ x
    | .blocked _ _ rest => rest <:+ x
    | _ => True := by
    intro f
    induction f with
    | zero => intro s x b; trivial
    | succ f ih =>
      intro s x b
      have ha : ∀ s', match almostOk d s' fin with
        | .emit _ _ _ rest => rest <:+ x
        | .blocked _ _ rest => rest <:+ x
        | _ => True := by
        intro s'
        have := almostOk_stop d s' fin
        generalize almostOk d s' fin = o at this ⊢
        cases o <;> first | trivial | exact absurd rfl (this.1 _ _ _) | exact absurd rfl (this.2 _ _ _ _)
      unfold rsLoop
      by_cases h0 : x = [] ∧ b = false
      · rw [if_pos h0]; exact ha s
      · rw [if_neg h0]
        have hm := rsStep_suffix d.ctx s x
        rcases hr : rsStep d.ctx s x with _ | e | ⟨s1, r1, b1⟩ | ⟨s1, r1⟩ | ⟨s1, nv, r1⟩ | ⟨s1, r1⟩ <;> rw [hr] at hm <;> dsimp only at hm ⊢
        · have := ih s1 r1 b1
          generalize rsLoop f d s1 r1 b1 fin = o at this ⊢
          cases o <;> first | trivial | exact List.IsSuffix.trans this hm
        · exact ha s1
        · exact hm
        · exact hm
  unfold Dec.readRequest
  split_ifs
  · trivial
  · exact key _ _ _ _

end Qpack

namespace Bidi
open Http Qpack

theorem onHeaders_suffix (c : Cfg) (h : Hs) (d : Dec) (s : SCtx) (http : State) (x : Bytes) (fin : Bool) :
    match (onHeaders c h d s http x fin).2 with
    | .blocked _ _ _ rest => rest <:+ x
    | _ => True := by
  have key : ∀ (f : Nat) (d : Dec) (s : SCtx) (http : State) (x : Bytes) (acc : List Ev), match (decLoop c h f d s http x fin acc).2 with
    | .blocked _ _ _ rest => rest <:+ x
    | _ => True := by
    intro f
    induction f with
    | zero => intros; trivial
    | succ f ih =>
      intro d s http x acc
      unfold decLoop
      have hm := readRequest_suffix d s x fin
      rcases hr : d.readRequest s x fin with _ | _ | _ | _ | ⟨d', s', nv, rest⟩ | ⟨d', s', rest⟩ <;> rw [hr] at hm <;> dsimp only at hm ⊢
      · by_cases h0 : rest.length = x.length
        · rw [if_pos h0]; trivial
        · rw [if_neg h0]
          have go : ∀ http' acc', match (decLoop c h f d' s' http' rest fin acc').2 with
            | .blocked _ _ _ rest => rest <:+ x
            | _ => True := by
            intro http' acc'
            have := ih d' s' http' rest acc'
            generalize (decLoop c h f d' s' http' rest fin acc').2 = o at this ⊢
            cases o <;> first | trivial | exact List.IsSuffix.trans this hm
          rcases fieldRes c h http nv with _ | _ | _ <;> dsimp only
          · exact go _ _
          · exact go _ _
      · exact hm
  unfold onHeaders
  split_ifs
  · trivial
  · exact key _ _ _ _ _ _

end Bidi
end Nghttp3
