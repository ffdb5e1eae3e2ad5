import Verif.Lemmas.BidiSec
import Verif.Lemmas.QpackEnc
import Verif.Spec.WireMsg
/-! Decoded field lines carry the token of their name; the QPACK context of a stream keeps the stream's id. -/
namespace Nghttp3
namespace Bidi
open Http Qpack

theorem emitIndexed_tok {c : Ctx} (hc : CtxOk c) {r : RState} {nv : QNv} (h : emitIndexed c r = some nv) : nv.token = lookupToken nv.name := by
  unfold emitIndexed at h
  by_cases hd : r.dynamic = true
  · rw [if_pos hd] at h
    rcases he : c.get r.absidx with _ | e <;> rw [he] at h <;> cases h
    exact hc.tok _ (hc.toCtxB.get_range he).2.2.2
  · rw [if_neg hd] at h
    rcases he : stableGet r.absidx with _ | ⟨n, v, t⟩ <;> rw [he] at h <;> cases h
    by_cases hi : r.absidx < 99
    · obtain ⟨n', v', t', h1, h2⟩ := stableGet_ok hi
      rw [he] at h1; cases h1; exact h2.symm
    · exfalso
      have : stableGet r.absidx = none := by
        unfold stableGet
        first
          | exact if_neg hi
          | (have hl : stable.length = 99 := by decide +kernel
             rw [List.getElem?_eq_none]; omega)
      rw [this] at he; cases he

theorem emitIndexedName_tok {c : Ctx} (hc : CtxOk c) {r : RState} {nv : QNv} (h : emitIndexedName c r = some (some nv)) : nv.token = lookupToken nv.name := by
  unfold emitIndexedName at h
  by_cases hd : r.dynamic = true
  · rw [if_pos hd] at h
    by_cases hv : validateIndex c true r.absidx = true
    · rw [if_pos hv] at h
      rcases he : c.get r.absidx with _ | e <;> rw [he] at h <;> cases h
      exact hc.tok _ (hc.toCtxB.get_range he).2.2.2
    · rw [if_neg hv] at h; cases h
  · have h1 : emitIndexed c r = (stableGet r.absidx).map fun x => ⟨x.1, x.2.1, some x.2.2, false⟩ := by
      unfold emitIndexed; rw [if_neg hd]
    rw [if_neg hd] at h
    rcases he : stableGet r.absidx with _ | ⟨n, v, t⟩ <;> rw [he] at h h1 <;> cases h
    exact emitIndexed_tok hc (nv := ⟨n, v, some t, false⟩) h1

theorem brel_id {c : Ctx} {s s' : SCtx} (h : brel2abs c s = some s') : s'.streamId = s.streamId := by
  unfold brel2abs at h
  dsimp only at h
  split_ifs at h <;> cases h <;> rfl

theorem pbrel_id {c : Ctx} {s s' : SCtx} (h : pbrel2abs c s = some s') : s'.streamId = s.streamId := by
  unfold pbrel2abs at h
  dsimp only at h
  split_ifs at h <;> cases h; rfl

theorem rsBase_id {c : Ctx} (s : SCtx) (x : Qpack.Bytes) :
    match rsBase c s x with
    | .cont s' _ _ | .part s' _ | .blocked s' _ => s'.streamId = s.streamId
    | .emit _ _ _ => False
    | _ => True := by
  unfold rsBase
  rcases QInt.readInt s.rs.pfx s.rs.left s.rs.shift x with _ | _ | ⟨l, sh⟩ | ⟨l, sh, rest⟩ <;> dsimp only
  unfold rsBaseDone
  dsimp only
  split_ifs <;> trivial

theorem rsStep_id {c : Ctx} (hc : CtxOk c) (s : SCtx) (x : Qpack.Bytes) :
    match rsStep c s x with
    | .cont s' _ _ | .part s' _ | .blocked s' _ => s'.streamId = s.streamId
    | .emit s' nv _ => s'.streamId = s.streamId ∧ nv.token = lookupToken nv.name
    | _ => True := by
  have hb : ∀ (s0 : SCtx), s0.streamId = s.streamId → match rsBase c s0 x with
    | .cont s' _ _ | .part s' _ | .blocked s' _ => s'.streamId = s.streamId
    | .emit s' nv _ => s'.streamId = s.streamId ∧ nv.token = lookupToken nv.name
    | _ => True := by
    intro s0 h0
    have := rsBase_id (c := c) s0 x
    generalize rsBase c s0 x = r at this ⊢
    rcases r with _ | _ | _ | _ | _ | _ <;> dsimp only at this ⊢
    · rw [this, h0]
    · rw [this, h0]
    · rw [this, h0]
  have he : ∀ (s0 : SCtx) rest (o : Option QNv), s0.streamId = s.streamId → (∀ nv, o = some nv → nv.token = lookupToken nv.name) → match emitRes s0 rest o with
    | .cont s' _ _ | .part s' _ | .blocked s' _ => s'.streamId = s.streamId
    | .emit s' nv _ => s'.streamId = s.streamId ∧ nv.token = lookupToken nv.name
    | _ => True := by
    intro s0 rest o h0 ht
    unfold emitRes
    cases o with
    | none => trivial
    | some nv => exact ⟨h0, ht nv rfl⟩
  unfold rsStep
  rcases hs : s.state with _ | _ | _ | _ | _ | _ | _ <;> dsimp only
  · rcases QInt.readInt s.rs.pfx s.rs.left s.rs.shift x with _ | _ | ⟨l, sh⟩ | ⟨l, sh, rest⟩ <;> dsimp only
    rcases reconstructRicnt c l with _ | n <;> trivial
  · cases x with
    | nil => trivial
    | cons b t => exact hb _ rfl
  · exact hb s rfl
  · split_ifs
    · trivial
    · cases x with
      | nil => trivial
      | cons b t =>
        dsimp only
        unfold rsOpcode
        dsimp only
        split_ifs <;> rfl
  · rcases QInt.readInt s.rs.pfx s.rs.left s.rs.shift x with _ | _ | ⟨l, sh⟩ | ⟨l, sh, rest⟩ <;> dsimp only
    unfold rsIndexDone
    dsimp only
    rcases s.op with _ | _ | _ | _ | _ <;> dsimp only
    · rcases hr : brel2abs c _ with _ | s1 <;> dsimp only
      exact he s1 rest _ (Eq.trans (brel_id hr) rfl) fun nv h => emitIndexed_tok hc h
    · rcases hr : pbrel2abs c _ with _ | s1 <;> dsimp only
      exact he s1 rest _ (Eq.trans (pbrel_id hr) rfl) fun nv h => emitIndexed_tok hc h
    · rcases hr : brel2abs c _ with _ | s1 <;> dsimp only
      exact Eq.trans (brel_id hr) rfl
    · rcases hr : pbrel2abs c _ with _ | s1 <;> dsimp only
      exact Eq.trans (pbrel_id hr) rfl
  · rename_i ph
    rcases strStep ph s.rs x with _ | _ | _ | _ | _ | ⟨r, rest⟩ <;> dsimp only
    unfold rsValueDone
    dsimp only
    rcases s.op with _ | _ | _ | _ | _ <;> dsimp only
    · rcases hr : emitIndexedName c r with _ | _ | nv <;> dsimp only
      exact he _ rest (some nv) rfl fun nv' h => by cases h; exact emitIndexedName_tok hc hr
    · rcases hr : emitIndexedName c r with _ | _ | nv <;> dsimp only
      exact he _ rest (some nv) rfl fun nv' h => by cases h; exact emitIndexedName_tok hc hr
    · exact he _ rest (some (emitLiteral r)) rfl fun nv' h => by cases h; rfl
  · split_ifs <;> trivial

theorem rsLoop_id (d : Dec) (hc : CtxOk d.ctx) (fin : Bool) (f : Nat) (s : SCtx) (x : Qpack.Bytes) (b : Bool) :
    match rsLoop f d s x b fin with
    | .more _ s' | .final _ s' | .blocked _ s' _ => s'.streamId = s.streamId
    | .emit _ s' nv _ => s'.streamId = s.streamId ∧ nv.token = lookupToken nv.name
    | _ => True := by
  have ha : ∀ s0 : SCtx, s0.streamId = s.streamId → match almostOk d s0 fin with
    | .more _ s' | .final _ s' | .blocked _ s' _ => s'.streamId = s.streamId
    | .emit _ s' nv _ => s'.streamId = s.streamId ∧ nv.token = lookupToken nv.name
    | _ => True := by
    intro s0 h0
    unfold almostOk
    split_ifs
    · trivial
    · rcases d.writeSectionAck s0 with _ | d'
      · trivial
      · exact h0
    · exact h0
    · exact h0
  induction f generalizing s x b with
  | zero => trivial
  | succ f ih =>
    unfold rsLoop
    by_cases h0 : x = [] ∧ b = false
    · rw [if_pos h0]; exact ha s rfl
    · rw [if_neg h0]
      have hs := rsStep_id hc s x
      rcases hr : rsStep d.ctx s x with _ | e | ⟨s1, r1, b1⟩ | ⟨s1, r1⟩ | ⟨s1, nv, r1⟩ | ⟨s1, r1⟩ <;> rw [hr] at hs <;> dsimp only at hs ⊢
      · rw [← hs]
        exact ih s1 r1 b1 fun s0 h => by rw [hs]; exact ha s0 (h.trans hs)
      · exact ha s1 hs
      · exact hs
      · exact hs

theorem readRequest_id (d : Dec) (hc : CtxOk d.ctx) (fin : Bool) (s : SCtx) (x : Qpack.Bytes) :
    match d.readRequest s x fin with
    | .more _ s' | .final _ s' | .blocked _ s' _ => s'.streamId = s.streamId
    | .emit _ s' nv _ => s'.streamId = s.streamId ∧ nv.token = lookupToken nv.name
    | _ => True := by
  unfold Dec.readRequest
  split_ifs
  · trivial
  · exact rsLoop_id d hc fin _ s x false

theorem secLoop_id {d : Dec} (hc : CtxOk d.ctx) (fin : Bool) (f : Nat) (s : SCtx) (x : Qpack.Bytes) (acc : List QNv) (hw : SWF s) (hi : Idle s)
    (ha : ∀ nv ∈ acc, nv.token = lookupToken nv.name) :
    (∀ nv ∈ (secLoop f d s x fin acc).1, nv.token = lookupToken nv.name) ∧
    match (secLoop f d s x fin acc).2 with
    | .more _ s' | .final _ s' | .blocked _ s' _ => s'.streamId = s.streamId
    | _ => True := by
  induction f generalizing s x acc with
  | zero => exact ⟨ha, trivial⟩
  | succ f ih =>
    unfold secLoop
    have hs := readRequest_safe hc s hw hi x fin
    have h1 := readRequest_id d hc fin s x
    rcases hr : d.readRequest s x fin with _ | ⟨d', e⟩ | ⟨d', s'⟩ | ⟨d', s'⟩ | ⟨d', s', nv, rest⟩ | ⟨d', s', rest⟩ <;> rw [hr] at hs h1 <;> dsimp only at hs h1 ⊢
    · exact ⟨ha, trivial⟩
    · exact ⟨ha, h1⟩
    · exact ⟨ha, h1⟩
    · obtain ⟨rfl, g1, g2, g3⟩ := hs
      by_cases hl : rest.length = x.length
      · rw [if_pos hl]; exact ⟨ha, h1.1⟩
      · rw [if_neg hl, ← h1.1]
        refine ih s' rest (acc ++ [nv]) g1 g2 ?_
        intro nv' hm
        rcases List.mem_append.1 hm with hm | hm
        · exact ha _ hm
        · rw [List.mem_singleton.1 hm]; exact h1.2
    · exact ⟨ha, h1⟩

theorem readSection_id {d : Dec} (hc : CtxOk d.ctx) (fin : Bool) (s : SCtx) (x : Qpack.Bytes) (hw : SWF s) (hi : Idle s) :
    (∀ nv ∈ (d.readSection s x fin).1, nv.token = lookupToken nv.name) ∧
    match (d.readSection s x fin).2 with
    | .more _ s' | .final _ s' | .blocked _ s' _ => s'.streamId = s.streamId
    | _ => True := secLoop_id hc fin _ s x [] hw hi (by simp)

/-- the HTTP layer sees the names and values -/
theorem fields_run (c : Cfg) (h : Hs) (http : State) (nvs : List QNv) (ht : ∀ nv ∈ nvs, nv.token = lookupToken nv.name) :
    (fields c h http nvs).2 = (runFields c.pp (isRequest h) (isTrailers h) (c.server && c.ext) http (nvs.map QNv.field)).2 ∧
    ((obs (fields c h http nvs).1).filterMap Obs.cb = (runFields c.pp (isRequest h) (isTrailers h) (c.server && c.ext) http (nvs.map QNv.field)).1.map
      (if isTrailers h then Cb.trailer else Cb.header)) ∧
    (obs (fields c h http nvs).1).filterMap Obs.body = [] ∧ (obs (fields c h http nvs).1).filterMap Obs.signal = [] := by
  induction nvs generalizing http with
  | nil => exact ⟨rfl, rfl, rfl, rfl⟩
  | cons nv t ih =>
    have h1 : onHeader c.pp http (QNv.field nv) (lookupToken (QNv.field nv).name) (isRequest h) (isTrailers h) (c.server && c.ext) = fieldRes c h http nv := by
      unfold fieldRes
      rw [ht nv (by simp)]; rfl
    rw [fields_cons, List.map_cons, runFields, h1]
    have ih := fun http => ih http fun nv' hm => ht nv' (List.mem_cons_of_mem _ hm)
    rcases fieldRes c h http nv with _ | http' | http' <;> dsimp only
    · exact ⟨rfl, rfl, rfl, rfl⟩
    · exact ih http'
    · obtain ⟨i1, i2, i3, i4⟩ := ih http'
      have e : ∀ l : List Ev, obs (fieldEv h nv :: l) = obs [fieldEv h nv] ++ obs l := fun l => by simp [obs]
      rw [e]
      simp only [List.filterMap_append, i2, i3, i4, List.map_cons]
      refine ⟨i1, ?_, ?_, ?_⟩ <;> unfold fieldEv <;> cases isTrailers h <;> rfl

end Bidi
end Nghttp3
