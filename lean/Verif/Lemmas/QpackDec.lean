import Verif.Lemmas.QpackStr
import Verif.Lemmas.QpackCtx
import Verif.Lemmas.Machine
/-! The QPACK decoder as a chunk-invariant machine. -/
namespace Nghttp3
namespace Qpack
open QInt

theorem stableGet_ok {i : Nat} (h : i < 99) : ∃ n v t, stableGet i = some (n, v, t) ∧ lookupToken n = some t := by
  obtain ⟨n, v, t, h1, _, h3⟩ := stable_get h
  exact ⟨n, v, t, h1, h3⟩

/-! ### the encoder stream -/

def ESt.rank : ESt → Nat
  | .opcode => 5
  | .readIndex => 4
  | .str ph => ph.rank

def ESt.vis : ESt → Bool
  | .str ph => ph.isValue
  | _ => false

/-- invariant of a decoder between passes of the loop -/
structure DecWF (d : Dec) : Prop where
  ctx : CtxOk d.ctx
  st : match d.state with
    | .opcode => d.rs.left = 0 ∧ d.rs.shift = 0
    | .readIndex => 0 < d.rs.pfx ∧ d.rs.pfx ≤ 8 ∧ (d.rs.left = 0 → d.rs.shift = 0) ∧ d.op ≠ .insert ∧
        (d.op = .duplicate → d.rs.dynamic = true)
    | .str ph => StrWF ph d.rs ∧ (d.op = .insert ∨
        (d.op = .insertIndexed ∧ ph.isName = false ∧ validateIndex d.ctx d.rs.dynamic d.rs.absidx = true))

theorem DecWF.init (hardMax maxBlocked : Nat) : DecWF (Dec.init hardMax maxBlocked) :=
  ⟨CtxOk.init _ _, rfl, rfl⟩

def ERes.view : ERes → Machine.Res Dec (Err × Ctx)
  | .crash => .crash
  | .fail d' e => .fail (e, { d'.ctx with bad := true })
  | .cont d' rest b => .cont d' rest b
  | .ret d' _ => .ret d'

/-- `esStep` as a machine: on failure only the error and the table matter -/
def esM (d : Dec) (x : Bytes) : Machine.Res Dec (Err × Ctx) := (esStep d x).view

theorem esValueDone_state (d : Dec) (s1 s2 : ESt) (rest : Bytes) :
    (esValueDone { d with state := s1 } rest).view = (esValueDone { d with state := s2 } rest).view := by
  unfold esValueDone
  dsimp only
  cases d.op with
  | insertIndexed => dsimp only; rcases indexedAdd d.ctx d.rs with _ | _ | c <;> rfl
  | insert => dsimp only; rcases literalAdd d.ctx d.rs with _ | _ | c <;> rfl
  | setCap => rfl
  | duplicate => rfl

def EOut.view : EOut → Machine.Out Dec (Err × Ctx)
  | .crash => .crash
  | .fail d e => .fail (e, d.ctx)
  | .ok d => .ok d

theorem esLoop_view (f : Nat) (d : Dec) (x : Bytes) (b : Bool) :
    (esLoop f d x b).view = Machine.loop esM f d x b := by
  induction f generalizing d x b with
  | zero => rfl
  | succ f ih =>
    unfold esLoop Machine.loop esM ERes.view
    by_cases h0 : x = [] ∧ b = false
    · rw [if_pos h0, if_pos h0]; rfl
    · rw [if_neg h0, if_neg h0]
      rcases esStep d x with _ | ⟨d', e⟩ | ⟨d', rest, b'⟩ | ⟨d', rest⟩
      · rfl
      · rfl
      · exact ih _ _ _
      · rfl

theorem finish_good {d : Dec} {o : Option (Option Ctx)} (rest : Bytes)
    (h : o = some none ∨ ∃ c, o = some (some c) ∧ CtxOk c) :
    (∃ e, ∀ r, d.finish r o = .fail d e) ∨
      ∃ d', (∀ r, d.finish r o = .cont d' r false) ∧ DecWF d' ∧ d'.state = .opcode := by
  rcases h with rfl | ⟨c, rfl, hc⟩
  · left; exact ⟨_, fun r => rfl⟩
  · right; exact ⟨_, fun r => rfl, ⟨hc, rfl, rfl⟩, rfl⟩

theorem indexedAdd_ok {c : Ctx} (h : CtxOk c) (r : RState) (hv : validateIndex c r.dynamic r.absidx = true) :
    indexedAdd c r = some none ∨ ∃ c', indexedAdd c r = some (some c') ∧ CtxOk c' := by
  unfold indexedAdd
  by_cases hd : r.dynamic = true
  · rw [if_pos hd]
    rw [hd] at hv
    obtain ⟨e, he, _, hm⟩ := h.get_valid hv
    rw [he]
    rcases addChecked_ok h e.name r.value e.token (h.tok e hm) with h1 | ⟨c', h1, h2, _⟩
    · exact Or.inl h1
    · exact Or.inr ⟨c', h1, h2⟩
  · rw [if_neg hd]
    simp [hd, validateIndex] at hv
    obtain ⟨n, v, t, h1, h2⟩ := stableGet_ok hv
    rw [h1]
    rcases addChecked_ok h n r.value (some t) h2.symm with h1 | ⟨c', h1, h2, _⟩
    · exact Or.inl h1
    · exact Or.inr ⟨c', h1, h2⟩

theorem duplicateAdd_ok {c : Ctx} (h : CtxOk c) (r : RState) (hv : validateIndex c true r.absidx = true) :
    duplicateAdd c r = some none ∨ ∃ c', duplicateAdd c r = some (some c') ∧ CtxOk c' := by
  unfold duplicateAdd
  obtain ⟨e, he, _, hm⟩ := h.get_valid hv
  rw [he]
  rcases addChecked_ok h e.name e.value e.token (h.tok e hm) with h1 | ⟨c', h1, h2, _⟩
  · exact Or.inl h1
  · exact Or.inr ⟨c', h1, h2⟩

theorem literalAdd_ok {c : Ctx} (h : CtxOk c) (r : RState) :
    literalAdd c r = some none ∨ ∃ c', literalAdd c r = some (some c') ∧ CtxOk c' := by
  rcases addChecked_ok h r.name r.value (lookupToken r.name) rfl with h1 | ⟨c', h1, h2, _⟩
  · exact Or.inl h1
  · exact Or.inr ⟨c', h1, h2⟩

theorem setCap_ok {c : Ctx} (h : CtxOk c) (n : Nat) :
    c.setCap n = some none ∨ ∃ c', c.setCap n = some (some c') ∧ CtxOk c' := by
  by_cases hc : c.hardMax < n
  · left; unfold Ctx.setCap; rw [if_pos hc]
  · right
    obtain ⟨k, _, h1, h2, _⟩ := h.setCap n (by omega)
    exact ⟨_, h1, h.take k n h2 (by omega)⟩

theorem rel2abs_some {c : Ctx} {r r' : RState} (h : rel2abs c r = some r') :
    r' = { r with absidx := r'.absidx } ∧ validateIndex c r'.dynamic r'.absidx = true := by
  unfold rel2abs at h
  split_ifs at h with h1 h2 h3 h4
  · simp only [Option.some.injEq] at h; subst h
    dsimp only; rw [h1]; exact ⟨rfl, h3⟩
  · simp only [Option.some.injEq] at h; subst h
    dsimp only; simp [h1, h4]

/-- what `esIndexDone` does does not depend on the input that follows -/
theorem esIndexDone_good {d : Dec} (hc : CtxOk d.ctx) (ho : d.op ≠ .insert)
    (hd : d.op = .duplicate → d.rs.dynamic = true) :
    (∃ d' e, (∀ r, esIndexDone d r = .fail d' e)) ∨
      ∃ d', (∀ r, esIndexDone d r = .cont d' r false) ∧ DecWF d' ∧ d'.state.rank ≤ 5 := by
  unfold esIndexDone
  cases hop : d.op with
  | insert => exact absurd hop ho
  | setCap =>
    rcases finish_good (d := d) [] (setCap_ok hc d.rs.left) with ⟨e, h⟩ | ⟨d', h, hw, hs⟩
    · exact Or.inl ⟨d, e, h⟩
    · exact Or.inr ⟨d', h, hw, by rw [hs]; decide⟩
  | duplicate =>
    rcases hr : rel2abs d.ctx d.rs with _ | r
    · exact Or.inl ⟨d, _, fun _ => rfl⟩
    · obtain ⟨h1, h2⟩ := rel2abs_some hr
      have hdyn : r.dynamic = true := by rw [h1]; exact hd hop
      rw [hdyn] at h2
      rcases finish_good (d := { d with op := .duplicate, rs := r }) [] (duplicateAdd_ok hc r h2) with ⟨e, h⟩ | ⟨d', h, hw, hs⟩
      · exact Or.inl ⟨_, e, h⟩
      · exact Or.inr ⟨d', h, hw, by rw [hs]; decide⟩
  | insertIndexed =>
    rcases hr : rel2abs d.ctx d.rs with _ | r
    · exact Or.inl ⟨d, _, fun _ => rfl⟩
    · obtain ⟨h1, h2⟩ := rel2abs_some hr
      refine Or.inr ⟨_, fun _ => rfl, ⟨hc, ⟨by simp, by simp, trivial⟩, Or.inr ⟨rfl, rfl, h2⟩⟩, by simp [ESt.rank, Ph.rank]⟩

theorem esValueDone_good {d : Dec} (hc : CtxOk d.ctx)
    (ho : d.op = .insert ∨ (d.op = .insertIndexed ∧ validateIndex d.ctx d.rs.dynamic d.rs.absidx = true)) :
    (∃ d' e, (∀ r, esValueDone d r = .fail d' e)) ∨
      ∃ d', (∀ r, esValueDone d r = .cont d' r false) ∧ DecWF d' ∧ d'.state = .opcode := by
  unfold esValueDone
  rcases ho with ho | ⟨ho, hv⟩
  · rw [ho]
    rcases finish_good (d := d) [] (literalAdd_ok hc d.rs) with ⟨e, h⟩ | h
    · exact Or.inl ⟨d, e, h⟩
    · exact Or.inr h
  · rw [ho]
    rcases finish_good (d := d) [] (indexedAdd_ok hc d.rs hv) with ⟨e, h⟩ | h
    · exact Or.inl ⟨d, e, h⟩
    · exact Or.inr h

theorem esOpcode_good {d : Dec} (hw : DecWF d) (hs : d.state = .opcode) (b : UInt8) :
    DecWF (esOpcode d b) ∧ (esOpcode d b).state.rank ≤ 4 := by
  have h0 := hw.st
  rw [hs] at h0
  dsimp only at h0
  have ht : ∀ (r : RState), 0 < r.pfx → r.pfx ≤ 8 → StrWF .checkName r := fun r h1 h2 => ⟨h1, h2, trivial⟩
  unfold esOpcode
  split_ifs
  · exact ⟨⟨hw.ctx, by simp, by simp, fun _ => h0.2, by simp, by simp⟩, by simp [ESt.rank]⟩
  · exact ⟨⟨hw.ctx, ht _ (by simp) (by simp), Or.inl rfl⟩, by simp [ESt.rank, Ph.rank]⟩
  · exact ⟨⟨hw.ctx, by simp, by simp, fun _ => h0.2, by simp, by simp⟩, by simp [ESt.rank]⟩
  · exact ⟨⟨hw.ctx, by simp, by simp, fun _ => h0.2, by simp, by simp⟩, by simp [ESt.rank]⟩

theorem esM_good : Machine.Good esM DecWF (fun d => d.state.vis) (fun d => d.state.rank) := by
  constructor
  rintro ⟨ctx, state, op, rs, wi, mc, un, db⟩ x hw hx
  unfold esM esStep
  cases state with
  | opcode =>
    cases x with
    | nil => simp [ESt.vis] at hx
    | cons b t =>
      dsimp only [List.cons_append, ERes.view]
      obtain ⟨h1, h2⟩ := esOpcode_good hw rfl b
      refine ⟨h1, by simp, ?_, fun y => rfl⟩
      have : ESt.rank .opcode = 5 := rfl
      omega
  | readIndex =>
    have hne : x ≠ [] := by simpa [ESt.vis] using hx
    have h0 := hw.st
    have hctx := hw.ctx
    dsimp only at h0 hctx
    obtain ⟨hp, h8, hls, hop, hdup⟩ := h0
    have h := readInt_app hp hne hls
    dsimp only
    unfold esIndex
    dsimp only
    rcases hr : readInt rs.pfx rs.left rs.shift x with _ | _ | ⟨l, s⟩ | ⟨l, s, rest⟩ <;> rw [hr] at h <;> dsimp only [ERes.view] at h ⊢
    · intro y; rw [h]
    · refine ⟨⟨hctx, ?_⟩, fun y hy => by
        rw [h.2 y hy]
        rcases readInt _ l s y with _ | _ | ⟨l, s⟩ | ⟨l, s, rest⟩ <;> rfl⟩
      exact ⟨hp, h8, fun h0 => by dsimp only at h0; omega, hop, hdup⟩
    · rcases esIndexDone_good (d := ⟨ctx, .readIndex, op, { rs with left := l, shift := s }, wi, mc, un, db⟩) hctx hop hdup with
        ⟨d', e, hh⟩ | ⟨d', hh, hw', hrk⟩
      · rw [hh]; dsimp only; intro y; rw [h.2]; dsimp only; rw [hh]
      · rw [hh]; dsimp only
        refine ⟨hw', by simp, ?_, fun y => by rw [h.2]; dsimp only; rw [hh]⟩
        have : ESt.rank .readIndex = 4 := rfl
        omega
  | str ph =>
    have h0 := hw.st
    have hctx := hw.ctx
    dsimp only at h0 hctx
    obtain ⟨hsw, hop⟩ := h0
    have h := strStep_good ph rs x hsw hx
    unfold StrGood at h
    dsimp only
    rcases hr : strStep ph rs x with _ | _ | _ | ⟨ph', r', rest, b⟩ | ⟨ph', r', rest⟩ | ⟨r', rest⟩ <;> rw [hr] at h <;> dsimp only [ERes.view] at h ⊢
    · intro y; rw [h]
    · intro y; rw [h]
    · obtain ⟨h1, h2, h3, h4, h5, h6⟩ := h
      refine ⟨⟨hctx, h1, ?_⟩, h3, h5, fun y => by rw [h6]⟩
      rcases hop with hop | ⟨hop, hn, hv⟩
      · exact Or.inl hop
      · refine Or.inr ⟨hop, ?_, ?_⟩
        · by_contra hc; rw [h4 (by simpa using hc)] at hn; cases hn
        · dsimp only; rw [h2.1, h2.2.1]; exact hv
    · obtain ⟨h1, h2, h3, h4, h6⟩ := h
      refine ⟨⟨hctx, h2, ?_⟩, fun y hy => ?_⟩
      · rcases hop with hop | ⟨hop, hn, hv⟩
        · exact Or.inl hop
        · refine Or.inr ⟨hop, ?_, ?_⟩
          · by_contra hc; rw [h4 (by simpa using hc)] at hn; cases hn
          · dsimp only; rw [h3.1, h3.2.1]; exact hv
      · rw [h6 y hy]
        rcases strStep ph' r' y with _ | _ | _ | _ | _ | ⟨r'', rest''⟩
        · rfl
        · rfl
        · rfl
        · rfl
        · rfl
        · exact esValueDone_state ⟨ctx, .opcode, op, r'', wi, mc, un, db⟩ (.str ph) (.str ph') rest''
    · obtain ⟨h2, hv, h5, h6⟩ := h
      have hop' : op = .insert ∨ (op = .insertIndexed ∧ validateIndex ctx r'.dynamic r'.absidx = true) := by
        rcases hop with hop | ⟨hop, hn, hv⟩
        · exact Or.inl hop
        · refine Or.inr ⟨hop, ?_⟩
          rw [h2.1, h2.2.1]; exact hv
      rcases esValueDone_good (d := ⟨ctx, .str ph, op, r', wi, mc, un, db⟩) hctx hop' with ⟨d', e, hh⟩ | ⟨d', hh, hw', hs'⟩
      · rw [hh]; dsimp only; intro y; rw [h6]; dsimp only; rw [hh]
      · rw [hh]; dsimp only
        refine ⟨hw', by simp, ?_, fun y => by rw [h6]; dsimp only; rw [hh]⟩
        rw [hs']
        have : ph.rank = 6 := by cases ph <;> simp_all [Ph.isValue, Ph.rank]
        simp only [ESt.rank]; omega

/-! ### request streams -/

def RSt.rank : RSt → Nat
  | .blocked => 6
  | .opcode => 5
  | .str ph => ph.rank
  | _ => 4

def RSt.vis : RSt → Bool
  | .str ph => ph.isValue
  | _ => false

/-- invariant of a stream context between passes of the loop -/
def SWF (s : SCtx) : Prop :=
  match s.state with
  | .opcode => s.rs.left = 0 ∧ s.rs.shift = 0
  | .ricnt | .dbase => 0 < s.rs.pfx ∧ s.rs.pfx ≤ 8 ∧ (s.rs.left = 0 → s.rs.shift = 0)
  | .readIndex => 0 < s.rs.pfx ∧ s.rs.pfx ≤ 8 ∧ (s.rs.left = 0 → s.rs.shift = 0) ∧ s.op ≠ .literal ∧
      (s.op = .indexedPB ∨ s.op = .indexedNamePB → s.rs.dynamic = true)
  | .dbaseSign | .blocked => True
  | .str ph => StrWF ph s.rs ∧ (s.op = .literal ∨
      ((s.op = .indexedName ∨ s.op = .indexedNamePB) ∧ ph.isName = false ∧ (s.rs.dynamic = false → s.rs.absidx < 99)))

theorem SWF.init (id : Nat) : SWF (SCtx.init id) := ⟨by simp [SCtx.init], by simp [SCtx.init], fun _ => rfl⟩

inductive RStop where
  | fail (e : Err) (acc : List QNv)
  | blocked (s : SCtx) (acc : List QNv)

/-- one pass, with the field lines emitted so far in the state -/
def RRes.view (acc : List QNv) : RRes → Machine.Res (SCtx × List QNv) RStop
  | .crash => .crash
  | .fail e => .fail (.fail e acc)
  | .cont s rest b => .cont (s, acc) rest b
  | .part s _ => .ret (s, acc)
  | .emit s nv rest => .cont (s, acc ++ [nv]) rest false
  | .blocked s rest => .stop (.blocked s acc) rest

theorem view_crash (acc : List QNv) : RRes.crash.view acc = .crash := rfl
theorem view_fail (acc : List QNv) (e : Err) : (RRes.fail e).view acc = .fail (.fail e acc) := rfl
theorem view_cont (acc : List QNv) (s : SCtx) (r : Bytes) (b : Bool) : (RRes.cont s r b).view acc = .cont (s, acc) r b := rfl
theorem view_part (acc : List QNv) (s : SCtx) (r : Bytes) : (RRes.part s r).view acc = .ret (s, acc) := rfl
theorem view_emit (acc : List QNv) (s : SCtx) (nv : QNv) (r : Bytes) :
    (RRes.emit s nv r).view acc = .cont (s, acc ++ [nv]) r false := rfl
theorem view_blocked (acc : List QNv) (s : SCtx) (r : Bytes) : (RRes.blocked s r).view acc = .stop (.blocked s acc) r := rfl

def rsM (c : Ctx) (p : SCtx × List QNv) (x : Bytes) : Machine.Res (SCtx × List QNv) RStop := (rsStep c p.1 x).view p.2

theorem emitIndexed_some {c : Ctx} (hc : CtxOk c) (r : RState) (hv : validateIndex c r.dynamic r.absidx = true) :
    ∃ nv, emitIndexed c r = some nv := by
  unfold emitIndexed
  by_cases hd : r.dynamic = true
  · rw [hd] at hv
    obtain ⟨e, he, _⟩ := hc.get_valid hv
    rw [if_pos hd, he]; exact ⟨_, rfl⟩
  · simp [hd, validateIndex] at hv
    obtain ⟨n, v, t, h1, _⟩ := stableGet_ok hv
    rw [if_neg hd, h1]; exact ⟨_, rfl⟩

theorem emitIndexedName_some {c : Ctx} (hc : CtxOk c) (r : RState) (hv : r.dynamic = false → r.absidx < 99) :
    ∃ o, emitIndexedName c r = some o := by
  unfold emitIndexedName
  by_cases hd : r.dynamic = true
  · rw [if_pos hd]
    by_cases hvi : validateIndex c true r.absidx = true
    · obtain ⟨e, he, _⟩ := hc.get_valid hvi
      rw [if_pos hvi, he]; exact ⟨_, rfl⟩
    · rw [if_neg hvi]; exact ⟨_, rfl⟩
  · obtain ⟨n, v, t, h1, _⟩ := stableGet_ok (hv (by simpa using hd))
    rw [if_neg hd, h1]; exact ⟨_, rfl⟩

theorem brel2abs_some {c : Ctx} {s s' : SCtx} (h : brel2abs c s = some s') :
    s' = { s with rs := { s.rs with absidx := s'.rs.absidx } } ∧ validateIndex c s'.rs.dynamic s'.rs.absidx = true := by
  unfold brel2abs at h
  dsimp only at h
  split_ifs at h with h1 h2 h3 h4 h5
  · simp only [Option.some.injEq] at h; subst h
    dsimp only; rw [h1]; exact ⟨rfl, h4⟩
  · simp only [Option.some.injEq] at h; subst h
    refine ⟨rfl, ?_⟩
    simp only [Bool.not_eq_true] at h1
    dsimp only; rw [h1]; exact h5

theorem pbrel2abs_some {c : Ctx} {s s' : SCtx} (h : pbrel2abs c s = some s') :
    s' = { s with rs := { s.rs with absidx := s'.rs.absidx } } ∧ validateIndex c s'.rs.dynamic s'.rs.absidx = true := by
  unfold pbrel2abs at h
  dsimp only at h
  split_ifs at h with h1 h2
  · simp only [Option.some.injEq] at h; subst h
    exact ⟨rfl, h2⟩

/-- a step that has consumed an integer: what it does does not depend on the input that follows -/
def RGood (f : Bytes → RRes) : Prop :=
  (∃ e, ∀ r, f r = .fail e) ∨
  (∃ s, SWF s ∧ s.state.rank ≤ 5 ∧ ∀ r, f r = .cont s r false) ∨
  (∃ s nv, SWF s ∧ s.state = .opcode ∧ ∀ r, f r = .emit s nv r) ∨
  (∃ s, ∀ r, f r = .blocked s r)

def SCtx.next (s : SCtx) : SCtx := { s with state := .opcode, rs := s.rs.reset }

theorem SCtx.next_wf (s : SCtx) : SWF s.next := ⟨rfl, rfl⟩

theorem emitRes_good (s : SCtx) (nv : QNv) : RGood fun r => emitRes s r (some nv) :=
  Or.inr (Or.inr (Or.inl ⟨s.next, nv, s.next_wf, rfl, fun _ => rfl⟩))

theorem rsIndexDone_good {c : Ctx} (hc : CtxOk c) (s : SCtx) (ho : s.op ≠ .literal) : RGood (rsIndexDone c s) := by
  have hstr : ∀ s' : SCtx, (s'.op = .indexedName ∨ s'.op = .indexedNamePB) →
      validateIndex c s'.rs.dynamic s'.rs.absidx = true →
      SWF { s' with rs := { s'.rs with pfx := 7 }, state := .str .checkValue } := by
    intro s' ho hv
    refine ⟨⟨by simp, by simp, trivial⟩, Or.inr ⟨ho, rfl, fun hd => ?_⟩⟩
    dsimp only at hd ⊢
    simpa [hd, validateIndex] using hv
  cases hop : s.op with
  | literal => exact absurd hop ho
  | indexed =>
    rcases hb : brel2abs c s with _ | s'
    · left; exact ⟨_, fun r => by unfold rsIndexDone; rw [hop, hb]⟩
    · obtain ⟨h1, h2⟩ := brel2abs_some hb
      obtain ⟨nv, h3⟩ := emitIndexed_some hc _ h2
      have := emitRes_good s' nv
      rwa [show (fun r => emitRes s' r (some nv)) = rsIndexDone c s from by
        funext r; unfold rsIndexDone; rw [hop, hb]; dsimp only; rw [h3]] at this
  | indexedPB =>
    rcases hb : pbrel2abs c s with _ | s'
    · left; exact ⟨_, fun r => by unfold rsIndexDone; rw [hop, hb]⟩
    · obtain ⟨h1, h2⟩ := pbrel2abs_some hb
      obtain ⟨nv, h3⟩ := emitIndexed_some hc _ h2
      have := emitRes_good s' nv
      rwa [show (fun r => emitRes s' r (some nv)) = rsIndexDone c s from by
        funext r; unfold rsIndexDone; rw [hop, hb]; dsimp only; rw [h3]] at this
  | indexedName =>
    rcases hb : brel2abs c s with _ | s'
    · left; exact ⟨_, fun r => by unfold rsIndexDone; rw [hop, hb]⟩
    · obtain ⟨h1, h2⟩ := brel2abs_some hb
      refine Or.inr (Or.inl ⟨{ s' with rs := { s'.rs with pfx := 7 }, state := .str .checkValue }, hstr s' ?_ h2, ?_, fun r => ?_⟩)
      · left; rw [h1]; exact hop
      · simp [RSt.rank, Ph.rank]
      · unfold rsIndexDone; rw [hop, hb]
  | indexedNamePB =>
    rcases hb : pbrel2abs c s with _ | s'
    · left; exact ⟨_, fun r => by unfold rsIndexDone; rw [hop, hb]⟩
    · obtain ⟨h1, h2⟩ := pbrel2abs_some hb
      refine Or.inr (Or.inl ⟨{ s' with rs := { s'.rs with pfx := 7 }, state := .str .checkValue }, hstr s' ?_ h2, ?_, fun r => ?_⟩)
      · right; rw [h1]; exact hop
      · simp [RSt.rank, Ph.rank]
      · unfold rsIndexDone; rw [hop, hb]

theorem rsValueDone_good {c : Ctx} (hc : CtxOk c) (s : SCtx)
    (ho : s.op = .literal ∨ ((s.op = .indexedName ∨ s.op = .indexedNamePB) ∧ (s.rs.dynamic = false → s.rs.absidx < 99))) :
    (∃ e, ∀ r, rsValueDone c s r = .fail e) ∨
    (∃ s' nv, SWF s' ∧ s'.state = .opcode ∧ ∀ r, rsValueDone c s r = .emit s' nv r) := by
  rcases ho with ho | ⟨ho, hv⟩
  · right; exact ⟨s.next, emitLiteral s.rs, s.next_wf, rfl, fun r => by unfold rsValueDone; rw [ho]; rfl⟩
  · obtain ⟨o, h1⟩ := emitIndexedName_some hc s.rs hv
    cases o with
    | none =>
      left
      exact ⟨.decompression, fun r => by unfold rsValueDone; rcases ho with ho | ho <;> rw [ho] <;> dsimp only <;> rw [h1]⟩
    | some nv =>
      right
      exact ⟨s.next, nv, s.next_wf, rfl, fun r => by
        unfold rsValueDone; rcases ho with ho | ho <;> rw [ho] <;> dsimp only <;> rw [h1] <;> rfl⟩

theorem rsBaseDone_good (c : Ctx) (s : SCtx) : RGood (rsBaseDone c s) := by
  unfold rsBaseDone
  by_cases h1 : (s.sign && decide (s.ricnt ≤ s.rs.left)) = true
  · left; exact ⟨_, fun r => by dsimp only; rw [if_pos h1]⟩
  · by_cases h2 : c.next < s.ricnt
    · right; right; right
      exact ⟨_, fun r => by dsimp only; rw [if_neg h1]; rw [if_pos h2]⟩
    · right; left
      exact ⟨{ s with base := if s.sign then s.ricnt - s.rs.left - 1 else s.ricnt + s.rs.left, state := .opcode, rs := { s.rs with left := 0, shift := 0 } },
        ⟨rfl, rfl⟩, by simp [RSt.rank], fun r => by dsimp only; rw [if_neg h1]; rw [if_neg h2]⟩

/-- from the shape of a completed integer to the machine's obligation -/
theorem good_of_done {f : Bytes → RRes} (hf : RGood f) (acc : List QNv) {rest x : Bytes} {k : Nat}
    (hr : rest.length < x.length) {g : Bytes → Machine.Res (SCtx × List QNv) RStop}
    (hg : ∀ y, g y = (f (rest ++ y)).view acc) :
    match g [] with
    | .crash => False
    | .fail o => ∀ y, g y = .fail o
    | .stop o rest => ∀ y, g y = .stop o (rest ++ y)
    | .cont s' rest b => SWF s'.1 ∧ (b = true → s'.1.state.vis = true) ∧ 8 * rest.length + s'.1.state.rank < 8 * x.length + k ∧
        ∀ y, g y = .cont s' (rest ++ y) b
    | .ret s' => False := by
  rw [hg []]
  simp only [List.append_nil]
  rcases hf with ⟨e, h⟩ | ⟨s, hs, hk, h⟩ | ⟨s, nv, hs, hk, h⟩ | ⟨s, h⟩
  · rw [h]; intro y; rw [hg, h]; rfl
  · rw [h]; exact ⟨hs, by simp, by dsimp only; omega, fun y => by rw [hg, h]; rfl⟩
  · rw [h]; exact ⟨hs, by simp, by dsimp only; rw [hk]; simp [RSt.rank]; omega, fun y => by rw [hg, h]; rfl⟩
  · rw [h]; intro y; rw [hg, h]; rfl

theorem rsBase_good (c : Ctx) (s : SCtx) (acc : List QNv) (x : Bytes) (hst : s.state = .dbase) (hx : x ≠ [])
    (hp : 0 < s.rs.pfx) (h8 : s.rs.pfx ≤ 8) (hls : s.rs.left = 0 → s.rs.shift = 0) :
    match (rsBase c s x).view acc with
    | .crash => False
    | .fail o => ∀ y, (rsBase c s (x ++ y)).view acc = .fail o
    | .stop o rest => ∀ y, (rsBase c s (x ++ y)).view acc = .stop o (rest ++ y)
    | .cont s' rest b => SWF s'.1 ∧ (b = true → s'.1.state.vis = true) ∧ 8 * rest.length + s'.1.state.rank < 8 * x.length + 4 ∧
        ∀ y, (rsBase c s (x ++ y)).view acc = .cont s' (rest ++ y) b
    | .ret s' => SWF s'.1 ∧ ∀ y, y ≠ [] → (rsBase c s (x ++ y)).view acc = (rsStep c s'.1 y).view s'.2 := by
  have h := readInt_app hp hx hls
  unfold rsBase
  rcases hr : readInt s.rs.pfx s.rs.left s.rs.shift x with _ | _ | ⟨l, sh⟩ | ⟨l, sh, rest⟩ <;> rw [hr] at h <;> dsimp only [view_crash, view_fail, view_cont, view_part, view_emit, view_blocked] at h ⊢
  · intro y; rw [h]; rfl
  · refine ⟨?_, fun y hy => ?_⟩
    · unfold SWF; dsimp only; rw [hst]; exact ⟨hp, h8, fun h0 => by omega⟩
    · rw [h.2 y hy]; unfold rsStep; dsimp only; rw [hst]; rfl
  · have key := good_of_done (rsBaseDone_good c { s with rs := { s.rs with left := l, shift := sh } }) acc h.1 (k := 4)
      (g := fun y => (match readInt s.rs.pfx s.rs.left s.rs.shift (x ++ y) with
        | .oob => RRes.crash
        | .fatal => .fail .decompression
        | .part l sh => .part { s with rs := { s.rs with left := l, shift := sh } } []
        | .done l sh rest => rsBaseDone c { s with rs := { s.rs with left := l, shift := sh } } rest).view acc)
      (fun y => by rw [h.2])
    simp only [List.append_nil, hr] at key
    revert key
    generalize RRes.view acc (rsBaseDone c { s with rs := { s.rs with left := l, shift := sh } } rest) = z
    intro key
    cases z <;> first | exact key | exact key.elim

theorem rsOpcode_good {s : SCtx} (h0 : s.rs.left = 0 ∧ s.rs.shift = 0) (b : UInt8) :
    SWF (rsOpcode s b) ∧ (rsOpcode s b).state.rank ≤ 4 := by
  have ht : ∀ (r : RState), 0 < r.pfx → r.pfx ≤ 8 → StrWF .checkName r := fun r h1 h2 => ⟨h1, h2, trivial⟩
  unfold rsOpcode
  dsimp only
  split_ifs
  · exact ⟨⟨by simp, by simp, fun _ => h0.2, by simp, by simp⟩, by simp [RSt.rank]⟩
  · exact ⟨⟨by simp, by simp, fun _ => h0.2, by simp, by simp⟩, by simp [RSt.rank]⟩
  · exact ⟨⟨ht _ (by simp) (by simp), Or.inl rfl⟩, by simp [RSt.rank, Ph.rank]⟩
  · exact ⟨⟨by simp, by simp, fun _ => h0.2, by simp, by simp⟩, by simp [RSt.rank]⟩
  · exact ⟨⟨by simp, by simp, fun _ => h0.2, by simp, by simp⟩, by simp [RSt.rank]⟩

theorem rsValueDone_state (c : Ctx) (s : SCtx) (s1 s2 : RSt) (rest : Bytes) (acc : List QNv) :
    (rsValueDone c { s with state := s1 } rest).view acc = (rsValueDone c { s with state := s2 } rest).view acc := by
  unfold rsValueDone
  dsimp only
  cases s.op with
  | indexed => rfl
  | indexedPB => rfl
  | indexedName => dsimp only; rcases emitIndexedName c s.rs with _ | _ | nv <;> rfl
  | indexedNamePB => dsimp only; rcases emitIndexedName c s.rs with _ | _ | nv <;> rfl
  | literal => rfl

theorem rsM_good {c : Ctx} (hc : CtxOk c) :
    Machine.Good (rsM c) (fun p => SWF p.1) (fun p => p.1.state.vis) (fun p => p.1.state.rank) := by
  constructor
  rintro ⟨⟨id, state, op, rs, ricnt, sign, base⟩, acc⟩ x hw hx
  unfold rsM rsStep
  dsimp only at hw hx ⊢
  cases state with
  | ricnt =>
    have hne : x ≠ [] := by simpa [RSt.vis] using hx
    obtain ⟨hp, h8, hls⟩ := hw
    dsimp only at hp h8 hls
    have h := readInt_app hp hne hls
    dsimp only
    rcases hr : readInt rs.pfx rs.left rs.shift x with _ | _ | ⟨l, sh⟩ | ⟨l, sh, rest⟩ <;> rw [hr] at h <;> dsimp only [view_crash, view_fail, view_cont, view_part, view_emit, view_blocked] at h ⊢
    · intro y; rw [h]; rfl
    · refine ⟨⟨hp, h8, fun h0 => by dsimp only at h0; omega⟩, fun y hy => by rw [h.2 y hy]⟩
    · rcases hrc : reconstructRicnt c l with _ | n
      · dsimp only; intro y; rw [h.2]; dsimp only; rw [hrc]; rfl
      · dsimp only
        refine ⟨trivial, by simp, by simp [RSt.rank]; omega, fun y => by rw [h.2]; dsimp only; rw [hrc]; rfl⟩
  | dbaseSign =>
    have hne : x ≠ [] := by simpa [RSt.vis] using hx
    cases x with
    | nil => exact absurd rfl hne
    | cons b t =>
      have := rsBase_good c ⟨id, .dbase, op, { rs with left := 0, pfx := 7, shift := 0 }, ricnt, sign || decide (b.toNat &&& 0x80 ≠ 0), base⟩
        acc (b :: t) rfl (by simp) (by simp) (by simp) (fun _ => rfl)
      revert this
      dsimp only [List.cons_append]
      generalize RRes.view acc (rsBase c _ (b :: t)) = z
      cases z <;> exact fun h => h
  | dbase =>
    have hne : x ≠ [] := by simpa [RSt.vis] using hx
    obtain ⟨hp, h8, hls⟩ := hw
    have := rsBase_good c ⟨id, .dbase, op, rs, ricnt, sign, base⟩ acc x rfl hne hp h8 hls
    revert this
    dsimp only
    generalize RRes.view acc (rsBase c _ x) = z
    cases z <;> exact fun h => h
  | opcode =>
    have hne : x ≠ [] := by simpa [RSt.vis] using hx
    cases x with
    | nil => exact absurd rfl hne
    | cons b t =>
      have h0 : rs.left = 0 ∧ rs.shift = 0 := hw
      have : ¬ (rs.left ≠ 0 ∨ rs.shift ≠ 0) := by omega
      dsimp only [List.cons_append]
      rw [if_neg this]
      dsimp only [view_crash, view_fail, view_cont, view_part, view_emit, view_blocked]
      obtain ⟨h1, h2⟩ := rsOpcode_good (s := ⟨id, .opcode, op, rs, ricnt, sign, base⟩) h0 b
      refine ⟨h1, by simp, ?_, fun y => by rw [if_neg this]; rfl⟩
      have : RSt.rank .opcode = 5 := rfl
      omega
  | readIndex =>
    have hne : x ≠ [] := by simpa [RSt.vis] using hx
    obtain ⟨hp, h8, hls, hop, hdyn⟩ := hw
    dsimp only at hp h8 hls hop hdyn
    have h := readInt_app hp hne hls
    dsimp only
    rcases hr : readInt rs.pfx rs.left rs.shift x with _ | _ | ⟨l, sh⟩ | ⟨l, sh, rest⟩ <;> rw [hr] at h <;> dsimp only [view_crash, view_fail, view_cont, view_part, view_emit, view_blocked] at h ⊢
    · intro y; rw [h]; rfl
    · refine ⟨⟨hp, h8, fun h0 => by dsimp only at h0; omega, hop, hdyn⟩, fun y hy => by rw [h.2 y hy]⟩
    · have key := good_of_done (rsIndexDone_good hc ⟨id, .readIndex, op, { rs with left := l, shift := sh }, ricnt, sign, base⟩ hop) acc h.1 (k := 4)
        (g := fun y => (match readInt rs.pfx rs.left rs.shift (x ++ y) with
          | .oob => RRes.crash
          | .fatal => .fail .decompression
          | .part l sh => .part ⟨id, .readIndex, op, { rs with left := l, shift := sh }, ricnt, sign, base⟩ []
          | .done l sh rest => rsIndexDone c ⟨id, .readIndex, op, { rs with left := l, shift := sh }, ricnt, sign, base⟩ rest).view acc)
        (fun y => by rw [h.2])
      simp only [List.append_nil, hr] at key
      revert key
      generalize hz : RRes.view acc (rsIndexDone c ⟨id, .readIndex, op, { rs with left := l, shift := sh }, ricnt, sign, base⟩ rest) = z
      intro key
      cases z <;> first | exact key | exact key.elim
  | str ph =>
    obtain ⟨hsw, hop⟩ := hw
    dsimp only at hsw hop
    have h := strStep_good ph rs x hsw hx
    unfold StrGood at h
    dsimp only
    rcases hr : strStep ph rs x with _ | _ | _ | ⟨ph', r', rest, b⟩ | ⟨ph', r', rest⟩ | ⟨r', rest⟩ <;> rw [hr] at h <;> dsimp only [view_crash, view_fail, view_cont, view_part, view_emit, view_blocked] at h ⊢
    · intro y; rw [h]; rfl
    · intro y; rw [h]; rfl
    · obtain ⟨h1, h2, h3, h4, h5, h6⟩ := h
      refine ⟨⟨h1, ?_⟩, h3, h5, fun y => by rw [h6]; rfl⟩
      rcases hop with hop | ⟨hop, hn, hv⟩
      · exact Or.inl hop
      · refine Or.inr ⟨hop, ?_, ?_⟩
        · by_contra hc; rw [h4 (by simpa using hc)] at hn; cases hn
        · dsimp only; rw [h2.1, h2.2.1]; exact hv
    · obtain ⟨h1, h2, h3, h4, h6⟩ := h
      refine ⟨⟨h2, ?_⟩, fun y hy => ?_⟩
      · rcases hop with hop | ⟨hop, hn, hv⟩
        · exact Or.inl hop
        · refine Or.inr ⟨hop, ?_, ?_⟩
          · by_contra hc; rw [h4 (by simpa using hc)] at hn; cases hn
          · dsimp only; rw [h3.1, h3.2.1]; exact hv
      · rw [h6 y hy]
        rcases strStep ph' r' y with _ | _ | _ | _ | _ | ⟨r'', rest''⟩
        · rfl
        · rfl
        · rfl
        · rfl
        · rfl
        · exact rsValueDone_state c ⟨id, .opcode, op, r'', ricnt, sign, base⟩ (.str ph) (.str ph') rest'' acc
    · obtain ⟨h2, hv, h5, h6⟩ := h
      have hop' : op = .literal ∨ ((op = .indexedName ∨ op = .indexedNamePB) ∧ (r'.dynamic = false → r'.absidx < 99)) := by
        rcases hop with hop | ⟨hop, hn, hv⟩
        · exact Or.inl hop
        · refine Or.inr ⟨hop, ?_⟩
          rw [h2.1, h2.2.1]; exact hv
      rcases rsValueDone_good hc ⟨id, .str ph, op, r', ricnt, sign, base⟩ hop' with ⟨e, hh⟩ | ⟨s', nv, hw', hs', hh⟩
      · rw [hh, view_fail]; dsimp only; intro y; rw [h6]; dsimp only; rw [hh]; rfl
      · rw [hh, view_emit]; dsimp only
        refine ⟨hw', by simp, ?_, fun y => by rw [h6]; dsimp only; rw [hh]; rfl⟩
        rw [hs']
        have : ph.rank = 6 := by cases ph <;> simp_all [Ph.isValue, Ph.rank]
        simp only [RSt.rank]; omega
  | blocked =>
    have hne : x ≠ [] := by simpa [RSt.vis] using hx
    dsimp only
    by_cases hb : c.next < ricnt
    · rw [if_pos hb, view_blocked]; dsimp only; intro y; rw [if_pos hb]; rfl
    · rw [if_neg hb, view_cont]; dsimp only
      exact ⟨⟨rfl, rfl⟩, by simp, by simp [RSt.rank], fun y => by rw [if_neg hb]; rfl⟩

end Qpack
end Nghttp3
