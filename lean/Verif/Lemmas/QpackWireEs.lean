import Verif.Lemmas.QpackWire
/-! The encoder stream against RFC 9204, section 4.3. -/
namespace Nghttp3
namespace Qpack
open Rfc9204 (IntAs StrAs Instr Table)

/-- nothing complete has been read: an error, or the input ended in the middle of an instruction -/
def EsStuck (c : Ctx) (run : Machine.Out Dec (Err × Ctx)) : Prop :=
  (∃ o, run = .fail o) ∨ ∃ d', run = .ok d' ∧ d'.ctx = c ∧ d'.state ≠ .opcode

/-- the effect of a complete instruction followed by `rest` -/
def EsDone (c : Ctx) (run : Machine.Out Dec (Err × Ctx)) (rest : Bytes) : Option Table → Prop
  | none => ∃ c', run = .fail (.encoderStream, c')
  | some t => ∃ d', run = esRun d' rest false ∧ DecWF d' ∧ d'.state = .opcode ∧ d'.ctx.table = t ∧ d'.ctx.hardMax = c.hardMax ∧ d'.ctx.bad = c.bad

/-- the library's insertion result against the RFC's -/
def Agree (c : Ctx) (o : Option (Option Ctx)) (T : Option Table) : Prop :=
  (T = none ∧ o = some none) ∨ ∃ c', o = some (some c') ∧ T = some c'.table ∧ c'.hardMax = c.hardMax ∧ c'.bad = c.bad

theorem es_run_eq {d : Dec} (hw : DecWF d) {x : Bytes} {b : Bool} (hb : b = true → d.state.vis = true) (hx : ¬ (x = [] ∧ b = false)) :
    esRun d x b = match (esStep d x).view with
      | .crash => .crash
      | .fail o => .fail o
      | .stop o rest => .stop o rest
      | .cont s' rest b => esRun s' rest b
      | .ret s' => .ok s' := by
  rw [esRun, Machine.run_eq esM_good hw hb, if_neg hx]
  generalize hq : esM d x = q
  rw [show (esStep d x).view = q from hq]
  cases q <;> rfl

theorem es_fin {d : Dec} (hw : DecWF d) {x : Bytes} {b : Bool} (hb : b = true → d.state.vis = true) (hx : ¬ (x = [] ∧ b = false))
    (d0 : Dec) {rest : Bytes} {o : Option (Option Ctx)} {T : Option Table} (h : esStep d x = d0.finish rest o)
    (ha : Agree d.ctx o T) : EsDone d.ctx (esRun d x b) rest T := by
  rcases ha with ⟨rfl, rfl⟩ | ⟨c', rfl, rfl, h1, h2⟩
  · rw [es_run_eq hw hb hx, h]; exact ⟨_, rfl⟩
  · have h' : esM d x = .cont { d0 with ctx := c', state := .opcode, rs := d0.rs.reset } rest false := by
      unfold esM; rw [h]; rfl
    obtain ⟨w1, _, w2⟩ := Machine.run_cont esM_good hw hb hx h'
    exact ⟨_, w2, w1, rfl, rfl, h1, h2⟩

theorem es_stuck {d : Dec} (hw : DecWF d) {x : Bytes} {b : Bool} (hb : b = true → d.state.vis = true) (hx : ¬ (x = [] ∧ b = false))
    {ph : Ph} (hs : d.state = .str ph) (h : (strStep ph d.rs x).Stuck) : EsStuck d.ctx (esRun d x b) := by
  rw [es_run_eq hw hb hx]
  unfold esStep
  rw [hs]
  dsimp only
  rcases h with h | h | ⟨ph', r, rest, h⟩ <;> rw [h] <;> dsimp only [ERes.view]
  · exact Or.inl ⟨_, rfl⟩
  · exact Or.inl ⟨_, rfl⟩
  · exact Or.inr ⟨_, rfl, rfl, by simp⟩

theorem es_end {d : Dec} (hw : DecWF d) (hs : d.state ≠ .opcode) : EsStuck d.ctx (esRun d [] false) := by
  right
  refine ⟨d, ?_, rfl, hs⟩
  rw [esRun, Machine.run_eq esM_good hw (by simp), if_pos ⟨rfl, rfl⟩]

/-- a value and the end of the instruction -/
theorem es_value_rd {d : Dec} (hw : DecWF d) (hs : d.state = .str .checkValue) (hp : d.rs.pfx = 7) (x : Bytes) :
    match rdStr 7 65536 x with
    | some (v, rest) => ∀ T, (∀ r2 : RState, SameHead d.rs r2 → r2.value = v → r2.name = d.rs.name → ∀ ph,
        ∃ o, esValueDone { d with state := .str ph, rs := r2 } rest = { d with state := .str ph, rs := r2 }.finish rest o ∧ Agree d.ctx o T) →
        EsDone d.ctx (esRun d x false) rest T
    | none => EsStuck d.ctx (esRun d x false) := by
  cases x with
  | nil => exact es_end hw (by simp [hs])
  | cons b t =>
    have h := value_rd d.rs (by omega) (by omega) b t
    rw [hp] at h
    generalize rdStr 7 65536 (b :: t) = q at h ⊢
    rcases q with _ | ⟨v, rest⟩ <;> dsimp only at h ⊢
    · rcases h with h | ⟨ph, r1, y, h1, h2⟩
      · exact es_stuck hw (by simp) (by simp) hs h
      · have hm : esM d (b :: t) = .cont { d with state := .str ph, rs := r1 } y true := by
          unfold esM esStep; rw [hs]; dsimp only; rw [h1]; rfl
        obtain ⟨w1, w2, w3⟩ := Machine.run_cont esM_good hw (b := false) (by simp) (by simp) hm
        rw [esRun, w3]
        exact es_stuck w1 w2 (by simp) rfl h2
    · intro T hT
      obtain ⟨ph, r1, body, r2, h1, h2, h3, h4, h5⟩ := h
      have hm : esM d (b :: t) = .cont { d with state := .str ph, rs := r1 } (body ++ rest) true := by
        unfold esM esStep; rw [hs]; dsimp only; rw [h1]; rfl
      obtain ⟨w1, w2, w3⟩ := Machine.run_cont esM_good hw (b := false) (by simp) (by simp) hm
      rw [esRun, w3]
      obtain ⟨o, k1, k2⟩ := hT r2 h3 h4 h5 ph
      refine es_fin w1 w2 (by simp) { d with state := .str ph, rs := r2 } (o := o) ?_ k2
      unfold esStep
      dsimp only
      rw [h2]
      exact k1

/-! ### instructions -/

/-- one-shot reading of an instruction -/
def rdInstr : Bytes → Option (Instr × Bytes)
  | [] => none
  | b :: t =>
    if b.toNat / 64 = 3 ∨ b.toNat / 64 = 2 then
      match rdInt 6 (b :: t) with
      | none => none
      | some (i, r1) =>
        match rdStr 7 65536 r1 with
        | none => none
        | some (v, r2) => some (if b.toNat / 64 = 3 then .insertStaticName i v else .insertDynamicName i v, r2)
    else if b.toNat / 64 = 1 then
      match rdStr 5 256 (b :: t) with
      | none => none
      | some (n, r1) =>
        match rdStr 7 65536 r1 with
        | none => none
        | some (v, r2) => some (.insertLiteral n v, r2)
    else
      match rdInt 5 (b :: t) with
      | none => none
      | some (n, r1) => some (if b.toNat / 32 = 1 then .setCapacity n else .duplicate n, r1)

theorem value_top {p lim : Nat} (hp : p ≤ 8) (x : Bytes) (v rest : Bytes) (hx : ∀ b t, x = b :: t → b.toNat / 2 ^ (p + 1) = 0) :
    rdStr p lim x = some (v, rest) ↔ ∃ enc, x = enc ++ rest ∧ StrAs p 0 lim enc v := by
  cases x with
  | nil =>
    simp only [rdStr, reduceCtorEq, false_iff]
    rintro ⟨enc, h1, len, body, h2, _, h3⟩
    simp at h1
    rw [h1.1] at h2
    simp at h2
    rcases h3 with ⟨⟨⟨b, t, e, _⟩, _⟩, _⟩ | ⟨⟨⟨b, t, e, _⟩, _⟩, _⟩ <;> rw [h2.1] at e <;> cases e
  | cons b t =>
    rw [rdStr_iff hp, hx b t rfl]

theorem rdValue_iff (x v rest : Bytes) : rdStr 7 65536 x = some (v, rest) ↔ ∃ enc, x = enc ++ rest ∧ StrAs 7 0 Rfc9204.valueLimit enc v :=
  value_top (by omega) x v rest fun b t _ => Nat.div_eq_of_lt (by have := b.toNat_lt; omega)

theorem intAs_head {p top : Nat} {enc : Bytes} {n : Nat} (h : IntAs p top enc n) {b : UInt8} {t rest : Bytes} (e : b :: t = enc ++ rest) :
    b.toNat / 2 ^ p = top := by
  obtain ⟨⟨b', t', e1, e2⟩, _⟩ := h
  rw [e1] at e; simp at e; rw [e.1]; exact e2

theorem strAs_head {p top lim : Nat} {enc s : Bytes} (h : StrAs p top lim enc s) {b : UInt8} {t rest : Bytes} (e : b :: t = enc ++ rest) :
    b.toNat / 2 ^ (p + 1) = top := by
  obtain ⟨len, body, rfl, _, h⟩ := h
  rw [List.append_assoc] at e
  rw [Nat.pow_succ, ← Nat.div_div_eq_div_mul]
  rcases h with ⟨h, _⟩ | ⟨h, _⟩
  · rw [intAs_head h e]; omega
  · rw [intAs_head h e]; omega

theorem strAs_ne {p top lim : Nat} {enc s : Bytes} (h : StrAs p top lim enc s) : enc ≠ [] := by
  obtain ⟨len, body, rfl, _, h⟩ := h
  rcases h with ⟨⟨⟨b, t, e, _⟩, _⟩, _⟩ | ⟨⟨⟨b, t, e, _⟩, _⟩, _⟩ <;> rw [e] <;> simp

theorem rdInstr_iff (b : UInt8) (t : Bytes) (i : Instr) (rest : Bytes) :
    rdInstr (b :: t) = some (i, rest) ↔ ∃ enc, b :: t = enc ++ rest ∧ i.Is enc := by
  have hlt := b.toNat_lt
  constructor
  · intro h
    unfold rdInstr at h
    dsimp only at h
    by_cases h1 : b.toNat / 64 = 3 ∨ b.toNat / 64 = 2
    · rw [if_pos h1] at h
      rcases hi : rdInt 6 (b :: t) with _ | ⟨n, r1⟩ <;> rw [hi] at h <;> dsimp only at h
      · simp at h
      rcases hv : rdStr 7 65536 r1 with _ | ⟨v, r2⟩ <;> rw [hv] at h <;> dsimp only at h
      · simp at h
      simp only [Option.some.injEq, Prod.mk.injEq] at h
      obtain ⟨rfl, rfl⟩ := h
      obtain ⟨e1, k1, k2⟩ := (rdInt_iff (by omega) b t n r1).1 hi
      obtain ⟨e2, k3, k4⟩ := (rdValue_iff r1 v r2).1 hv
      refine ⟨e1 ++ e2, by rw [k1, k3, List.append_assoc], ?_⟩
      split_ifs with h3
      · rw [show b.toNat / 2 ^ 6 = 3 from h3] at k2
        exact ⟨e1, e2, rfl, k2, k4⟩
      · rw [show b.toNat / 2 ^ 6 = 2 by norm_num; omega] at k2
        exact ⟨e1, e2, rfl, k2, k4⟩
    rw [if_neg h1] at h
    by_cases h2 : b.toNat / 64 = 1
    · rw [if_pos h2] at h
      rcases hi : rdStr 5 256 (b :: t) with _ | ⟨n, r1⟩ <;> rw [hi] at h <;> dsimp only at h
      · simp at h
      rcases hv : rdStr 7 65536 r1 with _ | ⟨v, r2⟩ <;> rw [hv] at h <;> dsimp only at h
      · simp at h
      simp only [Option.some.injEq, Prod.mk.injEq] at h
      obtain ⟨rfl, rfl⟩ := h
      obtain ⟨e1, k1, k2⟩ := (rdStr_iff (by omega) b t n r1).1 hi
      obtain ⟨e2, k3, k4⟩ := (rdValue_iff r1 v r2).1 hv
      refine ⟨e1 ++ e2, by rw [k1, k3, List.append_assoc], e1, e2, rfl, ?_, k4⟩
      rw [show b.toNat / 2 ^ (5 + 1) = 1 from h2] at k2
      exact k2
    · rw [if_neg h2] at h
      rcases hi : rdInt 5 (b :: t) with _ | ⟨n, r1⟩ <;> rw [hi] at h <;> dsimp only at h
      · simp at h
      simp only [Option.some.injEq, Prod.mk.injEq] at h
      obtain ⟨rfl, rfl⟩ := h
      obtain ⟨e1, k1, k2⟩ := (rdInt_iff (by omega) b t n r1).1 hi
      refine ⟨e1, k1, ?_⟩
      split_ifs with h3
      · rw [show b.toNat / 2 ^ 5 = 1 from h3] at k2; exact k2
      · rw [show b.toNat / 2 ^ 5 = 0 by norm_num; omega] at k2; exact k2
  · rintro ⟨enc, h1, h2⟩
    unfold rdInstr
    dsimp only
    cases i with
    | setCapacity n =>
      have ht := intAs_head h2 h1
      have ht' : b.toNat / 32 = 1 := ht
      rw [if_neg (by omega), if_neg (by omega), (rdInt_iff (by omega) b t n rest).2 ⟨enc, h1, by rw [ht]; exact h2⟩]
      dsimp only; rw [if_pos ht']
    | duplicate n =>
      have ht := intAs_head h2 h1
      have ht' : b.toNat / 32 = 0 := ht
      rw [if_neg (by omega), if_neg (by omega), (rdInt_iff (by omega) b t n rest).2 ⟨enc, h1, by rw [ht]; exact h2⟩]
      dsimp only; rw [if_neg (by omega)]
    | insertStaticName n v =>
      obtain ⟨x, y, rfl, h3, h4⟩ := h2
      rw [List.append_assoc] at h1
      have ht := intAs_head h3 h1
      have ht' : b.toNat / 64 = 3 := ht
      rw [if_pos (Or.inl ht'), (rdInt_iff (by omega) b t n (y ++ rest)).2 ⟨x, h1, by rw [ht]; exact h3⟩]
      dsimp only
      rw [(rdValue_iff (y ++ rest) v rest).2 ⟨y, rfl, h4⟩]
      dsimp only; rw [if_pos ht']
    | insertDynamicName n v =>
      obtain ⟨x, y, rfl, h3, h4⟩ := h2
      rw [List.append_assoc] at h1
      have ht := intAs_head h3 h1
      have ht' : b.toNat / 64 = 2 := ht
      rw [if_pos (Or.inr ht'), (rdInt_iff (by omega) b t n (y ++ rest)).2 ⟨x, h1, by rw [ht]; exact h3⟩]
      dsimp only
      rw [(rdValue_iff (y ++ rest) v rest).2 ⟨y, rfl, h4⟩]
      dsimp only; rw [if_neg (by omega)]
    | insertLiteral n v =>
      obtain ⟨x, y, rfl, h3, h4⟩ := h2
      rw [List.append_assoc] at h1
      have ht := strAs_head h3 h1
      have ht' : b.toNat / 64 = 1 := ht
      rw [if_neg (by omega), if_pos ht', (rdStr_iff (by omega) b t n (y ++ rest)).2 ⟨x, h1, by rw [ht]; exact h3⟩]
      dsimp only
      rw [(rdValue_iff (y ++ rest) v rest).2 ⟨y, rfl, h4⟩]

theorem esIndex_rd (d1 : Dec) (hs : d1.state = .readIndex) (hp : 0 < d1.rs.pfx) (hl : d1.rs.left = 0) (hsh : d1.rs.shift = 0) (b : UInt8) (t : Bytes) :
    match rdInt d1.rs.pfx (b :: t) with
    | some (n, rest) => ∃ sh, esStep d1 (b :: t) = esIndexDone { d1 with rs := { d1.rs with left := n, shift := sh } } rest
    | none => (∃ e, esStep d1 (b :: t) = .fail d1 e) ∨ ∃ l s, esStep d1 (b :: t) = .ret { d1 with rs := { d1.rs with left := l, shift := s } } [] := by
  have ho := readInt_ne_oob hp b t
  have he : esStep d1 (b :: t) = esIndex d1 (b :: t) := by unfold esStep; rw [hs]
  rw [he]
  unfold esIndex rdInt
  rw [hl, hsh]
  rcases hr : QInt.readInt d1.rs.pfx 0 0 (b :: t) with _ | _ | ⟨l, sh⟩ | ⟨l, sh, rest⟩ <;> dsimp only
  · exact absurd hr ho
  · left; exact ⟨_, rfl⟩
  · right; exact ⟨l, sh, rfl⟩
  · exact ⟨sh, rfl⟩

theorem es_index_none {d1 : Dec} (hw : DecWF d1) (hs : d1.state = .readIndex) {x : Bytes} (hx : x ≠ [])
    (h : (∃ e, esStep d1 x = .fail d1 e) ∨ ∃ l s, esStep d1 x = .ret { d1 with rs := { d1.rs with left := l, shift := s } } []) :
    EsStuck d1.ctx (esRun d1 x false) := by
  rw [es_run_eq hw (by simp) (by simp [hx])]
  rcases h with ⟨e, h⟩ | ⟨l, s, h⟩ <;> rw [h] <;> dsimp only [ERes.view]
  · exact Or.inl ⟨_, rfl⟩
  · exact Or.inr ⟨_, rfl, rfl, by simp [hs]⟩

/-- one instruction from the start -/
theorem es_one {d : Dec} (hw : DecWF d) (hs : d.state = .opcode) (b : UInt8) (t : Bytes) :
    match rdInstr (b :: t) with
    | some (i, rest) => EsDone d.ctx (esRun d (b :: t) false) rest (d.ctx.table.apply d.ctx.hardMax i)
    | none => EsStuck d.ctx (esRun d (b :: t) false) := by
  have hlt := b.toNat_lt
  have h0 := hw.st
  rw [hs] at h0
  obtain ⟨hl0, hs0⟩ := h0
  obtain ⟨f1, f2, f3, f4, f5⟩ := esOpcode_first d b
  obtain ⟨w1, w2⟩ := es_opcode_step hw hs b t
  unfold rdInstr
  dsimp only
  by_cases c1 : b.toNat / 64 = 3 ∨ b.toNat / 64 = 2
  · rw [if_pos c1]
    -- insertion with a name reference
    have key : ∀ dyn : Bool, (dyn = true ↔ b.toNat / 64 = 2) →
        esOpcode d b = { d with op := .insertIndexed, state := .readIndex, rs := { d.rs with dynamic := dyn, pfx := 6 } } := by
      intro dyn hd
      rcases c1 with c | c
      · rw [f2 c]; have : dyn = false := by cases dyn <;> simp_all
        rw [this]
      · rw [f3 c]; rw [hd.2 c]
    obtain ⟨dyn, hdyn⟩ : ∃ dyn : Bool, (dyn = true ↔ b.toNat / 64 = 2) := ⟨decide (b.toNat / 64 = 2), by simp⟩
    rw [key dyn hdyn] at w1 w2
    rw [w2]
    have hidx := esIndex_rd (d1 := { d with op := .insertIndexed, state := .readIndex, rs := { d.rs with dynamic := dyn, pfx := 6 } }) rfl (by simp) hl0 hs0 b t
    dsimp only at hidx
    rcases hi : rdInt 6 (b :: t) with _ | ⟨n, r1⟩ <;> rw [hi] at hidx <;> dsimp only at hidx ⊢
    · exact es_index_none w1 rfl (by simp) hidx
    obtain ⟨sh, hst⟩ := hidx
    unfold esIndexDone at hst
    dsimp only at hst
    -- the reference
    have href : (rel2abs d.ctx { d.rs with dynamic := dyn, pfx := 6, left := n, shift := sh } = none ∧
          ∀ v, d.ctx.table.apply d.ctx.hardMax (if b.toNat / 64 = 3 then .insertStaticName n v else .insertDynamicName n v) = none) ∨
        ∃ a name token, rel2abs d.ctx { d.rs with dynamic := dyn, pfx := 6, left := n, shift := sh } =
            some { d.rs with dynamic := dyn, pfx := 6, left := n, shift := sh, absidx := a } ∧ token = lookupToken name ∧
          (∀ r2 : RState, r2.dynamic = dyn → r2.absidx = a → indexedAdd d.ctx r2 = d.ctx.addChecked name r2.value token) ∧
          ∀ v, d.ctx.table.apply d.ctx.hardMax (if b.toNat / 64 = 3 then .insertStaticName n v else .insertDynamicName n v) =
            d.ctx.table.insert (name, v) := by
      cases dyn with
      | true =>
        have h2 : b.toNat / 64 = 2 := hdyn.1 rfl
        have h3 : ¬ b.toNat / 64 = 3 := by omega
        simp only [h3, if_false]
        rcases rel2abs_dyn hw.ctx { d.rs with dynamic := true, pfx := 6, left := n, shift := sh } rfl with ⟨k1, k2⟩ | ⟨e, k1, k2, k3, k4⟩
        · left; refine ⟨k2, fun v => ?_⟩
          unfold Table.apply; dsimp only at k1 ⊢; rw [k1]; rfl
        · right
          refine ⟨_, e.name, e.token, k4, hw.ctx.tok e k3, ?_, ?_⟩
          · intro r2 q1 q2; unfold indexedAdd; rw [if_pos q1, q2, k2]
          · intro v; unfold Table.apply; dsimp only at k1 ⊢; rw [k1]; rfl
      | false =>
        have h3 : b.toNat / 64 = 3 := by
          rcases c1 with c | c
          · exact c
          · exact absurd (hdyn.2 c) (by simp)
        simp only [h3, if_true]
        rcases rel2abs_static d.ctx { d.rs with dynamic := false, pfx := 6, left := n, shift := sh } rfl with ⟨k1, k2⟩ | ⟨name, v', tk, k1, k2, k3, k4⟩
        · left; refine ⟨k2, fun v => ?_⟩
          unfold Table.apply; dsimp only at k1 ⊢; rw [k1]; rfl
        · right
          refine ⟨_, name, some tk, k4, k3.symm, ?_, ?_⟩
          · intro r2 q1 q2; unfold indexedAdd; rw [if_neg (by simp [q1]), q2, k2]
          · intro v; unfold Table.apply; dsimp only at k1 ⊢; rw [k1]; rfl
    rcases href with ⟨k1, k2⟩ | ⟨a, name, token, k1, k2, k3, k4⟩
    · rw [k1] at hst
      dsimp only at hst
      have hfail : ∃ c, esRun { d with op := .insertIndexed, state := .readIndex, rs := { d.rs with dynamic := dyn, pfx := 6 } } (b :: t) false =
          .fail (.encoderStream, c) := by
        rw [es_run_eq w1 (by simp) (by simp), hst]; exact ⟨_, rfl⟩
      rcases rdStr 7 65536 r1 with _ | ⟨v, r2⟩ <;> dsimp only
      · obtain ⟨c, hc⟩ := hfail; exact Or.inl ⟨_, hc⟩
      · rw [k2]; exact hfail
    · rw [k1] at hst
      dsimp only at hst
      have hm : esM { d with op := .insertIndexed, state := .readIndex, rs := { d.rs with dynamic := dyn, pfx := 6 } } (b :: t) =
          .cont { d with op := .insertIndexed, state := .str .checkValue, rs := { d.rs with dynamic := dyn, pfx := 7, left := n, shift := sh, absidx := a } } r1 false := by
        unfold esM; rw [hst]; rfl
      obtain ⟨w3, _, w5⟩ := Machine.run_cont esM_good w1 (b := false) (by simp) (by simp) hm
      rw [esRun, w5]
      have hv := es_value_rd w3 rfl rfl r1
      generalize rdStr 7 65536 r1 = q at hv ⊢
      rcases q with _ | ⟨v, r2⟩ <;> dsimp only at hv ⊢
      · exact hv
      · rw [k4]
        refine hv _ ?_
        intro rr q1 q2 q3 ph
        refine ⟨_, rfl, ?_⟩
        dsimp only
        rw [k3 rr q1.2.1 q1.1, q2]
        rcases addChecked_table hw.ctx name v token k2 with ⟨z1, z2⟩ | z
        · exact Or.inl ⟨z1, z2⟩
        · exact Or.inr z
  · rw [if_neg c1]
    by_cases c2 : b.toNat / 64 = 1
    · rw [if_pos c2]
      rw [f4 c2] at w1 w2
      rw [w2]
      have h := name_rd { d.rs with dynamic := false, pfx := 5 } (by simp) (by simp) b t
      dsimp only at h
      rcases hi : rdStr 5 256 (b :: t) with _ | ⟨n, r1⟩ <;> rw [hi] at h <;> dsimp only at h ⊢
      · rcases h with h | ⟨ph, rr, y, h1, h2⟩
        · exact es_stuck w1 (by simp) (by simp) rfl h
        · have hm : esM { d with op := .insert, state := .str .checkName, rs := { d.rs with dynamic := false, pfx := 5 } } (b :: t) =
              .cont { d with op := .insert, state := .str ph, rs := rr } y false := by
            unfold esM esStep; dsimp only; rw [h1]; rfl
          obtain ⟨w3, w4, w5⟩ := Machine.run_cont esM_good w1 (b := false) (by simp) (by simp) hm
          rw [esRun, w5]
          by_cases hy : y = []
          · subst hy; exact es_end w3 (by simp)
          · exact es_stuck w3 w4 (by simp [hy]) rfl h2
      · obtain ⟨ph, rr, body, r2, h1, h2, h3, h4, h5⟩ := h
        have hm : esM { d with op := .insert, state := .str .checkName, rs := { d.rs with dynamic := false, pfx := 5 } } (b :: t) =
            .cont { d with op := .insert, state := .str ph, rs := rr } (body ++ r1) false := by
          unfold esM esStep; dsimp only; rw [h1]; rfl
        obtain ⟨w3, w4, w5⟩ := Machine.run_cont esM_good w1 (b := false) (by simp) (by simp) hm
        rw [esRun, w5]
        by_cases hy : body ++ r1 = []
        · have : r1 = [] := (List.append_eq_nil_iff.1 hy).2
          rw [hy, this]
          exact es_end w3 (by simp)
        have hm2 : esM { d with op := .insert, state := .str ph, rs := rr } (body ++ r1) =
            .cont { d with op := .insert, state := .str .checkValue, rs := r2 } r1 false := by
          unfold esM esStep; dsimp only; rw [h2]; rfl
        obtain ⟨w6, _, w7⟩ := Machine.run_cont esM_good w3 w4 (by simp [hy]) hm2
        rw [w7]
        have hv := es_value_rd w6 rfl h5 r1
        generalize rdStr 7 65536 r1 = q at hv ⊢
        rcases q with _ | ⟨v, r3⟩ <;> dsimp only at hv ⊢
        · exact hv
        · refine hv _ ?_
          intro r4 q1 q2 q3 ph'
          refine ⟨_, rfl, ?_⟩
          dsimp only
          unfold literalAdd
          rw [q2, q3, h4]
          rcases addChecked_table hw.ctx n v (lookupToken n) rfl with ⟨z1, z2⟩ | z
          · exact Or.inl ⟨z1, z2⟩
          · exact Or.inr z
    · rw [if_neg c2]
      by_cases c3 : b.toNat / 32 = 1
      · rw [f1 c3] at w1 w2
        rw [w2]
        have hidx := esIndex_rd (d1 := { d with op := .setCap, state := .readIndex, rs := { d.rs with pfx := 5 } }) rfl (by simp) hl0 hs0 b t
        dsimp only at hidx
        rcases hi : rdInt 5 (b :: t) with _ | ⟨n, r1⟩ <;> rw [hi] at hidx <;> dsimp only at hidx ⊢
        · exact es_index_none w1 rfl (by simp) hidx
        obtain ⟨sh, hst⟩ := hidx
        unfold esIndexDone at hst
        dsimp only at hst
        rw [if_pos c3]
        refine es_fin w1 (by simp) (by simp) _ hst ?_
        rcases setCap_table hw.ctx n with ⟨z1, z2⟩ | z
        · exact Or.inl ⟨z1, z2⟩
        · exact Or.inr z
      · have c4 : b.toNat / 32 = 0 := by omega
        rw [f5 c4] at w1 w2
        rw [w2]
        have hidx := esIndex_rd (d1 := { d with op := .duplicate, state := .readIndex, rs := { d.rs with dynamic := true, pfx := 5 } }) rfl (by simp) hl0 hs0 b t
        dsimp only at hidx
        rcases hi : rdInt 5 (b :: t) with _ | ⟨n, r1⟩ <;> rw [hi] at hidx <;> dsimp only at hidx ⊢
        · exact es_index_none w1 rfl (by simp) hidx
        obtain ⟨sh, hst⟩ := hidx
        unfold esIndexDone at hst
        dsimp only at hst
        rw [if_neg c3]
        rcases rel2abs_dyn hw.ctx { d.rs with dynamic := true, pfx := 5, left := n, shift := sh } rfl with ⟨k1, k2⟩ | ⟨e, k1, k2, k3, k4⟩
        · rw [k2] at hst
          have : d.ctx.table.apply d.ctx.hardMax (.duplicate n) = none := by
            unfold Table.apply; dsimp only at k1 ⊢; rw [k1]; rfl
          rw [this]
          show ∃ c', _ = _
          rw [es_run_eq w1 (by simp) (by simp), hst]; exact ⟨_, rfl⟩
        · rw [k4] at hst
          dsimp only at hst
          refine es_fin w1 (by simp) (by simp) _ hst ?_
          have : d.ctx.table.apply d.ctx.hardMax (.duplicate n) = d.ctx.table.insert (e.name, e.value) := by
            unfold Table.apply; dsimp only at k1 ⊢; rw [k1]; rfl
          rw [this]
          unfold duplicateAdd
          dsimp only at k2 ⊢
          rw [k2]
          rcases addChecked_table hw.ctx e.name e.value e.token (hw.ctx.tok e k3) with ⟨z1, z2⟩ | z
          · exact Or.inl ⟨z1, z2⟩
          · exact Or.inr z

end Qpack
end Nghttp3
