import Verif.Lemmas.QpackWireAll
/-! Field line representations against RFC 9204, section 4.5. -/
namespace Nghttp3
namespace Qpack
open Rfc9204 (IntAs StrAs Line Table AreLines Field)

/-- what the decoder hands out for a field line -/
def toNv (f : Field) : QNv := ⟨f.name, f.value, lookupToken f.name, f.never⟩

def RsStuck (acc : List QNv) (run : Machine.Out (SCtx × List QNv) RStop) : Prop :=
  (∃ e, run = .fail (.fail e acc)) ∨ ∃ s', run = .ok (s', acc) ∧ s'.state ≠ .opcode

def RsDone (c : Ctx) (s : SCtx) (acc : List QNv) (run : Machine.Out (SCtx × List QNv) RStop) (rest : Bytes) : Option Field → Prop
  | none => run = .fail (.fail .decompression acc)
  | some f => ∃ s', Emitted s s' ∧ run = rsRun c (s', acc ++ [toNv f]) rest false

theorem rs_run_eq {c : Ctx} (hc : CtxOk c) {s : SCtx} (hw : SWF s) (acc : List QNv) {x : Bytes} {b : Bool} (hb : b = true → s.state.vis = true)
    (hx : ¬ (x = [] ∧ b = false)) :
    rsRun c (s, acc) x b = match (rsStep c s x).view acc with
      | .crash => .crash
      | .fail o => .fail o
      | .stop o rest => .stop o rest
      | .cont s' rest b => rsRun c s' rest b
      | .ret s' => .ok s' := by
  rw [rsRun, Machine.run_eq (rsM_good hc) (s := (s, acc)) hw hb, if_neg hx]
  generalize hq : rsM c (s, acc) x = q
  rw [show (rsStep c s x).view acc = q from hq]
  cases q <;> rfl

theorem rs_stuck {c : Ctx} (hc : CtxOk c) {s : SCtx} (hw : SWF s) (acc : List QNv) {x : Bytes} {b : Bool} (hb : b = true → s.state.vis = true)
    (hx : ¬ (x = [] ∧ b = false)) {ph : Ph} (hs : s.state = .str ph) (h : (strStep ph s.rs x).Stuck) : RsStuck acc (rsRun c (s, acc) x b) := by
  rw [rs_run_eq hc hw acc hb hx]
  unfold rsStep
  rw [hs]
  dsimp only
  rcases h with h | h | ⟨ph', r, rest, h⟩ <;> rw [h] <;> dsimp only [RRes.view]
  · exact Or.inl ⟨_, rfl⟩
  · exact Or.inl ⟨_, rfl⟩
  · exact Or.inr ⟨_, rfl, by simp⟩

theorem rs_end {c : Ctx} (hc : CtxOk c) {s : SCtx} (hw : SWF s) (acc : List QNv) (hs : s.state ≠ .opcode) : RsStuck acc (rsRun c (s, acc) [] false) :=
  Or.inr ⟨s, run_nil hc hw, hs⟩

/-- a resolved reference -/
def RefIs (c : Ctx) (s : SCtx) (res : Option SCtx) (T : Option (Bytes × Bytes)) : Prop :=
  (T = none ∧ res = none) ∨
  ∃ a n v, T = some (n, v) ∧ res = some { s with rs := { s.rs with absidx := a } } ∧
    ∀ r : RState, r.dynamic = s.rs.dynamic → r.absidx = a →
      emitIndexed c r = some ⟨n, v, lookupToken n, false⟩ ∧ emitIndexedName c r = some (some ⟨n, r.value, lookupToken n, r.never⟩)

theorem table_at (c : Ctx) (a : Nat) :
    (c.table.at a = none ∧ validateIndex c true a = false) ∨
    ∃ e, c.table.at a = some (e.name, e.value) ∧ c.get a = some e ∧ e ∈ c.ents ∧ validateIndex c true a = true := by
  unfold Table.at Ctx.table
  dsimp only
  rw [List.getElem?_map, show c.next - 1 - a = c.next - a - 1 by omega]
  by_cases h1 : a < c.next
  · rw [if_pos h1]
    by_cases h2 : c.next - a - 1 < c.ents.length
    · right
      refine ⟨c.ents[c.next - a - 1], by simp [h2], ?_, List.getElem_mem _, by simp [validateIndex, h1, h2]⟩
      unfold Ctx.get; rw [if_pos h1]; simp [h2]
    · left
      refine ⟨by simp; omega, by simp [validateIndex]; omega⟩
  · left; rw [if_neg h1]; exact ⟨rfl, by simp [validateIndex, h1]⟩

theorem emit_dyn {c : Ctx} (hc : CtxOk c) {a : Nat} {e : Ent} (h1 : c.get a = some e) (h2 : e ∈ c.ents) (h3 : validateIndex c true a = true)
    (r : RState) (hd : r.dynamic = true) (ha : r.absidx = a) :
    emitIndexed c r = some ⟨e.name, e.value, lookupToken e.name, false⟩ ∧ emitIndexedName c r = some (some ⟨e.name, r.value, lookupToken e.name, r.never⟩) := by
  have ht := hc.tok e h2
  unfold emitIndexed emitIndexedName
  rw [if_pos hd, if_pos hd, ha, h1, if_pos h3, ← ht]; exact ⟨rfl, rfl⟩

theorem ref_brel {c : Ctx} (hc : CtxOk c) (s : SCtx) (hd : s.rs.dynamic = true) :
    RefIs c s (brel2abs c s) (if s.rs.left < s.base then c.table.ref s.ricnt (s.base - 1 - s.rs.left) else none) := by
  unfold brel2abs Table.ref
  dsimp only
  rw [if_pos hd]
  by_cases h1 : s.rs.left < s.base
  · rw [if_pos h1, if_neg (by omega), show s.base - 1 - s.rs.left = s.base - s.rs.left - 1 by omega]
    by_cases h2 : s.base - s.rs.left - 1 < s.ricnt
    · rw [if_pos h2, if_neg (by omega)]
      rcases table_at c (s.base - s.rs.left - 1) with ⟨k1, k2⟩ | ⟨e, k1, k2, k3, k4⟩
      · rw [k1, k2]; exact Or.inl ⟨rfl, rfl⟩
      · rw [k1, k4]
        exact Or.inr ⟨_, _, _, rfl, rfl, fun r q1 q2 => emit_dyn hc k2 k3 k4 r (q1.trans hd) q2⟩
    · rw [if_neg h2, if_pos (by omega)]; exact Or.inl ⟨rfl, rfl⟩
  · rw [if_neg h1, if_pos (by omega)]; exact Or.inl ⟨rfl, rfl⟩

theorem ref_static (c : Ctx) (s : SCtx) (hd : s.rs.dynamic = false) : RefIs c s (brel2abs c s) (Rfc9204.staticEntry s.rs.left) := by
  rcases rel2abs_static c s.rs hd with ⟨k1, k2⟩ | ⟨n, v, t, k1, k2, k3, k4⟩
  · refine Or.inl ⟨k1, ?_⟩
    unfold rel2abs at k2
    rw [if_neg (by simp [hd])] at k2
    unfold brel2abs
    rw [if_neg (by simp [hd])]
    split_ifs at k2 with h
    rw [if_neg h]
  · refine Or.inr ⟨s.rs.left, n, v, k1, ?_, ?_⟩
    · unfold rel2abs at k4
      rw [if_neg (by simp [hd])] at k4
      unfold brel2abs
      rw [if_neg (by simp [hd])]
      split_ifs at k4 with h
      rw [if_pos h]
    · intro r q1 q2
      unfold emitIndexed emitIndexedName
      rw [if_neg (by simp [q1, hd]), if_neg (by simp [q1, hd]), q2, k2, k3]; exact ⟨rfl, rfl⟩

theorem ref_pbrel {c : Ctx} (hc : CtxOk c) (s : SCtx) (hd : s.rs.dynamic = true) :
    RefIs c s (pbrel2abs c s) (c.table.ref s.ricnt (s.base + s.rs.left)) := by
  unfold pbrel2abs Table.ref
  dsimp only
  rw [hd, Nat.add_comm s.rs.left]
  by_cases h2 : s.base + s.rs.left < s.ricnt
  · rw [if_pos h2, if_neg (by omega)]
    rcases table_at c (s.base + s.rs.left) with ⟨k1, k2⟩ | ⟨e, k1, k2, k3, k4⟩
    · rw [k1, k2]; exact Or.inl ⟨rfl, rfl⟩
    · rw [k1, k4]
      refine Or.inr ⟨s.base + s.rs.left, e.name, e.value, rfl, ?_, fun r q1 q2 => emit_dyn hc k2 k3 k4 r (q1.trans hd) q2⟩
      rw [if_pos rfl]
      have hh : ({ s.rs with absidx := s.base + s.rs.left } : RState) = { s.rs with absidx := s.base + s.rs.left, dynamic := true } := by rw [← hd]
      rw [hh]
  · rw [if_neg h2, if_pos (by omega)]; exact Or.inl ⟨rfl, rfl⟩

theorem rs_value_rd {c : Ctx} (hc : CtxOk c) {s : SCtx} (hw : SWF s) (hs : s.state = .str .checkValue) (hp : s.rs.pfx = 7) (acc : List QNv) (x : Bytes) :
    match rdStr 7 65536 x with
    | some (v, rest) => ∀ f, (∀ s2 : SCtx, s2.op = s.op → SameHead s.rs s2.rs → s2.rs.value = v → s2.rs.name = s.rs.name → s2.ricnt = s.ricnt → s2.base = s.base →
        rsValueDone c s2 rest = emitRes s2 rest (some (toNv f))) → RsDone c s acc (rsRun c (s, acc) x false) rest (some f)
    | none => RsStuck acc (rsRun c (s, acc) x false) := by
  cases x with
  | nil => exact rs_end hc hw acc (by simp [hs])
  | cons b t =>
    have h := value_rd s.rs (by omega) (by omega) b t
    rw [hp] at h
    generalize rdStr 7 65536 (b :: t) = q at h ⊢
    rcases q with _ | ⟨v, rest⟩ <;> dsimp only at h ⊢
    · rcases h with h | ⟨ph, r1, y, h1, h2⟩
      · exact rs_stuck hc hw acc (by simp) (by simp) hs h
      · have hm : rsM c (s, acc) (b :: t) = .cont ({ s with state := .str ph, rs := r1 }, acc) y true := by
          unfold rsM rsStep; dsimp only; rw [hs]; dsimp only; rw [h1]; rfl
        obtain ⟨w1, w2, w3⟩ := Machine.run_cont (rsM_good hc) (s := (s, acc)) hw (b := false) (by simp) (by simp) hm
        rw [rsRun, w3]
        exact rs_stuck hc (s := { s with state := .str ph, rs := r1 }) w1 acc w2 (by simp) rfl h2
    · intro f hf
      obtain ⟨ph, r1, body, r2, h1, h2, h3, h4, h5⟩ := h
      have hm : rsM c (s, acc) (b :: t) = .cont ({ s with state := .str ph, rs := r1 }, acc) (body ++ rest) true := by
        unfold rsM rsStep; dsimp only; rw [hs]; dsimp only; rw [h1]; rfl
      obtain ⟨w1, w2, w3⟩ := Machine.run_cont (rsM_good hc) (s := (s, acc)) hw (b := false) (by simp) (by simp) hm
      rw [rsRun, w3]
      have hstep : rsStep c { s with state := .str ph, rs := r1 } (body ++ rest) = emitRes { s with state := .str ph, rs := r2 } rest (some (toNv f)) := by
        unfold rsStep
        dsimp only
        rw [h2]
        exact hf _ rfl h3 h4 h5 rfl rfl
      obtain ⟨k1, k2⟩ := rs_emit hc (s := { s with state := .str ph, rs := r1 }) w1 acc (b := true) w2 (by simp) _ _ hstep
      refine ⟨_, ?_, k2⟩; exact ⟨rfl, rfl, rfl, rfl, k1⟩

/-! ### one line -/

/-- one-shot reading of a field line -/
def rdLine : Bytes → Option (Line × Bytes)
  | [] => none
  | b :: t =>
    let k := b.toNat / 16
    if 8 ≤ k then
      match rdInt 6 (b :: t) with
      | none => none
      | some (i, r1) => some (if 12 ≤ k then .static i else .dynamic i, r1)
    else if 4 ≤ k then
      match rdInt 4 (b :: t) with
      | none => none
      | some (i, r1) =>
        match rdStr 7 65536 r1 with
        | none => none
        | some (v, r2) => some (if k % 2 = 1 then .staticName i v (decide (6 ≤ k)) else .dynamicName i v (decide (6 ≤ k)), r2)
    else if 2 ≤ k then
      match rdStr 3 256 (b :: t) with
      | none => none
      | some (n, r1) =>
        match rdStr 7 65536 r1 with
        | none => none
        | some (v, r2) => some (.literal n v (decide (k = 3)), r2)
    else if k = 1 then
      match rdInt 4 (b :: t) with
      | none => none
      | some (i, r1) => some (.postBase i, r1)
    else
      match rdInt 3 (b :: t) with
      | none => none
      | some (i, r1) =>
        match rdStr 7 65536 r1 with
        | none => none
        | some (v, r2) => some (.postBaseName i v (decide (b.toNat / 8 = 1)), r2)

theorem rdLine_iff (b : UInt8) (t : Bytes) (i : Line) (rest : Bytes) :
    rdLine (b :: t) = some (i, rest) ↔ ∃ enc, b :: t = enc ++ rest ∧ i.Is enc := by
  have hlt := b.toNat_lt
  have d8 : b.toNat / 8 / 2 = b.toNat / 16 := by rw [Nat.div_div_eq_div_mul]
  have d64 : b.toNat / 64 = b.toNat / 16 / 4 := by rw [Nat.div_div_eq_div_mul]
  have dk : b.toNat / 16 < 16 := by omega
  constructor
  · intro h
    unfold rdLine at h
    dsimp only at h
    by_cases h1 : 8 ≤ b.toNat / 16
    · rw [if_pos h1] at h
      rcases hi : rdInt 6 (b :: t) with _ | ⟨n, r1⟩ <;> rw [hi] at h <;> dsimp only at h
      · simp at h
      simp only [Option.some.injEq, Prod.mk.injEq] at h
      obtain ⟨rfl, rfl⟩ := h
      obtain ⟨e1, k1, k2⟩ := (rdInt_iff (by omega) b t n r1).1 hi
      refine ⟨e1, k1, ?_⟩
      split_ifs with h3
      · rw [show b.toNat / 2 ^ 6 = 3 by norm_num; omega] at k2; exact k2
      · rw [show b.toNat / 2 ^ 6 = 2 by norm_num; omega] at k2; exact k2
    rw [if_neg h1] at h
    by_cases h2 : 4 ≤ b.toNat / 16
    · rw [if_pos h2] at h
      rcases hi : rdInt 4 (b :: t) with _ | ⟨n, r1⟩ <;> rw [hi] at h <;> dsimp only at h
      · simp at h
      rcases hv : rdStr 7 65536 r1 with _ | ⟨v, r2⟩ <;> rw [hv] at h <;> dsimp only at h
      · simp at h
      simp only [Option.some.injEq, Prod.mk.injEq] at h
      obtain ⟨rfl, rfl⟩ := h
      obtain ⟨e1, k1, k2⟩ := (rdInt_iff (by omega) b t n r1).1 hi
      obtain ⟨e2, k3, k4⟩ := (rdValue_iff r1 v r2).1 hv
      refine ⟨e1 ++ e2, by rw [k1, k3, List.append_assoc], ?_⟩
      split_ifs with h3
      · refine ⟨e1, e2, rfl, ?_, k4⟩
        rw [show 5 + 2 * Rfc9204.bit (decide (6 ≤ b.toNat / 16)) = b.toNat / 2 ^ 4 by
          by_cases h6 : 6 ≤ b.toNat / 16 <;> simp [Rfc9204.bit, h6] <;> omega]
        exact k2
      · refine ⟨e1, e2, rfl, ?_, k4⟩
        rw [show 4 + 2 * Rfc9204.bit (decide (6 ≤ b.toNat / 16)) = b.toNat / 2 ^ 4 by
          by_cases h6 : 6 ≤ b.toNat / 16 <;> simp [Rfc9204.bit, h6] <;> omega]
        exact k2
    rw [if_neg h2] at h
    by_cases h3 : 2 ≤ b.toNat / 16
    · rw [if_pos h3] at h
      rcases hi : rdStr 3 256 (b :: t) with _ | ⟨n, r1⟩ <;> rw [hi] at h <;> dsimp only at h
      · simp at h
      rcases hv : rdStr 7 65536 r1 with _ | ⟨v, r2⟩ <;> rw [hv] at h <;> dsimp only at h
      · simp at h
      simp only [Option.some.injEq, Prod.mk.injEq] at h
      obtain ⟨rfl, rfl⟩ := h
      obtain ⟨e1, k1, k2⟩ := (rdStr_iff (by omega) b t n r1).1 hi
      obtain ⟨e2, k3, k4⟩ := (rdValue_iff r1 v r2).1 hv
      refine ⟨e1 ++ e2, by rw [k1, k3, List.append_assoc], e1, e2, rfl, ?_, k4⟩
      rw [show 2 + Rfc9204.bit (decide (b.toNat / 16 = 3)) = b.toNat / 2 ^ (3 + 1) by
          by_cases h6 : b.toNat / 16 = 3 <;> simp [Rfc9204.bit, h6] <;> omega]
      exact k2
    rw [if_neg h3] at h
    by_cases h4 : b.toNat / 16 = 1
    · rw [if_pos h4] at h
      rcases hi : rdInt 4 (b :: t) with _ | ⟨n, r1⟩ <;> rw [hi] at h <;> dsimp only at h
      · simp at h
      simp only [Option.some.injEq, Prod.mk.injEq] at h
      obtain ⟨rfl, rfl⟩ := h
      obtain ⟨e1, k1, k2⟩ := (rdInt_iff (by omega) b t n r1).1 hi
      refine ⟨e1, k1, ?_⟩
      rw [show b.toNat / 2 ^ 4 = 1 from h4] at k2; exact k2
    · rw [if_neg h4] at h
      rcases hi : rdInt 3 (b :: t) with _ | ⟨n, r1⟩ <;> rw [hi] at h <;> dsimp only at h
      · simp at h
      rcases hv : rdStr 7 65536 r1 with _ | ⟨v, r2⟩ <;> rw [hv] at h <;> dsimp only at h
      · simp at h
      simp only [Option.some.injEq, Prod.mk.injEq] at h
      obtain ⟨rfl, rfl⟩ := h
      obtain ⟨e1, k1, k2⟩ := (rdInt_iff (by omega) b t n r1).1 hi
      obtain ⟨e2, k3, k4⟩ := (rdValue_iff r1 v r2).1 hv
      refine ⟨e1 ++ e2, by rw [k1, k3, List.append_assoc], e1, e2, rfl, ?_, k4⟩
      rw [show Rfc9204.bit (decide (b.toNat / 8 = 1)) = b.toNat / 2 ^ 3 by
          by_cases h6 : b.toNat / 8 = 1 <;> simp [Rfc9204.bit, h6] <;> omega]
      exact k2
  · rintro ⟨enc, h1, h2⟩
    unfold rdLine
    dsimp only
    cases i with
    | static n =>
      have ht := intAs_head h2 h1
      have ht' : b.toNat / 64 = 3 := ht
      rw [if_pos (by omega), (rdInt_iff (by omega) b t n rest).2 ⟨enc, h1, by rw [ht]; exact h2⟩]
      dsimp only; rw [if_pos (by omega)]
    | dynamic n =>
      have ht := intAs_head h2 h1
      have ht' : b.toNat / 64 = 2 := ht
      rw [if_pos (by omega), (rdInt_iff (by omega) b t n rest).2 ⟨enc, h1, by rw [ht]; exact h2⟩]
      dsimp only; rw [if_neg (by omega)]
    | postBase n =>
      have ht := intAs_head h2 h1
      have ht' : b.toNat / 16 = 1 := ht
      rw [if_neg (by omega), if_neg (by omega), if_neg (by omega), if_pos ht', (rdInt_iff (by omega) b t n rest).2 ⟨enc, h1, by rw [ht]; exact h2⟩]
    | staticName n v nv =>
      obtain ⟨x, y, rfl, h3, h4⟩ := h2
      rw [List.append_assoc] at h1
      have ht := intAs_head h3 h1
      have ht' : b.toNat / 16 = 5 + 2 * Rfc9204.bit nv := ht
      have hb : (nv = true ∧ b.toNat / 16 = 7) ∨ (nv = false ∧ b.toNat / 16 = 5) := by cases nv <;> simp [Rfc9204.bit] at ht' ⊢ <;> omega
      rw [if_neg (by omega), if_pos (by omega), (rdInt_iff (by omega) b t n (y ++ rest)).2 ⟨x, h1, by rw [ht]; exact h3⟩]
      dsimp only
      rw [(rdValue_iff (y ++ rest) v rest).2 ⟨y, rfl, h4⟩]
      dsimp only
      rcases hb with ⟨rfl, hb⟩ | ⟨rfl, hb⟩ <;> simp [hb]
    | dynamicName n v nv =>
      obtain ⟨x, y, rfl, h3, h4⟩ := h2
      rw [List.append_assoc] at h1
      have ht := intAs_head h3 h1
      have ht' : b.toNat / 16 = 4 + 2 * Rfc9204.bit nv := ht
      have hb : (nv = true ∧ b.toNat / 16 = 6) ∨ (nv = false ∧ b.toNat / 16 = 4) := by cases nv <;> simp [Rfc9204.bit] at ht' ⊢ <;> omega
      rw [if_neg (by omega), if_pos (by omega), (rdInt_iff (by omega) b t n (y ++ rest)).2 ⟨x, h1, by rw [ht]; exact h3⟩]
      dsimp only
      rw [(rdValue_iff (y ++ rest) v rest).2 ⟨y, rfl, h4⟩]
      dsimp only
      rcases hb with ⟨rfl, hb⟩ | ⟨rfl, hb⟩ <;> simp [hb]
    | postBaseName n v nv =>
      obtain ⟨x, y, rfl, h3, h4⟩ := h2
      rw [List.append_assoc] at h1
      have ht := intAs_head h3 h1
      have ht' : b.toNat / 8 = Rfc9204.bit nv := ht
      have hb : (nv = true ∧ b.toNat / 8 = 1) ∨ (nv = false ∧ b.toNat / 8 = 0) := by cases nv <;> simp [Rfc9204.bit] at ht' ⊢ <;> omega
      rw [if_neg (by omega), if_neg (by omega), if_neg (by omega), if_neg (by omega),
        (rdInt_iff (by omega) b t n (y ++ rest)).2 ⟨x, h1, by rw [ht]; exact h3⟩]
      dsimp only
      rw [(rdValue_iff (y ++ rest) v rest).2 ⟨y, rfl, h4⟩]
      dsimp only
      rcases hb with ⟨rfl, hb⟩ | ⟨rfl, hb⟩ <;> simp [hb]
    | literal n v nv =>
      obtain ⟨x, y, rfl, h3, h4⟩ := h2
      rw [List.append_assoc] at h1
      have ht := strAs_head h3 h1
      have ht' : b.toNat / 16 = 2 + Rfc9204.bit nv := ht
      have hb : (nv = true ∧ b.toNat / 16 = 3) ∨ (nv = false ∧ b.toNat / 16 = 2) := by cases nv <;> simp [Rfc9204.bit] at ht' ⊢ <;> omega
      rw [if_neg (by omega), if_neg (by omega), if_pos (by omega), (rdStr_iff (by omega) b t n (y ++ rest)).2 ⟨x, h1, by rw [ht]; exact h3⟩]
      dsimp only
      rw [(rdValue_iff (y ++ rest) v rest).2 ⟨y, rfl, h4⟩]
      dsimp only
      rcases hb with ⟨rfl, hb⟩ | ⟨rfl, hb⟩ <;> simp [hb]

theorem rsIndex_rd {c : Ctx} (s : SCtx) (hs : s.state = .readIndex) (hp : 0 < s.rs.pfx) (hl : s.rs.left = 0) (hsh : s.rs.shift = 0) (b : UInt8) (t : Bytes) :
    match rdInt s.rs.pfx (b :: t) with
    | some (n, rest) => ∃ sh, rsStep c s (b :: t) = rsIndexDone c { s with rs := { s.rs with left := n, shift := sh } } rest
    | none => (∃ e, rsStep c s (b :: t) = .fail e) ∨ ∃ s', s'.state = .readIndex ∧ rsStep c s (b :: t) = .part s' [] := by
  have ho := readInt_ne_oob hp b t
  unfold rsStep
  rw [hs]
  dsimp only
  unfold rdInt
  rw [hl, hsh]
  rcases hr : QInt.readInt s.rs.pfx 0 0 (b :: t) with _ | _ | ⟨l, sh⟩ | ⟨l, sh, rest⟩ <;> dsimp only
  · exact absurd hr ho
  · left; exact ⟨_, rfl⟩
  · right; refine ⟨{ s with rs := { s.rs with left := l, shift := sh } }, hs, ?_⟩; rw [← hs]
  · exact ⟨sh, by rw [← hs]⟩

theorem rs_index_none {c : Ctx} (hc : CtxOk c) {s : SCtx} (hw : SWF s) (acc : List QNv) {x : Bytes} (hx : x ≠ [])
    (h : (∃ e, rsStep c s x = .fail e) ∨ ∃ s', s'.state = .readIndex ∧ rsStep c s x = .part s' []) : RsStuck acc (rsRun c (s, acc) x false) := by
  rw [rs_run_eq hc hw acc (by simp) (by simp [hx])]
  rcases h with ⟨e, h⟩ | ⟨s', hs, h⟩ <;> rw [h] <;> dsimp only [RRes.view]
  · exact Or.inl ⟨_, rfl⟩
  · exact Or.inr ⟨_, rfl, by simp [hs]⟩

/-- an indexed line, from the state in which the index is read -/
theorem rs_indexed {c : Ctx} (hc : CtxOk c) {s : SCtx} (hw : SWF s) (hs : s.state = .readIndex) (hp : 0 < s.rs.pfx) (hl : s.rs.left = 0) (hsh : s.rs.shift = 0)
    (acc : List QNv) (b : UInt8) (t : Bytes) (abs : SCtx → Option SCtx) (T : Nat → Option (Bytes × Bytes))
    (hdone : ∀ n sh rest, rsIndexDone c { s with rs := { s.rs with left := n, shift := sh } } rest =
      match abs { s with rs := { s.rs with left := n, shift := sh } } with
      | none => .fail .decompression
      | some s => emitRes s rest (emitIndexed c s.rs))
    (href : ∀ n sh, RefIs c { s with rs := { s.rs with left := n, shift := sh } } (abs { s with rs := { s.rs with left := n, shift := sh } }) (T n)) :
    match rdInt s.rs.pfx (b :: t) with
    | some (n, rest) => RsDone c s acc (rsRun c (s, acc) (b :: t) false) rest ((T n).map fun e => ⟨e.1, e.2, false⟩)
    | none => RsStuck acc (rsRun c (s, acc) (b :: t) false) := by
  have hidx := rsIndex_rd (c := c) s hs hp hl hsh b t
  generalize rdInt s.rs.pfx (b :: t) = q at hidx ⊢
  rcases q with _ | ⟨n, r1⟩ <;> dsimp only at hidx ⊢
  · exact rs_index_none hc hw acc (by simp) hidx
  obtain ⟨sh, hst⟩ := hidx
  rw [hdone] at hst
  rcases href n sh with ⟨k1, k2⟩ | ⟨a, nm, v, k1, k2, k3⟩
  · rw [k1]
    rw [k2] at hst
    show _ = _
    rw [rs_run_eq hc hw acc (by simp) (by simp), hst]; rfl
  · rw [k1]
    rw [k2] at hst
    dsimp only at hst
    rw [(k3 { s.rs with left := n, shift := sh, absidx := a } rfl rfl).1] at hst
    obtain ⟨g1, g2⟩ := rs_emit hc hw acc (b := false) (by simp) (by simp) _ _ hst
    refine ⟨_, ?_, g2⟩; exact ⟨rfl, rfl, rfl, rfl, g1⟩

/-- a line with a name reference, from the state in which the index is read -/
theorem rs_named {c : Ctx} (hc : CtxOk c) {s : SCtx} (hw : SWF s) (hs : s.state = .readIndex) (hp : 0 < s.rs.pfx) (hl : s.rs.left = 0) (hsh : s.rs.shift = 0)
    (acc : List QNv) (b : UInt8) (t : Bytes) (abs : SCtx → Option SCtx) (T : Nat → Option (Bytes × Bytes))
    (hdone : ∀ n sh rest, rsIndexDone c { s with rs := { s.rs with left := n, shift := sh } } rest =
      match abs { s with rs := { s.rs with left := n, shift := sh } } with
      | none => .fail .decompression
      | some s => .cont { s with rs := { s.rs with pfx := 7 }, state := .str .checkValue } rest false)
    (hval : ∀ (s2 : SCtx) rest, s2.op = s.op → rsValueDone c s2 rest = match emitIndexedName c s2.rs with
      | none => .crash
      | some none => .fail .decompression
      | some (some nv) => emitRes s2 rest (some nv))
    (href : ∀ n sh, RefIs c { s with rs := { s.rs with left := n, shift := sh } } (abs { s with rs := { s.rs with left := n, shift := sh } }) (T n)) :
    match rdInt s.rs.pfx (b :: t) with
    | some (n, r1) =>
      match rdStr 7 65536 r1 with
      | some (v, rest) => RsDone c s acc (rsRun c (s, acc) (b :: t) false) rest ((T n).map fun e => ⟨e.1, v, s.rs.never⟩)
      | none => RsStuck acc (rsRun c (s, acc) (b :: t) false)
    | none => RsStuck acc (rsRun c (s, acc) (b :: t) false) := by
  have hidx := rsIndex_rd (c := c) s hs hp hl hsh b t
  generalize rdInt s.rs.pfx (b :: t) = q at hidx ⊢
  rcases q with _ | ⟨n, r1⟩ <;> dsimp only at hidx ⊢
  · exact rs_index_none hc hw acc (by simp) hidx
  obtain ⟨sh, hst⟩ := hidx
  rw [hdone] at hst
  rcases href n sh with ⟨k1, k2⟩ | ⟨a, nm, w, k1, k2, k3⟩
  · rw [k1]
    rw [k2] at hst
    have hf : rsRun c (s, acc) (b :: t) false = .fail (.fail .decompression acc) := by
      rw [rs_run_eq hc hw acc (by simp) (by simp), hst]; rfl
    rcases rdStr 7 65536 r1 with _ | ⟨v, r2⟩ <;> dsimp only
    · exact Or.inl ⟨_, hf⟩
    · exact hf
  · rw [k1]
    rw [k2] at hst
    dsimp only at hst
    have hm : rsM c (s, acc) (b :: t) = .cont ({ s with state := .str .checkValue, rs := { s.rs with left := n, shift := sh, absidx := a, pfx := 7 } }, acc) r1 false := by
      unfold rsM; dsimp only; rw [hst]; rfl
    obtain ⟨w1, _, w3⟩ := Machine.run_cont (rsM_good hc) (s := (s, acc)) hw (b := false) (by simp) (by simp) hm
    rw [rsRun, w3]
    have hv := rs_value_rd hc (s := { s with state := .str .checkValue, rs := { s.rs with left := n, shift := sh, absidx := a, pfx := 7 } }) w1 rfl rfl acc r1
    generalize rdStr 7 65536 r1 = q at hv ⊢
    rcases q with _ | ⟨v, r2⟩ <;> dsimp only at hv ⊢
    · exact hv
    · obtain ⟨s', g1, g2⟩ := hv ⟨nm, v, s.rs.never⟩ (by
        intro s2 q1 q2 q3 q4 q5 q6
        rw [hval s2 r2 q1, (k3 s2.rs q2.2.1 q2.1).2, q3, q2.2.2]; rfl)
      refine ⟨s', ?_, g2⟩
      exact ⟨g1.state, g1.ricnt, g1.base, g1.id, g1.wf⟩

theorem rs_one {c : Ctx} (hc : CtxOk c) {s : SCtx} (hw : SWF s) (hs : s.state = .opcode) (acc : List QNv) (b : UInt8) (t : Bytes) :
    match rdLine (b :: t) with
    | some (i, rest) => RsDone c s acc (rsRun c (s, acc) (b :: t) false) rest (i.field c.table s.ricnt s.base)
    | none => RsStuck acc (rsRun c (s, acc) (b :: t) false) := by
  have hlt := b.toNat_lt
  have d8 : b.toNat / 8 / 2 = b.toNat / 16 := by rw [Nat.div_div_eq_div_mul]
  have d64 : b.toNat / 64 = b.toNat / 16 / 4 := by rw [Nat.div_div_eq_div_mul]
  have h0 := hw
  unfold SWF at h0
  rw [hs] at h0
  obtain ⟨hl0, hs0⟩ := h0
  obtain ⟨f1, f2, f3, f4, f5, f6, f7⟩ := rsOpcode_first s b
  obtain ⟨w1, w2⟩ := rs_opcode_step hc hw hs acc b t
  rw [w2]
  unfold rdLine
  dsimp only
  by_cases c1 : 8 ≤ b.toNat / 16
  · rw [if_pos c1]
    by_cases c2 : 12 ≤ b.toNat / 16
    · rw [f1 (by omega)] at w1 ⊢
      have := rs_indexed hc w1 rfl (by simp) hl0 hs0 acc b t (brel2abs c) (fun n => Rfc9204.staticEntry n) (fun _ _ _ => rfl) (fun n sh => ref_static c _ rfl)
      dsimp only at this
      generalize rdInt 6 (b :: t) = q at this ⊢
      rcases q with _ | ⟨n, r1⟩ <;> dsimp only at this ⊢
      · exact this
      · rw [if_pos c2]
        cases hf : Line.field c.table s.ricnt s.base (.static n) <;> rw [show (Rfc9204.staticEntry n).map _ = _ from hf] at this
        · exact this
        · obtain ⟨s', g1, g2⟩ := this
          exact ⟨s', ⟨g1.state, g1.ricnt, g1.base, g1.id, g1.wf⟩, g2⟩
    · rw [f2 (by omega)] at w1 ⊢
      have := rs_indexed hc w1 rfl (by simp) hl0 hs0 acc b t (brel2abs c) (fun n => if n < s.base then c.table.ref s.ricnt (s.base - 1 - n) else none)
        (fun _ _ _ => rfl) (fun n sh => ref_brel hc _ rfl)
      dsimp only at this
      generalize rdInt 6 (b :: t) = q at this ⊢
      rcases q with _ | ⟨n, r1⟩ <;> dsimp only at this ⊢
      · exact this
      · rw [if_neg c2]
        have hf : Line.field c.table s.ricnt s.base (.dynamic n) = (if n < s.base then c.table.ref s.ricnt (s.base - 1 - n) else none).map fun e => ⟨e.1, e.2, false⟩ := by
          unfold Line.field; dsimp only; split_ifs <;> rfl
        rw [hf]
        cases hq : (if n < s.base then c.table.ref s.ricnt (s.base - 1 - n) else none).map (fun e : Bytes × Bytes => (⟨e.1, e.2, false⟩ : Field)) <;> rw [hq] at this
        · exact this
        · obtain ⟨s', g1, g2⟩ := this
          exact ⟨s', ⟨g1.state, g1.ricnt, g1.base, g1.id, g1.wf⟩, g2⟩
  rw [if_neg c1]
  by_cases c2 : 4 ≤ b.toNat / 16
  · rw [if_pos c2]
    by_cases c3 : b.toNat / 16 % 2 = 1
    · rw [f4 (decide (6 ≤ b.toNat / 16)) (by split_ifs with h <;> simp at h <;> omega)] at w1 ⊢
      have := rs_named hc w1 rfl (by simp) hl0 hs0 acc b t (brel2abs c) (fun n => Rfc9204.staticEntry n) (fun _ _ _ => rfl)
        (fun s2 rest h => by unfold rsValueDone; rw [h]; rfl) (fun n sh => ref_static c _ rfl)
      dsimp only at this
      generalize rdInt 4 (b :: t) = q at this ⊢
      rcases q with _ | ⟨n, r1⟩ <;> dsimp only at this ⊢
      · exact this
      generalize rdStr 7 65536 r1 = q at this ⊢
      rcases q with _ | ⟨v, r2⟩ <;> dsimp only at this ⊢
      · exact this
      · rw [if_pos c3]
        cases hf : Line.field c.table s.ricnt s.base (.staticName n v (decide (6 ≤ b.toNat / 16))) <;> rw [show (Rfc9204.staticEntry n).map _ = _ from hf] at this
        · exact this
        · obtain ⟨s', g1, g2⟩ := this
          exact ⟨s', ⟨g1.state, g1.ricnt, g1.base, g1.id, g1.wf⟩, g2⟩
    · rw [f5 (decide (6 ≤ b.toNat / 16)) (by split_ifs with h <;> simp at h <;> omega)] at w1 ⊢
      have := rs_named hc w1 rfl (by simp) hl0 hs0 acc b t (brel2abs c) (fun n => if n < s.base then c.table.ref s.ricnt (s.base - 1 - n) else none) (fun _ _ _ => rfl)
        (fun s2 rest h => by unfold rsValueDone; rw [h]; rfl) (fun n sh => ref_brel hc _ rfl)
      dsimp only at this
      generalize rdInt 4 (b :: t) = q at this ⊢
      rcases q with _ | ⟨n, r1⟩ <;> dsimp only at this ⊢
      · exact this
      generalize rdStr 7 65536 r1 = q at this ⊢
      rcases q with _ | ⟨v, r2⟩ <;> dsimp only at this ⊢
      · exact this
      · rw [if_neg c3]
        have hf : Line.field c.table s.ricnt s.base (.dynamicName n v (decide (6 ≤ b.toNat / 16))) =
            (if n < s.base then c.table.ref s.ricnt (s.base - 1 - n) else none).map fun e => ⟨e.1, v, decide (6 ≤ b.toNat / 16)⟩ := by
          unfold Line.field; dsimp only; split_ifs <;> rfl
        rw [hf]
        cases hq : (if n < s.base then c.table.ref s.ricnt (s.base - 1 - n) else none).map (fun e : Bytes × Bytes => (⟨e.1, v, decide (6 ≤ b.toNat / 16)⟩ : Field)) <;> rw [hq] at this
        · exact this
        · obtain ⟨s', g1, g2⟩ := this
          exact ⟨s', ⟨g1.state, g1.ricnt, g1.base, g1.id, g1.wf⟩, g2⟩
  rw [if_neg c2]
  by_cases c3 : 2 ≤ b.toNat / 16
  · rw [if_pos c3]
    rw [f7 (decide (b.toNat / 16 = 3)) (by split_ifs with h <;> simp at h <;> omega)] at w1 ⊢
    have h := name_rd { s.rs with never := decide (b.toNat / 16 = 3), dynamic := false, pfx := 3 } (by simp) (by simp) b t
    dsimp only at h
    generalize rdStr 3 256 (b :: t) = q at h ⊢
    rcases q with _ | ⟨n, r1⟩ <;> dsimp only at h ⊢
    · rcases h with h | ⟨ph, rr, y, h1, h2⟩
      · exact rs_stuck hc w1 acc (by simp) (by simp) rfl h
      · have hm : rsM c ({ s with op := .literal, state := .str .checkName, rs := { s.rs with never := decide (b.toNat / 16 = 3), dynamic := false, pfx := 3 } }, acc) (b :: t) =
            .cont ({ s with op := .literal, state := .str ph, rs := rr }, acc) y false := by
          unfold rsM rsStep; dsimp only; rw [h1]; rfl
        obtain ⟨w3, w4, w5⟩ := Machine.run_cont (rsM_good hc) (s := (_, acc)) w1 (b := false) (by simp) (by simp) hm
        rw [rsRun, w5]
        by_cases hy : y = []
        · subst hy; exact rs_end hc (s := { s with op := .literal, state := .str ph, rs := rr }) w3 acc (by simp)
        · exact rs_stuck hc (s := { s with op := .literal, state := .str ph, rs := rr }) w3 acc w4 (by simp [hy]) rfl h2
    · obtain ⟨ph, rr, body, r2, h1, h2, h3, h4, h5⟩ := h
      have hm : rsM c ({ s with op := .literal, state := .str .checkName, rs := { s.rs with never := decide (b.toNat / 16 = 3), dynamic := false, pfx := 3 } }, acc) (b :: t) =
          .cont ({ s with op := .literal, state := .str ph, rs := rr }, acc) (body ++ r1) false := by
        unfold rsM rsStep; dsimp only; rw [h1]; rfl
      obtain ⟨w3, w4, w5⟩ := Machine.run_cont (rsM_good hc) (s := (_, acc)) w1 (b := false) (by simp) (by simp) hm
      rw [rsRun, w5]
      by_cases hy : body ++ r1 = []
      · have : r1 = [] := (List.append_eq_nil_iff.1 hy).2
        rw [hy, this]
        exact rs_end hc (s := { s with op := .literal, state := .str ph, rs := rr }) w3 acc (by simp)
      have hm2 : rsM c ({ s with op := .literal, state := .str ph, rs := rr }, acc) (body ++ r1) =
          .cont ({ s with op := .literal, state := .str .checkValue, rs := r2 }, acc) r1 false := by
        unfold rsM rsStep; dsimp only; rw [h2]; rfl
      obtain ⟨w6, _, w7⟩ := Machine.run_cont (rsM_good hc) (s := ({ s with op := .literal, state := .str ph, rs := rr }, acc)) w3 w4 (by simp [hy]) hm2
      rw [w7]
      have hv := rs_value_rd hc (s := { s with op := .literal, state := .str .checkValue, rs := r2 }) w6 rfl h5 acc r1
      generalize rdStr 7 65536 r1 = q at hv ⊢
      rcases q with _ | ⟨v, r3⟩ <;> dsimp only at hv ⊢
      · exact hv
      · obtain ⟨s', g1, g2⟩ := hv ⟨n, v, decide (b.toNat / 16 = 3)⟩ (by
          intro s2 q1 q2 q3 q4 q5 q6
          unfold rsValueDone
          rw [q1]
          dsimp only
          unfold emitLiteral
          rw [q3, q4, h4, q2.2.2, h3.2.2]; rfl)
        exact ⟨s', ⟨g1.state, g1.ricnt, g1.base, g1.id, g1.wf⟩, g2⟩
  rw [if_neg c3]
  by_cases c4 : b.toNat / 16 = 1
  · rw [if_pos c4]
    rw [f3 c4] at w1 ⊢
    have := rs_indexed hc w1 rfl (by simp) hl0 hs0 acc b t (pbrel2abs c) (fun n => c.table.ref s.ricnt (s.base + n)) (fun _ _ _ => rfl) (fun n sh => ref_pbrel hc _ rfl)
    dsimp only at this
    generalize rdInt 4 (b :: t) = q at this ⊢
    rcases q with _ | ⟨n, r1⟩ <;> dsimp only at this ⊢
    · exact this
    · cases hf : Line.field c.table s.ricnt s.base (.postBase n) <;> rw [show (c.table.ref s.ricnt (s.base + n)).map _ = _ from hf] at this
      · exact this
      · obtain ⟨s', g1, g2⟩ := this
        exact ⟨s', ⟨g1.state, g1.ricnt, g1.base, g1.id, g1.wf⟩, g2⟩
  · rw [if_neg c4]
    rw [f6 (decide (b.toNat / 8 = 1)) (by split_ifs with h <;> simp at h <;> omega)] at w1 ⊢
    have := rs_named hc w1 rfl (by simp) hl0 hs0 acc b t (pbrel2abs c) (fun n => c.table.ref s.ricnt (s.base + n)) (fun _ _ _ => rfl)
      (fun s2 rest h => by unfold rsValueDone; rw [h]; rfl) (fun n sh => ref_pbrel hc _ rfl)
    dsimp only at this
    generalize rdInt 3 (b :: t) = q at this ⊢
    rcases q with _ | ⟨n, r1⟩ <;> dsimp only at this ⊢
    · exact this
    generalize rdStr 7 65536 r1 = q at this ⊢
    rcases q with _ | ⟨v, r2⟩ <;> dsimp only at this ⊢
    · exact this
    · cases hf : Line.field c.table s.ricnt s.base (.postBaseName n v (decide (b.toNat / 8 = 1))) <;> rw [show (c.table.ref s.ricnt (s.base + n)).map _ = _ from hf] at this
      · exact this
      · obtain ⟨s', g1, g2⟩ := this
        exact ⟨s', ⟨g1.state, g1.ricnt, g1.base, g1.id, g1.wf⟩, g2⟩

end Qpack
end Nghttp3
