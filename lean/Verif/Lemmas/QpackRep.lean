import Verif.Lemmas.QpackSim
import Verif.Lemmas.QpackChunk
/-! Decoding the field sections the encoder writes. -/
namespace Nghttp3
namespace Qpack

set_option maxRecDepth 100000 in
theorem rsOpcode_first (s : SCtx) (b : UInt8) :
    (b.toNat / 64 = 3 → rsOpcode s b = { s with op := .indexed, state := .readIndex, rs := { s.rs with dynamic := false, pfx := 6 } }) ∧
    (b.toNat / 64 = 2 → rsOpcode s b = { s with op := .indexed, state := .readIndex, rs := { s.rs with dynamic := true, pfx := 6 } }) ∧
    (b.toNat / 16 = 1 → rsOpcode s b = { s with op := .indexedPB, state := .readIndex, rs := { s.rs with dynamic := true, pfx := 4 } }) ∧
    (∀ n : Bool, b.toNat / 16 = (if n then 7 else 5) →
      rsOpcode s b = { s with op := .indexedName, state := .readIndex, rs := { s.rs with never := n, dynamic := false, pfx := 4 } }) ∧
    (∀ n : Bool, b.toNat / 16 = (if n then 6 else 4) →
      rsOpcode s b = { s with op := .indexedName, state := .readIndex, rs := { s.rs with never := n, dynamic := true, pfx := 4 } }) ∧
    (∀ n : Bool, b.toNat / 8 = (if n then 1 else 0) →
      rsOpcode s b = { s with op := .indexedNamePB, state := .readIndex, rs := { s.rs with never := n, dynamic := true, pfx := 3 } }) ∧
    (∀ n : Bool, b.toNat / 16 = (if n then 3 else 2) →
      rsOpcode s b = { s with op := .literal, state := .str .checkName, rs := { s.rs with never := n, dynamic := false, pfx := 3 } }) := by
  have c1 : ∀ x < 256, x / 64 = 3 → 0x80 ≤ x &&& 0xf0 ∧ ¬ x &&& 0x40 = 0 := by decide +kernel
  have c2 : ∀ x < 256, x / 64 = 2 → 0x80 ≤ x &&& 0xf0 ∧ x &&& 0x40 = 0 := by decide +kernel
  have c3 : ∀ x < 256, x / 16 = 1 → ¬ 0x80 ≤ x &&& 0xf0 ∧ ¬ 0x40 ≤ x &&& 0xf0 ∧ ¬ 0x20 ≤ x &&& 0xf0 ∧ x &&& 0xf0 = 0x10 := by decide +kernel
  have c4 : ∀ x < 256, ∀ n : Bool, x / 16 = (if n then 7 else 5) → ¬ 0x80 ≤ x &&& 0xf0 ∧ 0x40 ≤ x &&& 0xf0 ∧ decide (x &&& 0x20 ≠ 0) = n ∧ ¬ x &&& 0x10 = 0 := by decide +kernel
  have c5 : ∀ x < 256, ∀ n : Bool, x / 16 = (if n then 6 else 4) → ¬ 0x80 ≤ x &&& 0xf0 ∧ 0x40 ≤ x &&& 0xf0 ∧ decide (x &&& 0x20 ≠ 0) = n ∧ x &&& 0x10 = 0 := by decide +kernel
  have c6 : ∀ x < 256, ∀ n : Bool, x / 8 = (if n then 1 else 0) → ¬ 0x80 ≤ x &&& 0xf0 ∧ ¬ 0x40 ≤ x &&& 0xf0 ∧ ¬ 0x20 ≤ x &&& 0xf0 ∧ ¬ x &&& 0xf0 = 0x10 ∧ decide (x &&& 0x08 ≠ 0) = n := by decide +kernel
  have c7 : ∀ x < 256, ∀ n : Bool, x / 16 = (if n then 3 else 2) → ¬ 0x80 ≤ x &&& 0xf0 ∧ ¬ 0x40 ≤ x &&& 0xf0 ∧ 0x20 ≤ x &&& 0xf0 ∧ decide (x &&& 0x10 ≠ 0) = n := by decide +kernel
  have k1 := c1 b.toNat b.toNat_lt
  have k2 := c2 b.toNat b.toNat_lt
  have k3 := c3 b.toNat b.toNat_lt
  have k4 := c4 b.toNat b.toNat_lt
  have k5 := c5 b.toNat b.toNat_lt
  have k6 := c6 b.toNat b.toNat_lt
  have k7 := c7 b.toNat b.toNat_lt
  clear c1 c2 c3 c4 c5 c6 c7
  unfold rsOpcode
  dsimp only
  refine ⟨fun h => ?_, fun h => ?_, fun h => ?_, fun n h => ?_, fun n h => ?_, fun n h => ?_, fun n h => ?_⟩
  · obtain ⟨g1, g2⟩ := k1 h
    rw [if_pos g1]; simp [g2]
  · obtain ⟨g1, g2⟩ := k2 h
    rw [if_pos g1]; simp [g2]
  · obtain ⟨g1, g2, g3, g4⟩ := k3 h
    rw [if_neg g1, if_neg g2, if_neg g3, if_pos g4]
  · obtain ⟨g1, g2, g3, g4⟩ := k4 n h
    rw [if_neg g1, if_pos g2, g3]; simp [g4]
  · obtain ⟨g1, g2, g3, g4⟩ := k5 n h
    rw [if_neg g1, if_pos g2, g3]; simp [g4]
  · obtain ⟨g1, g2, g3, g4, g5⟩ := k6 n h
    rw [if_neg g1, if_neg g2, if_neg g3, if_neg g4, g5]
  · obtain ⟨g1, g2, g3, g4⟩ := k7 n h
    rw [if_neg g1, if_neg g2, if_pos g3, g4]

/-- what the decoder hands out for a field -/
def Nv.toQNv (nv : Nv) : QNv := ⟨nv.name, nv.value, lookupToken nv.name, nv.never⟩

theorem rs_opcode_step {c : Ctx} (hc : CtxOk c) {s : SCtx} (hw : SWF s) (hs : s.state = .opcode) (acc : List QNv) (b : UInt8) (t : Bytes) :
    SWF (rsOpcode s b) ∧ rsRun c (s, acc) (b :: t) false = rsRun c (rsOpcode s b, acc) (b :: t) false := by
  have h0 : s.rs.left = 0 ∧ s.rs.shift = 0 := by
    have := hw
    unfold SWF at this
    rw [hs] at this; exact this
  have h : rsM c (s, acc) (b :: t) = .cont (rsOpcode s b, acc) (b :: t) false := by
    unfold rsM rsStep
    dsimp only
    rw [hs]
    dsimp only
    rw [if_neg (by omega)]
    rfl
  obtain ⟨h1, _, h2⟩ := Machine.run_cont (rsM_good hc) (s := (s, acc)) hw (b := false) (by simp) (by simp) h
  exact ⟨h1, h2⟩

/-- the end of a field line -/
structure Emitted (s s' : SCtx) : Prop where
  state : s'.state = .opcode
  ricnt : s'.ricnt = s.ricnt
  base : s'.base = s.base
  id : s'.streamId = s.streamId
  wf : SWF s'

theorem rs_emit {c : Ctx} (hc : CtxOk c) {s : SCtx} (hw : SWF s) (acc : List QNv) {x rest : Bytes} {b : Bool} (hb : b = true → s.state.vis = true)
    (hx : ¬ (x = [] ∧ b = false)) (s0 : SCtx) (q : QNv) (h : rsStep c s x = emitRes s0 rest (some q)) :
    SWF { s0 with state := .opcode, rs := s0.rs.reset } ∧
    rsRun c (s, acc) x b = rsRun c ({ s0 with state := .opcode, rs := s0.rs.reset }, acc ++ [q]) rest false := by
  have h' : rsM c (s, acc) x = .cont ({ s0 with state := .opcode, rs := s0.rs.reset }, acc ++ [q]) rest false := by
    unfold rsM; dsimp only; rw [h]; rfl
  obtain ⟨h1, _, h2⟩ := Machine.run_cont (rsM_good hc) (s := (s, acc)) hw hb hx h'
  exact ⟨h1, h2⟩

theorem strBytes_ne (fb : UInt8) {p : Nat} (hp : p < 8) (hfb : fb.toNat / 2 ^ p % 2 = 0) (v : Bytes) (hv : codedLen v ≤ 65536) : strBytes fb p v ≠ [] := by
  rw [strBytes_eq]
  obtain ⟨b, t, h6, _⟩ := checkHuff_len hp hfb v hv { pfx := p } rfl
  rw [h6]; simp

/-- reading the value of a field line -/
theorem rs_value {c : Ctx} (hc : CtxOk c) {s : SCtx} (hw : SWF s) (hs : s.state = .str .checkValue) (hp : s.rs.pfx = 7) (acc : List QNv) (v : Bytes)
    (hv : codedLen v ≤ 65536) (rest : Bytes) (q : QNv)
    (hd : ∀ s2 : SCtx, s2.op = s.op → SameHead s.rs s2.rs → s2.rs.value = v → s2.rs.name = s.rs.name → s2.ricnt = s.ricnt → s2.base = s.base →
      rsValueDone c s2 rest = emitRes s2 rest (some q)) :
    ∃ s', Emitted s s' ∧ rsRun c (s, acc) (strBytes 0 7 v ++ rest) false = rsRun c (s', acc ++ [q]) rest false := by
  obtain ⟨ph, r1, r2, h1, h2, h3, h4, h5⟩ := value_steps (fb := 0) (p := 7) (by omega) (by decide) v hv s.rs hp rest
  have hm : rsM c (s, acc) (strBytes 0 7 v ++ rest) = .cont ({ s with state := .str ph, rs := r1 }, acc) (strBody v ++ rest) true := by
    unfold rsM rsStep
    dsimp only
    rw [hs]
    dsimp only
    rw [h1]; rfl
  have hne := strBytes_ne 0 (p := 7) (by omega) (by decide) v hv
  obtain ⟨g1, g2, g3⟩ := Machine.run_cont (rsM_good hc) (s := (s, acc)) hw (b := false) (by simp) (fun h => hne (List.append_eq_nil_iff.1 h.1).1) hm
  rw [rsRun, g3]
  have hstep : rsStep c { s with state := .str ph, rs := r1 } (strBody v ++ rest) = emitRes { s with state := .str ph, rs := r2 } rest (some q) := by
    unfold rsStep
    dsimp only
    rw [h2]
    exact hd _ rfl h3 h4 h5 rfl rfl
  obtain ⟨k1, k2⟩ := rs_emit hc (s := { s with state := .str ph, rs := r1 }) g1 acc (b := true) g2 (by simp) _ q hstep
  refine ⟨_, ?_, k2⟩; exact ⟨rfl, rfl, rfl, rfl, k1⟩

/-- within what a decoder reads -/
def Rep.fits (base : Nat) : Rep → Prop
  | .static _ => True
  | .dyn a => a ≤ QInt.INT_MAX ∧ base ≤ QInt.INT_MAX
  | .nameStatic _ v _ => codedLen v ≤ 65536
  | .nameDyn a v _ => a ≤ QInt.INT_MAX ∧ base ≤ QInt.INT_MAX ∧ codedLen v ≤ 65536
  | .lit n v _ => codedLen n ≤ 256 ∧ codedLen v ≤ 65536

theorem validate_of_get {c : Ctx} {a : Nat} {x : Ent} (h : c.get a = some x) : validateIndex c true a = true := by
  unfold Ctx.get at h
  split_ifs at h with hn
  have := (List.getElem?_eq_some_iff.1 h).1
  simp [validateIndex]; omega

theorem rs_rep {c : Ctx} (hc : CtxOk c) {s : SCtx} (hw : SWF s) (hs : s.state = .opcode) {rep : Rep} {nv : Nv} (hd : rep.denotes c nv)
    (hr : ∀ a ∈ rep.refs, a < s.ricnt) (hf : rep.fits s.base) (acc : List QNv) (rest : Bytes) :
    ∃ s', Emitted s s' ∧ rsRun c (s, acc) (rep.bytes s.base ++ rest) false = rsRun c (s', acc ++ [nv.toQNv]) rest false := by
  have h0 : s.rs.left = 0 ∧ s.rs.shift = 0 := by
    have := hw
    unfold SWF at this
    rw [hs] at this; exact this
  have h99 : stable.length = 99 := by decide +kernel
  have hint : (99 : Nat) ≤ QInt.INT_MAX := by unfold QInt.INT_MAX; omega
  have hput : ∀ (fb : UInt8) (n p : Nat) (tl : Bytes), p ≤ 8 → ∃ b t, QInt.put fb n p ++ tl = b :: t ∧ b.toNat / 2 ^ p = fb.toNat / 2 ^ p := by
    intro fb n p tl h8
    obtain ⟨b, t, h1, h2⟩ := QInt.put_cons fb n h8
    exact ⟨b, t ++ tl, by rw [h1]; rfl, h2⟩
  have hidx : ∀ (s1 : SCtx), SWF s1 → s1.state = .readIndex → s1.rs.left = 0 → s1.rs.shift = 0 → ∀ (fb : UInt8) (n : Nat) (tl : Bytes),
      n ≤ QInt.INT_MAX → ∃ sh, rsStep c s1 (QInt.put fb n s1.rs.pfx ++ tl) = rsIndexDone c { s1 with rs := { s1.rs with left := n, shift := sh } } tl := by
    intro s1 hw1 hs1 hl hsh fb n tl hn
    have hst := hw1
    unfold SWF at hst
    rw [hs1] at hst
    obtain ⟨sh, h⟩ := QInt.readInt_put fb (n := n) (pfx := s1.rs.pfx) hst.2.1 hn tl
    refine ⟨sh, ?_⟩
    unfold rsStep
    rw [hs1]
    dsimp only
    rw [hl, hsh, h]
  have htok : ∀ (i : Nat) n v t, stable[i]? = some (n, v, t) → i < 99 ∧ stableGet i = some (n, v, t) ∧ lookupToken n = some t := by
    intro i n v t h
    have hi := (List.getElem?_eq_some_iff.1 h).1
    obtain ⟨n', v', t', g1, g2⟩ := stableGet_ok (i := i) (by omega)
    have : stableGet i = some (n, v, t) := h
    rw [this] at g1
    cases g1
    exact ⟨by omega, h, g2⟩
  have hdyn : ∀ (a : Nat) x, c.get a = some x → x.token = lookupToken x.name := fun a x h => hc.tok _ (hc.toCtxB.get_range h).2.2.2
  cases rep with
  | static i =>
    obtain ⟨hn, t, hst⟩ := hd
    obtain ⟨hi, hsg, htk⟩ := htok i _ _ _ hst
    obtain ⟨b, tl, e1, e2⟩ := hput 0xc0 i 6 rest (by omega)
    obtain ⟨w1, w2⟩ := rs_opcode_step hc hw hs acc b tl
    rw [(rsOpcode_first s b).1 e2] at w1 w2
    rw [Rep.bytes, e1, w2]
    obtain ⟨sh, h⟩ := hidx _ w1 rfl h0.1 h0.2 0xc0 i rest (by omega)
    rw [e1] at h
    have hstep : rsStep c { s with op := .indexed, state := .readIndex, rs := { s.rs with dynamic := false, pfx := 6 } } (b :: tl) =
        emitRes { s with op := .indexed, state := .readIndex, rs := { s.rs with dynamic := false, pfx := 6, left := i, shift := sh, absidx := i } } rest (some nv.toQNv) := by
      rw [h]
      unfold rsIndexDone brel2abs
      dsimp only
      rw [if_neg (by simp), if_pos (by simp [validateIndex, hi])]
      dsimp only
      unfold emitIndexed
      dsimp only
      rw [if_neg (by simp), hsg]
      simp only [Option.map_some, Nv.toQNv, hn, htk]
    obtain ⟨k1, k2⟩ := rs_emit hc (s := { s with op := .indexed, state := .readIndex, rs := { s.rs with dynamic := false, pfx := 6 } }) w1 acc (b := false) (by simp) (by simp) _ _ hstep
    refine ⟨_, ?_, k2⟩; exact ⟨rfl, rfl, rfl, rfl, k1⟩
  | dyn a =>
    obtain ⟨hn, x, hg, hx, hv⟩ := hd
    have hr := hr a (by simp [Rep.refs])
    obtain ⟨f1, f2⟩ := hf
    by_cases ha : a < s.base
    · obtain ⟨b, tl, e1, e2⟩ := hput 0x80 (s.base - a - 1) 6 rest (by omega)
      obtain ⟨w1, w2⟩ := rs_opcode_step hc hw hs acc b tl
      rw [(rsOpcode_first s b).2.1 e2] at w1 w2
      rw [Rep.bytes, if_pos ha, e1, w2]
      obtain ⟨sh, h⟩ := hidx _ w1 rfl h0.1 h0.2 0x80 (s.base - a - 1) rest (by omega)
      rw [e1] at h
      have hstep : rsStep c { s with op := .indexed, state := .readIndex, rs := { s.rs with dynamic := true, pfx := 6 } } (b :: tl) =
          emitRes { s with op := .indexed, state := .readIndex, rs := { s.rs with dynamic := true, pfx := 6, left := s.base - a - 1, shift := sh, absidx := a } } rest (some nv.toQNv) := by
        rw [h]
        unfold rsIndexDone brel2abs
        dsimp only
        have e3 : s.base - (s.base - a - 1) - 1 = a := by omega
        rw [if_pos rfl, if_neg (by omega), e3, if_neg (by omega), if_pos (validate_of_get hg)]
        dsimp only
        unfold emitIndexed
        dsimp only
        rw [if_pos rfl, hg]
        simp only [Option.map_some, Nv.toQNv, hn, hx, hv, hdyn a x hg]
      obtain ⟨k1, k2⟩ := rs_emit hc (s := { s with op := .indexed, state := .readIndex, rs := { s.rs with dynamic := true, pfx := 6 } }) w1 acc (b := false) (by simp) (by simp) _ _ hstep
      refine ⟨_, ?_, k2⟩; exact ⟨rfl, rfl, rfl, rfl, k1⟩
    · obtain ⟨b, tl, e1, e2⟩ := hput 0x10 (a - s.base) 4 rest (by omega)
      obtain ⟨w1, w2⟩ := rs_opcode_step hc hw hs acc b tl
      rw [(rsOpcode_first s b).2.2.1 e2] at w1 w2
      rw [Rep.bytes, if_neg ha, e1, w2]
      obtain ⟨sh, h⟩ := hidx _ w1 rfl h0.1 h0.2 0x10 (a - s.base) rest (by omega)
      rw [e1] at h
      have hstep : rsStep c { s with op := .indexedPB, state := .readIndex, rs := { s.rs with dynamic := true, pfx := 4 } } (b :: tl) =
          emitRes { s with op := .indexedPB, state := .readIndex, rs := { s.rs with dynamic := true, pfx := 4, left := a - s.base, shift := sh, absidx := a } } rest (some nv.toQNv) := by
        rw [h]
        unfold rsIndexDone pbrel2abs
        dsimp only
        have e3 : a - s.base + s.base = a := by omega
        rw [e3, if_neg (by omega), if_pos (validate_of_get hg)]
        dsimp only
        unfold emitIndexed
        dsimp only
        rw [if_pos rfl, hg]
        simp only [Option.map_some, Nv.toQNv, hn, hx, hv, hdyn a x hg]
      obtain ⟨k1, k2⟩ := rs_emit hc (s := { s with op := .indexedPB, state := .readIndex, rs := { s.rs with dynamic := true, pfx := 4 } }) w1 acc (b := false) (by simp) (by simp) _ _ hstep
      refine ⟨_, ?_, k2⟩; exact ⟨rfl, rfl, rfl, rfl, k1⟩
  | nameStatic i v nev =>
    obtain ⟨rfl, rfl, v', t, hst⟩ := hd
    obtain ⟨hi, hsg, htk⟩ := htok i _ _ _ hst
    obtain ⟨b, tl, e1, e2⟩ := hput (0x50 ||| if nv.never then 0x20 else 0) i 4 (strBytes 0 7 nv.value ++ rest) (by omega)
    obtain ⟨w1, w2⟩ := rs_opcode_step hc hw hs acc b tl
    have hfb : b.toNat / 16 = if nv.never then 7 else 5 := by
      rw [show (16 : Nat) = 2 ^ 4 from rfl, e2]; cases nv.never <;> rfl
    rw [(rsOpcode_first s b).2.2.2.1 nv.never hfb] at w1 w2
    rw [Rep.bytes, indexedNameBytes, List.append_assoc, e1, w2]
    obtain ⟨sh, h⟩ := hidx _ w1 rfl h0.1 h0.2 (0x50 ||| if nv.never then 0x20 else 0) i (strBytes 0 7 nv.value ++ rest) (by omega)
    rw [e1] at h
    have hm : rsM c ({ s with op := .indexedName, state := .readIndex, rs := { s.rs with never := nv.never, dynamic := false, pfx := 4 } }, acc) (b :: tl) =
        .cont ({ s with op := .indexedName, state := .str .checkValue, rs := { s.rs with never := nv.never, dynamic := false, pfx := 7, left := i, shift := sh, absidx := i } }, acc)
          (strBytes 0 7 nv.value ++ rest) false := by
      unfold rsM
      dsimp only
      rw [h]
      unfold rsIndexDone brel2abs
      dsimp only
      rw [if_neg (by simp), if_pos (by simp [validateIndex, hi])]
      rfl
    obtain ⟨w3, _, w4⟩ := Machine.run_cont (rsM_good hc) w1 (b := false) (by simp) (by simp) hm
    rw [rsRun, w4]
    obtain ⟨s', k1, k2⟩ := rs_value hc w3 rfl rfl acc nv.value hf rest nv.toQNv (by
      intro s2 q1 q2 q3 q4 q5 q6
      unfold rsValueDone
      rw [q1]
      dsimp only
      unfold emitIndexedName
      rw [q2.2.1, q2.1, q2.2.2, q3, hsg]
      simp only [Bool.false_eq_true, if_false, Option.map_some, Nv.toQNv, htk])
    exact ⟨s', ⟨k1.state, k1.ricnt, k1.base, k1.id, k1.wf⟩, k2⟩
  | nameDyn a v nev =>
    obtain ⟨rfl, rfl, x, hg, hx⟩ := hd
    have hr := hr a (by simp [Rep.refs])
    obtain ⟨f1, f2, f3⟩ := hf
    have hval := validate_of_get hg
    by_cases ha : a < s.base
    · obtain ⟨b, tl, e1, e2⟩ := hput (0x40 ||| if nv.never then 0x20 else 0) (s.base - a - 1) 4 (strBytes 0 7 nv.value ++ rest) (by omega)
      obtain ⟨w1, w2⟩ := rs_opcode_step hc hw hs acc b tl
      have hfb : b.toNat / 16 = if nv.never then 6 else 4 := by
        rw [show (16 : Nat) = 2 ^ 4 from rfl, e2]; cases nv.never <;> rfl
      rw [(rsOpcode_first s b).2.2.2.2.1 nv.never hfb] at w1 w2
      rw [Rep.bytes, if_pos ha, indexedNameBytes, List.append_assoc, e1, w2]
      obtain ⟨sh, h⟩ := hidx _ w1 rfl h0.1 h0.2 (0x40 ||| if nv.never then 0x20 else 0) (s.base - a - 1) (strBytes 0 7 nv.value ++ rest) (by omega)
      rw [e1] at h
      have hm : rsM c ({ s with op := .indexedName, state := .readIndex, rs := { s.rs with never := nv.never, dynamic := true, pfx := 4 } }, acc) (b :: tl) =
          .cont ({ s with op := .indexedName, state := .str .checkValue, rs := { s.rs with never := nv.never, dynamic := true, pfx := 7, left := s.base - a - 1, shift := sh, absidx := a } }, acc)
            (strBytes 0 7 nv.value ++ rest) false := by
        unfold rsM
        dsimp only
        rw [h]
        unfold rsIndexDone brel2abs
        dsimp only
        have e3 : s.base - (s.base - a - 1) - 1 = a := by omega
        rw [if_pos rfl, if_neg (by omega), e3, if_neg (by omega), if_pos hval]
        rfl
      obtain ⟨w3, _, w4⟩ := Machine.run_cont (rsM_good hc) w1 (b := false) (by simp) (by simp) hm
      rw [rsRun, w4]
      obtain ⟨s', k1, k2⟩ := rs_value hc w3 rfl rfl acc nv.value f3 rest nv.toQNv (by
        intro s2 q1 q2 q3 q4 q5 q6
        unfold rsValueDone
        rw [q1]
        dsimp only
        unfold emitIndexedName
        rw [q2.2.1, q2.1, q2.2.2, q3, hval, hg]
        simp only [if_true, Option.map_some, Nv.toQNv, hdyn a x hg, hx])
      exact ⟨s', ⟨k1.state, k1.ricnt, k1.base, k1.id, k1.wf⟩, k2⟩
    · obtain ⟨b, tl, e1, e2⟩ := hput (if nv.never then 0x08 else 0) (a - s.base) 3 (strBytes 0 7 nv.value ++ rest) (by omega)
      obtain ⟨w1, w2⟩ := rs_opcode_step hc hw hs acc b tl
      have hfb : b.toNat / 8 = if nv.never then 1 else 0 := by
        rw [show (8 : Nat) = 2 ^ 3 from rfl, e2]; cases nv.never <;> rfl
      rw [(rsOpcode_first s b).2.2.2.2.2.1 nv.never hfb] at w1 w2
      rw [Rep.bytes, if_neg ha, indexedNameBytes, List.append_assoc, e1, w2]
      obtain ⟨sh, h⟩ := hidx _ w1 rfl h0.1 h0.2 (if nv.never then 0x08 else 0) (a - s.base) (strBytes 0 7 nv.value ++ rest) (by omega)
      rw [e1] at h
      have hm : rsM c ({ s with op := .indexedNamePB, state := .readIndex, rs := { s.rs with never := nv.never, dynamic := true, pfx := 3 } }, acc) (b :: tl) =
          .cont ({ s with op := .indexedNamePB, state := .str .checkValue, rs := { s.rs with never := nv.never, dynamic := true, pfx := 7, left := a - s.base, shift := sh, absidx := a } }, acc)
            (strBytes 0 7 nv.value ++ rest) false := by
        unfold rsM
        dsimp only
        rw [h]
        unfold rsIndexDone pbrel2abs
        dsimp only
        have e3 : a - s.base + s.base = a := by omega
        rw [e3, if_neg (by omega), if_pos hval]
        rfl
      obtain ⟨w3, _, w4⟩ := Machine.run_cont (rsM_good hc) w1 (b := false) (by simp) (by simp) hm
      rw [rsRun, w4]
      obtain ⟨s', k1, k2⟩ := rs_value hc w3 rfl rfl acc nv.value f3 rest nv.toQNv (by
        intro s2 q1 q2 q3 q4 q5 q6
        unfold rsValueDone
        rw [q1]
        dsimp only
        unfold emitIndexedName
        rw [q2.2.1, q2.1, q2.2.2, q3, hval, hg]
        simp only [if_true, Option.map_some, Nv.toQNv, hdyn a x hg, hx])
      exact ⟨s', ⟨k1.state, k1.ricnt, k1.base, k1.id, k1.wf⟩, k2⟩
  | lit n v nev =>
    obtain ⟨rfl, rfl, rfl⟩ := hd
    obtain ⟨f1, f2⟩ := hf
    have hfb0 : (0x20 ||| if nv.never then 0x10 else 0 : UInt8).toNat / 2 ^ 3 % 2 = 0 := by cases nv.never <;> decide
    obtain ⟨b, t, e1, e2, _⟩ := checkHuff_len (fb := 0x20 ||| if nv.never then 0x10 else 0) (p := 3) (by omega) hfb0 nv.name (by omega)
      { s.rs with never := nv.never, dynamic := false, pfx := 3 } rfl
    have hbytes2 : (Rep.lit nv.name nv.value nv.never).bytes s.base ++ rest =
        strBytes (0x20 ||| if nv.never then 0x10 else 0) 3 nv.name ++ (strBytes 0 7 nv.value ++ rest) := by
      simp only [Rep.bytes, literalBytes, List.append_assoc]
    have hbytes : (Rep.lit nv.name nv.value nv.never).bytes s.base ++ rest = b :: (t ++ (strBody nv.name ++ (strBytes 0 7 nv.value ++ rest))) := by
      rw [hbytes2, strBytes_eq, e1]; simp
    obtain ⟨w1, w2⟩ := rs_opcode_step hc hw hs acc b (t ++ (strBody nv.name ++ (strBytes 0 7 nv.value ++ rest)))
    have hfb : b.toNat / 16 = if nv.never then 3 else 2 := by
      rw [show (16 : Nat) = 2 ^ (3 + 1) from rfl, e2]; cases nv.never <;> rfl
    rw [(rsOpcode_first s b).2.2.2.2.2.2 nv.never hfb] at w1 w2
    rw [hbytes, w2, ← hbytes, hbytes2]
    obtain ⟨ph, r1, r2, s1, s2, s3, s4, s5⟩ := name_steps (fb := 0x20 ||| if nv.never then 0x10 else 0) (p := 3) (by omega) hfb0 nv.name f1
      { s.rs with never := nv.never, dynamic := false, pfx := 3 } rfl (strBytes 0 7 nv.value ++ rest)
    have hne := strBytes_ne 0 (p := 7) (by omega) (by decide) nv.value f2
    have hm : rsM c ({ s with op := .literal, state := .str .checkName, rs := { s.rs with never := nv.never, dynamic := false, pfx := 3 } }, acc)
        (strBytes (0x20 ||| if nv.never then 0x10 else 0) 3 nv.name ++ (strBytes 0 7 nv.value ++ rest)) =
        .cont ({ s with op := .literal, state := .str ph, rs := r1 }, acc) (strBody nv.name ++ (strBytes 0 7 nv.value ++ rest)) false := by
      unfold rsM rsStep
      dsimp only
      rw [s1]; rfl
    obtain ⟨w3, _, w4⟩ := Machine.run_cont (rsM_good hc) w1 (b := false) (by simp) (fun h => hne (by simp_all)) hm
    rw [rsRun, w4]
    have hm2 : rsM c ({ s with op := .literal, state := .str ph, rs := r1 }, acc) (strBody nv.name ++ (strBytes 0 7 nv.value ++ rest)) =
        .cont ({ s with op := .literal, state := .str .checkValue, rs := r2 }, acc) (strBytes 0 7 nv.value ++ rest) false := by
      unfold rsM rsStep
      dsimp only
      rw [s2]; rfl
    obtain ⟨w5, _, w6⟩ := Machine.run_cont (rsM_good hc) w3 (b := false) (by simp) (fun h => hne (by simp_all)) hm2
    rw [w6]
    obtain ⟨s', k1, k2⟩ := rs_value hc w5 rfl s5 acc nv.value f2 rest nv.toQNv (by
      intro s2' q1 q2 q3 q4 q5 q6
      unfold rsValueDone
      rw [q1]
      dsimp only
      congr 2
      unfold emitLiteral Nv.toQNv
      rw [q4, q3, q2.2.2, s3.2.2, s4])
    exact ⟨s', ⟨k1.state, k1.ricnt, k1.base, k1.id, k1.wf⟩, k2⟩

/-- decoding all field lines of a section -/
theorem rs_reps {c : Ctx} (hc : CtxOk c) {reps : List Rep} {nvs : List Nv} (hd : List.Forall₂ (fun rep nv => rep.denotes c nv) reps nvs) {s : SCtx}
    (hw : SWF s) (hs : s.state = .opcode) (hr : ∀ rep ∈ reps, ∀ a ∈ rep.refs, a < s.ricnt) (hf : ∀ rep ∈ reps, rep.fits s.base) (acc : List QNv) :
    ∃ s', Emitted s s' ∧ rsRun c (s, acc) (reps.flatMap (Rep.bytes s.base)) false = .ok (s', acc ++ nvs.map Nv.toQNv) := by
  induction hd generalizing s acc with
  | nil =>
    refine ⟨s, ⟨hs, rfl, rfl, rfl, hw⟩, ?_⟩
    rw [rsRun, Machine.run_eq (rsM_good hc) hw (by simp), List.flatMap_nil, if_pos ⟨rfl, rfl⟩, List.map_nil, List.append_nil]
  | @cons rep nv l1 l2 h1 _ ih =>
    obtain ⟨s1, k1, k2⟩ := rs_rep hc hw hs h1 (hr rep (List.mem_cons_self ..)) (hf rep (List.mem_cons_self ..)) acc (l1.flatMap (Rep.bytes s.base))
    rw [List.flatMap_cons, k2]
    obtain ⟨s2, m1, m2⟩ := ih (s := s1) k1.wf k1.state (fun rep h => by rw [k1.ricnt]; exact hr rep (List.mem_cons_of_mem _ h))
      (fun rep h => by rw [k1.base]; exact hf rep (List.mem_cons_of_mem _ h)) (acc ++ [nv.toQNv])
    rw [k1.base] at m2
    refine ⟨s2, ⟨m1.state, m1.ricnt.trans k1.ricnt, m1.base.trans k1.base, m1.id.trans k1.id, m1.wf⟩, ?_⟩
    rw [m2, List.map_cons, List.append_assoc]; rfl

end Qpack
end Nghttp3
