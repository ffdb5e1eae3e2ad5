import Verif.Lemmas.QpackChunk
import Verif.Lemmas.QpackEncApi
import Verif.Spec.QpackSection
/-! Reading back what the encoder writes. -/
namespace Nghttp3
namespace Qpack

/-! ### Strings -/

/-- length of a string on the wire -/
def codedLen (s : Bytes) : Nat := if Huff.encodeCount s < s.length then Huff.encodeCount s else s.length

theorem huff_accept (s : Bytes) : (Huff.decGo (Huff.encode s) Huff.ctxInit).1 &&& Huff.ACCEPTED ≠ 0 ∧
    (Huff.decGo (Huff.encode s) Huff.ctxInit).2 = s := by
  have h := Props.C09_huffman_lossless s
  unfold Huff.decode at h
  dsimp only at h
  split_ifs at h with h1
  refine ⟨fun h2 => h1 ⟨rfl, h2⟩, ?_⟩
  injection h

theorem readHuff_encode (s rest : Bytes) {cap : Nat} (hc : 2 * (Huff.encode s).length < cap) :
    ∃ h, readHuff (Huff.encode s).length Huff.ctxInit [] cap (Huff.encode s ++ rest) = .ok s 0 h rest := by
  obtain ⟨h1, h2⟩ := huff_accept s
  rw [readHuff_eq _ _ _ _ _ (by simpa using hc), List.take_left, List.drop_left, if_neg]
  · refine ⟨(Huff.decGo (Huff.encode s) Huff.ctxInit).1, ?_⟩
    rw [h2, List.nil_append]
    congr 1
    simp
  · rintro (⟨_, h⟩ | h)
    · exact h1 h
    · rw [h] at h1; exact h1 (by decide)

set_option maxRecDepth 100000 in
theorem testBit_byte (b : UInt8) {p : Nat} (hp : p < 8) : (b.toNat &&& (1 <<< p) ≠ 0) ↔ b.toNat / 2 ^ p % 2 = 1 := by
  have key : ∀ p < 8, ∀ x < 256, (x &&& (1 <<< p) ≠ 0) ↔ x / 2 ^ p % 2 = 1 := by decide +kernel
  exact key p hp b.toNat b.toNat_lt

set_option maxRecDepth 100000 in
theorem or_bit (fb : UInt8) {p : Nat} (hp : p < 8) (h : fb.toNat / 2 ^ p % 2 = 0) :
    (fb ||| UInt8.ofNat (1 <<< p)).toNat / 2 ^ p = fb.toNat / 2 ^ p + 1 := by
  have key : ∀ p < 8, ∀ x < 256, x / 2 ^ p % 2 = 0 → (UInt8.ofNat x ||| UInt8.ofNat (1 <<< p)).toNat / 2 ^ p = x / 2 ^ p + 1 := by
    decide +kernel
  have := key p hp fb.toNat fb.toNat_lt h
  rwa [UInt8.ofNat_toNat] at this

/-- the length and the contents of a string literal -/
def strLen (fb : UInt8) (pfx : Nat) (s : Bytes) : Bytes :=
  if Huff.encodeCount s < s.length then QInt.put (fb ||| UInt8.ofNat (1 <<< pfx)) (Huff.encodeCount s) pfx
  else QInt.put fb s.length pfx

def strBody (s : Bytes) : Bytes := if Huff.encodeCount s < s.length then Huff.encode s else s

theorem strBytes_eq (fb : UInt8) (pfx : Nat) (s : Bytes) : strBytes fb pfx s = strLen fb pfx s ++ strBody s := by
  unfold strBytes strLen strBody
  split_ifs <;> rfl

theorem strBody_length (s : Bytes) : (strBody s).length = codedLen s := by
  unfold strBody codedLen
  split_ifs
  · exact Props.C10_encode_count_exact s
  · rfl

theorem checkHuff_len {fb : UInt8} {p : Nat} (hp : p < 8) (hfb : fb.toNat / 2 ^ p % 2 = 0) (s : Bytes) (hs : codedLen s ≤ 65536)
    (r : RState) (hr : r.pfx = p) :
    ∃ b t, strLen fb p s = b :: t ∧ b.toNat / 2 ^ (p + 1) = fb.toNat / 2 ^ (p + 1) ∧
      (checkHuff r b).huff = decide (Huff.encodeCount s < s.length) ∧
      ∀ rest, ∃ sh, QInt.readInt (checkHuff r b).pfx (checkHuff r b).left (checkHuff r b).shift (b :: (t ++ rest)) = .done (codedLen s) sh rest := by
  unfold strLen
  have hm : (65536 : Nat) ≤ QInt.INT_MAX := by unfold QInt.INT_MAX; omega
  by_cases hh : Huff.encodeCount s < s.length
  · rw [if_pos hh]
    obtain ⟨b, t, h1, h2⟩ := QInt.put_cons (fb ||| UInt8.ofNat (1 <<< p)) (Huff.encodeCount s) (Nat.le_of_lt hp)
    have hc : codedLen s = Huff.encodeCount s := by unfold codedLen; rw [if_pos hh]
    have hb := or_bit fb hp hfb
    refine ⟨b, t, h1, ?_, ?_, ?_⟩
    · rw [Nat.pow_succ, ← Nat.div_div_eq_div_mul, ← Nat.div_div_eq_div_mul, h2, hb]; omega
    · unfold checkHuff
      dsimp only
      rw [hr]
      simp only [hh, decide_true, decide_eq_true_eq]
      rw [testBit_byte b hp, h2, hb]; omega
    · intro rest
      obtain ⟨sh, h3⟩ := QInt.readInt_put (fb ||| UInt8.ofNat (1 <<< p)) (n := Huff.encodeCount s) (Nat.le_of_lt hp) (by omega) rest
      unfold checkHuff
      dsimp only
      rw [h1] at h3
      rw [hr, hc]
      exact ⟨sh, h3⟩
  · rw [if_neg hh]
    obtain ⟨b, t, h1, h2⟩ := QInt.put_cons fb s.length (Nat.le_of_lt hp)
    have hc : codedLen s = s.length := by unfold codedLen; rw [if_neg hh]
    refine ⟨b, t, h1, ?_, ?_, ?_⟩
    · rw [Nat.pow_succ, ← Nat.div_div_eq_div_mul, ← Nat.div_div_eq_div_mul, h2]
    · unfold checkHuff
      dsimp only
      rw [hr]
      simp only [hh, decide_false, decide_eq_false_iff_not]
      rw [testBit_byte b hp, h2]; omega
    · intro rest
      obtain ⟨sh, h3⟩ := QInt.readInt_put fb (n := s.length) (Nat.le_of_lt hp) (by omega) rest
      unfold checkHuff
      dsimp only
      rw [h1] at h3
      rw [hr, hc]
      exact ⟨sh, h3⟩

/-- the two passes that read a name -/
theorem name_steps {fb : UInt8} {p : Nat} (hp : p < 8) (hfb : fb.toNat / 2 ^ p % 2 = 0) (s : Bytes) (hs : codedLen s ≤ 256)
    (r : RState) (hr : r.pfx = p) (rest : Bytes) :
    ∃ ph r1 r2, strStep .checkName r (strBytes fb p s ++ rest) = .cont ph r1 (strBody s ++ rest) false ∧
      strStep ph r1 (strBody s ++ rest) = .cont .checkValue r2 rest false ∧ SameHead r r2 ∧ r2.name = s ∧ r2.pfx = 7 := by
  obtain ⟨b, t, h1, _, h3, h4⟩ := checkHuff_len hp hfb s (by omega) r hr
  obtain ⟨sh, h5⟩ := h4 (strBody s ++ rest)
  have hlen := strBody_length s
  have e0 : strStep .checkName r (strBytes fb p s ++ rest) = nameLenStep (checkHuff r b) (b :: (t ++ (strBody s ++ rest))) := by
    rw [strBytes_eq, h1]
    simp only [List.cons_append, List.append_assoc]
    rfl
  unfold nameLenStep at e0
  rw [h5] at e0
  dsimp only at e0
  rw [if_neg (by omega)] at e0
  by_cases hh : Huff.encodeCount s < s.length
  · rw [if_pos (by rw [h3]; simpa using hh)] at e0
    have hb : strBody s = Huff.encode s := by unfold strBody; rw [if_pos hh]
    rw [hb] at hlen
    obtain ⟨h, hr1⟩ := readHuff_encode s rest (cap := codedLen s * 2 + 1) (by omega)
    rw [hlen] at hr1
    refine ⟨_, _, { (checkHuff r b) with left := 0, shift := sh, hctx := h, name := s, ncap := codedLen s * 2 + 1, pfx := 7 }, e0, ?_, ⟨rfl, rfl, rfl⟩, rfl, rfl⟩
    show nameFin .nameHuff _ (readHuff _ _ _ _ _) = _
    dsimp only
    rw [hb, hr1]
    unfold nameFin
    dsimp only
    have h2 := huff_accept s
    have h3 := Huff.decGo_len (Huff.encode s) Huff.ctxInit
    rw [h2.2] at h3
    rw [if_neg (by simp), if_neg (by omega)]
  · rw [if_neg (by rw [h3]; simpa using hh)] at e0
    have hb : strBody s = s := by unfold strBody; rw [if_neg hh]
    rw [hb] at hlen
    refine ⟨_, _, { (checkHuff r b) with left := 0, shift := sh, name := s, ncap := codedLen s + 1, pfx := 7 }, e0, ?_, ⟨rfl, rfl, rfl⟩, rfl, rfl⟩
    show nameFin .name _ (readPlain _ _ _ _ _) = _
    dsimp only
    unfold readPlain
    dsimp only
    have hmin : min (strBody s ++ rest).length (codedLen s) = s.length := by rw [hb, List.length_append]; omega
    rw [hmin, if_neg (by simp; omega), hb, List.take_left, List.drop_left, hlen, Nat.sub_self]
    unfold nameFin
    dsimp only
    rw [if_neg (by simp), if_neg (by simp; omega)]
    simp [hlen]

/-- the two passes that read a value -/
theorem value_steps {fb : UInt8} {p : Nat} (hp : p < 8) (hfb : fb.toNat / 2 ^ p % 2 = 0) (s : Bytes) (hs : codedLen s ≤ 65536)
    (r : RState) (hr : r.pfx = p) (rest : Bytes) :
    ∃ ph r1 r2, strStep .checkValue r (strBytes fb p s ++ rest) = .cont ph r1 (strBody s ++ rest) true ∧
      strStep ph r1 (strBody s ++ rest) = .done r2 rest ∧ SameHead r r2 ∧ r2.value = s ∧ r2.name = r.name := by
  obtain ⟨b, t, h1, _, h3, h4⟩ := checkHuff_len hp hfb s hs r hr
  obtain ⟨sh, h5⟩ := h4 (strBody s ++ rest)
  have hlen := strBody_length s
  have e0 : strStep .checkValue r (strBytes fb p s ++ rest) = valueLenStep (checkHuff r b) (b :: (t ++ (strBody s ++ rest))) := by
    rw [strBytes_eq, h1]
    simp only [List.cons_append, List.append_assoc]
    rfl
  unfold valueLenStep at e0
  rw [h5] at e0
  dsimp only at e0
  rw [if_neg (by omega)] at e0
  by_cases hh : Huff.encodeCount s < s.length
  · rw [if_pos (by rw [h3]; simpa using hh)] at e0
    have hb : strBody s = Huff.encode s := by unfold strBody; rw [if_pos hh]
    rw [hb] at hlen
    obtain ⟨h, hr1⟩ := readHuff_encode s rest (cap := codedLen s * 2 + 1) (by omega)
    rw [hlen] at hr1
    refine ⟨_, _, { (checkHuff r b) with left := 0, shift := sh, hctx := h, value := s, vcap := codedLen s * 2 + 1 }, e0, ?_, ⟨rfl, rfl, rfl⟩, rfl, rfl⟩
    show valueFin .valueHuff _ (readHuff _ _ _ _ _) = _
    dsimp only
    rw [hb, hr1]
    unfold valueFin
    dsimp only
    have h2 := huff_accept s
    have h3 := Huff.decGo_len (Huff.encode s) Huff.ctxInit
    rw [h2.2] at h3
    rw [if_neg (by simp), if_neg (by omega)]
  · rw [if_neg (by rw [h3]; simpa using hh)] at e0
    have hb : strBody s = s := by unfold strBody; rw [if_neg hh]
    rw [hb] at hlen
    refine ⟨_, _, { (checkHuff r b) with left := 0, shift := sh, value := s, vcap := codedLen s + 1 }, e0, ?_, ⟨rfl, rfl, rfl⟩, rfl, rfl⟩
    show valueFin .value _ (readPlain _ _ _ _ _) = _
    dsimp only
    unfold readPlain
    dsimp only
    have hmin : min (strBody s ++ rest).length (codedLen s) = s.length := by rw [hb, List.length_append]; omega
    rw [hmin, if_neg (by simp; omega), hb, List.take_left, List.drop_left, hlen, Nat.sub_self]
    unfold valueFin
    dsimp only
    rw [if_neg (by simp), if_neg (by simp; omega)]
    simp [hlen]

/-! ### Encoder instructions -/

/-- the effect of an instruction on a table: `none` an out-of-range access, `some none` an encoder stream error -/
def EIns.apply (c : Ctx) : EIns → Option (Option Ctx)
  | .setCap n => c.setCap n
  | .insStatic i v => match stableGet i with | none => none | some (n, _, t) => c.addChecked n v (some t)
  | .insDyn rel v => match c.get (c.next - rel - 1) with | none => none | some x => c.addChecked x.name v x.token
  | .insLit n v => c.addChecked n v (lookupToken n)
  | .dup rel => match c.get (c.next - rel - 1) with | none => none | some x => c.addChecked x.name x.value x.token

/-- within what a decoder reads -/
def EIns.fits (c : Ctx) : EIns → Prop
  | .setCap n => n ≤ QInt.INT_MAX
  | .insStatic i v => i < 99 ∧ codedLen v ≤ 65536
  | .insDyn rel v => rel < c.next ∧ rel < c.ents.length ∧ rel ≤ QInt.INT_MAX ∧ codedLen v ≤ 65536
  | .insLit n v => codedLen n ≤ 256 ∧ codedLen v ≤ 65536
  | .dup rel => rel < c.next ∧ rel < c.ents.length ∧ rel ≤ QInt.INT_MAX

abbrev esRun (d : Dec) (x : Bytes) (b : Bool) : Machine.Out Dec (Err × Ctx) := Machine.run esM (fun d => d.state.rank) d x b

set_option maxRecDepth 100000 in
theorem esOpcode_first (d : Dec) (b : UInt8) :
    (b.toNat / 32 = 1 → esOpcode d b = { d with op := .setCap, state := .readIndex, rs := { d.rs with pfx := 5 } }) ∧
    (b.toNat / 64 = 3 → esOpcode d b = { d with op := .insertIndexed, state := .readIndex, rs := { d.rs with dynamic := false, pfx := 6 } }) ∧
    (b.toNat / 64 = 2 → esOpcode d b = { d with op := .insertIndexed, state := .readIndex, rs := { d.rs with dynamic := true, pfx := 6 } }) ∧
    (b.toNat / 64 = 1 → esOpcode d b = { d with op := .insert, state := .str .checkName, rs := { d.rs with dynamic := false, pfx := 5 } }) ∧
    (b.toNat / 32 = 0 → esOpcode d b = { d with op := .duplicate, state := .readIndex, rs := { d.rs with dynamic := true, pfx := 5 } }) := by
  have c1 : ∀ x < 256, x / 32 = 1 → ¬ 0x80 ≤ x &&& 0xe0 ∧ ¬ (x &&& 0xe0 = 0x40 ∨ x &&& 0xe0 = 0x60) ∧ x &&& 0xe0 = 0x20 := by decide +kernel
  have c2 : ∀ x < 256, x / 64 = 3 → 0x80 ≤ x &&& 0xe0 ∧ ¬ x &&& 0x40 = 0 := by decide +kernel
  have c3 : ∀ x < 256, x / 64 = 2 → 0x80 ≤ x &&& 0xe0 ∧ x &&& 0x40 = 0 := by decide +kernel
  have c4 : ∀ x < 256, x / 64 = 1 → ¬ 0x80 ≤ x &&& 0xe0 ∧ (x &&& 0xe0 = 0x40 ∨ x &&& 0xe0 = 0x60) := by decide +kernel
  have c5 : ∀ x < 256, x / 32 = 0 → ¬ 0x80 ≤ x &&& 0xe0 ∧ ¬ (x &&& 0xe0 = 0x40 ∨ x &&& 0xe0 = 0x60) ∧ ¬ x &&& 0xe0 = 0x20 := by decide +kernel
  have k1 := c1 b.toNat b.toNat_lt
  have k2 := c2 b.toNat b.toNat_lt
  have k3 := c3 b.toNat b.toNat_lt
  have k4 := c4 b.toNat b.toNat_lt
  have k5 := c5 b.toNat b.toNat_lt
  unfold esOpcode
  refine ⟨fun h => ?_, fun h => ?_, fun h => ?_, fun h => ?_, fun h => ?_⟩
  · obtain ⟨g1, g2, g3⟩ := k1 h
    rw [if_neg g1, if_neg g2, if_pos g3]
  · obtain ⟨g1, g2⟩ := k2 h
    rw [if_pos g1]; simp [g2]
  · obtain ⟨g1, g2⟩ := k3 h
    rw [if_pos g1]; simp [g2]
  · obtain ⟨g1, g2⟩ := k4 h
    rw [if_neg g1, if_pos g2]
  · obtain ⟨g1, g2, g3⟩ := k5 h
    rw [if_neg g1, if_neg g2, if_neg g3]

/-- the fields of a decoder that reading the encoder stream leaves alone -/
def Dec.SameOut (d d' : Dec) : Prop :=
  d'.writtenIcnt = d.writtenIcnt ∧ d'.maxConc = d.maxConc ∧ d'.uninterrupted = d.uninterrupted ∧ d'.dbuf = d.dbuf

theorem es_opcode_step {d : Dec} (hw : DecWF d) (hs : d.state = .opcode) (b : UInt8) (t : Bytes) :
    DecWF (esOpcode d b) ∧ esRun d (b :: t) false = esRun (esOpcode d b) (b :: t) false := by
  have h : esM d (b :: t) = .cont (esOpcode d b) (b :: t) false := by
    unfold esM esStep
    rw [hs]
    rfl
  obtain ⟨h1, _, h2⟩ := Machine.run_cont esM_good hw (b := false) (by simp) (by simp) h
  exact ⟨h1, h2⟩

/-- finishing an instruction -/
theorem es_finish {d : Dec} {c' : Ctx} (hw : DecWF d) {x : Bytes} {b : Bool} (hb : b = true → d.state.vis = true) (hx : ¬ (x = [] ∧ b = false))
    (d0 : Dec) (hd0 : Dec.SameOut d d0) (h : esStep d x = d0.finish [] (some (some c'))) :
    ∃ d', esRun d x b = .ok d' ∧ d'.ctx = c' ∧ d'.state = .opcode ∧ DecWF d' ∧ Dec.SameOut d d' := by
  have h' : esM d x = .cont { d0 with ctx := c', state := .opcode, rs := d0.rs.reset } [] false := by
    unfold esM; rw [h]; rfl
  obtain ⟨h1, _, h2⟩ := Machine.run_cont esM_good hw hb hx h'
  refine ⟨{ d0 with ctx := c', state := .opcode, rs := d0.rs.reset }, ?_, rfl, rfl, h1, hd0⟩
  refine h2.trans ?_
  rw [Machine.run_eq esM_good h1 (by simp), if_pos ⟨rfl, rfl⟩]

theorem es_value {d : Dec} (hw : DecWF d) (hs : d.state = .str .checkValue) (hp : d.rs.pfx = 7) (v : Bytes) (hv : codedLen v ≤ 65536)
    (c' : Ctx) (hc : ∀ d2 : Dec, d2.ctx = d.ctx → d2.op = d.op → SameHead d.rs d2.rs → d2.rs.value = v → d2.rs.name = d.rs.name →
      esValueDone d2 [] = d2.finish [] (some (some c'))) :
    ∃ d', esRun d (strBytes 0 7 v) false = .ok d' ∧ d'.ctx = c' ∧ d'.state = .opcode ∧ DecWF d' ∧ Dec.SameOut d d' := by
  obtain ⟨ph, r1, r2, h1, h2, h3, h4, h5⟩ := value_steps (fb := 0) (p := 7) (by omega) (by decide) v hv d.rs hp []
  rw [List.append_nil, List.append_nil] at h1
  rw [List.append_nil] at h2
  have hm : esM d (strBytes 0 7 v) = .cont { d with state := .str ph, rs := r1 } (strBody v) true := by
    unfold esM esStep
    rw [hs]
    dsimp only
    rw [h1]; rfl
  have hne : strBytes 0 7 v ≠ [] := by
    rw [strBytes_eq]
    obtain ⟨b, t, h6, _⟩ := checkHuff_len (fb := 0) (p := 7) (by omega) (by decide) v hv d.rs hp
    rw [h6]; simp
  obtain ⟨g1, g2, g3⟩ := Machine.run_cont esM_good hw (b := false) (by simp) (fun h => hne h.1) hm
  rw [esRun, g3]
  refine es_finish g1 (b := true) g2 (by simp) { d with state := .str ph, rs := r2 } ⟨rfl, rfl, rfl, rfl⟩ ?_
  unfold esStep
  dsimp only
  rw [h2]
  dsimp only
  exact hc _ rfl rfl h3 h4 h5

theorem es_instr {d : Dec} (hw : DecWF d) (hs : d.state = .opcode) {i : EIns} {c' : Ctx} (hf : i.fits d.ctx)
    (ha : i.apply d.ctx = some (some c')) :
    ∃ d', esRun d i.bytes false = .ok d' ∧ d'.ctx = c' ∧ d'.state = .opcode ∧ DecWF d' ∧ Dec.SameOut d d' := by
  have h0 := hw.st
  rw [hs] at h0
  obtain ⟨hl0, hs0⟩ := h0
  -- the index of an instruction
  have hidx : ∀ (d1 : Dec), DecWF d1 → d1.state = .readIndex → d1.rs.left = 0 → d1.rs.shift = 0 → ∀ (fb : UInt8) (n : Nat) (tl : Bytes),
      n ≤ QInt.INT_MAX → ∃ sh, esStep d1 (QInt.put fb n d1.rs.pfx ++ tl) = esIndexDone { d1 with rs := { d1.rs with left := n, shift := sh } } tl := by
    intro d1 hw1 hs1 hl hsh fb n tl hn
    have hst := hw1.st
    rw [hs1] at hst
    obtain ⟨sh, h⟩ := QInt.readInt_put fb (n := n) (pfx := d1.rs.pfx) hst.2.1 hn tl
    refine ⟨sh, ?_⟩
    obtain ⟨ctx, state, op, rs, a1, a2, a3, a4⟩ := d1
    dsimp only at hs1 hl hsh h
    subst hs1
    show esIndex _ _ = _
    unfold esIndex
    dsimp only
    rw [hl, hsh, h]
  have hput : ∀ (fb : UInt8) (n p : Nat) (tl : Bytes), p ≤ 8 → ∃ b t, QInt.put fb n p ++ tl = b :: t ∧ b.toNat / 2 ^ p = fb.toNat / 2 ^ p := by
    intro fb n p tl h8
    obtain ⟨b, t, h1, h2⟩ := QInt.put_cons fb n h8
    exact ⟨b, t ++ tl, by rw [h1]; rfl, h2⟩
  have h99 : (99 : Nat) ≤ QInt.INT_MAX := by unfold QInt.INT_MAX; omega
  cases i with
  | setCap n =>
    obtain ⟨b, t, e1, e2⟩ := hput 0x20 n 5 [] (by omega)
    rw [List.append_nil] at e1
    obtain ⟨w1, w2⟩ := es_opcode_step hw hs b t
    rw [(esOpcode_first d b).1 e2] at w1 w2
    rw [EIns.bytes, e1, w2]
    obtain ⟨sh, h⟩ := hidx _ w1 rfl hl0 hs0 0x20 n [] hf
    rw [List.append_nil, e1] at h
    refine es_finish w1 (by simp) (by simp) { d with op := .setCap, state := .readIndex, rs := { d.rs with pfx := 5, left := n, shift := sh } } ⟨rfl, rfl, rfl, rfl⟩ (h.trans ?_)
    unfold esIndexDone
    dsimp only
    rw [show d.ctx.setCap n = some (some c') from ha]
  | dup rel =>
    obtain ⟨f1, f2, f3⟩ := hf
    obtain ⟨b, t, e1, e2⟩ := hput 0 rel 5 [] (by omega)
    rw [List.append_nil] at e1
    obtain ⟨w1, w2⟩ := es_opcode_step hw hs b t
    rw [(esOpcode_first d b).2.2.2.2 e2] at w1 w2
    rw [EIns.bytes, e1, w2]
    obtain ⟨sh, h⟩ := hidx _ w1 rfl hl0 hs0 0 rel [] f3
    rw [List.append_nil, e1] at h
    have hrel : rel2abs d.ctx { d.rs with dynamic := true, pfx := 5, left := rel, shift := sh } =
        some { d.rs with dynamic := true, pfx := 5, left := rel, shift := sh, absidx := d.ctx.next - rel - 1 } := by
      unfold rel2abs
      dsimp only
      rw [if_pos rfl, if_neg (by omega), if_pos]
      simp [validateIndex]; omega
    refine es_finish w1 (by simp) (by simp) { d with op := .duplicate, state := .readIndex, rs := { d.rs with dynamic := true, pfx := 5, left := rel, shift := sh, absidx := d.ctx.next - rel - 1 } } ⟨rfl, rfl, rfl, rfl⟩ (h.trans ?_)
    unfold esIndexDone
    dsimp only
    rw [hrel]
    dsimp only
    rw [show duplicateAdd d.ctx { d.rs with dynamic := true, pfx := 5, left := rel, shift := sh, absidx := d.ctx.next - rel - 1 } = some (some c') from ha]
  | insStatic i v =>
    obtain ⟨f1, f2⟩ := hf
    obtain ⟨b, t, e1, e2⟩ := hput 0xc0 i 6 (strBytes 0 7 v) (by omega)
    obtain ⟨w1, w2⟩ := es_opcode_step hw hs b t
    rw [(esOpcode_first d b).2.1 e2] at w1 w2
    obtain ⟨sh, h⟩ := hidx _ w1 rfl hl0 hs0 0xc0 i (strBytes 0 7 v) (by omega)
    have hrel : rel2abs d.ctx { d.rs with dynamic := false, pfx := 6, left := i, shift := sh } =
        some { d.rs with dynamic := false, pfx := 6, left := i, shift := sh, absidx := i } := by
      unfold rel2abs
      dsimp only
      rw [if_neg (by simp), if_pos]
      simp [validateIndex]; omega
    unfold esIndexDone at h
    dsimp only at h
    rw [hrel] at h
    dsimp only at h
    rw [EIns.bytes, indexedNameBytes, e1, w2]
    rw [e1] at h
    obtain ⟨w3, _, w5⟩ := Machine.run_cont (x := b :: t) esM_good w1 (b := false) (by simp) (by simp) (show esM _ _ = _ by unfold esM; rw [h]; rfl)
    rw [esRun, w5]
    obtain ⟨d', g1, g2, g3, g4, g5⟩ := es_value w3 rfl rfl v f2 c' (by
      intro d2 k1 k2 k3 k4 k5
      unfold esValueDone
      rw [k2]
      dsimp only
      rw [k1]
      dsimp only
      congr 1
      unfold indexedAdd
      rw [k3.2.1, k3.1, k4]
      simp only [Bool.false_eq_true, if_false]
      exact ha)
    exact ⟨d', g1, g2, g3, g4, g5⟩
  | insDyn rel v =>
    obtain ⟨f1, f2, f3, f4⟩ := hf
    obtain ⟨b, t, e1, e2⟩ := hput 0x80 rel 6 (strBytes 0 7 v) (by omega)
    obtain ⟨w1, w2⟩ := es_opcode_step hw hs b t
    rw [(esOpcode_first d b).2.2.1 e2] at w1 w2
    obtain ⟨sh, h⟩ := hidx _ w1 rfl hl0 hs0 0x80 rel (strBytes 0 7 v) (by omega)
    have hrel : rel2abs d.ctx { d.rs with dynamic := true, pfx := 6, left := rel, shift := sh } =
        some { d.rs with dynamic := true, pfx := 6, left := rel, shift := sh, absidx := d.ctx.next - rel - 1 } := by
      unfold rel2abs
      dsimp only
      rw [if_pos rfl, if_neg (by omega), if_pos]
      simp [validateIndex]; omega
    unfold esIndexDone at h
    dsimp only at h
    rw [hrel] at h
    dsimp only at h
    rw [EIns.bytes, indexedNameBytes, e1, w2]
    rw [e1] at h
    obtain ⟨w3, _, w5⟩ := Machine.run_cont (x := b :: t) esM_good w1 (b := false) (by simp) (by simp) (show esM _ _ = _ by unfold esM; rw [h]; rfl)
    rw [esRun, w5]
    obtain ⟨d', g1, g2, g3, g4, g5⟩ := es_value w3 rfl rfl v f4 c' (by
      intro d2 k1 k2 k3 k4 k5
      unfold esValueDone
      rw [k2]
      dsimp only
      rw [k1]
      dsimp only
      congr 1
      unfold indexedAdd
      rw [k3.2.1, k3.1, k4]
      simp only [if_true]
      exact ha)
    exact ⟨d', g1, g2, g3, g4, g5⟩
  | insLit n v =>
    obtain ⟨f1, f2⟩ := hf
    obtain ⟨b, t, e1, e2, _⟩ := checkHuff_len (fb := 0x40) (p := 5) (by omega) (by decide) n (by omega) { d.rs with dynamic := false, pfx := 5 } rfl
    have hbytes : (EIns.insLit n v).bytes = b :: (t ++ (strBody n ++ strBytes 0 7 v)) := by
      simp only [EIns.bytes, literalBytes]
      rw [strBytes_eq, e1]; simp
    have hbytes2 : (EIns.insLit n v).bytes = strBytes 0x40 5 n ++ strBytes 0 7 v := rfl
    obtain ⟨w1, w2⟩ := es_opcode_step hw hs b (t ++ (strBody n ++ strBytes 0 7 v))
    rw [(esOpcode_first d b).2.2.2.1 e2] at w1 w2
    rw [hbytes, w2, ← hbytes, hbytes2]
    obtain ⟨ph, r1, r2, s1, s2, s3, s4, s5⟩ := name_steps (fb := 0x40) (p := 5) (by omega) (by decide) n f1 { d.rs with dynamic := false, pfx := 5 } rfl (strBytes 0 7 v)
    obtain ⟨w3, _, w5⟩ := Machine.run_cont esM_good w1 (b := false) (by simp) (by rw [← hbytes2, hbytes]; simp)
      (show esM _ (strBytes 0x40 5 n ++ strBytes 0 7 v) = _ by unfold esM esStep; dsimp only; rw [s1]; rfl)
    rw [esRun, w5]
    have hne : strBytes 0 7 v ≠ [] := by
      obtain ⟨b, t, h6, _⟩ := checkHuff_len (fb := 0) (p := 7) (by omega) (by decide) v f2 { d.rs with pfx := 7 } rfl
      rw [strBytes_eq, h6]; simp
    obtain ⟨w6, _, w7⟩ := Machine.run_cont esM_good w3 (b := false) (by simp) (fun h => hne (List.append_eq_nil_iff.1 h.1).2)
      (show esM _ (strBody n ++ strBytes 0 7 v) = _ by unfold esM esStep; dsimp only; rw [s2]; rfl)
    rw [w7]
    obtain ⟨d', g1, g2, g3, g4, g5⟩ := es_value w6 rfl s5 v f2 c' (by
      intro d2 k1 k2 k3 k4 k5
      unfold esValueDone
      rw [k2]
      dsimp only
      rw [k1]
      dsimp only
      congr 1
      unfold literalAdd
      rw [k4, k5]
      dsimp only
      rw [s4]
      exact ha)
    exact ⟨d', g1, g2, g3, g4, g5⟩

end Qpack
end Nghttp3
