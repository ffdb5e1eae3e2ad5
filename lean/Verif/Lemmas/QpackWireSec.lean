import Verif.Lemmas.QpackWireRs
/-! Field sections against RFC 9204, section 4.5. -/
namespace Nghttp3
namespace Qpack
open Rfc9204 (IntAs StrAs Line Table AreLines Field)

theorem line_ne {i : Line} {enc : Bytes} (h : i.Is enc) : enc ≠ [] := by
  cases i with
  | static n => exact intAs_ne h
  | dynamic n => exact intAs_ne h
  | postBase n => exact intAs_ne h
  | staticName n v nv => obtain ⟨x, y, rfl, h, _⟩ := h; simp [intAs_ne h]
  | dynamicName n v nv => obtain ⟨x, y, rfl, h, _⟩ := h; simp [intAs_ne h]
  | postBaseName n v nv => obtain ⟨x, y, rfl, h, _⟩ := h; simp [intAs_ne h]
  | literal n v nv => obtain ⟨x, y, rfl, h, _⟩ := h; simp [strAs_ne h]

theorem reconstruct_iff (c : Ctx) (enc v : Nat) : reconstructRicnt c enc = some v ↔ Rfc9204.IsRequired (c.hardMax / 32) c.next enc v := by
  unfold Rfc9204.IsRequired
  constructor
  · intro h
    unfold reconstructRicnt at h
    dsimp only at h
    generalize hM : c.hardMax / 32 = M at h ⊢
    by_cases h0 : enc = 0
    · rw [if_pos h0] at h; cases h; exact Or.inl ⟨h0, rfl⟩
    rw [if_neg h0] at h
    by_cases h1 : 2 * M < enc
    · rw [if_pos h1] at h; cases h
    rw [if_neg h1] at h
    right
    have hpos : 0 < 2 * M := by omega
    have e2 := Nat.div_add_mod (c.next + M) (2 * M)
    have hlt2 := Nat.mod_lt (c.next + M) hpos
    generalize (c.next + M) / (2 * M) = w at *
    rw [Nat.mul_comm w] at h
    by_cases h2 : c.next + M < 2 * M * w + enc - 1
    · rw [if_pos h2] at h
      by_cases h3 : 2 * M * w + enc - 1 ≤ 2 * M
      · rw [if_pos h3] at h; cases h
      rw [if_neg h3] at h
      split_ifs at h with h4
      simp only [Option.some.injEq] at h
      have hw : 0 < w := by
        rcases Nat.eq_zero_or_pos w with hz | hz
        · rw [hz, Nat.mul_zero] at h3; omega
        · exact hz
      obtain ⟨u, rfl⟩ : ∃ u, w = u + 1 := ⟨w - 1, by omega⟩
      rw [Nat.mul_add, Nat.mul_one] at *
      have hv : v = enc - 1 + 2 * M * u := by omega
      refine ⟨by omega, by omega, ?_, by omega, by omega⟩
      rw [hv, Nat.add_mul_mod_self_left, Nat.mod_eq_of_lt (by omega)]; omega
    · rw [if_neg h2] at h
      split_ifs at h with h4
      simp only [Option.some.injEq] at h
      have hv : v = enc - 1 + 2 * M * w := by omega
      refine ⟨by omega, by omega, ?_, by omega, by omega⟩
      rw [hv, Nat.add_mul_mod_self_left, Nat.mod_eq_of_lt (by omega)]; omega
  · rintro (⟨rfl, rfl⟩ | ⟨h1, h2, h3, h4, h5⟩)
    · unfold reconstructRicnt; rw [if_pos rfl]
    · rw [h3]; exact reconstruct_exact (by omega) h5 h4

/-- outcome of the lines of a section -/
def LinesOut (c : Ctx) (s : SCtx) (acc : List QNv) (run : Machine.Out (SCtx × List QNv) RStop) (rest : Bytes) (o : List Field × Bool) : Prop :=
  (o.2 = false ∧ run = .fail (.fail .decompression (acc ++ o.1.map toNv))) ∨
  (o.2 = true ∧ ∃ s', Emitted s s' ∧ run = rsRun c (s', acc ++ o.1.map toNv) rest false)

theorem rs_lines {c : Ctx} (hc : CtxOk c) {ls : List Line} : ∀ {x : Bytes}, AreLines ls x → ∀ {s : SCtx}, SWF s → s.state = .opcode → ∀ acc rest,
    LinesOut c s acc (rsRun c (s, acc) (x ++ rest) false) rest (Rfc9204.fields c.table s.ricnt s.base ls) := by
  induction ls with
  | nil =>
    intro x hx s hw hs acc rest
    have : x = [] := hx
    subst this
    right
    exact ⟨rfl, s, ⟨hs, rfl, rfl, rfl, hw⟩, by simp [Rfc9204.fields]⟩
  | cons i l ih =>
    intro x hx s hw hs acc rest
    obtain ⟨enc, y, rfl, hi, hl⟩ := hx
    rcases he : enc with _ | ⟨b, t⟩
    · exact absurd he (line_ne hi)
    have hr : rdLine (b :: (t ++ (y ++ rest))) = some (i, y ++ rest) :=
      (rdLine_iff b (t ++ (y ++ rest)) i (y ++ rest)).2 ⟨enc, by rw [he]; simp, hi⟩
    have h1 := rs_one hc hw hs acc b (t ++ (y ++ rest))
    rw [hr] at h1
    dsimp only at h1
    rw [show (b :: t ++ y ++ rest) = b :: (t ++ (y ++ rest)) by simp]
    rw [Rfc9204.fields]
    rcases ha : i.field c.table s.ricnt s.base with _ | f <;> rw [ha] at h1
    · left
      refine ⟨rfl, ?_⟩
      rw [show rsRun c (s, acc) (b :: (t ++ (y ++ rest))) false = _ from h1]; simp
    · obtain ⟨s', k1, k2⟩ := h1
      rw [k2]
      have := ih hl k1.wf k1.state (acc ++ [toNv f]) rest
      rw [k1.ricnt, k1.base] at this
      dsimp only
      rcases this with ⟨g1, g2⟩ | ⟨g1, s2, g2, g3⟩
      · left; exact ⟨g1, by rw [g2]; simp⟩
      · right
        exact ⟨g1, s2, ⟨g2.state, g2.ricnt.trans k1.ricnt, g2.base.trans k1.base, g2.id.trans k1.id, g2.wf⟩, by rw [g3]; simp⟩

theorem rs_parse {c : Ctx} (hc : CtxOk c) (n : Nat) : ∀ (x : Bytes), x.length ≤ n → ∀ {s : SCtx}, SWF s → s.state = .opcode → ∀ acc s' acc',
    rsRun c (s, acc) x false = .ok (s', acc') → s'.state = .opcode →
    ∃ ls, AreLines ls x ∧ (Rfc9204.fields c.table s.ricnt s.base ls).2 = true ∧
      acc' = acc ++ (Rfc9204.fields c.table s.ricnt s.base ls).1.map toNv ∧ Emitted s s' := by
  induction n with
  | zero =>
    intro x hx s hw hs acc s' acc' h h'
    have : x = [] := List.length_eq_zero_iff.1 (by omega)
    subst this
    rw [run_nil hc hw] at h
    cases h
    exact ⟨[], rfl, rfl, by simp [Rfc9204.fields], ⟨hs, rfl, rfl, rfl, hw⟩⟩
  | succ n ih =>
    intro x hx s hw hs acc s' acc' h h'
    rcases x with _ | ⟨b, t⟩
    · exact ih [] (by simp) hw hs acc s' acc' h h'
    have h1 := rs_one hc hw hs acc b t
    rcases hr : rdLine (b :: t) with _ | ⟨i, r1⟩ <;> rw [hr] at h1 <;> dsimp only at h1
    · rw [h] at h1
      rcases h1 with ⟨o, h1⟩ | ⟨s2, h1, h2⟩
      · cases h1
      · cases h1; exact absurd h' h2
    · obtain ⟨enc, k1, k2⟩ := (rdLine_iff b t i r1).1 hr
      have hlen : r1.length ≤ n := by
        have := congrArg List.length k1
        have h2 : 0 < enc.length := List.length_pos_iff.2 (line_ne k2)
        simp at this hx; omega
      rcases ha : i.field c.table s.ricnt s.base with _ | f <;> rw [ha] at h1
      · rw [h] at h1; cases h1
      · obtain ⟨s1, q1, q2⟩ := h1
        rw [q2] at h
        obtain ⟨ls, z1, z2, z3, z4⟩ := ih r1 hlen q1.wf q1.state _ _ _ h h'
        rw [q1.ricnt, q1.base] at z2 z3
        refine ⟨i :: ls, ⟨enc, r1, k1, k2, z1⟩, ?_, ?_, ?_⟩
        · rw [Rfc9204.fields, ha]; exact z2
        · rw [Rfc9204.fields, ha, z3]; simp
        · exact ⟨z4.state, z4.ricnt.trans q1.ricnt, z4.base.trans q1.base, z4.id.trans q1.id, z4.wf⟩

/-! ### the prefix -/

/-- one-shot reading of the prefix -/
def rdPrefix (x : Bytes) : Option (Nat × Bool × Nat × Bytes) :=
  match rdInt 8 x with
  | none => none
  | some (e, r1) =>
    match r1 with
    | [] => none
    | b :: t =>
      match rdInt 7 (b :: t) with
      | none => none
      | some (d, body) => some (e, decide (b.toNat / 128 = 1), d, body)

theorem rdPrefix_iff (x : Bytes) (e : Nat) (sg : Bool) (d : Nat) (body : Bytes) :
    rdPrefix x = some (e, sg, d, body) ↔ ∃ enc, x = enc ++ body ∧ Rfc9204.IsPrefix e sg d enc := by
  constructor
  · intro h
    unfold rdPrefix at h
    rcases x with _ | ⟨a, u⟩
    · simp [rdInt, QInt.readInt] at h
    rcases hi : rdInt 8 (a :: u) with _ | ⟨n, r1⟩ <;> rw [hi] at h <;> dsimp only at h
    · simp at h
    rcases r1 with _ | ⟨b, t⟩ <;> dsimp only at h
    · simp at h
    rcases hj : rdInt 7 (b :: t) with _ | ⟨m, r2⟩ <;> rw [hj] at h <;> dsimp only at h
    · simp at h
    simp only [Option.some.injEq, Prod.mk.injEq] at h
    obtain ⟨rfl, rfl, rfl, rfl⟩ := h
    obtain ⟨e1, k1, k2⟩ := (rdInt_iff (by omega) a u n (b :: t)).1 hi
    obtain ⟨e2, k3, k4⟩ := (rdInt_iff (by omega) b t m r2).1 hj
    refine ⟨e1 ++ e2, by rw [k1, k3, List.append_assoc], e1, e2, rfl, ?_, ?_⟩
    · rw [show a.toNat / 2 ^ 8 = 0 by have := a.toNat_lt; norm_num; omega] at k2; exact k2
    · rw [show Rfc9204.bit (decide (b.toNat / 128 = 1)) = b.toNat / 2 ^ 7 by
        have := b.toNat_lt
        by_cases h6 : b.toNat / 128 = 1 <;> simp [Rfc9204.bit, h6] <;> omega]
      exact k4
  · rintro ⟨enc, rfl, x1, x2, rfl, h1, h2⟩
    rcases x1 with _ | ⟨a, u⟩
    · exact absurd rfl (intAs_ne h1)
    rcases x2 with _ | ⟨b, t⟩
    · exact absurd rfl (intAs_ne h2)
    have ha := intAs_head h1 (rest := []) (by simp : a :: u = _)
    have hb := intAs_head h2 (rest := []) (by simp : b :: t = _)
    have i1 := (rdInt_iff (p := 8) (by omega) a (u ++ (b :: (t ++ body))) e (b :: (t ++ body))).2 ⟨a :: u, by simp, by rw [ha]; exact h1⟩
    have i2 := (rdInt_iff (p := 7) (by omega) b (t ++ body) d body).2 ⟨b :: t, by simp, by rw [hb]; exact h2⟩
    unfold rdPrefix
    rw [show a :: u ++ b :: t ++ body = a :: (u ++ (b :: (t ++ body))) by simp, i1]
    dsimp only
    rw [i2]
    dsimp only
    have : decide (b.toNat / 128 = 1) = sg := by
      have hb' : b.toNat / 128 = Rfc9204.bit sg := hb
      rw [hb']; cases sg <;> decide
    rw [this]

/-- stream context at the first field line -/
structure AtLines (id ric base : Nat) (s : SCtx) : Prop where
  state : s.state = .opcode
  ricnt : s.ricnt = ric
  base : s.base = base
  id : s.streamId = id
  wf : SWF s

/-- stream context that waits for insertions -/
structure Waits (id ric base : Nat) (s : SCtx) : Prop where
  state : s.state = .blocked
  ricnt : s.ricnt = ric
  base : s.base = base
  id : s.streamId = id

theorem bit7_eq (b : UInt8) : decide (b.toNat &&& 0x80 ≠ 0) = decide (b.toNat / 128 = 1) := by
  have : ∀ x < 256, decide (x &&& 0x80 ≠ 0) = decide (x / 128 = 1) := by decide +kernel
  exact this _ b.toNat_lt

theorem rs_prefix {c : Ctx} (hc : CtxOk c) (id : Nat) (acc : List QNv) (x : Bytes) :
    match rdPrefix x with
    | some (e, sg, d, body) =>
      match reconstructRicnt c e with
      | none => rsRun c (SCtx.init id, acc) x false = .fail (.fail .decompression acc)
      | some ric =>
        match Rfc9204.baseOf ric sg d with
        | none => rsRun c (SCtx.init id, acc) x false = .fail (.fail .decompression acc)
        | some base =>
          if c.next < ric then ∃ s', Waits id ric base s' ∧ rsRun c (SCtx.init id, acc) x false = .stop (.blocked s' acc) body
          else ∃ s', AtLines id ric base s' ∧ rsRun c (SCtx.init id, acc) x false = rsRun c (s', acc) body false
    | none => (∃ e, rsRun c (SCtx.init id, acc) x false = .fail (.fail e acc)) ∨
        ∃ s', rsRun c (SCtx.init id, acc) x false = .ok (s', acc) ∧ s'.state ≠ .opcode := by
  have hw := SWF.init id
  rcases x with _ | ⟨a, u⟩
  · rw [show rdPrefix [] = none by simp [rdPrefix, rdInt, QInt.readInt]]
    exact Or.inr ⟨_, run_nil hc hw, by simp [SCtx.init]⟩
  have ho := readInt_ne_oob (p := 8) (by omega) a u
  have hstep : rsStep c (SCtx.init id) (a :: u) = match QInt.readInt 8 0 0 (a :: u) with
      | .oob => .crash
      | .fatal => .fail .decompression
      | .part l sh => .part { SCtx.init id with rs := { (SCtx.init id).rs with left := l, shift := sh } } []
      | .done l sh rest =>
        match reconstructRicnt c l with
        | none => .fail .decompression
        | some n => .cont { SCtx.init id with rs := { (SCtx.init id).rs with left := l, shift := sh }, ricnt := n, state := .dbaseSign } rest false := rfl
  have hrun := rs_run_eq hc hw acc (x := a :: u) (b := false) (by simp) (by simp)
  unfold rdPrefix rdInt
  rcases hr : QInt.readInt 8 0 0 (a :: u) with _ | _ | ⟨l, sh⟩ | ⟨l, sh, r1⟩ <;> rw [hr] at hstep <;> dsimp only at hstep ⊢
  · exact absurd hr ho
  · left; refine ⟨.decompression, ?_⟩; rw [hrun, hstep]; rfl
  · right; refine ⟨_, by rw [hrun, hstep]; rfl, by simp [SCtx.init]⟩
  rcases hq : reconstructRicnt c l with _ | ric <;> rw [hq] at hstep <;> dsimp only at hstep
  · have hf : rsRun c (SCtx.init id, acc) (a :: u) false = .fail (.fail .decompression acc) := by rw [hrun, hstep]; rfl
    rcases r1 with _ | ⟨b, t⟩ <;> dsimp only
    · exact Or.inl ⟨_, hf⟩
    rcases QInt.readInt 7 0 0 (b :: t) with _ | _ | _ | ⟨d, sh2, body⟩ <;> dsimp only
    · exact Or.inl ⟨_, hf⟩
    · exact Or.inl ⟨_, hf⟩
    · exact Or.inl ⟨_, hf⟩
    · rw [hq]; exact hf
  have hm : rsM c (SCtx.init id, acc) (a :: u) =
      .cont ({ SCtx.init id with rs := { (SCtx.init id).rs with left := l, shift := sh }, ricnt := ric, state := .dbaseSign }, acc) r1 false := by
    unfold rsM; dsimp only; rw [hstep]; rfl
  obtain ⟨w1, _, w3⟩ := Machine.run_cont (rsM_good hc) (s := (SCtx.init id, acc)) hw (b := false) (by simp) (by simp) hm
  rw [show rsRun c (SCtx.init id, acc) (a :: u) false = _ from w3]
  generalize hs1 : ({ SCtx.init id with rs := { (SCtx.init id).rs with left := l, shift := sh }, ricnt := ric, state := .dbaseSign } : SCtx) = s1 at w1 ⊢
  rcases r1 with _ | ⟨b, t⟩ <;> dsimp only
  · exact Or.inr ⟨_, run_nil hc w1, by rw [← hs1]; simp⟩
  have ho2 := readInt_ne_oob (p := 7) (by omega) b t
  have hst2 : rsStep c s1 (b :: t) = rsBase c { s1 with sign := decide (b.toNat / 128 = 1), state := .dbase, rs := { s1.rs with left := 0, pfx := 7, shift := 0 } } (b :: t) := by
    rw [← bit7_eq, ← hs1]; unfold rsStep; dsimp only; simp [SCtx.init]
  have hrun2 := rs_run_eq hc w1 acc (x := b :: t) (b := false) (by simp) (by simp)
  rw [rsRun] at hrun2
  unfold rsBase at hst2
  dsimp only at hst2
  rcases hr2 : QInt.readInt 7 0 0 (b :: t) with _ | _ | ⟨d, sh2⟩ | ⟨d, sh2, body⟩ <;> rw [hr2] at hst2 <;> dsimp only at hst2 ⊢
  · exact absurd hr2 ho2
  · left; refine ⟨.decompression, ?_⟩; rw [hrun2, hst2]; rfl
  · right; refine ⟨_, by rw [hrun2, hst2]; rfl, by simp⟩
  rw [hq]
  dsimp only
  unfold rsBaseDone at hst2
  dsimp only at hst2
  have hric : s1.ricnt = ric := by rw [← hs1]
  have hid : s1.streamId = id := by rw [← hs1]; rfl
  rw [hric] at hst2
  generalize hsg : decide (b.toNat / 128 = 1) = sg at hst2 ⊢
  unfold Rfc9204.baseOf
  have hmain : ∀ base, (if sg = true then ric - d - 1 else ric + d) = base → ¬ (sg && decide (ric ≤ d)) = true →
      if c.next < ric then ∃ s', Waits id ric base s' ∧ Machine.run (rsM c) (fun p => p.1.state.rank) (s1, acc) (b :: t) false = .stop (.blocked s' acc) body
      else ∃ s', AtLines id ric base s' ∧ Machine.run (rsM c) (fun p => p.1.state.rank) (s1, acc) (b :: t) false = rsRun c (s', acc) body false := by
    intro base hb hn
    rw [if_neg hn, hb] at hst2
    by_cases hlt : c.next < ric
    · rw [if_pos hlt] at hst2 ⊢
      refine ⟨_, ?_, by rw [hrun2, hst2]; rfl⟩
      exact ⟨rfl, rfl, rfl, hid⟩
    · rw [if_neg hlt] at hst2 ⊢
      generalize hs2 : ({ s1 with sign := sg, base := base, ricnt := ric, state := .opcode, rs := { s1.rs with left := 0, pfx := 7, shift := 0 } } : SCtx) = s2
      have hst3 : rsStep c s1 (b :: t) = .cont s2 body false := by rw [hst2, ← hs2]
      have hm2 : rsM c (s1, acc) (b :: t) = .cont (s2, acc) body false := by unfold rsM; dsimp only; rw [hst3]; rfl
      obtain ⟨v1, _, v3⟩ := Machine.run_cont (rsM_good hc) (s := (s1, acc)) w1 (b := false) (by simp) (by simp) hm2
      refine ⟨s2, ⟨by rw [← hs2], by rw [← hs2], by rw [← hs2], by rw [← hs2]; exact hid, v1⟩, v3⟩
  cases sg with
  | false =>
    rw [if_neg (by simp)]
    exact hmain _ (by simp) (by simp)
  | true =>
    rw [if_pos rfl]
    by_cases hd : d < ric
    · rw [if_pos hd]
      exact hmain _ (by simp) (by simp; omega)
    · rw [if_neg hd]
      dsimp only
      rw [if_pos (by simp; omega)] at hst2
      rw [hrun2, hst2]; rfl

/-- a section that waited -/
theorem rs_resume {c : Ctx} (hc : CtxOk c) {id ric base : Nat} {s : SCtx} (h : Waits id ric base s) (acc : List QNv) (x : Bytes) (hx : x ≠ []) :
    if c.next < ric then rsRun c (s, acc) x false = .stop (.blocked s acc) x
    else ∃ s', AtLines id ric base s' ∧ rsRun c (s, acc) x false = rsRun c (s', acc) x false := by
  have hw : SWF s := by unfold SWF; rw [h.state]; trivial
  have hst : rsStep c s x = if c.next < ric then .blocked s x else .cont { s with state := .opcode, rs := s.rs.reset } x false := by
    unfold rsStep; rw [h.state, h.ricnt]
  have hrun := rs_run_eq hc hw acc (x := x) (b := false) (by simp) (by simp [hx])
  split_ifs at hst ⊢ with hlt
  · rw [hrun, hst]; rfl
  · have hm : rsM c (s, acc) x = .cont ({ s with state := .opcode, rs := s.rs.reset }, acc) x false := by unfold rsM; dsimp only; rw [hst]; rfl
    obtain ⟨v1, _, v3⟩ := Machine.run_cont (rsM_good hc) (s := (s, acc)) hw (b := false) (by simp) (by simp [hx]) hm
    refine ⟨{ s with state := .opcode, rs := s.rs.reset }, ?_, v3⟩
    exact ⟨rfl, h.ricnt, h.base, h.id, v1⟩

end Qpack
end Nghttp3
