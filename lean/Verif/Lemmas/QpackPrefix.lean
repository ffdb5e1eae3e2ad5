import Verif.Lemmas.QpackCov
/-! Reading a field section that arrives in pieces while the dynamic table grows. -/
namespace Nghttp3
namespace Qpack

/-- RFC 9204, section 4.5.1.1: the Required Insert Count is recovered if it is within MaxEntries of the insert count -/
theorem reconstruct_exact {c : Ctx} {R : Nat} (hR : R ≠ 0) (h1 : R ≤ c.next + c.hardMax / 32) (h2 : c.next < R + c.hardMax / 32) :
    reconstructRicnt c (R % (2 * (c.hardMax / 32)) + 1) = some R := by
  unfold reconstructRicnt
  dsimp only
  generalize c.hardMax / 32 = M at h1 h2 ⊢
  have hM : 0 < 2 * M := by omega
  have hlt := Nat.mod_lt R hM
  rw [if_neg (by omega), if_neg (by omega)]
  have e1 := Nat.div_add_mod R (2 * M)
  have e2 := Nat.div_add_mod (c.next + M) (2 * M)
  have hlt2 := Nat.mod_lt (c.next + M) hM
  have q1 : R / (2 * M) ≤ (c.next + M) / (2 * M) := Nat.div_le_div_right h1
  have q2 : (c.next + M) / (2 * M) ≤ R / (2 * M) + 1 := by
    have : (c.next + M) / (2 * M) ≤ (R + 2 * M) / (2 * M) := Nat.div_le_div_right (by omega)
    rwa [Nat.add_div_right _ hM] at this
  generalize R / (2 * M) = q at *
  generalize (c.next + M) / (2 * M) = w at *
  rw [Nat.mul_comm w]
  rcases Nat.lt_or_ge q w with h | h
  · have : w = q + 1 := by omega
    subst this
    rw [Nat.mul_add, Nat.mul_one] at e2 ⊢
    rw [if_pos (by omega), if_neg (by omega), if_neg (by omega)]
    congr 1; omega
  · have : w = q := by omega
    subst this
    rw [if_neg (by omega), if_neg (by omega)]
    congr 1

/-- an integer of which a piece arrives -/
theorem int_seg {pfx left shift v sh : Nat} {r1 : Bytes} (hp : 0 < pfx) (hs : left = 0 → shift = 0)
    (h : QInt.readInt pfx left shift r1 = .done v sh []) (x y tail : Bytes) (hxy : x ++ y = r1 ++ tail) (hx : x ≠ []) (hr : r1 ≠ []) :
    (∃ l s q, QInt.readInt pfx left shift x = .part l s ∧ q ≠ [] ∧ y = q ++ tail ∧ QInt.readInt pfx l s q = .done v sh [] ∧ 0 < l) ∨
    (∃ x', QInt.readInt pfx left shift x = .done v sh x' ∧ x' ++ y = tail) := by
  rcases List.append_eq_append_iff.1 hxy with ⟨a, h1, h2⟩ | ⟨a, h1, h2⟩
  · by_cases ha : a = []
    · subst ha
      rw [List.append_nil] at h1
      subst h1
      exact Or.inr ⟨[], h, by rw [h2]; rfl⟩
    · left
      rw [h1, QInt.readInt_append _ _ _ hp _ _ hx hs] at h
      rcases hq : QInt.readInt pfx left shift x with _ | _ | ⟨l, s⟩ | ⟨l, s, rest⟩ <;> rw [hq] at h
      · cases h
      · cases h
      · dsimp only at h
        rw [if_neg ha] at h
        exact ⟨l, s, a, rfl, ha, h2, h, QInt.readInt_part_pos hp hq⟩
      · dsimp only at h
        injection h with _ _ h
        exact absurd (List.append_eq_nil_iff.1 h).2 ha
  · right
    refine ⟨a, ?_, h2.symm⟩
    rw [h1, QInt.readInt_append _ _ _ hp _ _ hr hs, h]
    rfl

/-- Encoded Required Insert Count -/
def encRic (H R : Nat) : Nat := if R = 0 then 0 else R % (2 * (H / 32)) + 1

/-- Delta Base -/
def deltaBase (R base : Nat) : Nat := if base < R then R - base - 1 else base - R

def baseBytes (R base : Nat) : Bytes := QInt.put (if base < R then 0x80 else 0) (deltaBase R base) 7

/-- where the decoder is in a field section: the stream context, what was handed out, what is still to be read -/
inductive SecAt (cs : Ctx) (H id R base : Nat) (rb : Bytes) (out : List QNv) : SCtx → List QNv → Bytes → Prop
  | ric (s : SCtx) (r1 : Bytes) (sh : Nat) (hid : s.streamId = id) (hs : s.state = .ricnt) (hg : s.sign = false) (hp : s.rs.pfx = 8)
      (h0 : s.rs.left = 0 → s.rs.shift = 0) (hr : r1 ≠ []) (h : QInt.readInt 8 s.rs.left s.rs.shift r1 = .done (encRic H R) sh []) :
      SecAt cs H id R base rb out s [] (r1 ++ (baseBytes R base ++ rb))
  | sign (s : SCtx) (hid : s.streamId = id) (hs : s.state = .dbaseSign) (hg : s.sign = false) (hR : s.ricnt = R) :
      SecAt cs H id R base rb out s [] (baseBytes R base ++ rb)
  | base (s : SCtx) (r2 : Bytes) (sh : Nat) (hid : s.streamId = id) (hs : s.state = .dbase) (hR : s.ricnt = R) (hg : s.sign = decide (base < R)) (hp : s.rs.pfx = 7)
      (h0 : s.rs.left = 0 → s.rs.shift = 0) (hr : r2 ≠ []) (h : QInt.readInt 7 s.rs.left s.rs.shift r2 = .done (deltaBase R base) sh []) :
      SecAt cs H id R base rb out s [] (r2 ++ rb)
  | blocked (s : SCtx) (hid : s.streamId = id) (hs : s.state = .blocked) (hR : s.ricnt = R) (hb : s.base = base) :
      SecAt cs H id R base rb out s [] rb
  | post (s : SCtx) (acc : List QNv) (rem : Bytes) (sF : SCtx) (hp : s.Post) (hw : SWF s) (hi : Idle s)
      (h : rsRun cs (s, acc) rem false = .ok (sF, out)) (hs : sF.state = .opcode) (hR : sF.ricnt = R) (hid : sF.streamId = id) :
      SecAt cs H id R base rb out s acc rem

theorem SecAt.wf {cs : Ctx} {H id R base : Nat} {rb : Bytes} {out : List QNv} {s : SCtx} {acc : List QNv} {rem : Bytes}
    (h : SecAt cs H id R base rb out s acc rem) : SWF s ∧ Idle s := by
  cases h with
  | ric r1 sh hid hs hg hp h0 hr h =>
    refine ⟨?_, fun h => ?_⟩
    · unfold SWF; rw [hs]; exact ⟨by omega, by omega, h0⟩
    · rw [hs] at h; cases h
  | sign hid hs hg hR =>
    refine ⟨?_, fun h => ?_⟩
    · unfold SWF; rw [hs]; trivial
    · rw [hs] at h; cases h
  | base r2 sh hid hs hR hg hp h0 hr h =>
    refine ⟨?_, fun h => ?_⟩
    · unfold SWF; rw [hs]; exact ⟨by omega, by omega, h0⟩
    · rw [hs] at h; cases h
  | blocked hid hs hR hb =>
    refine ⟨?_, fun h => ?_⟩
    · unfold SWF; rw [hs]; trivial
    · rw [hs] at h; cases h
  | post _ _ sF hp hw hi h hs hR hid => exact ⟨hw, hi⟩

/-- what reading the piece `x` does, `y` being the rest of the section -/
def Adv (cs : Ctx) (H id R base : Nat) (rb : Bytes) (out : List QNv) (c : Ctx) (s : SCtx) (acc : List QNv) (x y : Bytes) : Prop :=
  (∃ s' acc', rsRun c (s, acc) x false = .ok (s', acc') ∧ SecAt cs H id R base rb out s' acc' y ∧
    (y = [] → s'.state = .opcode ∧ s'.ricnt = R ∧ s'.streamId = id ∧ acc' = out) ∧ (s'.Post → R ≤ c.next) ∧ (s'.state = .blocked → R ≠ 0)) ∨
  (∃ s' rest, rsRun c (s, acc) x false = .stop (.blocked s' []) rest ∧ acc = [] ∧ c.next < R ∧ s'.state = .blocked ∧ SecAt cs H id R base rb out s' [] (rest ++ y))

/-- the field lines of the section decode, from any state at the start of a field line, against `cs` -/
def Decodes (cs : Ctx) (id R base : Nat) (rb : Bytes) (out : List QNv) : Prop :=
  ∀ s : SCtx, SWF s → s.state = .opcode → s.ricnt = R → s.base = base → s.streamId = id →
    ∃ sF, rsRun cs (s, []) rb false = .ok (sF, out) ∧ sF.state = .opcode ∧ sF.ricnt = R ∧ sF.streamId = id

theorem Adv.step {cs : Ctx} {H id R base : Nat} {rb : Bytes} {out : List QNv} {c : Ctx} (hc : CtxOk c) {s s1 : SCtx} {acc : List QNv} {x x1 y : Bytes}
    (hw : SWF s) (hx : x ≠ []) (h : rsM c (s, acc) x = .cont (s1, acc) x1 false) (ha : Adv cs H id R base rb out c s1 acc x1 y) :
    Adv cs H id R base rb out c s acc x y := by
  obtain ⟨_, _, h3⟩ := Machine.run_cont (rsM_good hc) (s := (s, acc)) hw (b := false) (by simp) (by simp [hx]) h
  unfold Adv rsRun at ha ⊢
  rw [h3]; exact ha

theorem run_nil {c : Ctx} (hc : CtxOk c) {s : SCtx} {acc : List QNv} (hw : SWF s) : rsRun c (s, acc) [] false = .ok (s, acc) := by
  rw [rsRun, Machine.run_eq (rsM_good hc) hw (by simp), if_pos ⟨rfl, rfl⟩]

theorem not_post {s : SCtx} {st : RSt} (h : s.state = st) (hs : st = .ricnt ∨ st = .dbaseSign ∨ st = .dbase ∨ st = .blocked) : ¬ s.Post := by
  rintro (h1 | h1 | ⟨ph, h1⟩) <;> rw [h] at h1 <;> subst h1 <;> simp at hs

theorem adv_post {cs : Ctx} {H id R base : Nat} {rb : Bytes} {out : List QNv} {c : Ctx} (hcs : CtxOk cs) (hcov : Cov cs c) (hn : R ≤ c.next) {s sF : SCtx} {acc : List QNv} {x y : Bytes}
    (hp : s.Post) (hw : SWF s) (hi : Idle s) (h : rsRun cs (s, acc) (x ++ y) false = .ok (sF, out)) (hs : sF.state = .opcode) (hR : sF.ricnt = R) (hid : sF.streamId = id) :
    Adv cs H id R base rb out c s acc x y := by
  rw [rsRun, Machine.run_append (rsM_good hcs) _ _ _ _ hw (by simp)] at h
  rcases hr : Machine.run (rsM cs) (fun p => p.1.state.rank) (s, acc) x false with _ | o | ⟨o, rest⟩ | ⟨s', acc'⟩ <;> rw [hr] at h
  · cases h
  · cases h
  · cases h
  · dsimp only at h
    obtain ⟨g1, g2⟩ := hcov.run hcs hp hr
    have hs := Machine.loop_safe (rsM_good hcs) (8 * x.length + s.state.rank + 1) (s, acc) x false hw (by simp) (Nat.lt_succ_self _)
    have hw' : SWF s' := hs.2 _ hr
    have hi' : Idle s' := rsRun_idle _ _ _ _ (Or.inl hi) _ hr
    left
    refine ⟨s', acc', g1, ?_, ?_, fun _ => hn, ?_⟩
    rotate_left 2
    · intro hb
      rcases g2 with h1 | h1 | ⟨ph, h1⟩ <;> rw [hb] at h1 <;> cases h1
    · refine .post s' acc' y sF g2 hw' hi' ?_ (by assumption) hR hid
      split_ifs at h with hy
      · subst hy
        rw [← h]
        exact run_nil hcs hw'
      · exact h
    · intro hy
      rw [if_pos hy] at h
      cases h
      exact ⟨by assumption, hR, hid, rfl⟩

/-- past Base, the table being recent enough -/
theorem adv_lines {cs : Ctx} {H id R base : Nat} {rb : Bytes} {out : List QNv} {c : Ctx} (hcs : CtxOk cs) (hcov : Cov cs c) (hn : R ≤ c.next) (hd : Decodes cs id R base rb out) {s : SCtx} {x y : Bytes}
    (hw : SWF s) (hs : s.state = .opcode) (hR : s.ricnt = R) (hb : s.base = base) (hid : s.streamId = id) (hxy : x ++ y = rb) :
    Adv cs H id R base rb out c s [] x y := by
  obtain ⟨sF, h1, h2, h3, h4⟩ := hd s hw hs hR hb hid
  refine adv_post hcs hcov hn (Or.inl hs) hw (fun h => ?_) (by rw [hxy]; exact h1) h2 h3 h4
  rw [hs] at h; cases h

theorem adv_blocked {cs : Ctx} {H id R base : Nat} {rb : Bytes} {out : List QNv} {c : Ctx} (hc : CtxOk c) (hcs : CtxOk cs) (hcov : R ≤ c.next → Cov cs c) (hd : Decodes cs id R base rb out)
    (hne : R ≠ 0 → rb ≠ []) (hR0 : R ≠ 0) {s : SCtx} {x y : Bytes}
    (hid : s.streamId = id) (hs : s.state = .blocked) (hR : s.ricnt = R) (hb : s.base = base) (hxy : x ++ y = rb) :
    Adv cs H id R base rb out c s [] x y := by
  have hw : SWF s := by unfold SWF; rw [hs]; trivial
  by_cases hx : x = []
  · subst hx
    left
    refine ⟨s, [], run_nil hc hw, ?_, ?_, fun hp => absurd hp (not_post hs (by simp)), fun _ => hR0⟩
    · rw [List.nil_append] at hxy
      rw [hxy]; exact .blocked s hid hs hR hb
    · intro hy
      subst hy
      exact absurd hxy.symm (hne hR0)
  · by_cases hn : c.next < R
    · right
      refine ⟨s, x, ?_, rfl, hn, hs, ?_⟩
      · rw [rsRun, Machine.run_eq (rsM_good hc) hw (by simp), if_neg (by simp [hx])]
        unfold rsM rsStep
        dsimp only
        rw [hs]
        dsimp only
        rw [hR, if_pos hn]; rfl
      · rw [hxy]; exact .blocked s hid hs hR hb
    · refine Adv.step hc hw hx (s1 := { s with state := .opcode, rs := s.rs.reset }) (x1 := x) ?_ (adv_lines hcs (hcov (by omega)) (by omega) hd ⟨rfl, rfl⟩ rfl hR hb hid hxy)
      unfold rsM rsStep
      dsimp only
      rw [hs]
      dsimp only
      rw [hR, if_neg hn]; rfl

theorem adv_baseDone {cs : Ctx} {H id R base : Nat} {rb : Bytes} {out : List QNv} {c : Ctx} (hc : CtxOk c) (hcs : CtxOk cs) (hcov : R ≤ c.next → Cov cs c) (hd : Decodes cs id R base rb out)
    {s s0 : SCtx} {x x1 y : Bytes}
    (hw : SWF s) (hx : x ≠ []) (hid : s0.streamId = id) (hR : s0.ricnt = R) (hg : s0.sign = decide (base < R)) (hl : s0.rs.left = deltaBase R base)
    (hstep : rsStep c s x = rsBaseDone c s0 x1) (hxy : x1 ++ y = rb) : Adv cs H id R base rb out c s [] x y := by
  have hbase : (if s0.sign then s0.ricnt - s0.rs.left - 1 else s0.ricnt + s0.rs.left) = base ∧ ¬ (s0.sign && decide (s0.ricnt ≤ s0.rs.left)) = true := by
    rw [hg, hR, hl]
    unfold deltaBase
    by_cases h : base < R
    · simp [h]; omega
    · simp [h]; omega
  unfold rsBaseDone at hstep
  dsimp only at hstep
  rw [if_neg hbase.2, hbase.1, hR] at hstep
  by_cases hn : c.next < R
  · rw [if_pos hn] at hstep
    right
    refine ⟨{ s0 with ricnt := R, base := base, state := .blocked }, x1, ?_, rfl, hn, ?_, ?_⟩
    · rw [rsRun, Machine.run_eq (rsM_good hc) hw (by simp), if_neg (by simp [hx])]
      unfold rsM
      dsimp only
      rw [hstep]; rfl
    · rfl
    · rw [hxy]; exact .blocked _ hid rfl rfl rfl
  · rw [if_neg hn] at hstep
    refine Adv.step hc hw hx (s1 := { s0 with base := base, ricnt := R, state := .opcode, rs := { s0.rs with left := 0, shift := 0 } }) (x1 := x1) ?_
      (adv_lines hcs (hcov (by omega)) (by omega) hd ⟨rfl, rfl⟩ rfl rfl rfl hid hxy)
    unfold rsM
    dsimp only
    rw [hstep]; rfl

theorem adv_base {cs : Ctx} {H id R base : Nat} {rb : Bytes} {out : List QNv} {c : Ctx} (hc : CtxOk c) (hcs : CtxOk cs) (hcov : R ≤ c.next → Cov cs c) (hd : Decodes cs id R base rb out)
    {s s0 : SCtx} {x y r2 : Bytes} {sh : Nat} (hw : SWF s) (hx : x ≠ []) (hid : s0.streamId = id) (hs : s0.state = .dbase) (hR : s0.ricnt = R) (hg : s0.sign = decide (base < R)) (hp : s0.rs.pfx = 7)
    (h0 : s0.rs.left = 0 → s0.rs.shift = 0) (hr : r2 ≠ []) (h : QInt.readInt 7 s0.rs.left s0.rs.shift r2 = .done (deltaBase R base) sh [])
    (hstep : rsStep c s x = rsBase c s0 x) (hxy : x ++ y = r2 ++ rb) : Adv cs H id R base rb out c s [] x y := by
  unfold rsBase at hstep
  rw [hp] at hstep
  rcases int_seg (by omega) h0 h x y rb hxy hx hr with ⟨l, sh', q, g1, g2, g3, g4, g5⟩ | ⟨x', g1, g2⟩
  · rw [g1] at hstep
    dsimp only at hstep
    left
    refine ⟨{ s0 with rs := { s0.rs with left := l, shift := sh' } }, [], ?_, ?_, ?_, fun hp => absurd hp (not_post (s := { s0 with rs := { s0.rs with left := l, shift := sh' } }) hs (by simp)),
      fun hb => (by have hb : s0.state = .blocked := hb
                    rw [hs] at hb; cases hb)⟩
    · rw [rsRun, Machine.run_eq (rsM_good hc) hw (by simp), if_neg (by simp [hx])]
      unfold rsM
      dsimp only
      rw [hstep]; simp [hp]; rfl
    · rw [g3]
      exact .base _ q sh hid hs hR hg hp (by dsimp only; omega) g2 g4
    · intro hy
      rw [hy] at g3
      exact absurd (List.append_eq_nil_iff.1 g3.symm).1 g2
  · rw [g1] at hstep
    exact adv_baseDone (s0 := { s0 with rs := { s0.rs with left := deltaBase R base, shift := sh } }) hc hcs hcov hd hw hx hid hR hg rfl hstep g2

theorem adv_sign {cs : Ctx} {H id R base : Nat} {rb : Bytes} {out : List QNv} {c : Ctx} (hc : CtxOk c) (hcs : CtxOk cs) (hcov : R ≤ c.next → Cov cs c) (hd : Decodes cs id R base rb out)
    (hmax : deltaBase R base ≤ QInt.INT_MAX)
    {s : SCtx} {x y : Bytes} (hid : s.streamId = id) (hs : s.state = .dbaseSign) (hg : s.sign = false) (hR : s.ricnt = R) (hxy : x ++ y = baseBytes R base ++ rb) :
    Adv cs H id R base rb out c s [] x y := by
  have hw : SWF s := by unfold SWF; rw [hs]; trivial
  obtain ⟨b, t, e1, e2⟩ := QInt.put_cons (if base < R then 0x80 else 0) (deltaBase R base) (pfx := 7) (by omega)
  have e1' : baseBytes R base = b :: t := e1
  match x, hxy with
  | [], hxy =>
    left
    refine ⟨s, [], run_nil hc hw, ?_, ?_, fun hp => absurd hp (not_post hs (by simp)), fun hb => (by rw [hs] at hb; cases hb)⟩
    · rw [List.nil_append] at hxy
      rw [hxy]; exact .sign s hid hs hg hR
    · intro hy
      rw [hy, e1'] at hxy; cases hxy
  | b' :: x, hxy =>
    have hb : b' = b := by rw [e1'] at hxy; simp at hxy; exact hxy.1
    subst hb
    have hbit : decide (b'.toNat &&& 0x80 ≠ 0) = decide (base < R) := by
      have := QInt.and80 b'.toNat_lt
      have h7 : (2 : Nat) ^ 7 = 128 := rfl
      by_cases h : base < R
      · rw [if_pos h] at e2
        have : (0x80 : UInt8).toNat / 2 ^ 7 = 1 := rfl
        simp [h]; omega
      · rw [if_neg h] at e2
        have : (0 : UInt8).toNat / 2 ^ 7 = 0 := rfl
        simp [h]; omega
    obtain ⟨sh, h⟩ := QInt.readInt_put (if base < R then 0x80 else 0) (n := deltaBase R base) (pfx := 7) (by omega) hmax []
    rw [List.append_nil] at h
    refine adv_base (s0 := { s with sign := s.sign || decide (b'.toNat &&& 0x80 ≠ 0), state := .dbase, rs := { s.rs with left := 0, pfx := 7, shift := 0 } })
      hc hcs hcov hd hw (by simp) hid rfl hR ?_ rfl (fun _ => rfl) (r2 := baseBytes R base) (by rw [e1']; simp) h ?_ hxy
    · dsimp only; rw [hg, hbit]; rfl
    · unfold rsStep
      rw [hs]

theorem SecAt.adv {cs : Ctx} {H id R base : Nat} {rb : Bytes} {out : List QNv} {c : Ctx} (hc : CtxOk c) (hcs : CtxOk cs) (hcov : R ≤ c.next → Cov cs c) (hd : Decodes cs id R base rb out)
    (hmax : deltaBase R base ≤ QInt.INT_MAX) (hne : R ≠ 0 → rb ≠ [])
    {s : SCtx} {acc : List QNv} {x y : Bytes} (h : SecAt cs H id R base rb out s acc (x ++ y))
    (hric : s.state = .ricnt → reconstructRicnt c (encRic H R) = some R) (hpost : s.Post → R ≤ c.next) (hblk : s.state = .blocked → R ≠ 0) :
    Adv cs H id R base rb out c s acc x y := by
  generalize hz : x ++ y = z at h
  cases h with
  | ric r1 sh hid hs hg hp h0 hr h =>
    have hw : SWF s := by unfold SWF; rw [hs]; exact ⟨by omega, by omega, h0⟩
    by_cases hx : x = []
    · subst hx
      left
      refine ⟨s, [], run_nil hc hw, ?_, ?_, fun hp => absurd hp (not_post hs (by simp)), fun hb => (by rw [hs] at hb; cases hb)⟩
      · rw [List.nil_append] at hz
        rw [hz]; exact .ric s r1 sh hid hs hg hp h0 hr h
      · intro hy
        rw [hy] at hz
        exact absurd (List.append_eq_nil_iff.1 hz.symm).1 hr
    · rcases int_seg (by omega) h0 h x y _ hz hx hr with ⟨l, sh', q, g1, g2, g3, g4, g5⟩ | ⟨x', g1, g2⟩
      · left
        refine ⟨{ s with rs := { s.rs with left := l, shift := sh' } }, [], ?_, ?_, ?_, fun hp => absurd hp (not_post (s := { s with rs := { s.rs with left := l, shift := sh' } }) hs (by simp)),
          fun hb => (by have hb : s.state = .blocked := hb
                        rw [hs] at hb; cases hb)⟩
        · rw [rsRun, Machine.run_eq (rsM_good hc) hw (by simp), if_neg (by simp [hx])]
          unfold rsM rsStep
          dsimp only
          rw [hs]
          dsimp only
          rw [hp, g1]; rfl
        · rw [g3]
          exact .ric _ q sh hid hs hg hp (by dsimp only; omega) g2 g4
        · intro hy
          rw [hy] at g3
          exact absurd (List.append_eq_nil_iff.1 g3.symm).1 g2
      · refine Adv.step hc hw hx (s1 := { s with rs := { s.rs with left := encRic H R, shift := sh }, ricnt := R, state := .dbaseSign }) (x1 := x') ?_
          (adv_sign hc hcs hcov hd hmax hid rfl hg rfl g2)
        unfold rsM rsStep
        dsimp only
        rw [hs]
        dsimp only
        rw [hp, g1]
        dsimp only
        rw [hric hs]; rfl
  | sign hid hs hg hR => exact adv_sign hc hcs hcov hd hmax hid hs hg hR hz
  | base r2 sh hid hs hR hg hp h0 hr h =>
    have hw : SWF s := by unfold SWF; rw [hs]; exact ⟨by omega, by omega, h0⟩
    by_cases hx : x = []
    · subst hx
      left
      refine ⟨s, [], run_nil hc hw, ?_, ?_, fun hp => absurd hp (not_post hs (by simp)), fun hb => (by rw [hs] at hb; cases hb)⟩
      · rw [List.nil_append] at hz
        rw [hz]; exact .base s r2 sh hid hs hR hg hp h0 hr h
      · intro hy
        rw [hy] at hz
        exact absurd (List.append_eq_nil_iff.1 hz.symm).1 hr
    · refine adv_base (s0 := s) hc hcs hcov hd hw hx hid hs hR hg hp h0 hr h ?_ hz
      unfold rsStep
      rw [hs]
  | blocked hid hs hR hb => exact adv_blocked hc hcs hcov hd hne (hblk hs) hid hs hR hb hz
  | post _ _ sF hp hw hi h hs hR hid =>
    subst hz
    exact adv_post hcs (hcov (hpost hp)) (hpost hp) hp hw hi h hs hR hid

end Qpack
end Nghttp3
