import Verif.Lemmas.QpackEncApi
import Verif.Lemmas.Machine
/-! Reading the decoder stream: bytes, instructions, chunks. -/
namespace Nghttp3
namespace Qpack

/-- the reader between two calls -/
structure DsWF (e : Enc) : Prop where
  inv : EInv e
  rd : e.reading = true → 0 < e.rs.pfx ∧ e.rs.pfx ≤ 8 ∧ 0 < e.rs.left
  idle : e.reading = false → e.rs.left = 0 ∧ e.rs.shift = 0

theorem EInv.withRs {e : Enc} (h : EInv e) (rs : RState) (rd : Bool) (op : DOpc) (u : Nat) :
    EInv { e with rs := rs, reading := rd, dop := op, uninterrupted := u } :=
  ⟨h.ctx, h.hsz, h.ids, h.ne, h.refs, h.mins, h.bnd, h.blk, h.kr, h.cap⟩

theorem apply_ok {e : Enc} (h : EInv e) (op : DOpc) (n : Nat) : e.apply op n = .fail ∨ ∃ e', e.apply op n = .ok e' ∧ EInv e' := by
  cases op with
  | icnt =>
    rcases addIcnt_ok h n with h1 | ⟨e', h1, _, _, h2, _⟩
    · exact Or.inl h1.1
    · exact Or.inr ⟨e', h1, h2⟩
  | ack =>
    rcases ackHeader_ok h n with h1 | ⟨r, rest, e', _, h1, h2, _⟩
    · exact Or.inl h1.2
    · exact Or.inr ⟨e', h1, h2⟩
  | cancel =>
    obtain ⟨e', h1, h2, _⟩ := cancelStream_ok h n
    exact Or.inr ⟨e', h1, h2⟩

def DStep.view : DStep → Machine.Res Enc Unit
  | .crash => .crash
  | .fail => .fail ()
  | .part e => .ret e
  | .cont e rest => .cont e rest false

def dsM (e : Enc) (x : Bytes) : Machine.Res Enc Unit := (dsStep e x).view

def DOut.view : DOut → Machine.Out Enc Unit
  | .crash => .crash
  | .fail => .fail ()
  | .ok e => .ok e

theorem dsNumber_good {e : Enc} (hi : EInv e) (hr : e.reading = true) (hp : 0 < e.rs.pfx ∧ e.rs.pfx ≤ 8)
    (hs : e.rs.left = 0 → e.rs.shift = 0) (x : Bytes) (hx : x ≠ []) :
    match dsNumber e x with
    | .crash => False
    | .fail => ∀ y, dsNumber e (x ++ y) = .fail
    | .part e' => DsWF e' ∧ e'.reading = true ∧ ∀ y, y ≠ [] → dsNumber e (x ++ y) = dsNumber e' y
    | .cont e' rest => DsWF e' ∧ rest.length < x.length ∧ ∀ y, dsNumber e (x ++ y) = .cont e' (rest ++ y) := by
  have happ := fun y => QInt.readInt_append e.rs.pfx e.rs.left e.rs.shift hp.1 x y hx hs
  unfold dsNumber
  rcases hq : QInt.readInt e.rs.pfx e.rs.left e.rs.shift x with _ | _ | ⟨l, s⟩ | ⟨l, s, rest⟩ <;> rw [hq] at happ <;> dsimp only at happ ⊢
  · unfold QInt.readInt at hq
    split_ifs at hq with h0
    · match x, hx with
      | b :: t, _ =>
        dsimp only at hq
        split_ifs at hq
        match t with
        | [] => cases hq
        | c :: u =>
          dsimp only at hq
          exact absurd hq (by
            have : ∀ (z : List UInt8) n sh, QInt.readLoop n sh z ≠ .oob := by
              intro z
              induction z with
              | nil => intro n sh; simp [QInt.readLoop]
              | cons b t ih => intro n sh; rw [QInt.readLoop_cons]; split_ifs <;> simp [ih]
            exact this _ _ _)
    · exact absurd hq (by
        have : ∀ (z : List UInt8) n sh, QInt.readLoop n sh z ≠ .oob := by
          intro z
          induction z with
          | nil => intro n sh; simp [QInt.readLoop]
          | cons b t ih => intro n sh; rw [QInt.readLoop_cons]; split_ifs <;> simp [ih]
        exact this _ _ _)
  · intro y; rw [happ y]
  · have hl := QInt.readInt_part_pos hp.1 hq
    refine ⟨⟨hi.withRs _ _ _ _, fun _ => ⟨hp.1, hp.2, hl⟩, fun (h : e.reading = false) => by rw [hr] at h; cases h⟩, hr, ?_⟩
    intro y hy
    rw [happ y, if_neg hy]
  · have hlen := QInt.readInt_length hq
    rcases apply_ok (e := { e with rs := { e.rs with left := l, shift := s } }) (hi.withRs _ _ _ _) e.dop l with h1 | ⟨e', h1, h2⟩
    · rw [h1]
      dsimp only
      intro y; rw [happ y]
      dsimp only
      rw [h1]
    · rw [h1]
      dsimp only
      refine ⟨⟨h2.withRs _ _ _ _, (fun h => by cases h), fun _ => ⟨rfl, rfl⟩⟩, hlen, ?_⟩
      intro y; rw [happ y]
      dsimp only
      rw [h1]

theorem dsOpcode_ok {e : Enc} (h : EInv e) (b : UInt8) : EInv (dsOpcode e b) ∧ (dsOpcode e b).reading = true ∧
    0 < (dsOpcode e b).rs.pfx ∧ (dsOpcode e b).rs.pfx ≤ 8 ∧ (dsOpcode e b).rs.left = e.rs.left ∧ (dsOpcode e b).rs.shift = e.rs.shift := by
  unfold dsOpcode
  split_ifs <;> exact ⟨h.withRs _ _ _ _, rfl, by simp, by simp, rfl, rfl⟩

theorem dsM_good : Machine.Good dsM DsWF (fun _ => false) (fun _ => 0) := by
  constructor
  intro e x hw hx
  have hx : x ≠ [] := by rcases hx with h | h; exact h; cases h
  unfold dsM dsStep
  cases hr : e.reading with
  | true =>
    simp only [if_true]
    have hq := dsNumber_good hw.inv hr ⟨(hw.rd hr).1, (hw.rd hr).2.1⟩ (fun h => by have := (hw.rd hr).2.2; omega) x hx
    rcases hd : dsNumber e x with _ | _ | e' | ⟨e', rest⟩ <;> rw [hd] at hq <;> dsimp only [DStep.view] at hq ⊢
    · intro y; rw [hq y]
    · refine ⟨hq.1, fun y hy => ?_⟩
      rw [hq.2.2 y hy]
      simp [hq.2.1]
    · refine ⟨hq.1, by simp, by omega, fun y => ?_⟩
      rw [hq.2.2 y]
  | false =>
    simp only [Bool.false_eq_true, if_false]
    match x, hx with
    | b :: t, _ =>
      dsimp only [List.cons_append]
      obtain ⟨g1, g2, g3, g4, g5, g6⟩ := dsOpcode_ok hw.inv b
      have hq := dsNumber_good g1 g2 ⟨g3, g4⟩ (fun _ => by rw [g6]; exact (hw.idle hr).2) (b :: t) (by simp)
      rcases hd : dsNumber (dsOpcode e b) (b :: t) with _ | _ | e' | ⟨e', rest⟩ <;> rw [hd] at hq <;> dsimp only [DStep.view] at hq ⊢
      · intro y; rw [show b :: (t ++ y) = (b :: t) ++ y from rfl, hq y]
      · refine ⟨hq.1, fun y hy => ?_⟩
        rw [show b :: (t ++ y) = (b :: t) ++ y from rfl, hq.2.2 y hy]
        simp [hq.2.1]
      · refine ⟨hq.1, by simp, by omega, fun y => ?_⟩
        rw [show b :: (t ++ y) = (b :: t) ++ y from rfl, hq.2.2 y]

theorem dsLoop_run (f : Nat) (e : Enc) (x : Bytes) (hw : DsWF e) (hf : x.length ≤ f) :
    (dsLoop f e x).view = Machine.run dsM (fun _ => 0) e x false := by
  induction f generalizing e x with
  | zero =>
    have : x = [] := List.eq_nil_of_length_eq_zero (by omega)
    subst this
    rw [Machine.run_eq dsM_good hw (by simp)]
    simp [dsLoop, DOut.view]
  | succ f ih =>
    rw [Machine.run_eq dsM_good hw (by simp)]
    unfold dsLoop
    by_cases hx : x = []
    · simp [hx, DOut.view]
    · simp only [hx, if_false, false_and]
      have hg := dsM_good.step e x hw (Or.inl hx)
      unfold dsM at hg ⊢
      rcases hd : dsStep e x with _ | _ | e' | ⟨e', rest⟩ <;> rw [hd] at hg <;> dsimp only [DStep.view, DOut.view] at hg ⊢
      exact ih e' rest hg.1 (by omega)

/-- a call of the reader in any reachable state -/
theorem dsLoop_append {e : Enc} (hw : DsWF e) (x y : Bytes) :
    dsLoop (x ++ y).length e (x ++ y) = match dsLoop x.length e x with
      | .crash => .crash
      | .fail => .fail
      | .ok e' => dsLoop y.length e' y := by
  have inj : ∀ a b : DOut, a.view = b.view → a = b := by
    intro a b h; cases a <;> cases b <;> simp_all [DOut.view]
  apply inj
  rw [dsLoop_run _ _ _ hw (Nat.le_refl _), Machine.run_append dsM_good _ _ _ _ hw (by simp)]
  have hx := dsLoop_run x.length e x hw (Nat.le_refl _)
  have hs := Machine.loop_safe dsM_good (8 * x.length + 0 + 1) e x false hw (by simp) (by simp)
  rcases hd : dsLoop x.length e x with _ | _ | e' <;> rw [hd] at hx <;> rw [← hx]
  · rfl
  · rfl
  show (if y = [] then Machine.Out.ok e' else _) = (dsLoop y.length e' y).view
  have hw' : DsWF e' := hs.2 e' (by
    have : Machine.loop dsM (8 * x.length + 0 + 1) e x false = Machine.run dsM (fun _ => 0) e x false := rfl
    rw [this, ← hx]; rfl)
  rw [dsLoop_run _ _ _ hw' (Nat.le_refl _)]
  by_cases hy : y = []
  · subst hy
    rw [if_pos rfl, Machine.run_eq dsM_good hw' (by simp)]
    simp
  · rw [if_neg hy]

theorem dsLoop_safe {e : Enc} (hw : DsWF e) (x : Bytes) : dsLoop x.length e x ≠ .crash ∧ ∀ e', dsLoop x.length e x = .ok e' → DsWF e' := by
  have hx := dsLoop_run x.length e x hw (Nat.le_refl _)
  have hs := Machine.loop_safe dsM_good (8 * x.length + 0 + 1) e x false hw (by simp) (by simp)
  rw [show Machine.loop dsM (8 * x.length + 0 + 1) e x false = Machine.run dsM (fun _ => 0) e x false from rfl, ← hx] at hs
  refine ⟨fun h => hs.1 (by rw [h]; rfl), fun e' h => hs.2 e' (by rw [h]; rfl)⟩

/-- the encoder without the reader's scratch state -/
def Enc.core (e : Enc) : Enc := { e with rs := {}, reading := false, dop := .icnt, uninterrupted := 0 }

def DRes.core : DRes → DRes
  | .ok e => .ok e.core
  | r => r

theorem core_find (e : Enc) (id : Nat) : e.core.find id = e.find id := rfl

theorem core_apply (e : Enc) (op : DOpc) (n : Nat) : (e.core.apply op n).core = (e.apply op n).core := by
  cases op with
  | icnt =>
    unfold Enc.apply Enc.addIcnt
    dsimp only
    by_cases h1 : n = 0 ∨ e.ctx.next - e.krcnt < n
    · rw [if_pos h1, if_pos (show n = 0 ∨ e.core.ctx.next - e.core.krcnt < n from h1)]
    · rw [if_neg h1, if_neg (show ¬ (n = 0 ∨ e.core.ctx.next - e.core.krcnt < n) from h1)]
      rfl
  | ack =>
    unfold Enc.apply Enc.ackHeader
    dsimp only
    rw [core_find]
    rcases e.find n with _ | _ | ⟨r, rest⟩
    · rfl
    · rfl
    · dsimp only
      by_cases hk : e.krcnt < r.max
      · rw [if_pos hk, if_pos (show e.core.krcnt < r.max from hk)]
        show DRes.core (match eraseMins [r] e.minCnts with | none => _ | some mc => _) = DRes.core (match eraseMins [r] e.minCnts with | none => _ | some mc => _)
        rcases eraseMins [r] e.minCnts with _ | mc
        · rfl
        · dsimp only
          split_ifs <;> rfl
      · rw [if_neg hk, if_neg (show ¬ e.core.krcnt < r.max from hk)]
        show DRes.core (match eraseMins [r] e.minCnts with | none => _ | some mc => _) = DRes.core (match eraseMins [r] e.minCnts with | none => _ | some mc => _)
        rcases eraseMins [r] e.minCnts with _ | mc
        · rfl
        · dsimp only
          split_ifs <;> rfl
  | cancel =>
    unfold Enc.apply Enc.cancelStream
    dsimp only
    rw [core_find]
    rcases e.find n with _ | refs
    · rfl
    · dsimp only
      by_cases hk : e.krcnt < maxCnt refs
      · rw [if_pos hk, if_pos (show e.core.krcnt < maxCnt refs from hk)]
        unfold Enc.unblockStream
        by_cases hb : (maxCnt refs, n) ∈ e.blocked
        · rw [if_pos hb, if_pos (show (maxCnt refs, n) ∈ e.core.blocked from hb)]
          show DRes.core (match eraseMins refs e.minCnts with | none => _ | some mc => _) = DRes.core (match eraseMins refs e.minCnts with | none => _ | some mc => _)
          rcases eraseMins refs e.minCnts with _ | mc <;> rfl
        · rw [if_neg hb, if_neg (show ¬ (maxCnt refs, n) ∈ e.core.blocked from hb)]
      · rw [if_neg hk, if_neg (show ¬ e.core.krcnt < maxCnt refs from hk)]
        show DRes.core (match eraseMins refs e.minCnts with | none => _ | some mc => _) = DRes.core (match eraseMins refs e.minCnts with | none => _ | some mc => _)
        rcases eraseMins refs e.minCnts with _ | mc <;> rfl

theorem dsOpcode_instr {e : Enc} {b : UInt8} {op : DOpc} (h : b.toNat / 2 ^ op.pfx = op.bits) :
    dsOpcode e b = { e with dop := op, reading := true, rs := { e.rs with pfx := op.pfx } } := by
  have hb := b.toNat_lt
  have key : ∀ x < 256, (x / 128 = 1 → 0x80 ≤ x &&& 0xc0) ∧ (x / 64 = 1 → ¬ 0x80 ≤ x &&& 0xc0 ∧ x &&& 0xc0 = 0x40) ∧
      (x / 64 = 0 → ¬ 0x80 ≤ x &&& 0xc0 ∧ ¬ x &&& 0xc0 = 0x40) := by decide +kernel
  have hk := key b.toNat hb
  unfold dsOpcode
  simp only [DOpc.pfx, DOpc.bits] at h
  cases op with
  | ack => rw [if_pos (hk.1 h)]; rfl
  | cancel => rw [if_neg (hk.2.1 h).1, if_pos (hk.2.1 h).2]; rfl
  | icnt => rw [if_neg (hk.2.2 h).1, if_neg (hk.2.2 h).2]; rfl

/-- one instruction -/
theorem dsStep_instr {e : Enc} (hw : DsWF e) (hr : e.reading = false) {enc : Bytes} {op : DOpc} {n : Nat} (hi : DsInstr enc op n)
    (rest : Bytes) :
    (e.apply op n = .fail ∧ dsStep e (enc ++ rest) = .fail) ∨
    ∃ e1 e', e.apply op n = .ok e1 ∧ dsStep e (enc ++ rest) = .cont e' rest ∧ e'.core = e1.core ∧ DsWF e' ∧ e'.reading = false := by
  obtain ⟨⟨b, t, rfl, hb⟩, hop, hn, hlen⟩ := hi
  obtain ⟨s, hs⟩ : ∃ s, QInt.readInt op.pfx 0 0 ((b :: t) ++ rest) = .done n s rest :=
    (QInt.readInt_iff (by cases op <;> simp [DOpc.pfx]) _ _ _).2 ⟨_, rfl, hop, hn, hlen⟩
  have hstep : dsStep e ((b :: t) ++ rest) = dsNumber (dsOpcode e b) ((b :: t) ++ rest) := by
    unfold dsStep
    rw [hr]
    rfl
  rw [hstep, dsOpcode_instr hb]
  unfold dsNumber
  dsimp only
  rw [(hw.idle hr).1, (hw.idle hr).2, hs]
  dsimp only
  generalize hq : ({ e with reading := true, dop := op, rs := { e.rs with left := n, pfx := op.pfx, shift := s } } : Enc) = q
  have hcore : q.core = e.core := by rw [← hq]; rfl
  have hinv : EInv q := by rw [← hq]; exact hw.inv.withRs _ _ _ _
  have h1 := core_apply q op n
  rw [hcore, core_apply] at h1
  rcases apply_ok hinv op n with h2 | ⟨e', h2, h3⟩
  · left
    rw [h2] at h1
    rw [h2]
    refine ⟨?_, rfl⟩
    rcases hq2 : e.apply op n with _ | _ | _ <;> rw [hq2] at h1 <;> simp_all [DRes.core]
  · right
    rw [h2] at h1
    rw [h2]
    rcases apply_ok hw.inv op n with h4 | ⟨e1, h4, h5⟩
    · rw [h4] at h1; simp [DRes.core] at h1
    · rw [h4] at h1
      refine ⟨e1, _, h4, rfl, ?_, ⟨h3.withRs _ _ _ _, (fun h => by cases h), fun _ => ⟨rfl, rfl⟩⟩, rfl⟩
      simp only [DRes.core, DRes.ok.injEq] at h1
      exact h1.symm

def Enc.applyAll (e : Enc) : List (DOpc × Nat) → DRes
  | [] => .ok e
  | (op, n) :: t =>
    match e.apply op n with
    | .ok e' => e'.applyAll t
    | r => r

theorem applyAll_core (e : Enc) (l : List (DOpc × Nat)) : (e.core.applyAll l).core = (e.applyAll l).core := by
  induction l generalizing e with
  | nil => rfl
  | cons a t ih =>
    obtain ⟨op, n⟩ := a
    have h := core_apply e op n
    unfold Enc.applyAll
    rcases h1 : e.apply op n with _ | _ | e1 <;> rcases h2 : e.core.apply op n with _ | _ | e2 <;> rw [h1, h2] at h <;>
      simp only [DRes.core, DRes.ok.injEq, reduceCtorEq] at h <;> dsimp only
    rw [← ih e1, ← ih e2, h]

/-- any number of instructions -/
theorem dsLoop_instrs (l : List (Bytes × DOpc × Nat)) (hl : ∀ x ∈ l, DsInstr x.1 x.2.1 x.2.2) {e : Enc} (hw : DsWF e)
    (hr : e.reading = false) :
    match e.applyAll (l.map (·.2)) with
    | .crash => False
    | .fail => dsLoop (l.flatMap (·.1)).length e (l.flatMap (·.1)) = .fail
    | .ok e' => ∃ e'', dsLoop (l.flatMap (·.1)).length e (l.flatMap (·.1)) = .ok e'' ∧ e''.core = e'.core ∧ e''.reading = false := by
  induction l generalizing e with
  | nil => exact ⟨e, rfl, rfl, hr⟩
  | cons x t ih =>
    obtain ⟨enc, op, n⟩ := x
    have hi := hl _ (List.mem_cons_self ..)
    simp only [List.map_cons, Enc.applyAll, List.flatMap_cons]
    have hne : enc ++ t.flatMap (·.1) ≠ [] := by
      obtain ⟨⟨b, u, h, _⟩, _⟩ := hi
      dsimp only at h
      rw [h]; simp
    have hlen : (t.flatMap (·.1)).length < (enc ++ t.flatMap (·.1)).length := by
      obtain ⟨⟨b, u, h, _⟩, _⟩ := hi
      dsimp only at h
      rw [h]; simp; omega
    obtain ⟨f, hf⟩ : ∃ f, (enc ++ t.flatMap (·.1)).length = f + 1 := ⟨_, (Nat.succ_pred_eq_of_pos (by omega)).symm⟩
    rw [hf, dsLoop, if_neg hne]
    rcases dsStep_instr hw hr hi (t.flatMap (·.1)) with ⟨h1, h2⟩ | ⟨e1, e', h1, h2, h3, h4, h5⟩
    · rw [h1, h2]
    · rw [h1, h2]
      dsimp only
      have hfu : dsLoop f e' (t.flatMap (·.1)) = dsLoop (t.flatMap (·.1)).length e' (t.flatMap (·.1)) := by
        have inj : ∀ a b : DOut, a.view = b.view → a = b := by
          intro a b h; cases a <;> cases b <;> simp_all [DOut.view]
        apply inj
        rw [dsLoop_run _ _ _ h4 (by omega), dsLoop_run _ _ _ h4 (Nat.le_refl _)]
      rw [hfu]
      have := ih (fun x hx => hl x (List.mem_cons_of_mem _ hx)) h4 h5
      have hc : (e'.applyAll (t.map (·.2))).core = (e1.applyAll (t.map (·.2))).core := by
        rw [← applyAll_core e', ← applyAll_core e1, h3]
      rcases ha : e'.applyAll (t.map (·.2)) with _ | _ | a <;> rcases hb : e1.applyAll (t.map (·.2)) with _ | _ | b <;>
        rw [ha, hb] at hc <;> rw [ha] at this <;> rw [hb] <;> simp only [DRes.core, DRes.ok.injEq, reduceCtorEq] at hc <;> dsimp only at this ⊢
      · exact this
      · obtain ⟨e'', g1, g2, g3⟩ := this
        exact ⟨e'', g1, g2.trans hc, g3⟩

/-! ### The counter of uninterrupted bytes does not influence reading -/

def Enc.setU (e : Enc) (u : Nat) : Enc := { e with uninterrupted := u }

def DRes.setU (u : Nat) : DRes → DRes
  | .ok e => .ok (e.setU u)
  | r => r

def DStep.setU (u : Nat) : DStep → DStep
  | .part e => .part (e.setU u)
  | .cont e r => .cont (e.setU u) r
  | r => r

def DOut.setU (u : Nat) : DOut → DOut
  | .ok e => .ok (e.setU u)
  | r => r

theorem setU_find (e : Enc) (u id : Nat) : (e.setU u).find id = e.find id := rfl

theorem setU_apply (e : Enc) (u : Nat) (op : DOpc) (n : Nat) : (e.setU u).apply op n = (e.apply op n).setU u := by
  cases op with
  | icnt =>
    unfold Enc.apply Enc.addIcnt
    dsimp only
    by_cases h1 : n = 0 ∨ e.ctx.next - e.krcnt < n
    · rw [if_pos h1, if_pos (show n = 0 ∨ (e.setU u).ctx.next - (e.setU u).krcnt < n from h1)]; rfl
    · rw [if_neg h1, if_neg (show ¬ (n = 0 ∨ (e.setU u).ctx.next - (e.setU u).krcnt < n) from h1)]
      rfl
  | ack =>
    unfold Enc.apply Enc.ackHeader
    dsimp only
    rw [setU_find]
    rcases e.find n with _ | _ | ⟨r, rest⟩
    · rfl
    · rfl
    · dsimp only
      by_cases hk : e.krcnt < r.max
      · rw [if_pos hk, if_pos (show (e.setU u).krcnt < r.max from hk)]
        show (match eraseMins [r] e.minCnts with | none => _ | some mc => _) = DRes.setU u (match eraseMins [r] e.minCnts with | none => _ | some mc => _)
        rcases eraseMins [r] e.minCnts with _ | mc
        · rfl
        · dsimp only
          split_ifs <;> rfl
      · rw [if_neg hk, if_neg (show ¬ (e.setU u).krcnt < r.max from hk)]
        show (match eraseMins [r] e.minCnts with | none => _ | some mc => _) = DRes.setU u (match eraseMins [r] e.minCnts with | none => _ | some mc => _)
        rcases eraseMins [r] e.minCnts with _ | mc
        · rfl
        · dsimp only
          split_ifs <;> rfl
  | cancel =>
    unfold Enc.apply Enc.cancelStream
    dsimp only
    rw [setU_find]
    rcases e.find n with _ | refs
    · rfl
    · dsimp only
      by_cases hk : e.krcnt < maxCnt refs
      · rw [if_pos hk, if_pos (show (e.setU u).krcnt < maxCnt refs from hk)]
        unfold Enc.unblockStream
        by_cases hb : (maxCnt refs, n) ∈ e.blocked
        · rw [if_pos hb, if_pos (show (maxCnt refs, n) ∈ (e.setU u).blocked from hb)]
          show (match eraseMins refs e.minCnts with | none => _ | some mc => _) = DRes.setU u (match eraseMins refs e.minCnts with | none => _ | some mc => _)
          rcases eraseMins refs e.minCnts with _ | mc <;> rfl
        · rw [if_neg hb, if_neg (show ¬ (maxCnt refs, n) ∈ (e.setU u).blocked from hb)]; rfl
      · rw [if_neg hk, if_neg (show ¬ (e.setU u).krcnt < maxCnt refs from hk)]
        show (match eraseMins refs e.minCnts with | none => _ | some mc => _) = DRes.setU u (match eraseMins refs e.minCnts with | none => _ | some mc => _)
        rcases eraseMins refs e.minCnts with _ | mc <;> rfl

theorem setU_number (e : Enc) (u : Nat) (x : Bytes) : dsNumber (e.setU u) x = (dsNumber e x).setU u := by
  unfold dsNumber
  rw [show (e.setU u).rs = e.rs from rfl]
  rcases QInt.readInt e.rs.pfx e.rs.left e.rs.shift x with _ | _ | ⟨l, s⟩ | ⟨l, s, rest⟩
  · rfl
  · rfl
  · rfl
  · dsimp only
    rw [show ({ e.setU u with rs := { e.rs with left := l, shift := s } } : Enc) = Enc.setU { e with rs := { e.rs with left := l, shift := s } } u from rfl,
      setU_apply]
    rw [show (e.setU u).dop = e.dop from rfl]
    rcases Enc.apply { e with rs := { e.rs with left := l, shift := s } } e.dop l with _ | _ | _ <;> rfl

theorem setU_step (e : Enc) (u : Nat) (x : Bytes) : dsStep (e.setU u) x = (dsStep e x).setU u := by
  unfold dsStep
  rw [show (e.setU u).reading = e.reading from rfl]
  split
  · exact setU_number e u x
  · cases x with
    | nil => rfl
    | cons b t =>
      dsimp only
      rw [← setU_number]
      congr 1
      unfold dsOpcode
      split_ifs <;> rfl

theorem setU_loop (f : Nat) (e : Enc) (u : Nat) (x : Bytes) : dsLoop f (e.setU u) x = (dsLoop f e x).setU u := by
  induction f generalizing e x with
  | zero => unfold dsLoop; split_ifs <;> rfl
  | succ f ih =>
    rw [dsLoop, dsLoop]
    split_ifs
    · rfl
    · rw [setU_step]
      rcases dsStep e x with _ | _ | e1 | ⟨e1, r⟩
      · rfl
      · rfl
      · rfl
      · exact ih e1 r

end Qpack
end Nghttp3
