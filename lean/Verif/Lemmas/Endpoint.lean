import Verif.Spec.Endpoint
import Verif.Lemmas.ConnEnc
import Verif.Lemmas.ConnQ
import Verif.Lemmas.ConnLife
import Verif.Lemmas.ConnUni
import Verif.Lemmas.ConnSafe3
import Verif.Lemmas.ConnSent5
import Verif.Lemmas.DuoWrite
import Verif.Lemmas.PqMem
import Verif.Lemmas.BidiIface
import Verif.Lemmas.BidiExec
import Verif.Props.QpackDec
import Verif.Props.QpackEnc
/-! The invariant of a connection, first part: the streams and the scheduler. -/
namespace Nghttp3
namespace Endpoint
open Outq (R Ans FrentOk EncodeOk)
open Conn (OpOk LeavesClosed Allowed Safe UniInv clientBidi streamUni)
open Qpack (DsWF)

theorem encode_ok : EncodeOk encode := by
  intro e f e' p r eb h
  unfold encode at h
  rcases h1 : e.encode f.1 f.2 with _ | o <;> rw [h1] at h
  · cases h
  dsimp only at h
  split_ifs at h with h2
  simp only [Bool.and_eq_true, Bool.not_eq_true', decide_eq_true_eq] at h2
  simp only [Option.some.injEq, Prod.mk.injEq] at h
  obtain ⟨rfl, rfl, rfl, rfl⟩ := h
  refine ⟨Duo.lines_ne h1 (by intro g; rw [g] at h2; simp at h2), ?_⟩
  have : o.section = o.pfx ++ o.reps.flatMap (Qpack.Rep.bytes o.base) := rfl
  rw [← List.length_append, ← this]
  exact h2.2

theorem encode_keeps : Conn.Keeps encode DsWF := by
  intro e f e' p r eb hw h
  unfold encode at h
  obtain ⟨o, h1, hp⟩ := Qpack.encode_ok hw.inv f.1 f.2
  rw [h1] at h
  dsimp only at h
  split_ifs at h
  simp only [Option.some.injEq, Prod.mk.injEq] at h
  obtain ⟨rfl, _⟩ := h
  exact Props.dswf_keep hw hp.inv hp.rd.1 hp.rd.2.2

/-- the part of the invariant that concerns streams, scheduler and encoder -/
structure CInv (c : CC) : Prop where
  inv : Conn.Inv False True c
  safe : Safe c
  uni : UniInv c
  enc : DsWF c.enc
  opn : c.server = true → ∀ x s, clientBidi x = true → c.str x = some s → s.closed = false

/-- the stream is there before and after, with the same flags -/
def Keep (c c' : CC) (x : Nat) : Prop :=
  (c.str x = none ∧ c'.str x = none) ∨ ∃ s s', c.str x = some s ∧ c'.str x = some s' ∧ s'.qblocked = s.qblocked ∧ s'.closed = s.closed

theorem Keep.refl {c : CC} (x : Nat) : Keep c c x := by
  rcases h : c.str x with _ | s
  · exact .inl ⟨h, h⟩
  · exact .inr ⟨s, s, h, h, rfl, rfl⟩

theorem Keep.trans {a b c : CC} {x : Nat} (h1 : Keep a b x) (h2 : Keep b c x) : Keep a c x := by
  rcases h1 with ⟨k1, k2⟩ | ⟨s, s', k1, k2, k3, k4⟩
  · rcases h2 with ⟨_, l2⟩ | ⟨_, _, l1, _⟩
    · exact .inl ⟨k1, l2⟩
    · rw [k2] at l1; cases l1
  · rcases h2 with ⟨l1, _⟩ | ⟨t, t', l1, l2, l3, l4⟩
    · rw [k2] at l1; cases l1
    · rw [k2] at l1; obtain rfl := Option.some.inj l1
      exact .inr ⟨s, t', k1, l2, l3.trans k3, l4.trans k4⟩

/-- the constants of the connection -/
def SameC (c c' : CC) : Prop := c'.server = c.server ∧ c'.settings = c.settings

theorem SameC.refl (c : CC) : SameC c c := ⟨rfl, rfl⟩
theorem SameC.trans {a b c : CC} (h1 : SameC a b) (h2 : SameC b c) : SameC a c := ⟨h2.1.trans h1.1, h2.2.trans h1.2⟩

theorem step_sameC {c c' : CC} (h : CInv c) {o : Conn.Op Fld} {r : Conn.Ret} (e : Conn.step encode c o = .ok (c', r)) : SameC c c' := by
  have hg := Conn.step_glob h.inv e
  have key : ∀ g : Conn.Glob, Conn.glob c' = g → g.server = c.server → g.settings = c.settings → SameC c c' := by
    intro g h1 h2 h3
    exact ⟨by rw [← h2, ← h1]; rfl, by rw [← h3, ← h1]; rfl⟩
  cases o with
  | bindControl id => rcases hg with g | ⟨_, g⟩ <;> exact key _ g rfl rfl
  | bindQpack a d => rcases hg with g | ⟨_, _, g | g⟩ <;> exact key _ g rfl rfl
  | notice => obtain ⟨_, _, _, g⟩ := hg; exact key _ g rfl rfl
  | shutdown => obtain ⟨_, _, _, g⟩ := hg; exact key _ g rfl rfl
  | setMaxClient n => exact key _ hg.2 rfl rfl
  | «open» id b => rcases hg with g | ⟨_, _, _, g⟩ <;> exact key _ g rfl rfl
  | priUpd id p => rcases hg with g | ⟨_, _, _, g⟩ <;> exact key _ g rfl rfl
  | uni a b d => obtain ⟨_, _, _, g, _⟩ := hg; exact key _ g rfl rfl
  | _ => exact key _ hg rfl rfl

theorem closed_new {c c' : CC} {o : Conn.Op Fld} {x : Nat} {s' : Conn.Strm Fld} (hb : Conn.BlOk (Conn.TrB o) c c') (h' : c'.str x = some s')
    (hx : clientBidi x = true) (ho : ∀ y, o ≠ .close y ∨ y ≠ x) (h : ∀ s, c.str x = some s → s.closed = false) : s'.closed = false := by
  rcases hb x s' h' with k | ⟨s0, k1, k2⟩
  · exact k.2.2.2.1
  · have h0 := h s0 k1
    unfold Conn.TrB at k2
    cases o with
    | close y =>
      dsimp only at k2
      rw [if_neg (by rcases ho y with g | g; exact absurd rfl g; exact g)] at k2
      exact k2.2.2.1.trans h0
    | block y => dsimp only at k2; split_ifs at k2 <;> exact k2.2.2.1.trans h0
    | unblock y => dsimp only at k2; split_ifs at k2 <;> exact k2.2.2.1.trans h0
    | shutWr y => dsimp only at k2; split_ifs at k2 <;> exact k2.2.2.1.trans h0
    | resume y => dsimp only at k2; split_ifs at k2 <;> exact k2.2.2.1.trans h0
    | qpackBlock y => dsimp only at k2; split_ifs at k2; exact k2.2.2.trans h0; exact k2.2.2.1.trans h0
    | qpackUnblock y p a => dsimp only at k2; split_ifs at k2 <;> exact k2.2.2.1.trans h0
    | _ => exact k2.2.2.1.trans h0

theorem close_gone {c c' : CC} {y : Nat} {r : Conn.Ret} {s : Conn.Strm Fld} (h0 : c.str y = some s) (hy : clientBidi y = true) (hq : s.qblocked = false)
    (e : Conn.closeStream c y = .ok (c', r)) : c'.str y = none := by
  unfold Conn.closeStream at e
  rw [h0] at e
  dsimp only at e
  have hu : streamUni y = false := by unfold clientBidi at hy; unfold streamUni; simp at hy ⊢; omega
  rw [if_neg (by rw [hu]; simp)] at e
  obtain ⟨c1, e1, e2⟩ := Conn.bind_ok e
  rw [if_pos hq] at e2
  obtain ⟨c2, e3, e4⟩ := Conn.bind_ok e2
  obtain ⟨rfl, _⟩ := Prod.mk.inj (R.ok.inj e4)
  rw [Conn.delete_str e3, PQ.upd_same]

/-- a permitted call on the streams keeps the invariant -/
theorem cinv_step {c c' : CC} (h : CInv c) {o : Conn.Op Fld} {r : Conn.Ret} (h1 : OpOk o) (h2 : LeavesClosed c o) (h3 : Allowed c o)
    (h4 : ∀ y, o = .close y → c.server = true → ∀ s, c.str y = some s → s.qblocked = false) (e : Conn.step encode c o = .ok (c', r)) : CInv c' := by
  refine ⟨Conn.step_inv h.inv h1 (fun g => g.elim) (fun _ => h2) e, (Conn.step_nc encode_ok h.inv h.safe h1 h2 h3).2 _ _ e,
    (Conn.uniInv_step h.inv h.uni h1 e).1, Conn.step_enc encode_keeps h.enc e, fun hs x s' hx h' => ?_⟩
  have hsv := (step_sameC h e).1
  rw [hsv] at hs
  by_cases hc : o = .close x
  · subst hc
    rcases h0 : c.str x with _ | s
    · change Conn.closeStream c x = _ at e
      unfold Conn.closeStream at e
      rw [h0] at e
      obtain ⟨rfl, _⟩ := Prod.mk.inj (R.ok.inj e)
      rw [h0] at h'; cases h'
    · have := close_gone h0 hx (h4 x rfl hs s h0) e
      rw [this] at h'; cases h'
  · exact closed_new (Conn.step_bl h.inv e) h' hx (fun y => by by_cases g : y = x; exact .inl (g ▸ hc); exact .inr g) (fun s g => h.opn hs x s hx g)

/-- no permitted call crashes -/
theorem cinv_nc {c : CC} (h : CInv c) {o : Conn.Op Fld} (h1 : OpOk o) (h2 : LeavesClosed c o) (h3 : Allowed c o) : Conn.step encode c o ≠ .crash :=
  (Conn.step_nc encode_ok h.inv h.safe h1 h2 h3).1

/-- operations that neither create nor delete request streams, nor change the flags -/
def Neutral : Conn.Op Fld → Prop
  | .submitRequest _ _ _ => False
  | .open _ _ => False
  | .priUpd _ _ => False
  | .close _ => False
  | .qpackBlock _ => False
  | .qpackUnblock _ _ _ => False
  | _ => True

theorem keep_of {c c' : CC} {o : Conn.Op Fld} {x : Nat} (hb : Conn.BlOk (Conn.TrB o) c c') (he : (c'.str x).isSome = (c.str x).isSome)
    (ho : ∀ s s', Conn.TrB o x s s' → s'.qblocked = s.qblocked ∧ s'.closed = s.closed) : Keep c c' x := by
  rcases h' : c'.str x with _ | s'
  · rw [h'] at he
    rcases h0 : c.str x with _ | s
    · exact .inl ⟨h0, h'⟩
    · rw [h0] at he; cases he
  · rcases hb x s' h' with k | ⟨s0, k1, k2⟩
    · rw [h', k.1] at he; cases he
    · exact .inr ⟨s0, s', k1, h', ho _ _ k2⟩

theorem tr_neutral {o : Conn.Op Fld} (ho : Neutral o) {x : Nat} (s s' : Conn.Strm Fld) (h : Conn.TrB o x s s') :
    s'.qblocked = s.qblocked ∧ s'.closed = s.closed := by
  unfold Conn.TrB at h
  cases o with
  | close y => exact ho.elim
  | qpackBlock y => exact ho.elim
  | qpackUnblock y p a => exact ho.elim
  | block y => dsimp only at h; split_ifs at h <;> exact ⟨h.1, h.2.2.1⟩
  | unblock y => dsimp only at h; split_ifs at h <;> exact ⟨h.1, h.2.2.1⟩
  | shutWr y => dsimp only at h; split_ifs at h <;> exact ⟨h.1, h.2.2.1⟩
  | resume y => dsimp only at h; split_ifs at h <;> exact ⟨h.1, h.2.2.1⟩
  | _ => exact ⟨h.1, h.2.2.1⟩

theorem keep_neutral {c c' : CC} (h : CInv c) {o : Conn.Op Fld} {r : Conn.Ret} (h1 : OpOk o) (ho : Neutral o) (e : Conn.step encode c o = .ok (c', r))
    {x : Nat} (hx : clientBidi x = true) : Keep c c' x := by
  refine keep_of (Conn.step_bl h.inv e) ?_ (tr_neutral ho)
  have hl := Conn.step_life h.inv h1 e
  generalize ho' : o = o' at hl
  cases hl with
  | same k _ => exact k x hx
  | made y k => subst ho'; rcases k with ⟨_, _, rfl⟩ | ⟨_, rfl⟩ | ⟨_, rfl⟩ <;> exact ho.elim
  | gone y s k => subst ho'; rcases k with rfl | ⟨_, _, rfl⟩ <;> exact ho.elim

/-- other streams than the one that the operation names -/
theorem keep_other {c c' : CC} (h : CInv c) {o : Conn.Op Fld} {r : Conn.Ret} (h1 : OpOk o) (e : Conn.step encode c o = .ok (c', r)) {x y : Nat}
    (hx : clientBidi x = true) (hxy : x ≠ y)
    (ho : (∃ n d, o = .submitRequest y n d) ∨ (∃ b, o = .open y b) ∨ (∃ p, o = .priUpd y p) ∨ o = .close y ∨ o = .qpackBlock y ∨ ∃ p a, o = .qpackUnblock y p a) :
    Keep c c' x := by
  refine keep_of (Conn.step_bl h.inv e) ?_ fun s s' k => ?_
  · have hl := Conn.step_life h.inv h1 e
    generalize ho' : o = o' at hl
    cases hl with
    | same k _ => exact k x hx
    | made z k _ _ _ k5 _ =>
      subst ho'
      refine k5 x ?_ hx
      rintro rfl
      rcases k with ⟨_, _, rfl⟩ | ⟨_, rfl⟩ | ⟨_, rfl⟩ <;> rcases ho with ⟨_, _, g⟩ | ⟨_, g⟩ | ⟨_, g⟩ | g | g | ⟨_, _, g⟩ <;> cases g <;> exact hxy rfl
    | gone z s k _ _ _ k5 _ =>
      subst ho'
      refine k5 x ?_ hx
      rintro rfl
      rcases k with rfl | ⟨_, _, rfl⟩ <;> rcases ho with ⟨_, _, g⟩ | ⟨_, g⟩ | ⟨_, g⟩ | g | g | ⟨_, _, g⟩ <;> cases g <;> exact hxy rfl
  · unfold Conn.TrB at k
    rcases ho with ⟨_, _, rfl⟩ | ⟨_, rfl⟩ | ⟨_, rfl⟩ | rfl | rfl | ⟨_, _, rfl⟩
    · exact ⟨k.1, k.2.2.1⟩
    · exact ⟨k.1, k.2.2.1⟩
    · exact ⟨k.1, k.2.2.1⟩
    · dsimp only at k; rw [if_neg (Ne.symm hxy)] at k; exact ⟨k.1, k.2.2.1⟩
    · dsimp only at k; rw [if_neg (Ne.symm hxy)] at k; exact ⟨k.1, k.2.2.1⟩
    · dsimp only at k; rw [if_neg (Ne.symm hxy)] at k; exact ⟨k.1, k.2.2.1⟩

theorem CInv.withEnc {c : CC} (h : CInv c) {e : Qpack.Enc} (he : DsWF e) : CInv { c with enc := e } :=
  ⟨Conn.inv_enc h.inv e, ⟨h.safe.outs, h.safe.noq, h.safe.ids, h.safe.tx, h.safe.gp, h.safe.st⟩, ⟨h.uni.flag, h.uni.push, h.uni.one, h.uni.uni, h.uni.ex⟩, he, h.opn⟩

theorem CInv.withGoaway {c : CC} (h : CInv c) (b : Bool) : CInv { c with goawayRecved := b } := by
  have hi := h.inv
  exact ⟨⟨⟨⟨hi.core.reg.idx, hi.core.reg.mem, hi.core.reg.urg⟩, hi.core.lv, hi.core.uwb⟩, hi.sok, hi.cnt, hi.tctrl, hi.tqenc, hi.tqdec, hi.gsort, hi.ghead, hi.gq, hi.mb, hi.mbl⟩,
    ⟨h.safe.outs, h.safe.noq, h.safe.ids, h.safe.tx, h.safe.gp, h.safe.st⟩, ⟨h.uni.flag, h.uni.push, h.uni.one, h.uni.uni, h.uni.ex⟩, h.enc, h.opn⟩

end Endpoint
end Nghttp3
