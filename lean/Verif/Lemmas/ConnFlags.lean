import Verif.Lemmas.ConnIdent
import Verif.Spec.Writable
/-! What each call does to the flags that make a stream unwritable. -/
namespace Nghttp3
namespace Conn
open PQ (upd upd_same upd_ne)
open Outq (R Frent Ans Bytes St)

variable {E F : Type} {w v : Prop} {c c' : Conn E F} {id : Nat} {s0 s : Strm F} {encode : Encode E F}

/-- the flags of the stream are as before -/
def SameF (_ : Nat) (s s' : Strm F) : Prop :=
  s'.fc = s.fc ∧ s'.shutWr = s.shutWr ∧ s'.closed = s.closed ∧ s'.out.readBlocked = s.out.readBlocked

/-- what the call does to the flags of a stream that there is before and after the call -/
def TrF (o : Op F) (x : Nat) (s s' : Strm F) : Prop :=
  match o with
  | .block y => if y = x then s'.fc = true ∧ s'.shutWr = s.shutWr ∧ s'.closed = s.closed ∧ s'.out.readBlocked = s.out.readBlocked else SameF x s s'
  | .unblock y => if y = x then s'.fc = false ∧ s'.shutWr = s.shutWr ∧ s'.closed = s.closed ∧ s'.out.readBlocked = s.out.readBlocked else SameF x s s'
  | .shutWr y => if y = x then s'.fc = s.fc ∧ s'.shutWr = true ∧ s'.closed = s.closed ∧ s'.out.readBlocked = s.out.readBlocked else SameF x s s'
  | .close y => if y = x then clientBidi x = true → s'.fc = s.fc ∧ s'.shutWr = s.shutWr ∧ s'.closed = true ∧ s'.out.readBlocked = s.out.readBlocked else SameF x s s'
  | .resume y => if y = x then s'.fc = s.fc ∧ s'.shutWr = s.shutWr ∧ s'.closed = s.closed ∧ s'.out.readBlocked = false else SameF x s s'
  | .writev _ _ _ => s'.fc = s.fc ∧ s'.shutWr = s.shutWr ∧ s'.closed = s.closed ∧ (clientBidi x = true → s.out.readBlocked = true → s'.out.readBlocked = true)
  | _ => SameF x s s'

/-- a new stream has none of the flags, other streams are as `T` says -/
def FlOk (T : Nat → Strm F → Strm F → Prop) (c c' : Conn E F) : Prop :=
  ∀ x s', c'.str x = some s' →
    (c.str x = none ∧ s'.fc = false ∧ s'.shutWr = false ∧ s'.closed = false ∧ s'.out.readBlocked = false) ∨ ∃ s0, c.str x = some s0 ∧ T x s0 s'

theorem SameF.refl {x : Nat} : SameF x s s := ⟨rfl, rfl, rfl, rfl⟩

theorem FlOk.refl : FlOk SameF c c := fun _ s' h => .inr ⟨s', h, .refl⟩

theorem FlOk.congr {T : Nat → Strm F → Strm F → Prop} {c1 : Conn E F} (h : FlOk T c c1) (e : c'.str = c1.str) : FlOk T c c' := by
  unfold FlOk; rw [e]; exact h

/-- no stream is removed -/
def Grow (c c' : Conn E F) : Prop := ∀ x, c'.str x = none → c.str x = none

theorem grow_one (h : One c id s c') : Grow c c' := by
  intro x g
  by_cases hx : x = id
  · subst hx; obtain ⟨_, _, _, k⟩ := h.own; rw [k] at g; cases g
  · rw [← h.fr hx]; exact g

theorem grow_new (e : c'.str = upd c.str id (some s)) : Grow c c' := by
  intro x g
  rw [e] at g
  by_cases hx : x = id
  · subst hx; rw [upd_same] at g; cases g
  · rwa [upd_ne _ _ hx] at g

theorem FlOk.trans {c1 : Conn E F} (h1 : FlOk SameF c c1) (hg : Grow c c1) (h2 : FlOk SameF c1 c') : FlOk SameF c c' := by
  intro x s' g
  rcases h2 x s' g with ⟨k0, k⟩ | ⟨s1, k1, k2, k3, k4, k5⟩
  · exact .inl ⟨hg x k0, k⟩
  · rcases h1 x s1 k1 with ⟨m0, m1, m2, m3, m4⟩ | ⟨s0, m1, m2, m3, m4, m5⟩
    · exact .inl ⟨m0, k2.trans m1, k3.trans m2, k4.trans m3, k5.trans m4⟩
    · exact .inr ⟨s0, m1, k2.trans m2, k3.trans m3, k4.trans m4, k5.trans m5⟩

theorem fl_one' {T : Nat → Strm F → Strm F → Prop} (h : One c id s c') (h0 : c.str id = some s0)
    (h1 : ∀ sd cy uw, T id s0 { s with sched := sd, cycle := cy, uwrite := uw }) (h2 : ∀ x t, x ≠ id → T x t t) : FlOk T c c' := by
  obtain ⟨sd, cy, uw, k⟩ := h.own
  intro x s' g
  by_cases hx : x = id
  · subst hx
    rw [k] at g; cases g
    exact .inr ⟨s0, h0, h1 _ _ _⟩
  · rw [h.fr hx] at g
    exact .inr ⟨s', g, h2 _ _ hx⟩

theorem fl_one (h : One c id s c') (h0 : c.str id = some s0) (h1 : SameF id s0 s) : FlOk SameF c c' :=
  fl_one' h h0 (fun _ _ _ => h1) fun _ _ _ => .refl

theorem fl_delete (e : deleteStream c id s = .ok c') : FlOk SameF c c' := by
  intro x s' g
  rw [delete_str e] at g
  by_cases hx : x = id
  · subst hx; rw [upd_same] at g; cases g
  · rw [upd_ne _ _ hx] at g; exact .inr ⟨s', g, .refl⟩

theorem fl_new (e : c'.str = upd c.str id (some s)) (h1 : s.fc = false ∧ s.shutWr = false ∧ s.closed = false ∧ s.out.readBlocked = false)
    (h0 : c.str id = none) : FlOk SameF c c' := by
  intro x s' g
  rw [e] at g
  by_cases hx : x = id
  · subst hx; rw [upd_same] at g; cases g; exact .inl ⟨h0, h1⟩
  · rw [upd_ne _ _ hx] at g; exact .inr ⟨s', g, .refl⟩

theorem one_submit' {nva : F} {dr : Bool} (e : submitHeadersData c id s nva dr = .ok c') :
    ∃ o : St F, o.readBlocked = s.out.readBlocked ∧ One c id { s with out := o } c' := by
  unfold submitHeadersData at e
  dsimp only at e
  generalize (Frent.headers nva :: if dr = true then [Frent.data] else []) = l at e
  split at e
  · exact ⟨{ s.out with frq := s.out.frq ++ l }, rfl, one_schedule e⟩
  · obtain rfl := R.ok.inj e; exact ⟨{ s.out with frq := s.out.frq ++ l }, rfl, one_set⟩

theorem fl_submit {nva : F} {dr : Bool} (e : submitHeadersData c id s nva dr = .ok c') (h0 : c.str id = some s0) (h1 : SameF id s0 s) :
    FlOk SameF c c' := by
  obtain ⟨o, h2, h3⟩ := one_submit' e
  exact fl_one h3 h0 ⟨h1.1, h1.2.1, h1.2.2.1, h2.trans h1.2.2.2⟩

theorem same_setEnd {x : Nat} (b : Bool) : SameF x s (setEnd s b) := ⟨rfl, rfl, rfl, (setEnd_keep s.out b).2.1⟩

theorem outqAdd_rb {o o' : St F} {t : Outq.Ent} (e : Outq.outqAdd o t = .ok o') : o'.readBlocked = o.readBlocked := by
  unfold Outq.outqAdd at e
  dsimp only at e
  repeat' split at e
  all_goals first | (cases e; done) | (obtain rfl := R.ok.inj e; rfl)

theorem ensureChunk_rb (o : St F) (n : Nat) : (Outq.ensureChunk o n).readBlocked = o.readBlocked := by
  unfold Outq.ensureChunk
  repeat' split
  all_goals rfl

theorem writeStreamType_rb {o : St F} {n : Nat} (e : Outq.writeStreamType ({} : St F) n = .ok o) : o.readBlocked = false := by
  unfold Outq.writeStreamType Outq.sharedWrite at e
  obtain ⟨⟨cs, a, b⟩, _, e2⟩ := bind_ok e
  exact outqAdd_rb e2

/-- what writing to a stream does -/
theorem fl_eff {P : Nat → Prop} {k : Nat} {db : Bytes} {as : List Ans} (h : OutEff P c c')
    (hr : ∀ x s, clientBidi x = true → c.str x = some s → s.out.readBlocked = true → ∀ s', c'.str x = some s' → s'.out.readBlocked = true) :
    FlOk (TrF (.writev k db as : Op F)) c c' := by
  intro x s' g
  obtain ⟨s, k1, k2, _⟩ := h.back g
  exact .inr ⟨s, k1, by rw [k2], by rw [k2], by rw [k2], fun hx hb => hr x s hx k1 hb s' g⟩

theorem fill_rb {id k : Nat} {as : List Ans} {rr : Option (Nat × Bool × List Bytes)} (e : connWritev encode c id k as = .ok (c', rr))
    (h0 : c.str id = some s) (hb : s.out.readBlocked = true) : c' = c := by
  unfold connWritev at e
  rw [h0] at e
  dsimp only at e
  rw [if_pos hb] at e
  obtain ⟨q, e1, e2⟩ := bind_ok (show ((offerQenc c id k).bind _ : R _) = _ from e)
  rcases q with _ | q
  · dsimp only at e2
    rw [h0] at e2
    obtain ⟨x, _, e4⟩ := bind_ok e2
    exact (Prod.mk.inj (R.ok.inj e4)).1.symm
  · exact (Prod.mk.inj (R.ok.inj e2)).1.symm

theorem fl_none {T : Nat → Strm F → Strm F → Prop} (h0 : c.str id = none) (h2 : ∀ x t, x ≠ id → T x t t) : FlOk T c c := by
  intro x s' g
  by_cases hx : x = id
  · subst hx; rw [h0] at g; cases g
  · exact .inr ⟨s', g, h2 x s' hx⟩

theorem step_flags (h : Inv w v c) {o : Op F} {r : Ret} (e : step encode c o = .ok (c', r)) : FlOk (TrF o) c c' := by
  have same : ∀ {c1 : Conn E F} {r1 : Ret}, (R.ok (c1, r1) : R (Conn E F × Ret)) = .ok (c', r) → ∀ {T : Nat → Strm F → Strm F → Prop}, FlOk T c c1 → FlOk T c c' := by
    intro c1 r1 g1 T g2
    obtain ⟨rfl, _⟩ := Prod.mk.inj (R.ok.inj g1); exact g2
  cases o with
  | bindControl id =>
    change FlOk SameF c c'
    change bindControl c id = _ at e
    unfold bindControl at e
    split_ifs at e with h1 h2 h3
    · exact same e .refl
    · exact same e .refl
    · obtain ⟨o, e1, e2⟩ := bind_ok e
      have hr := writeStreamType_rb e1
      exact same e2 (fl_new rfl ⟨rfl, rfl, rfl, hr⟩ (by simpa using h3))
  | bindQpack a d =>
    change FlOk SameF c c'
    change bindQpack c a d = _ at e
    unfold bindQpack at e
    split_ifs at e with h1 h2 h3
    · exact same e .refl
    · exact same e .refl
    · obtain ⟨o, e1, e2⟩ := bind_ok e
      dsimp only at e2
      have hr := writeStreamType_rb e1
      have k1 : FlOk SameF c ({ createStream c a { ty := .qenc, out := o } with qenc := some a } : Conn E F) := fl_new rfl ⟨rfl, rfl, rfl, hr⟩ (by simpa using h3)
      split_ifs at e2 with h4
      · exact same e2 k1
      · obtain ⟨o2, e3, e4⟩ := bind_ok e2
        exact same e4 (k1.trans (grow_new rfl) (fl_new rfl ⟨rfl, rfl, rfl, writeStreamType_rb e3⟩ (by simpa using h4)))
  | submitRequest id nva dr =>
    change FlOk SameF c c'
    change submitRequest c id nva dr = _ at e
    unfold submitRequest at e
    split_ifs at e with g1
    · exact same e .refl
    · split at e
      · exact same e .refl
      · rename_i h0
        obtain ⟨c1, e1, e2⟩ := bind_ok e
        have hs : (createStream c id {}).str id = some {} := upd_same _ _ _
        exact same e2 ((fl_new (s := {}) (id := id) rfl ⟨rfl, rfl, rfl, rfl⟩ h0 : FlOk SameF c (createStream c id {})).trans (grow_new rfl) (fl_submit e1 hs (same_setEnd _)))
  | submitInfo id nva =>
    change FlOk SameF c c'
    change submitInfo c id nva = _ at e
    unfold submitInfo at e
    split_ifs at e
    split at e
    · exact same e .refl
    · rename_i h0
      obtain ⟨c1, e1, e2⟩ := bind_ok e
      exact same e2 (fl_submit e1 h0 (by first | exact .refl | exact same_setEnd _))
  | submitResponse id nva dr =>
    change FlOk SameF c c'
    change submitResponse c id nva dr = _ at e
    unfold submitResponse at e
    by_cases hc : (!c.server || c.qenc.isNone) = true
    · rw [if_pos hc] at e; cases e
    rw [if_neg hc] at e
    split at e
    · exact same e .refl
    · rename_i h0
      obtain ⟨c1, e1, e2⟩ := bind_ok e
      exact same e2 (fl_submit e1 h0 (by first | exact .refl | exact same_setEnd _))
  | submitTrailers id nva =>
    change FlOk SameF c c'
    change submitTrailers c id nva = _ at e
    unfold submitTrailers at e
    split_ifs at e
    split at e
    · exact same e .refl
    · rename_i h0
      split_ifs at e
      · exact same e .refl
      · obtain ⟨c1, e1, e2⟩ := bind_ok e
        exact same e2 (fl_submit e1 h0 (by first | exact .refl | exact same_setEnd _))
  | writev k db as =>
    obtain ⟨_, rr, hr, hc⟩ := writevStream_inv h e
    have nocrit : ∀ {c1 : Conn E F}, OutEff (isCritical c) c c1 → ∀ x, clientBidi x = true → c1.str x = c.str x := by
      intro c1 he x hx
      rcases hy : c.str x with _ | sy
      · exact he.none x hy
      · obtain ⟨o, k1, k2⟩ := he.str x sy hy
        rw [k1, k2 fun g => by rw [(isCritical_uni h g).1] at hx; cases hx]
    rcases hc with ⟨i, f, v, g1, g2, g3⟩ | ⟨_, rfl, _⟩ | ⟨_, c3, he, h3, e3, _⟩
    · exact fl_eff g3 fun x s hx g hb s' g' => by rw [nocrit g3 x hx, g] at g'; cases g'; exact hb
    · exact fun x s' g => .inr ⟨s', g, rfl, rfl, rfl, fun _ g => g⟩
    · obtain ⟨_, rr', _, _, _, k5, k6⟩ := writeRequest_inv h3 e3
      rcases hn : nextTx c3 with _ | id
      · rw [k5 hn]; exact fl_eff he fun x s hx g hb s' g' => by rw [nocrit he x hx, g] at g'; cases g'; exact hb
      · obtain ⟨c1, s1, k7, k8, k9, k10⟩ := k6 id hn
        have h9 := he.trans k9
        have hrb : ∀ x s, clientBidi x = true → c.str x = some s → s.out.readBlocked = true → ∀ s', c1.str x = some s' → s'.out.readBlocked = true := by
          intro x s hx g hb s' g'
          have g3 : c3.str x = some s := by rw [nocrit he x hx]; exact g
          by_cases hi : x = id
          · subst hi
            rw [fill_rb k7 g3 hb, g3] at g'; cases g'; exact hb
          · obtain ⟨o, m1, m2⟩ := k9.str x s g3
            rw [m1] at g'; cases g'
            dsimp only
            rw [m2 fun hk => hk.elim hi fun hq => ?_]
            · exact hb
            · have : isCritical c3 x := Or.inr (Or.inr hq)
              rw [(isCritical_uni h3 this).1] at hx; cases hx
        have hA : FlOk (TrF (.writev k db as : Op F)) c c1 := fl_eff h9 hrb
        rcases k10 with ⟨_, rfl⟩ | ⟨_, sch, rfl⟩
        · exact hA
        · intro x s' g
          by_cases hi : x = id
          · subst hi
            rw [set_str] at g; cases g
            rcases hA x s1 k8 with k | ⟨s0, k1, k2⟩
            · exact .inl k
            · exact .inr ⟨s0, k1, k2⟩
          · rw [set_ne _ _ _ _ hi] at g
            exact hA x s' g
  | addWrite id n =>
    change FlOk SameF c c'
    change addWriteOffset c id n = _ at e
    unfold addWriteOffset at e
    split at e
    · exact same e .refl
    · rename_i h0
      obtain ⟨o, eo, e2⟩ := bind_ok e
      dsimp only at e2
      split_ifs at e2
      · exact same e2 (fl_one one_set h0 ⟨rfl, rfl, rfl, (Outq.addOutqOffset_keep eo).2.1⟩)
      · obtain ⟨c1, e3, e4⟩ := bind_ok e2
        exact same e4 (fl_one (one_unschedule e3) h0 ⟨rfl, rfl, rfl, (Outq.addOutqOffset_keep eo).2.1⟩)
      · exact same e2 (fl_one one_set h0 ⟨rfl, rfl, rfl, (Outq.addOutqOffset_keep eo).2.1⟩)
      · obtain ⟨c1, e3, e4⟩ := bind_ok e2
        exact same e4 (fl_one (one_schedule e3) h0 ⟨rfl, rfl, rfl, (Outq.addOutqOffset_keep eo).2.1⟩)
  | addAck id n =>
    change FlOk SameF c c'
    change addAckOffset c id n = _ at e
    unfold addAckOffset at e
    split at e
    · exact same e .refl
    · rename_i h0
      obtain ⟨o, eo, e2⟩ := bind_ok e
      exact same e2 (fl_one one_set h0 ⟨rfl, rfl, rfl, (Outq.updateAckOffset_keep eo).2.1⟩)
  | updAck id off =>
    change FlOk SameF c c'
    change updateAckOffset c id off = _ at e
    unfold updateAckOffset at e
    split at e
    · exact same e .refl
    · rename_i h0
      split at e
      · exact same e .refl
      · rename_i hq
        obtain ⟨o, eo, e2⟩ := bind_ok e
        unfold Outq.connUpdateAckOffset at hq
        split_ifs at hq
        obtain rfl := Option.some.inj hq
        exact same e2 (fl_one one_set h0 ⟨rfl, rfl, rfl, (Outq.updateAckOffset_keep eo).2.1⟩)
  | block id =>
    change blockStream c id = _ at e
    unfold blockStream at e
    split at e
    · rename_i h0
      exact same e (fl_none h0 fun _ _ hx => by unfold TrF; dsimp only; rw [if_neg (Ne.symm hx)]; exact .refl)
    · rename_i h0
      dsimp only at e
      split_ifs at e
      · obtain ⟨c1, e3, e4⟩ := bind_ok e
        exact same e4 (fl_one' (one_unschedule e3) h0 (fun _ _ _ => by unfold TrF; dsimp only; rw [if_pos rfl]; exact ⟨rfl, rfl, rfl, rfl⟩) (fun _ _ hx => by unfold TrF; dsimp only; rw [if_neg (Ne.symm hx)]; exact .refl))
      · exact same e (fl_one' one_set h0 (fun _ _ _ => by unfold TrF; dsimp only; rw [if_pos rfl]; exact ⟨rfl, rfl, rfl, rfl⟩) (fun _ _ hx => by unfold TrF; dsimp only; rw [if_neg (Ne.symm hx)]; exact .refl))
  | unblock id =>
    change unblockStream c id = _ at e
    unfold unblockStream at e
    split at e
    · rename_i h0
      exact same e (fl_none h0 fun _ _ hx => by unfold TrF; dsimp only; rw [if_neg (Ne.symm hx)]; exact .refl)
    · rename_i h0
      dsimp only at e
      split_ifs at e
      · obtain ⟨c1, e3, e4⟩ := bind_ok e
        exact same e4 (fl_one' (one_ensure e3) h0 (fun _ _ _ => by unfold TrF; dsimp only; rw [if_pos rfl]; exact ⟨rfl, rfl, rfl, rfl⟩) (fun _ _ hx => by unfold TrF; dsimp only; rw [if_neg (Ne.symm hx)]; exact .refl))
      · exact same e (fl_one' one_set h0 (fun _ _ _ => by unfold TrF; dsimp only; rw [if_pos rfl]; exact ⟨rfl, rfl, rfl, rfl⟩) (fun _ _ hx => by unfold TrF; dsimp only; rw [if_neg (Ne.symm hx)]; exact .refl))
  | shutWr id =>
    change shutdownWrite c id = _ at e
    unfold shutdownWrite at e
    split at e
    · rename_i h0
      exact same e (fl_none h0 fun _ _ hx => by unfold TrF; dsimp only; rw [if_neg (Ne.symm hx)]; exact .refl)
    · rename_i h0
      dsimp only at e
      split_ifs at e
      · obtain ⟨c1, e3, e4⟩ := bind_ok e
        exact same e4 (fl_one' (one_unschedule e3) h0 (fun _ _ _ => by unfold TrF; dsimp only; rw [if_pos rfl]; exact ⟨rfl, rfl, rfl, rfl⟩) (fun _ _ hx => by unfold TrF; dsimp only; rw [if_neg (Ne.symm hx)]; exact .refl))
      · exact same e (fl_one' one_set h0 (fun _ _ _ => by unfold TrF; dsimp only; rw [if_pos rfl]; exact ⟨rfl, rfl, rfl, rfl⟩) (fun _ _ hx => by unfold TrF; dsimp only; rw [if_neg (Ne.symm hx)]; exact .refl))
  | resume id =>
    change resumeStream c id = _ at e
    unfold resumeStream at e
    split at e
    · rename_i h0
      exact same e (fl_none h0 fun _ _ hx => by unfold TrF; dsimp only; rw [if_neg (Ne.symm hx)]; exact .refl)
    · rename_i h0
      dsimp only at e
      split_ifs at e
      · obtain ⟨c1, e3, e4⟩ := bind_ok e
        exact same e4 (fl_one' (one_ensure e3) h0 (fun _ _ _ => by unfold TrF; dsimp only; rw [if_pos rfl]; exact ⟨rfl, rfl, rfl, rfl⟩) (fun _ _ hx => by unfold TrF; dsimp only; rw [if_neg (Ne.symm hx)]; exact .refl))
      · exact same e (fl_one' one_set h0 (fun _ _ _ => by unfold TrF; dsimp only; rw [if_pos rfl]; exact ⟨rfl, rfl, rfl, rfl⟩) (fun _ _ hx => by unfold TrF; dsimp only; rw [if_neg (Ne.symm hx)]; exact .refl))
  | shutRd id =>
    change FlOk SameF c c'
    change shutdownRead c id = _ at e
    unfold shutdownRead at e
    split_ifs at e
    · exact same e .refl
    · split at e
      · exact same e .refl
      · rename_i h0
        exact same e (fl_one one_set h0 ⟨rfl, rfl, rfl, rfl⟩)
  | close id =>
    change closeStream c id = _ at e
    have hne : ∀ (x : Nat) (t : Strm F), x ≠ id → TrF (.close id : Op F) x t t := fun _ _ hx => by unfold TrF; dsimp only; rw [if_neg (Ne.symm hx)]; exact .refl
    unfold closeStream at e
    split at e
    · rename_i h0
      exact same e (fl_none h0 hne)
    · rename_i s0 h0
      split_ifs at e with hcr
      · refine same e fun x s' g => ?_
        by_cases hx : x = id
        · subst hx
          refine .inr ⟨s', g, ?_⟩
          unfold TrF; dsimp only; rw [if_pos rfl]
          intro hb
          simp only [Bool.and_eq_true] at hcr
          have h9 := hcr.1; unfold clientBidi at hb; unfold streamUni at h9; simp at h9 hb; omega
        · exact .inr ⟨s', g, hne _ _ hx⟩
      · obtain ⟨c1, e3, e4⟩ := bind_ok e
        have hc1 := one_unschedule e3
        dsimp only at e4
        split_ifs at e4
        · obtain ⟨c2, e5, e6⟩ := bind_ok e4
          refine same e6 fun x s' g => ?_
          rw [delete_str e5] at g
          by_cases hx : x = id
          · subst hx; rw [upd_same] at g; cases g
          · rw [upd_ne _ _ hx, hc1.fr hx] at g; exact .inr ⟨s', g, hne _ _ hx⟩
        · obtain ⟨_, _, _, _, rfl⟩ := hc1
          refine same e4 (fl_one' (s := { s0 with sched := false, closed := true }) ⟨_, false, _, _, set_set _ _ _ _⟩ h0 (fun _ _ _ => ?_) hne)
          unfold TrF; dsimp only; rw [if_pos rfl]
          exact fun _ => ⟨rfl, rfl, rfl, rfl⟩
  | notice =>
    change FlOk SameF c c'
    change submitNotice c = _ at e
    unfold submitNotice queueGoaway at e
    obtain ⟨c1, e1, e2⟩ := bind_ok e
    by_cases hn : c.ctrl.isNone = true
    · rw [if_pos hn] at e1; cases e1
    rw [if_neg hn] at e1
    by_cases hg : c.txGoaway < (if c.server then 2 ^ 62 - 4 else 2 ^ 62 - 1)
    · rw [if_pos hg] at e1; cases e1
    rw [if_neg hg] at e1
    obtain ⟨c2, e3, e4⟩ := bind_ok e1
    obtain rfl := R.ok.inj e4
    unfold ctrlFrame at e3
    split at e3
    · cases e3
    · rename_i id _
      split at e3
      · cases e3
      · rename_i s1 h0
        obtain rfl := R.ok.inj e3
        have := fl_one (one_set (c := c) (id := id) (s := { s1 with out := { s1.out with frq := s1.out.frq ++ [.goaway (if c.server then 2 ^ 62 - 4 else 2 ^ 62 - 1)] } })) h0 ⟨rfl, rfl, rfl, rfl⟩
        exact same e2 (this.congr rfl)
  | shutdown =>
    change FlOk SameF c c'
    change shutdown c = _ at e
    unfold shutdown queueGoaway at e
    obtain ⟨c1, e1, e2⟩ := bind_ok e
    by_cases hn : c.ctrl.isNone = true
    · rw [if_pos hn] at e1; cases e1
    rw [if_neg hn] at e1
    by_cases hg : c.txGoaway < (if c.server then min (2 ^ 62 - 4) (c.maxBidi + 4).toNat else 0)
    · rw [if_pos hg] at e1; cases e1
    rw [if_neg hg] at e1
    obtain ⟨c2, e3, e4⟩ := bind_ok e1
    obtain rfl := R.ok.inj e4
    unfold ctrlFrame at e3
    split at e3
    · cases e3
    · rename_i id _
      split at e3
      · cases e3
      · rename_i s1 h0
        obtain rfl := R.ok.inj e3
        have := fl_one (one_set (c := c) (id := id) (s := { s1 with out := { s1.out with frq := s1.out.frq ++ [.goaway (if c.server then min (2 ^ 62 - 4) (c.maxBidi + 4).toNat else 0)] } })) h0 ⟨rfl, rfl, rfl, rfl⟩
        exact same e2 (this.congr rfl)
  | setServerPri id pri =>
    change FlOk SameF c c'
    change setServerPriority c id pri = _ at e
    unfold setServerPriority at e
    split_ifs at e
    · exact same e .refl
    · split at e
      · exact same e .refl
      · rename_i h0
        obtain ⟨c1, e1, e2⟩ := bind_ok e
        exact same e2 (fl_one (one_update e1) h0 ⟨rfl, rfl, rfl, rfl⟩)
  | setClientPri id va =>
    change FlOk SameF c c'
    change setClientPriority c id va = _ at e
    unfold setClientPriority at e
    split_ifs at e
    · exact same e .refl
    · split at e
      · exact same e .refl
      · obtain ⟨c1, e1, e2⟩ := bind_ok e
        unfold ctrlFrame at e1
        split at e1
        · cases e1
        · split at e1
          · cases e1
          · rename_i h0
            obtain rfl := R.ok.inj e1
            exact same e2 (fl_one one_set h0 ⟨rfl, rfl, rfl, rfl⟩)
  | setMaxClient n =>
    change FlOk SameF c c'
    change setMaxClientStreams c n = _ at e
    unfold setMaxClientStreams at e
    split_ifs at e with h1
    exact same e (FlOk.congr .refl rfl)
  | «open» id empty =>
    change FlOk SameF c c'
    change openStream c id empty = _ at e
    unfold openStream at e
    by_cases h1 : decide (id ≥ 2 ^ 62) = true
    · rw [if_pos h1] at e; cases e
    rw [if_neg h1] at e
    split at e
    · split_ifs at e
      exact same e .refl
    · rename_i h0
      by_cases h2 : c.server = true
      · rw [if_pos h2] at e
        by_cases h3 : clientBidi id = true
        · rw [if_pos h3] at e
          split at e
          · cases e
          · exact same e (fl_new rfl ⟨rfl, rfl, rfl, rfl⟩ h0)
        · rw [if_neg h3] at e
          split_ifs at e
          · exact same e .refl
          · exact same e .refl
          · exact same e (fl_new rfl ⟨rfl, rfl, rfl, rfl⟩ h0)
      · rw [if_neg h2] at e
        split_ifs at e with h3
        · exact same e .refl
        · exact same e (fl_new rfl ⟨rfl, rfl, rfl, rfl⟩ h0)
        · exact same e .refl
  | uni id src fin =>
    change FlOk SameF c c'
    change readUni c id src fin = _ at e
    unfold readUni at e
    by_cases h1 : ((c.server && !clientUni id) || (!c.server && !serverUni id)) = true
    · rw [if_pos h1] at e; cases e
    rw [if_neg h1] at e
    split at e
    · cases e
    · rename_i s0 h0
      by_cases h2 : (src.isEmpty && !fin) = true
      · rw [if_pos h2] at e; exact same e .refl
      rw [if_neg h2] at e
      by_cases h3 : s0.ident = true
      · rw [if_pos h3] at e; exact same e .refl
      rw [if_neg h3] at e
      by_cases h4 : src.isEmpty = true
      · rw [if_pos h4] at e
        split_ifs at e
        · exact same e .refl
        · obtain ⟨c1, e1, e2⟩ := bind_ok e
          exact same e2 (fl_delete e1)
      rw [if_neg h4] at e
      split at e
      · cases e
      · exact same e .refl
      · exact same e (fl_one one_set h0 ⟨rfl, rfl, rfl, rfl⟩)
      · rename_i vv n _
        have su : ∀ {c1 : Conn E F} {s1 : Strm F}, setUniType c s0 vv = .ok (c1, s1) → FlOk SameF c (c1.set id s1) := by
          intro c1 s1 g
          have : ∃ a b d ty, c1 = { c with ctrlOpened := a, qencOpened := b, qdecOpened := d } ∧ s1 = { s0 with ty := ty, ident := true, rv := {} } := by
            unfold setUniType at g
            dsimp only at g
            split_ifs at g
            all_goals (obtain ⟨rfl, rfl⟩ := Prod.mk.inj (Except.ok.inj g); exact ⟨_, _, _, _, rfl, rfl⟩)
          obtain ⟨a, b, d, ty, rfl, rfl⟩ := this
          have := fl_one (one_set (c := c) (id := id) (s := { s0 with ty := ty, ident := true, rv := {} })) h0 ⟨rfl, rfl, rfl, rfl⟩
          exact this.congr rfl
        split at e
        · exact same e .refl
        · rename_i c1 s1 g
          split_ifs at e
          · exact same e (su g)
          · split at e
            · exact same e .refl
            · exact same e (su g)
  | priUpd id pri =>
    change FlOk SameF c c'
    change onPriorityUpdate c id pri = _ at e
    unfold onPriorityUpdate at e
    by_cases h1 : (!c.server) = true
    · rw [if_pos h1] at e; cases e
    rw [if_neg h1] at e
    by_cases h2 : (!clientBidi id || decide (ordStreamId id > c.maxClient)) = true
    · rw [if_pos h2] at e; exact same e .refl
    rw [if_neg h2] at e
    split at e
    · rename_i h0
      by_cases h3 : rejects c id = true
      · rw [if_pos h3] at e; exact same e .refl
      rw [if_neg h3] at e
      split at e
      · cases e
      · exact same e .refl
      · exact same e (fl_new rfl ⟨rfl, rfl, rfl, rfl⟩ h0)
    · rename_i h0
      split_ifs at e
      · exact same e .refl
      · obtain ⟨c1, e1, e2⟩ := bind_ok e
        exact same e2 (fl_one (one_update e1) h0 ⟨rfl, rfl, rfl, rfl⟩)
  | hdrPri id pri =>
    change FlOk SameF c c'
    change onHeaderPriority c id pri = _ at e
    unfold onHeaderPriority at e
    split at e
    · cases e
    · rename_i h0
      split_ifs at e
      · obtain ⟨c1, e1, e2⟩ := bind_ok e
        exact same e2 (fl_one (one_update e1) h0 ⟨rfl, rfl, rfl, rfl⟩)
      · exact same e .refl
  | qpackBlock id =>
    change FlOk SameF c c'
    change qpackBlock c id = _ at e
    unfold qpackBlock at e
    split at e
    · cases e
    · rename_i h0
      split_ifs at e
      exact same e (fl_one one_set h0 ⟨rfl, rfl, rfl, rfl⟩)
  | qpackUnblock id pri again =>
    change FlOk SameF c c'
    change qpackUnblock c id pri again = _ at e
    unfold qpackUnblock at e
    split at e
    · cases e
    · rename_i s0 h0
      by_cases hb : s0.qblocked = false
      · rw [if_pos hb] at e; cases e
      rw [if_neg hb] at e
      dsimp only at e
      obtain ⟨⟨c1, r1⟩, e1, e2⟩ := bind_ok e
      have hq : ∃ s1 : Strm F, SameF id s0 s1 ∧ One c id s1 c1 := by
        cases pri with
        | none => obtain ⟨rfl, _⟩ := Prod.mk.inj (R.ok.inj e1); exact ⟨{ s0 with qblocked := false }, ⟨rfl, rfl, rfl, rfl⟩, one_set⟩
        | some p =>
          change onHeaderPriority _ id p = _ at e1
          unfold onHeaderPriority at e1
          rw [set_str] at e1
          dsimp only at e1
          by_cases hc : ((c.set id { s0 with qblocked := false }).server && !s0.priUpd && !s0.srvPri) = true
          · rw [if_pos hc] at e1
            obtain ⟨c2, e3, e4⟩ := bind_ok e1
            obtain ⟨rfl, _⟩ := Prod.mk.inj (R.ok.inj e4)
            obtain ⟨a, b, d, f, rfl⟩ := one_update e3
            exact ⟨{ s0 with qblocked := false, pri := p }, ⟨rfl, rfl, rfl, rfl⟩, ⟨a, b, d, f, set_set { c with sched := a } id _ _⟩⟩
          · rw [if_neg hc] at e1
            obtain ⟨rfl, _⟩ := Prod.mk.inj (R.ok.inj e1); exact ⟨{ s0 with qblocked := false }, ⟨rfl, rfl, rfl, rfl⟩, one_set⟩
      obtain ⟨s1, hcl, h1⟩ := hq
      obtain ⟨sd, cy, uw, h2⟩ := h1.own
      dsimp only at e2
      rw [h2] at e2
      dsimp only at e2
      by_cases ha : again = true
      · rw [if_pos ha] at e2
        obtain ⟨a, b, d, f, rfl⟩ := h1
        refine same e2 (fl_one (s := { s1 with qblocked := true, sched := sd, cycle := cy, uwrite := uw }) ⟨a, sd, cy, uw, ?_⟩ h0 hcl)
        exact set_set { c with sched := a } id _ _
      rw [if_neg ha] at e2
      by_cases hc : s1.closed = true
      · rw [if_pos hc] at e2
        obtain ⟨c2, e3, e4⟩ := bind_ok e2
        exact same e4 ((fl_one h1 h0 hcl).trans (grow_one h1) (fl_delete e3))
      · rw [if_neg hc] at e2
        exact same e2 (fl_one h1 h0 hcl)
  | recvGoaway =>
    change FlOk SameF c c'
    exact same e (FlOk.congr .refl rfl)

end Conn
end Nghttp3
