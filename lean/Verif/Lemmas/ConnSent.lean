import Verif.Lemmas.ConnFlags
import Verif.Spec.Sent
/-! What each call does to the queues of the streams. -/
namespace Nghttp3
namespace Conn
open PQ (upd upd_same upd_ne)
open Outq (R Frent Ans Bytes St)
open Sent (subm closes)

variable {E F : Type} {w v : Prop} {c c' : Conn E F} {id : Nat} {s0 s : Strm F} {encode : Encode E F}

/-- frames are queued, the end may be announced -/
def addF (a : St F) (l : List (Frent F)) (b : Bool) : St F := { a with frq := a.frq ++ l, endStream := a.endStream || b }

theorem addF_nil (a : St F) : addF a [] false = a := by
  unfold addF
  rw [List.append_nil, Bool.or_false]

/-- what the call does to the queue of a stream that exists before and after it -/
def TrO (c : Conn E F) (o : Op F) (r : Ret) (x : Nat) (a a' : St F) : Prop :=
  match o with
  | .addWrite id n => if id = x then Outq.addOutqOffset a n = .ok a' else a' = a
  | .addAck id n => if id = x then ∃ rep, Outq.updateAckOffset a (a.ackOffset + n) = .ok (a', rep) else a' = a
  | .updAck id off => if id = x ∧ r = .code 0 then a.ackOffset ≤ off ∧ ∃ rep, Outq.updateAckOffset a off = .ok (a', rep) else a' = a
  | .resume id => if id = x then a' = { a with readBlocked := false } else a' = a
  | _ => a' = addF a (subm c o r x) (closes o r x)

/-- new streams have the queue `N`, other streams are as `T` says; the encoder is as before -/
def QOk (N : Nat → St F) (T : Nat → St F → St F → Prop) (c c' : Conn E F) : Prop :=
  c'.enc = c.enc ∧ ∀ x s', c'.str x = some s' → (c.str x = none ∧ s'.out = N x) ∨ ∃ s0, c.str x = some s0 ∧ T x s0.out s'.out

/-- no queue changes -/
abbrev SameQ (c c' : Conn E F) : Prop := QOk (fun _ => {}) (fun _ a a' => a' = a) c c'

theorem SameQ.refl : SameQ c c := ⟨rfl, fun _ s' h => .inr ⟨s', h, rfl⟩⟩

theorem SameQ.congr {c1 : Conn E F} (h : SameQ c c1) (e : c'.str = c1.str) (e2 : c'.enc = c1.enc) : SameQ c c' :=
  ⟨e2.trans h.1, by rw [e]; exact h.2⟩

theorem SameQ.trans {c1 : Conn E F} (h1 : SameQ c c1) (hg : Grow c c1) (h2 : SameQ c1 c') : SameQ c c' := by
  refine ⟨h2.1.trans h1.1, fun x s' g => ?_⟩
  rcases h2.2 x s' g with ⟨k0, k⟩ | ⟨s1, k1, k2⟩
  · exact .inl ⟨hg x k0, k⟩
  · rcases h1.2 x s1 k1 with ⟨m0, m1⟩ | ⟨s0, m1, m2⟩
    · exact .inl ⟨m0, k2.trans m1⟩
    · exact .inr ⟨s0, m1, k2.trans m2⟩

theorem One.enc (h : One c id s c') : c'.enc = c.enc := by obtain ⟨_, _, _, _, rfl⟩ := h; rfl

theorem q_one' {N : Nat → St F} {T : Nat → St F → St F → Prop} (h : One c id s c') (h0 : c.str id = some s0)
    (h1 : T id s0.out s.out) (h2 : ∀ x t, x ≠ id → T x t t) : QOk N T c c' := by
  obtain ⟨sd, cy, uw, k⟩ := h.own
  refine ⟨h.enc, fun x s' g => ?_⟩
  by_cases hx : x = id
  · subst hx
    rw [k] at g; cases g
    exact .inr ⟨s0, h0, h1⟩
  · rw [h.fr hx] at g
    exact .inr ⟨s', g, h2 _ _ hx⟩

theorem q_one (h : One c id s c') (h0 : c.str id = some s0) (h1 : s.out = s0.out) : SameQ c c' := q_one' h h0 h1 fun _ _ _ => rfl

theorem q_delete (e : deleteStream c id s = .ok c') : SameQ c c' := by
  refine ⟨?_, fun x s' g => ?_⟩
  · unfold deleteStream at e
    split_ifs at e <;> (obtain rfl := R.ok.inj e; rfl)
  · rw [delete_str e] at g
    by_cases hx : x = id
    · subst hx; rw [upd_same] at g; cases g
    · rw [upd_ne _ _ hx] at g; exact .inr ⟨s', g, rfl⟩

theorem q_new {N : Nat → St F} {T : Nat → St F → St F → Prop} (e : c'.str = upd c.str id (some s)) (e2 : c'.enc = c.enc) (h1 : s.out = N id)
    (h0 : c.str id = none) (h2 : ∀ x t, x ≠ id → T x t t) : QOk N T c c' := by
  refine ⟨e2, fun x s' g => ?_⟩
  rw [e] at g
  by_cases hx : x = id
  · subst hx; rw [upd_same] at g; cases g; exact .inl ⟨h0, h1⟩
  · rw [upd_ne _ _ hx] at g; exact .inr ⟨s', g, h2 _ _ hx⟩

theorem one_submitF {nva : F} {dr : Bool} (e : submitHeadersData c id s nva dr = .ok c') :
    One c id { s with out := addF s.out (Frent.headers nva :: if dr = true then [Frent.data] else []) false } c' := by
  unfold submitHeadersData at e
  dsimp only at e
  generalize (Frent.headers nva :: if dr = true then [Frent.data] else []) = l at e ⊢
  have : addF s.out l false = { s.out with frq := s.out.frq ++ l } := by unfold addF; rw [Bool.or_false]
  rw [this]
  split at e
  · exact one_schedule e
  · obtain rfl := R.ok.inj e; exact one_set

/-- calls that leave the queues of the streams as they are -/
def keepsQ : Op F → Bool
  | .block _ | .unblock _ | .shutWr _ | .shutRd _ | .close _ | .setServerPri _ _ | .setMaxClient _ | .open _ _ | .uni _ _ _ | .priUpd _ _
  | .hdrPri _ _ | .qpackBlock _ | .qpackUnblock _ _ _ | .recvGoaway => true
  | _ => false

theorem step_keepQ {o : Op F} {r : Ret} (hk : keepsQ o = true) (e : step encode c o = .ok (c', r)) : SameQ c c' := by
  have same : ∀ {c1 : Conn E F} {r1 : Ret}, (R.ok (c1, r1) : R (Conn E F × Ret)) = .ok (c', r) → SameQ c c1 → SameQ c c' := by
    intro c1 r1 g1 g2
    obtain ⟨rfl, _⟩ := Prod.mk.inj (R.ok.inj g1); exact g2
  cases o with
  | block id =>
    change blockStream c id = _ at e
    unfold blockStream at e
    split at e
    · rename_i h0
      exact same e .refl
    · rename_i h0
      dsimp only at e
      split_ifs at e
      · obtain ⟨c1, e3, e4⟩ := bind_ok e
        exact same e4 (q_one (one_unschedule e3) h0 rfl)
      · exact same e (q_one one_set h0 rfl)
  | unblock id =>
    change unblockStream c id = _ at e
    unfold unblockStream at e
    split at e
    · rename_i h0
      exact same e .refl
    · rename_i h0
      dsimp only at e
      split_ifs at e
      · obtain ⟨c1, e3, e4⟩ := bind_ok e
        exact same e4 (q_one (one_ensure e3) h0 rfl)
      · exact same e (q_one one_set h0 rfl)
  | shutWr id =>
    change shutdownWrite c id = _ at e
    unfold shutdownWrite at e
    split at e
    · rename_i h0
      exact same e .refl
    · rename_i h0
      dsimp only at e
      split_ifs at e
      · obtain ⟨c1, e3, e4⟩ := bind_ok e
        exact same e4 (q_one (one_unschedule e3) h0 rfl)
      · exact same e (q_one one_set h0 rfl)
  | shutRd id =>
    change shutdownRead c id = _ at e
    unfold shutdownRead at e
    split_ifs at e
    · exact same e .refl
    · split at e
      · exact same e .refl
      · rename_i h0
        exact same e (q_one one_set h0 rfl)
  | close id =>
    change closeStream c id = _ at e
    unfold closeStream at e
    split at e
    · exact same e .refl
    · rename_i s0 h0
      split_ifs at e with hcr
      · exact same e .refl
      · obtain ⟨c1, e3, e4⟩ := bind_ok e
        have hc1 := one_unschedule e3
        dsimp only at e4
        split_ifs at e4
        · obtain ⟨c2, e5, e6⟩ := bind_ok e4
          exact same e6 ((q_one hc1 h0 rfl).trans (grow_one hc1) (q_delete e5))
        · obtain ⟨_, _, _, _, rfl⟩ := hc1
          exact same e4 (q_one (s := { s0 with sched := false, closed := true }) ⟨_, false, _, _, set_set _ _ _ _⟩ h0 rfl)
  | setServerPri id pri =>
    change setServerPriority c id pri = _ at e
    unfold setServerPriority at e
    split_ifs at e
    · exact same e .refl
    · split at e
      · exact same e .refl
      · rename_i h0
        obtain ⟨c1, e1, e2⟩ := bind_ok e
        exact same e2 (q_one (one_update e1) h0 rfl)
  | setMaxClient n =>
    change setMaxClientStreams c n = _ at e
    unfold setMaxClientStreams at e
    split_ifs at e with h1
    exact same e (SameQ.congr .refl rfl rfl)
  | «open» id empty =>
    change openStream c id empty = _ at e
    unfold openStream at e
    by_cases h1 : decide (id ≥ 2 ^ 62) = true
    · rw [if_pos h1] at e; cases e
    rw [if_neg h1] at e
    split at e
    · split_ifs at e
      exact same e .refl
    · rename_i h0
      by_cases h2 : c.server = true
      · rw [if_pos h2] at e
        by_cases h3 : clientBidi id = true
        · rw [if_pos h3] at e
          split at e
          · cases e
          · exact same e (q_new rfl rfl rfl h0 fun _ _ _ => rfl)
        · rw [if_neg h3] at e
          split_ifs at e
          · exact same e .refl
          · exact same e .refl
          · exact same e (q_new rfl rfl rfl h0 fun _ _ _ => rfl)
      · rw [if_neg h2] at e
        split_ifs at e with h3
        · exact same e .refl
        · exact same e (q_new rfl rfl rfl h0 fun _ _ _ => rfl)
        · exact same e .refl
  | uni id src fin =>
    change readUni c id src fin = _ at e
    unfold readUni at e
    by_cases h1 : ((c.server && !clientUni id) || (!c.server && !serverUni id)) = true
    · rw [if_pos h1] at e; cases e
    rw [if_neg h1] at e
    split at e
    · cases e
    · rename_i s0 h0
      by_cases h2 : (src.isEmpty && !fin) = true
      · rw [if_pos h2] at e; exact same e .refl
      rw [if_neg h2] at e
      by_cases h3 : s0.ident = true
      · rw [if_pos h3] at e; exact same e .refl
      rw [if_neg h3] at e
      by_cases h4 : src.isEmpty = true
      · rw [if_pos h4] at e
        split_ifs at e
        · exact same e .refl
        · obtain ⟨c1, e1, e2⟩ := bind_ok e
          exact same e2 (q_delete e1)
      rw [if_neg h4] at e
      split at e
      · cases e
      · exact same e .refl
      · exact same e (q_one one_set h0 rfl)
      · rename_i vv n _
        have su : ∀ {c1 : Conn E F} {s1 : Strm F}, setUniType c s0 vv = .ok (c1, s1) → SameQ c (c1.set id s1) := by
          intro c1 s1 g
          have : ∃ a b d ty, c1 = { c with ctrlOpened := a, qencOpened := b, qdecOpened := d } ∧ s1 = { s0 with ty := ty, ident := true, rv := {} } := by
            unfold setUniType at g
            dsimp only at g
            split_ifs at g
            all_goals (obtain ⟨rfl, rfl⟩ := Prod.mk.inj (Except.ok.inj g); exact ⟨_, _, _, _, rfl, rfl⟩)
          obtain ⟨a, b, d, ty, rfl, rfl⟩ := this
          have := q_one (one_set (c := c) (id := id) (s := { s0 with ty := ty, ident := true, rv := {} })) h0 rfl
          exact this.congr rfl rfl
        split at e
        · exact same e .refl
        · rename_i c1 s1 g
          split_ifs at e
          · exact same e (su g)
          · split at e
            · exact same e .refl
            · exact same e (su g)
  | priUpd id pri =>
    change onPriorityUpdate c id pri = _ at e
    unfold onPriorityUpdate at e
    by_cases h1 : (!c.server) = true
    · rw [if_pos h1] at e; cases e
    rw [if_neg h1] at e
    by_cases h2 : (!clientBidi id || decide (ordStreamId id > c.maxClient)) = true
    · rw [if_pos h2] at e; exact same e .refl
    rw [if_neg h2] at e
    split at e
    · rename_i h0
      by_cases h3 : rejects c id = true
      · rw [if_pos h3] at e; exact same e .refl
      rw [if_neg h3] at e
      split at e
      · cases e
      · exact same e .refl
      · exact same e (q_new rfl rfl rfl h0 fun _ _ _ => rfl)
    · rename_i h0
      split_ifs at e
      · exact same e .refl
      · obtain ⟨c1, e1, e2⟩ := bind_ok e
        exact same e2 (q_one (one_update e1) h0 rfl)
  | hdrPri id pri =>
    change onHeaderPriority c id pri = _ at e
    unfold onHeaderPriority at e
    split at e
    · cases e
    · rename_i h0
      split_ifs at e
      · obtain ⟨c1, e1, e2⟩ := bind_ok e
        exact same e2 (q_one (one_update e1) h0 rfl)
      · exact same e .refl
  | qpackBlock id =>
    change qpackBlock c id = _ at e
    unfold qpackBlock at e
    split at e
    · cases e
    · rename_i h0
      split_ifs at e
      exact same e (q_one one_set h0 rfl)
  | qpackUnblock id pri again =>
    change qpackUnblock c id pri again = _ at e
    unfold qpackUnblock at e
    split at e
    · cases e
    · rename_i s0 h0
      by_cases hb : s0.qblocked = false
      · rw [if_pos hb] at e; cases e
      rw [if_neg hb] at e
      dsimp only at e
      obtain ⟨⟨c1, r1⟩, e1, e2⟩ := bind_ok e
      have hq : ∃ s1 : Strm F, s1.out = s0.out ∧ One c id s1 c1 := by
        cases pri with
        | none => obtain ⟨rfl, _⟩ := Prod.mk.inj (R.ok.inj e1); exact ⟨{ s0 with qblocked := false }, rfl, one_set⟩
        | some p =>
          change onHeaderPriority _ id p = _ at e1
          unfold onHeaderPriority at e1
          rw [set_str] at e1
          dsimp only at e1
          by_cases hc : ((c.set id { s0 with qblocked := false }).server && !s0.priUpd && !s0.srvPri) = true
          · rw [if_pos hc] at e1
            obtain ⟨c2, e3, e4⟩ := bind_ok e1
            obtain ⟨rfl, _⟩ := Prod.mk.inj (R.ok.inj e4)
            obtain ⟨a, b, d, f, rfl⟩ := one_update e3
            exact ⟨{ s0 with qblocked := false, pri := p }, rfl, ⟨a, b, d, f, set_set { c with sched := a } id _ _⟩⟩
          · rw [if_neg hc] at e1
            obtain ⟨rfl, _⟩ := Prod.mk.inj (R.ok.inj e1); exact ⟨{ s0 with qblocked := false }, rfl, one_set⟩
      obtain ⟨s1, hcl, h1⟩ := hq
      obtain ⟨sd, cy, uw, h2⟩ := h1.own
      dsimp only at e2
      rw [h2] at e2
      dsimp only at e2
      by_cases ha : again = true
      · rw [if_pos ha] at e2
        obtain ⟨a, b, d, f, rfl⟩ := h1
        refine same e2 (q_one (s := { s1 with qblocked := true, sched := sd, cycle := cy, uwrite := uw }) ⟨a, sd, cy, uw, ?_⟩ h0 hcl)
        exact set_set { c with sched := a } id _ _
      rw [if_neg ha] at e2
      by_cases hc : s1.closed = true
      · rw [if_pos hc] at e2
        obtain ⟨c2, e3, e4⟩ := bind_ok e2
        exact same e4 ((q_one h1 h0 hcl).trans (grow_one h1) (q_delete e3))
      · rw [if_neg hc] at e2
        exact same e2 (q_one h1 h0 hcl)
  | recvGoaway =>
    exact same e (SameQ.congr .refl rfl rfl)
  | _ => cases hk

/-- the queue of a new stream -/
def newQ (c : Conn E F) (o : Op F) (r : Ret) (x : Nat) : St F := addF {} (subm c o r x) (closes o r x)

theorem subm_err {o : Op F} {x : Nat} {n : Int} (h : n ≠ 0) : subm c o (.code n) x = [] := by
  unfold subm; rw [if_neg (by intro g; cases g; exact h rfl)]

theorem closes_err {o : Op F} {x : Nat} {n : Int} (h : n ≠ 0) : closes o (.code n) x = false := by
  unfold closes; rw [if_neg (by intro g; cases g; exact h rfl)]

theorem q_ref {N : Nat → St F} {T : Nat → St F → St F → Prop} (h : ∀ x s, c.str x = some s → T x s.out s.out) : QOk N T c c :=
  ⟨rfl, fun x s' g => .inr ⟨s', g, h x s' g⟩⟩

theorem keepQ_subm {o : Op F} {r : Ret} {x : Nat} (h : keepsQ o = true) : subm c o r x = [] ∧ closes o r x = false := by
  unfold subm closes
  cases o <;> first | (cases h; done) | (constructor <;> (split_ifs <;> rfl))

theorem keepQ_tr {o : Op F} {r : Ret} {x : Nat} {a a' : St F} (h : keepsQ o = true) (e : a' = a) : TrO c o r x a a' := by
  have := keepQ_subm (c := c) (r := r) (x := x) h
  unfold TrO
  subst e
  cases o <;> first | (cases h; done) | (dsimp only; rw [this.1, this.2, addF_nil])

theorem frq_addF (a : St F) (l : List (Frent F)) : { a with frq := a.frq ++ l } = addF a l false := by unfold addF; rw [Bool.or_false]

theorem q_ctrl {o : Op F} {f : Frent F} (ho : ∀ a a' x, TrO c o (.code 0) x a a' ↔ a' = addF a (if c.ctrl = some x then [f] else []) false)
    {N : Nat → St F} (e : ctrlFrame c f = .ok c') : QOk N (TrO c o (.code 0)) c c' := by
  unfold ctrlFrame at e
  split at e
  · cases e
  · rename_i id hc
    split at e
    · cases e
    · rename_i s1 h0
      obtain rfl := R.ok.inj e
      refine q_one' one_set h0 ?_ ?_
      · rw [ho, if_pos hc]; exact frq_addF _ _
      · intro x t hx
        rw [ho, if_neg (by rw [hc]; intro g; cases g; exact hx rfl), addF_nil]

/-- all calls but those that bind streams or write -/
theorem step_out {o : Op F} {r : Ret} (h1 : ∀ id, o ≠ .bindControl id) (h2 : ∀ a b, o ≠ .bindQpack a b) (h3 : ∀ k db as, o ≠ .writev k db as)
    (e : step encode c o = .ok (c', r)) : QOk (newQ c o r) (TrO c o r) c c' := by
  by_cases hk : keepsQ o = true
  · obtain ⟨g1, g2⟩ := step_keepQ hk e
    refine ⟨g1, fun x s' g => ?_⟩
    rcases g2 x s' g with ⟨k1, k2⟩ | ⟨s0, k1, k2⟩
    · refine .inl ⟨k1, ?_⟩
      have := keepQ_subm (c := c) (r := r) (x := x) hk
      unfold newQ
      rw [this.1, this.2, addF_nil, k2]
    · exact .inr ⟨s0, k1, keepQ_tr hk k2⟩
  have okk : ∀ {c1 : Conn E F} {r1 : Ret}, (R.ok (c1, r1) : R (Conn E F × Ret)) = .ok (c', r) → c' = c1 ∧ r = r1 := by
    intro c1 r1 g1
    obtain ⟨rfl, rfl⟩ := Prod.mk.inj (R.ok.inj g1); exact ⟨rfl, rfl⟩
  have nop : ∀ {x : Nat}, (∀ (y : Nat) (a : St F), y ≠ x → TrO c o r y a a) → c.str x = none → QOk (newQ c o r) (TrO c o r) c c := by
    intro x hx h0
    refine q_ref fun y s g => hx y _ ?_
    rintro rfl; rw [h0] at g; cases g
  have other : ∀ {id : Nat} {a : St F} {y : Nat}, y ≠ id → ∀ (g : subm c o r y = [] ∧ closes o r y = false), addF a (subm c o r y) (closes o r y) = a := by
    intro id a y _ g
    rw [g.1, g.2, addF_nil]
  cases o with
  | bindControl id => exact absurd rfl (h1 id)
  | bindQpack a b => exact absurd rfl (h2 a b)
  | writev k db as => exact absurd rfl (h3 k db as)
  | submitRequest id nva dr =>
    change submitRequest c id nva dr = _ at e
    unfold submitRequest at e
    split_ifs at e with g1
    · obtain ⟨rfl, rfl⟩ := okk e
      exact q_ref fun x s _ => by show _ = addF _ _ _; rw [subm_err (by decide), closes_err (by decide), addF_nil]
    · split at e
      · obtain ⟨rfl, rfl⟩ := okk e
        exact q_ref fun x s _ => by show _ = addF _ _ _; rw [subm_err (by decide), closes_err (by decide), addF_nil]
      · rename_i h0
        obtain ⟨c1, e1, e2⟩ := bind_ok e
        obtain ⟨rfl, rfl⟩ := okk e2
        have h3 := one_submitF e1
        refine ⟨h3.enc, fun x s' g => ?_⟩
        by_cases hx : x = id
        · subst hx
          obtain ⟨sd, cy, uw, k⟩ := h3.own
          rw [k] at g; cases g
          refine .inl ⟨h0, ?_⟩
          unfold newQ subm closes
          simp only [if_true, beq_self_eq_true, Bool.true_and]
          cases dr <;> rfl
        · rw [h3.fr hx] at g
          have : c.str x = some s' := by change upd c.str id (some {}) x = _ at g; rwa [upd_ne _ _ hx] at g
          refine .inr ⟨s', this, ?_⟩
          show _ = addF _ _ _
          unfold subm closes
          simp only [if_true, if_neg (Ne.symm hx), beq_eq_false_iff_ne.2 (Ne.symm hx), Bool.false_and, addF_nil]
  | submitInfo id nva =>
    change submitInfo c id nva = _ at e
    unfold submitInfo at e
    split_ifs at e
    split at e
    · obtain ⟨rfl, rfl⟩ := okk e
      exact q_ref fun x s _ => by show _ = addF _ _ _; rw [subm_err (by decide), closes_err (by decide), addF_nil]
    · rename_i s0 h0
      obtain ⟨c1, e1, e2⟩ := bind_ok e
      obtain ⟨rfl, rfl⟩ := okk e2
      refine q_one' (one_submitF e1) h0 ?_ ?_
      · show _ = addF _ _ _
        unfold subm closes
        simp only [if_true, Bool.false_eq_true, if_false]
      · intro x t hx
        show _ = addF _ _ _
        unfold subm closes
        simp only [if_true, if_neg (Ne.symm hx), addF_nil]
  | submitResponse id nva dr =>
    change submitResponse c id nva dr = _ at e
    unfold submitResponse at e
    by_cases hc : (!c.server || c.qenc.isNone) = true
    · rw [if_pos hc] at e; cases e
    rw [if_neg hc] at e
    split at e
    · obtain ⟨rfl, rfl⟩ := okk e
      exact q_ref fun x s _ => by show _ = addF _ _ _; rw [subm_err (by decide), closes_err (by decide), addF_nil]
    · rename_i s0 h0
      obtain ⟨c1, e1, e2⟩ := bind_ok e
      obtain ⟨rfl, rfl⟩ := okk e2
      refine q_one' (one_submitF e1) h0 ?_ ?_
      · show _ = addF _ _ _
        unfold subm closes
        simp only [if_true, beq_self_eq_true, Bool.true_and]
        cases dr
        · unfold addF setEnd Outq.setEnd; simp
        · rfl
      · intro x t hx
        show _ = addF _ _ _
        unfold subm closes
        simp only [if_true, if_neg (Ne.symm hx), beq_eq_false_iff_ne.2 (Ne.symm hx), Bool.false_and, addF_nil]
  | submitTrailers id nva =>
    change submitTrailers c id nva = _ at e
    unfold submitTrailers at e
    split_ifs at e
    split at e
    · obtain ⟨rfl, rfl⟩ := okk e
      exact q_ref fun x s _ => by show _ = addF _ _ _; rw [subm_err (by decide), closes_err (by decide), addF_nil]
    · rename_i s0 h0
      split_ifs at e
      · obtain ⟨rfl, rfl⟩ := okk e
        exact q_ref fun x s _ => by show _ = addF _ _ _; rw [subm_err (by decide), closes_err (by decide), addF_nil]
      · obtain ⟨c1, e1, e2⟩ := bind_ok e
        obtain ⟨rfl, rfl⟩ := okk e2
        refine q_one' (one_submitF e1) h0 ?_ ?_
        · show _ = addF _ _ _
          unfold subm closes
          simp only [if_true, beq_self_eq_true, Bool.false_eq_true, if_false]
          unfold addF setEnd Outq.setEnd; simp
        · intro x t hx
          show _ = addF _ _ _
          unfold subm closes
          simp only [if_true, if_neg (Ne.symm hx), beq_eq_false_iff_ne.2 (Ne.symm hx), addF_nil]
  | addWrite id n =>
    have hne : ∀ (y : Nat) (a : St F), y ≠ id → TrO c (.addWrite id n : Op F) r y a a := fun y a hy => by
      unfold TrO; dsimp only; rw [if_neg (Ne.symm hy)]
    change addWriteOffset c id n = _ at e
    unfold addWriteOffset at e
    split at e
    · rename_i h0
      obtain ⟨rfl, rfl⟩ := okk e
      exact nop hne h0
    · rename_i s0 h0
      obtain ⟨a, ea, e2⟩ := bind_ok e
      dsimp only at e2
      have fin : ∀ {c1 : Conn E F} (n' : Nat), One c id { s0 with out := a, uwrite := n' } c1 → QOk (newQ c (.addWrite id n) r) (TrO c (.addWrite id n) r) c c1 := by
        intro c1 n' ho
        refine q_one' ho h0 ?_ fun x t hx => hne x t hx
        unfold TrO; dsimp only; rw [if_pos rfl]; exact ea
      split_ifs at e2
      · obtain ⟨rfl, rfl⟩ := okk e2; exact fin _ one_set
      · obtain ⟨c1, e3, e4⟩ := bind_ok e2
        obtain ⟨rfl, rfl⟩ := okk e4; exact fin _ (one_unschedule e3)
      · obtain ⟨rfl, rfl⟩ := okk e2; exact fin _ one_set
      · obtain ⟨c1, e3, e4⟩ := bind_ok e2
        obtain ⟨rfl, rfl⟩ := okk e4; exact fin _ (one_schedule e3)
  | addAck id n =>
    have hne : ∀ (y : Nat) (a : St F), y ≠ id → TrO c (.addAck id n : Op F) r y a a := fun y a hy => by
      unfold TrO; dsimp only; rw [if_neg (Ne.symm hy)]
    change addAckOffset c id n = _ at e
    unfold addAckOffset at e
    split at e
    · rename_i h0
      obtain ⟨rfl, rfl⟩ := okk e
      exact nop hne h0
    · rename_i s0 h0
      obtain ⟨⟨a, rep⟩, ea, e2⟩ := bind_ok e
      obtain ⟨rfl, rfl⟩ := okk e2
      refine q_one' one_set h0 ?_ fun x t hx => hne x t hx
      unfold TrO; dsimp only; rw [if_pos rfl]; exact ⟨rep, ea⟩
  | updAck id off =>
    have hne : ∀ (y : Nat) (a : St F), y ≠ id → TrO c (.updAck id off : Op F) r y a a := fun y a hy => by
      unfold TrO; dsimp only; rw [if_neg fun g => Ne.symm hy g.1]
    change updateAckOffset c id off = _ at e
    unfold updateAckOffset at e
    split at e
    · rename_i h0
      obtain ⟨rfl, rfl⟩ := okk e
      exact nop hne h0
    · rename_i s0 h0
      split at e
      · obtain ⟨rfl, rfl⟩ := okk e
        refine q_ref fun x s _ => ?_
        unfold TrO; dsimp only; rw [if_neg fun g => absurd g.2 (by decide)]
      · rename_i hq
        unfold Outq.connUpdateAckOffset at hq
        split_ifs at hq with hlt
        obtain rfl := Option.some.inj hq
        obtain ⟨⟨a, rep⟩, ea, e2⟩ := bind_ok e
        obtain ⟨rfl, rfl⟩ := okk e2
        refine q_one' one_set h0 ?_ fun x t hx => hne x t hx
        unfold TrO; dsimp only; rw [if_pos ⟨rfl, rfl⟩]; exact ⟨by omega, rep, ea⟩
  | resume id =>
    have hne : ∀ (y : Nat) (a : St F), y ≠ id → TrO c (.resume id : Op F) r y a a := fun y a hy => by
      unfold TrO; dsimp only; rw [if_neg (Ne.symm hy)]
    change resumeStream c id = _ at e
    unfold resumeStream at e
    split at e
    · rename_i h0
      obtain ⟨rfl, rfl⟩ := okk e
      exact nop hne h0
    · rename_i s0 h0
      dsimp only at e
      have fin : ∀ {c1 : Conn E F}, One c id { s0 with out := { s0.out with readBlocked := false } } c1 → QOk (newQ c (.resume id) r) (TrO c (.resume id) r) c c1 := by
        intro c1 ho
        refine q_one' ho h0 ?_ fun x t hx => hne x t hx
        unfold TrO; dsimp only; rw [if_pos rfl]
      split_ifs at e
      · obtain ⟨c1, e3, e4⟩ := bind_ok e
        obtain ⟨rfl, rfl⟩ := okk e4; exact fin (one_ensure e3)
      · obtain ⟨rfl, rfl⟩ := okk e; exact fin one_set
  | notice =>
    change submitNotice c = _ at e
    unfold submitNotice queueGoaway at e
    obtain ⟨c1, e1, e2⟩ := bind_ok e
    obtain ⟨rfl, rfl⟩ := okk e2
    by_cases hn : c.ctrl.isNone = true
    · rw [if_pos hn] at e1; cases e1
    rw [if_neg hn] at e1
    by_cases hg : c.txGoaway < (if c.server then 2 ^ 62 - 4 else 2 ^ 62 - 1)
    · rw [if_pos hg] at e1; cases e1
    rw [if_neg hg] at e1
    obtain ⟨c2, e3, e4⟩ := bind_ok e1
    obtain rfl := R.ok.inj e4
    have h9 : QOk (newQ c .notice (.code 0)) (TrO c .notice (.code 0)) c c2 := by
      refine q_ctrl (fun a a' x => ?_) e3
      unfold TrO subm closes
      simp only [if_true]
    exact ⟨h9.1, h9.2⟩
  | shutdown =>
    change shutdown c = _ at e
    unfold shutdown queueGoaway at e
    obtain ⟨c1, e1, e2⟩ := bind_ok e
    obtain ⟨rfl, rfl⟩ := okk e2
    by_cases hn : c.ctrl.isNone = true
    · rw [if_pos hn] at e1; cases e1
    rw [if_neg hn] at e1
    by_cases hg : c.txGoaway < (if c.server then min (2 ^ 62 - 4) (c.maxBidi + 4).toNat else 0)
    · rw [if_pos hg] at e1; cases e1
    rw [if_neg hg] at e1
    obtain ⟨c2, e3, e4⟩ := bind_ok e1
    obtain rfl := R.ok.inj e4
    have h9 : QOk (newQ c .shutdown (.code 0)) (TrO c .shutdown (.code 0)) c c2 := by
      refine q_ctrl (fun a a' x => ?_) e3
      unfold TrO subm closes
      simp only [if_true]
    exact ⟨h9.1, h9.2⟩
  | setClientPri id va =>
    change setClientPriority c id va = _ at e
    unfold setClientPriority at e
    split_ifs at e
    · obtain ⟨rfl, rfl⟩ := okk e
      exact q_ref fun x s _ => by show _ = addF _ _ _; rw [subm_err (by decide), closes_err (by decide), addF_nil]
    · split at e
      · obtain ⟨rfl, rfl⟩ := okk e
        exact q_ref fun x s _ => by show _ = addF _ _ _; rw [subm_err (by decide), closes_err (by decide), addF_nil]
      · obtain ⟨c1, e1, e2⟩ := bind_ok e
        obtain ⟨rfl, rfl⟩ := okk e2
        refine q_ctrl (fun a a' x => ?_) e1
        unfold TrO subm closes
        simp only [if_true]
  | _ => exact absurd rfl hk

end Conn
end Nghttp3
