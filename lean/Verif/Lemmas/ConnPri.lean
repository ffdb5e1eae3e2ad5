import Verif.Lemmas.ConnEff
/-! What calls do to the priority of a request stream. -/
namespace Nghttp3
namespace Conn
open PQ (Mem IdxOk Heap upd upd_same upd_ne)
open Outq (R Frent Ans Bytes St)

variable {E F : Type} {w v : Prop} {c c' : Conn E F} {id : Nat} {s0 s : Strm F} {encode : Encode E F}

/-- how the priority of request stream `x` may change in one call -/
inductive PriStep (c : Conn E F) (x : Nat) : Op F → Option (Strm F) → Strm F → Prop where
  | new (o : Op F) (s' : Strm F) (h1 : s'.pri = ⟨3, false⟩) (h2 : s'.srvPri = false) (h3 : s'.priUpd = false) : PriStep c x o none s'
  | newUpd (p : Http.Pri) (s' : Strm F) (hs : c.server = true) (h1 : s'.pri = p) (h2 : s'.srvPri = false) (h3 : s'.priUpd = true) :
      PriStep c x (.priUpd x p) none s'
  | same (o : Op F) (s0 s' : Strm F) (h : Same3 s' s0)
      (hn : ∀ p, (o = .setServerPri x p → False) ∧ (o = .priUpd x p → s0.srvPri = true ∨ c.maxClient < ordStreamId x) ∧
        ((o = .hdrPri x p ∨ ∃ b, o = .qpackUnblock x (some p) b) → c.server = true → s0.priUpd = true ∨ s0.srvPri = true)) :
      PriStep c x o (some s0) s'
  | server (p : Http.Pri) (s0 s' : Strm F) (h1 : s'.pri = p) (h2 : s'.srvPri = true) (h3 : s'.priUpd = s0.priUpd) : PriStep c x (.setServerPri x p) (some s0) s'
  | update (p : Http.Pri) (s0 s' : Strm F) (h0 : s0.srvPri = false) (h1 : s'.pri = p) (h2 : s'.srvPri = false) (h3 : s'.priUpd = true) :
      PriStep c x (.priUpd x p) (some s0) s'
  | header (o : Op F) (p : Http.Pri) (s0 s' : Strm F) (ho : o = .hdrPri x p ∨ ∃ b, o = .qpackUnblock x (some p) b) (hc : c.server = true) (h0 : s0.srvPri = false)
      (h0' : s0.priUpd = false) (h1 : s'.pri = p) (h2 : s'.srvPri = false) (h3 : s'.priUpd = false) : PriStep c x o (some s0) s'

theorem pri_same {x : Nat} {o : Op F} {s0 s' : Strm F} (h : Same3 s' s0) (hn : priOp o = false) : PriStep c x o (some s0) s' :=
  .same o s0 s' h fun p => ⟨(fun g => by rw [g] at hn; cases hn), (fun g => by rw [g] at hn; cases hn), by
    rintro (g | ⟨b, g⟩) <;> rw [g] at hn <;> cases hn⟩

theorem new_stream {x : Nat} {o : Op F} {r : Ret} {s' : Strm F} (h1 : OpOk o) (h0 : c.str x = none) (hx : clientBidi x = true)
    (hn : names o x = true) (e : step encode c o = .ok (c', r)) (h' : c'.str x = some s') : PriStep c x o none s' := by
  have bi : ∀ {id : Nat}, (id == x) = true → id = x := fun g => by simpa using g
  have same : ∀ {P : Prop}, c'.str x = c.str x → P := fun g => by rw [g, h0] at h'; cases h'
  cases o with
  | bindControl id => exact same (fr_bindControl e hx)
  | bindQpack e' d => exact same (fr_bindQpack e hx)
  | submitRequest id nva dr =>
    obtain rfl := bi hn
    change submitRequest c id nva dr = _ at e
    unfold submitRequest at e
    split_ifs at e
    · obtain ⟨rfl, _⟩ := Prod.mk.inj (R.ok.inj e); exact same rfl
    · rw [h0] at e
      dsimp only at e
      obtain ⟨c1, e1, e2⟩ := bind_ok e
      obtain ⟨rfl, _⟩ := Prod.mk.inj (R.ok.inj e2)
      obtain ⟨o', ho⟩ := one_submit e1
      obtain ⟨_, _, _, hh⟩ := ho.own
      rw [h'] at hh
      obtain rfl := Option.some.inj hh
      exact .new _ _ (by cases dr <;> rfl) (by cases dr <;> rfl) (by cases dr <;> rfl)
  | submitInfo id nva =>
    obtain rfl := bi hn
    change submitInfo c id nva = _ at e
    unfold submitInfo at e
    rw [h0] at e
    split_ifs at e
    obtain ⟨rfl, _⟩ := Prod.mk.inj (R.ok.inj e); exact same rfl
  | submitResponse id nva dr =>
    obtain rfl := bi hn
    change submitResponse c id nva dr = _ at e
    unfold submitResponse at e
    rw [h0] at e
    by_cases hc : (!c.server || c.qenc.isNone) = true
    · rw [if_pos hc] at e; cases e
    · rw [if_neg hc] at e
      obtain ⟨rfl, _⟩ := Prod.mk.inj (R.ok.inj e); exact same rfl
  | submitTrailers id nva =>
    obtain rfl := bi hn
    change submitTrailers c id nva = _ at e
    unfold submitTrailers at e
    rw [h0] at e
    split_ifs at e
    obtain ⟨rfl, _⟩ := Prod.mk.inj (R.ok.inj e); exact same rfl
  | writev k db as => cases hn
  | addWrite id n =>
    obtain rfl := bi hn
    change addWriteOffset c id n = _ at e
    unfold addWriteOffset at e
    rw [h0] at e
    obtain ⟨rfl, _⟩ := Prod.mk.inj (R.ok.inj e); exact same rfl
  | addAck id n =>
    obtain rfl := bi hn
    change addAckOffset c id n = _ at e
    unfold addAckOffset at e
    rw [h0] at e
    obtain ⟨rfl, _⟩ := Prod.mk.inj (R.ok.inj e); exact same rfl
  | updAck id off =>
    obtain rfl := bi hn
    change updateAckOffset c id off = _ at e
    unfold updateAckOffset at e
    rw [h0] at e
    obtain ⟨rfl, _⟩ := Prod.mk.inj (R.ok.inj e); exact same rfl
  | block id =>
    obtain rfl := bi hn
    change blockStream c id = _ at e
    unfold blockStream at e
    rw [h0] at e
    obtain ⟨rfl, _⟩ := Prod.mk.inj (R.ok.inj e); exact same rfl
  | unblock id =>
    obtain rfl := bi hn
    change unblockStream c id = _ at e
    unfold unblockStream at e
    rw [h0] at e
    obtain ⟨rfl, _⟩ := Prod.mk.inj (R.ok.inj e); exact same rfl
  | shutWr id =>
    obtain rfl := bi hn
    change shutdownWrite c id = _ at e
    unfold shutdownWrite at e
    rw [h0] at e
    obtain ⟨rfl, _⟩ := Prod.mk.inj (R.ok.inj e); exact same rfl
  | resume id =>
    obtain rfl := bi hn
    change resumeStream c id = _ at e
    unfold resumeStream at e
    rw [h0] at e
    obtain ⟨rfl, _⟩ := Prod.mk.inj (R.ok.inj e); exact same rfl
  | shutRd id =>
    obtain rfl := bi hn
    change shutdownRead c id = _ at e
    unfold shutdownRead at e
    rw [h0] at e
    split_ifs at e <;> (obtain ⟨rfl, _⟩ := Prod.mk.inj (R.ok.inj e); exact same rfl)
  | close id =>
    obtain rfl := bi hn
    change closeStream c id = _ at e
    unfold closeStream at e
    rw [h0] at e
    obtain ⟨rfl, _⟩ := Prod.mk.inj (R.ok.inj e); exact same rfl
  | notice => cases hn
  | shutdown => cases hn
  | setServerPri id pri =>
    obtain rfl := bi hn
    change setServerPriority c id pri = _ at e
    unfold setServerPriority at e
    rw [h0] at e
    split_ifs at e <;> (obtain ⟨rfl, _⟩ := Prod.mk.inj (R.ok.inj e); exact same rfl)
  | setClientPri id va =>
    obtain rfl := bi hn
    change setClientPriority c id va = _ at e
    unfold setClientPriority at e
    rw [h0] at e
    split_ifs at e <;> (obtain ⟨rfl, _⟩ := Prod.mk.inj (R.ok.inj e); exact same rfl)
  | setMaxClient n => cases hn
  | «open» id empty =>
    obtain rfl := bi hn
    change openStream c id empty = _ at e
    unfold openStream at e
    rw [h0] at e
    split_ifs at e
    all_goals first
      | (obtain ⟨rfl, _⟩ := Prod.mk.inj (R.ok.inj e); exact same rfl)
      | (obtain ⟨rfl, _⟩ := Prod.mk.inj (R.ok.inj e)
         change upd c.str id (some ({} : Strm F)) id = _ at h'
         rw [upd_same] at h'
         obtain rfl := Option.some.inj h'
         exact .new _ _ rfl rfl rfl)
      | (dsimp only at e
         split at e
         · cases e
         · obtain ⟨rfl, _⟩ := Prod.mk.inj (R.ok.inj e)
           change upd c.str id (some ({} : Strm F)) id = _ at h'
           rw [upd_same] at h'
           obtain rfl := Option.some.inj h'
           exact .new _ _ rfl rfl rfl)
  | uni id src fin => exact same (fr_uni e hx)
  | priUpd id pri =>
    obtain rfl := bi hn
    change onPriorityUpdate c id pri = _ at e
    unfold onPriorityUpdate at e
    by_cases hs : c.server = true
    · rw [h0] at e
      split_ifs at e
      · obtain ⟨rfl, _⟩ := Prod.mk.inj (R.ok.inj e); exact same rfl
      · obtain ⟨rfl, _⟩ := Prod.mk.inj (R.ok.inj e); exact same rfl
      · dsimp only at e
        split at e
        · cases e
        · obtain ⟨rfl, _⟩ := Prod.mk.inj (R.ok.inj e); exact same rfl
        · obtain ⟨rfl, _⟩ := Prod.mk.inj (R.ok.inj e)
          change upd c.str id (some ({ pri := pri, priUpd := true } : Strm F)) id = _ at h'
          rw [upd_same] at h'
          obtain rfl := Option.some.inj h'
          exact .newUpd _ _ hs rfl rfl rfl
    · rw [if_pos (by simpa using hs)] at e; cases e
  | hdrPri id pri =>
    obtain rfl := bi hn
    change onHeaderPriority c id pri = _ at e
    unfold onHeaderPriority at e
    rw [h0] at e; cases e
  | qpackBlock id =>
    obtain rfl := bi hn
    change qpackBlock c id = _ at e
    unfold qpackBlock at e
    rw [h0] at e; cases e
  | qpackUnblock id pri again =>
    obtain rfl := bi hn
    change qpackUnblock c id pri again = _ at e
    unfold qpackUnblock at e
    rw [h0] at e; cases e
  | recvGoaway => cases hn

theorem one_pri {x : Nat} {s' : Strm F} {s1 : Strm F} (h : One c x s1 c') (h' : c'.str x = some s') :
    s'.pri = s1.pri ∧ s'.srvPri = s1.srvPri ∧ s'.priUpd = s1.priUpd := by
  obtain ⟨_, _, _, hh⟩ := h.own
  rw [h'] at hh
  obtain rfl := Option.some.inj hh
  exact ⟨rfl, rfl, rfl⟩

theorem hdr_pri {x : Nat} {p : Http.Pri} {r : Ret} {s0 s' : Strm F} (h0 : c.str x = some s0) (e : onHeaderPriority c x p = .ok (c', r))
    (h' : c'.str x = some s') : (Same3 s' s0 ∧ (c.server = true → s0.priUpd = true ∨ s0.srvPri = true)) ∨
      (c.server = true ∧ s0.srvPri = false ∧ s0.priUpd = false ∧ s'.pri = p ∧ s'.srvPri = false ∧ s'.priUpd = false) := by
  unfold onHeaderPriority at e
  rw [h0] at e
  dsimp only at e
  by_cases hg : (c.server && !s0.priUpd && !s0.srvPri) = true
  · rw [if_pos hg] at e
    obtain ⟨c1, e1, e2⟩ := bind_ok e
    obtain ⟨rfl, _⟩ := Prod.mk.inj (R.ok.inj e2)
    obtain ⟨g1, g2, g3⟩ := one_pri (one_update e1) h'
    have : c.server = true ∧ s0.priUpd = false ∧ s0.srvPri = false := by
      revert hg; cases c.server <;> cases s0.priUpd <;> cases s0.srvPri <;> simp
    exact Or.inr ⟨this.1, this.2.2, this.2.1, g1, g2.trans this.2.2, g3.trans this.2.1⟩
  · rw [if_neg hg] at e
    obtain ⟨rfl, _⟩ := Prod.mk.inj (R.ok.inj e)
    rw [h0] at h'; cases h'
    refine Or.inl ⟨⟨rfl, rfl, rfl⟩, fun hs => ?_⟩
    revert hg; rw [hs]; cases s0.priUpd <;> cases s0.srvPri <;> simp

/-- what happens to the priority of a request stream -/
theorem step_pri (h : Inv w v c) {o : Op F} {r : Ret} (h1 : OpOk o) {x : Nat} (hx : clientBidi x = true)
    (hw : w → FairWrite c o) (e : step encode c o = .ok (c', r)) {s' : Strm F} (h' : c'.str x = some s') : PriStep c x o (c.str x) s' := by
  by_cases hn : names o x = true
  · rcases h0 : c.str x with _ | s0
    · exact new_stream h1 h0 hx hn e h'
    · by_cases hp : priOp o = false
      · exact pri_same ((step_named h h1 hw hx hn e).2 hp _ _ h0 h') hp
      · have bi : ∀ {id : Nat}, (id == x) = true → id = x := fun g => by simpa using g
        cases o with
        | setServerPri id pri =>
          obtain rfl := bi hn
          change setServerPriority c id pri = _ at e
          unfold setServerPriority at e
          rw [h0] at e
          split_ifs at e with g1 g2
          · exact absurd hx (by simpa using g2)
          · obtain ⟨c1, e1, e2⟩ := bind_ok e
            obtain ⟨rfl, _⟩ := Prod.mk.inj (R.ok.inj e2)
            obtain ⟨g1, g2, g3⟩ := one_pri (one_update e1) h'
            exact .server _ _ _ g1 g2 g3
        | priUpd id pri =>
          obtain rfl := bi hn
          change onPriorityUpdate c id pri = _ at e
          unfold onPriorityUpdate at e
          rw [h0] at e
          by_cases g1 : (!c.server) = true
          · rw [if_pos g1] at e; cases e
          rw [if_neg g1] at e
          by_cases g2 : (!clientBidi id || decide (ordStreamId id > c.maxClient)) = true
          · rw [if_pos g2] at e
            obtain ⟨rfl, he⟩ := Prod.mk.inj (R.ok.inj e)
            rw [h0] at h'; cases h'
            refine .same _ _ _ ⟨rfl, rfl, rfl⟩ fun p => ⟨(fun g => by cases g), fun _ => Or.inr ?_, ?_⟩
            · rw [hx] at g2; simpa using g2
            · rintro (g | ⟨b, g⟩) <;> cases g
          rw [if_neg g2] at e
          dsimp only at e
          by_cases g3 : s0.srvPri = true
          · rw [if_pos g3] at e
            obtain ⟨rfl, he⟩ := Prod.mk.inj (R.ok.inj e)
            rw [h0] at h'; cases h'
            refine .same _ _ _ ⟨rfl, rfl, rfl⟩ fun p => ⟨(fun g => by cases g), fun _ => Or.inl g3, ?_⟩
            rintro (g | ⟨b, g⟩) <;> cases g
          · rw [if_neg g3] at e
            obtain ⟨c1, e1, e2⟩ := bind_ok e
            obtain ⟨rfl, _⟩ := Prod.mk.inj (R.ok.inj e2)
            obtain ⟨k1, k2, k3⟩ := one_pri (one_update e1) h'
            exact .update _ _ _ (by simpa using g3) k1 (k2.trans (by simpa using g3)) k3
        | hdrPri id pri =>
          obtain rfl := bi hn
          rcases hdr_pri h0 e h' with ⟨k1, k2⟩ | ⟨k0, k1, k2, k3, k4, k5⟩
          · exact .same _ _ _ k1 fun p => ⟨(fun g => by cases g), (fun g => by cases g), fun _ => k2⟩
          · exact .header _ pri _ _ (Or.inl rfl) k0 k1 k2 k3 k4 k5
        | qpackUnblock id pri again =>
          obtain rfl := bi hn
          change qpackUnblock c id pri again = _ at e
          unfold qpackUnblock at e
          rw [h0] at e
          dsimp only at e
          by_cases hb : s0.qblocked = false
          · rw [if_pos hb] at e; cases e
          rw [if_neg hb] at e
          obtain ⟨⟨c1, r1⟩, e1, e2⟩ := bind_ok e
          dsimp only at e2
          rcases h3 : c1.str id with _ | s1 <;> rw [h3] at e2
          · cases e2
          have hs1 : Same3 s' s1 := by
            dsimp only at e2
            split_ifs at e2
            · obtain ⟨rfl, _⟩ := Prod.mk.inj (R.ok.inj e2)
              rw [set_str] at h'; cases h'; exact ⟨rfl, rfl, rfl⟩
            · obtain ⟨c2, e3, e4⟩ := bind_ok e2
              obtain ⟨rfl, _⟩ := Prod.mk.inj (R.ok.inj e4)
              rw [delete_str e3, upd_same] at h'; cases h'
            · obtain ⟨rfl, _⟩ := Prod.mk.inj (R.ok.inj e2)
              rw [h3] at h'; cases h'; exact ⟨rfl, rfl, rfl⟩
          obtain ⟨m1, m2, m3⟩ := hs1
          cases pri with
          | none =>
            obtain ⟨rfl, _⟩ := Prod.mk.inj (R.ok.inj e1)
            rw [set_str] at h3; cases h3
            refine .same _ _ _ ⟨m1, m2, m3⟩ fun p => ⟨(fun g => by cases g), (fun g => by cases g), ?_⟩
            rintro (g | ⟨b, g⟩) <;> cases g
          | some p =>
            rcases hdr_pri (set_str _ _ _) e1 h3 with ⟨⟨j1, j2, j3⟩, k2⟩ | ⟨k0, k1, k2, k3, k4, k5⟩
            · exact .same _ _ _ ⟨m1.trans j1, m2.trans j2, m3.trans j3⟩ fun p => ⟨(fun g => by cases g), (fun g => by cases g), fun _ => k2⟩
            · exact .header _ p _ _ (Or.inr ⟨again, rfl⟩) k0 k1 k2 (m1.trans k3) (m2.trans k4) (m3.trans k5)
        | _ => exact absurd rfl hp
  · have hn' : names o x = false := by simpa using hn
    have ho : ∀ s0, Same3 s' s0 → PriStep c x o (some s0) s' := by
      intro s0 hs
      refine .same _ _ _ hs fun p => ⟨?_, ?_, ?_⟩
      · rintro rfl; simp [names] at hn'
      · rintro rfl; simp [names] at hn'
      · rintro (rfl | ⟨b, rfl⟩) <;> simp [names] at hn'
    rcases step_other h h1 hx hn' e with g | ⟨_, _, s0, ou, sd, g1, g2, _⟩
    · rw [← g, h']; exact ho _ ⟨rfl, rfl, rfl⟩
    · rw [g1]
      rw [g2] at h'; cases h'
      exact ho _ ⟨rfl, rfl, rfl⟩

end Conn
end Nghttp3
