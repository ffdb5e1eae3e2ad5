import Verif.Lemmas.ConnRun
/-! What calls do to the fields of the connection that do not belong to a stream. -/
namespace Nghttp3
namespace Conn
open PQ (upd upd_same upd_ne)
open Outq (R Frent Ans Bytes St)

variable {E F : Type} {w v : Prop} {c c' : Conn E F} {id : Nat} {s0 s : Strm F} {encode : Encode E F}

/-- the fields that do not belong to a stream -/
structure Glob where
  server : Bool
  maxClient : Nat
  goaways : List Nat
  txGoaway : Nat
  goawayQueued : Bool
  shutdownCommenced : Bool
  goawayRecved : Bool
  ctrl : Option Nat
  qenc : Option Nat
  qdec : Option Nat
  ctrlOpened : Bool
  qencOpened : Bool
  qdecOpened : Bool
  maxBidi : Int
  gaps : List Range
  settings : Settings

def glob (c : Conn E F) : Glob :=
  ⟨c.server, c.maxClient, c.goaways, c.txGoaway, c.goawayQueued, c.shutdownCommenced, c.goawayRecved, c.ctrl, c.qenc, c.qdec, c.ctrlOpened,
    c.qencOpened, c.qdecOpened, c.maxBidi, c.gaps, c.settings⟩

theorem glob_schedule (e : scheduleStream c id s = .ok c') : glob c' = glob c := by
  unfold scheduleStream at e
  split_ifs at e
  split at e
  · cases e
  · obtain rfl := R.ok.inj e; rfl

theorem glob_ensure (e : ensureScheduled c id s = .ok c') : glob c' = glob c := by
  unfold ensureScheduled at e
  split_ifs at e
  · obtain rfl := R.ok.inj e; rfl
  · exact glob_schedule e

theorem glob_unschedule (e : unscheduleStream c id s = .ok c') : glob c' = glob c := by
  unfold unscheduleStream at e
  split_ifs at e
  · obtain rfl := R.ok.inj e; rfl
  · split at e
    · cases e
    · obtain rfl := R.ok.inj e; rfl

theorem glob_update {pri : Http.Pri} (e : updatePriority c id s pri = .ok c') : glob c' = glob c := by
  unfold updatePriority at e
  by_cases h1 : (!clientBidi id) = true
  · rw [if_pos h1] at e; cases e
  rw [if_neg h1] at e
  by_cases h2 : s.pri = pri
  · rw [if_pos h2] at e; obtain rfl := R.ok.inj e; rfl
  rw [if_neg h2] at e
  obtain ⟨c1, e1, e2⟩ := bind_ok e
  dsimp only at e2
  rw [← glob_unschedule e1]
  split_ifs at e2
  · exact glob_schedule e2
  · obtain rfl := R.ok.inj e2; rfl

theorem glob_delete (e : deleteStream c id s = .ok c') : glob c' = glob c := by
  unfold deleteStream at e
  split_ifs at e
  all_goals (obtain rfl := R.ok.inj e; rfl)

theorem glob_submit {nva : F} {dr : Bool} (e : submitHeadersData c id s nva dr = .ok c') : glob c' = glob c := by
  unfold submitHeadersData at e
  generalize (Frent.headers nva :: if dr then [Frent.data] else []) = l at e
  dsimp only at e
  split_ifs at e
  · exact glob_schedule e
  · obtain rfl := R.ok.inj e; rfl

theorem glob_ctrlFrame {f : Frent F} (e : ctrlFrame c f = .ok c') : glob c' = glob c := by
  unfold ctrlFrame at e
  split at e
  · cases e
  · split at e
    · cases e
    · obtain rfl := R.ok.inj e; rfl

theorem glob_queueGoaway {g : Nat} (e : queueGoaway c g = .ok c') :
    glob c' = { glob c with goaways := g :: c.goaways, txGoaway := g, goawayQueued := true } ∧ g ≤ c.txGoaway := by
  unfold queueGoaway at e
  split_ifs at e with h1 h2
  obtain ⟨c1, e1, e2⟩ := bind_ok e
  obtain rfl := R.ok.inj e2
  refine ⟨?_, by omega⟩
  have := glob_ctrlFrame e1
  unfold glob at this ⊢
  injection this
  simp_all

theorem glob_eff {P : Nat → Prop} (h : OutEff P c c') : glob c' = glob c := by
  obtain ⟨e, st, rfl⟩ := h.eq; rfl

theorem glob_writev (h : Inv w v c) {k : Nat} {db : Bytes} {as : List Ans} {r : Ret} (e : writevStream encode c k db as = .ok (c', r)) :
    glob c' = glob c := by
  obtain ⟨_, rr, hr, hc⟩ := writevStream_inv h e
  rcases hc with ⟨i, f, v, g1, g2, g3⟩ | ⟨_, rfl, _⟩ | ⟨_, c3, he, h3, e3, _⟩
  · exact glob_eff g3
  · rfl
  · rw [← glob_eff he]
    obtain ⟨_, rr', _, _, _, k5, k6⟩ := writeRequest_inv h3 e3
    rcases hn : nextTx c3 with _ | id
    · rw [k5 hn]
    · obtain ⟨c1, s1, _, _, k9, k10⟩ := k6 id hn
      rw [← glob_eff k9]
      rcases k10 with ⟨_, rfl⟩ | ⟨_, sch, rfl⟩ <;> rfl

/-- how one call changes these fields -/
def GlobStep (c : Conn E F) (g' : Glob) : Op F → Prop
  | .bindControl id => g' = glob c ∨ (c.ctrl = none ∧ g' = { glob c with ctrl := some id })
  | .bindQpack e d => g' = glob c ∨ (c.qenc = none ∧ c.qdec = none ∧ (g' = { glob c with qenc := some e } ∨ g' = { glob c with qenc := some e, qdec := some d }))
  | .notice => ∃ i, i = (if c.server then 2 ^ 62 - 4 else 2 ^ 62 - 1) ∧ i ≤ c.txGoaway ∧
      g' = { glob c with goaways := i :: c.goaways, txGoaway := i, goawayQueued := true }
  | .shutdown => ∃ i, i = (if c.server then min (2 ^ 62 - 4) (c.maxBidi + 4).toNat else 0) ∧ i ≤ c.txGoaway ∧
      g' = { glob c with goaways := i :: c.goaways, txGoaway := i, goawayQueued := true, shutdownCommenced := true }
  | .setMaxClient n => c.maxClient ≤ n ∧ g' = { glob c with maxClient := n }
  | .open id _ => g' = glob c ∨ (clientBidi id = true ∧ c.server = true ∧ c.str id = none ∧
      g' = { glob c with maxBidi := max c.maxBidi id, gaps := (connBidiIdtrOpen c.gaps id).2 })
  | .priUpd id _ => g' = glob c ∨ (clientBidi id = true ∧ c.server = true ∧ c.str id = none ∧
      g' = { glob c with maxBidi := max c.maxBidi id, gaps := (connBidiIdtrOpen c.gaps id).2 })
  | .uni _ _ _ => ∃ a b d, g' = { glob c with ctrlOpened := a, qencOpened := b, qdecOpened := d } ∧ (c.ctrlOpened = true → a = true) ∧
      (c.qencOpened = true → b = true) ∧ (c.qdecOpened = true → d = true)
  | .recvGoaway => g' = { glob c with goawayRecved := true }
  | _ => g' = glob c

theorem glob_header {p : Http.Pri} {r : Ret} (e : onHeaderPriority c id p = .ok (c', r)) : glob c' = glob c := by
  unfold onHeaderPriority at e
  split at e
  · cases e
  · split_ifs at e
    · obtain ⟨c1, e1, e2⟩ := bind_ok e
      obtain ⟨rfl, _⟩ := Prod.mk.inj (R.ok.inj e2)
      exact glob_update e1
    · obtain ⟨rfl, _⟩ := Prod.mk.inj (R.ok.inj e); rfl

theorem uniType_mono {c1 : Conn E F} {s1 : Strm F} {x : Nat} (e : setUniType c s x = .ok (c1, s1)) :
    ∃ ty a b d, s1 = { s with ty := ty, ident := true, rv := {} } ∧ c1 = { c with ctrlOpened := a, qencOpened := b, qdecOpened := d } ∧
      (c.ctrlOpened = true → a = true) ∧ (c.qencOpened = true → b = true) ∧ (c.qdecOpened = true → d = true) := by
  unfold setUniType at e
  dsimp only at e
  split_ifs at e <;> obtain ⟨rfl, rfl⟩ := Prod.mk.inj (Except.ok.inj e) <;>
    exact ⟨_, _, _, _, rfl, rfl, by simp_all, by simp_all, by simp_all⟩

theorem glob_uni {src : Bytes} {fin : Bool} {r : Ret} (e : readUni c id src fin = .ok (c', r)) : GlobStep c (glob c') (.uni id src fin) := by
  have hs : glob c' = glob c → GlobStep c (glob c') (.uni id src fin) := fun h =>
    ⟨c.ctrlOpened, c.qencOpened, c.qdecOpened, h, (fun h => h), (fun h => h), (fun h => h)⟩
  unfold readUni at e
  by_cases h1 : ((c.server && !clientUni id) || (!c.server && !serverUni id)) = true
  · rw [if_pos h1] at e; cases e
  rw [if_neg h1] at e
  rcases h0 : c.str id with _ | s0 <;> rw [h0] at e
  · cases e
  · dsimp only at e
    by_cases h2 : (src.isEmpty && !fin) = true
    · rw [if_pos h2] at e; obtain ⟨rfl, _⟩ := Prod.mk.inj (R.ok.inj e); exact hs rfl
    rw [if_neg h2] at e
    by_cases h3 : s0.ident = true
    · rw [if_pos h3] at e; obtain ⟨rfl, _⟩ := Prod.mk.inj (R.ok.inj e); exact hs rfl
    rw [if_neg h3] at e
    by_cases h4 : src.isEmpty = true
    · rw [if_pos h4] at e
      split_ifs at e
      · obtain ⟨rfl, _⟩ := Prod.mk.inj (R.ok.inj e); exact hs rfl
      · obtain ⟨c1, e1, e2⟩ := bind_ok e
        obtain ⟨rfl, _⟩ := Prod.mk.inj (R.ok.inj e2)
        exact hs (glob_delete e1)
    · rw [if_neg h4] at e
      rcases hr : rd s0.rv src fin with _ | _ | rv | ⟨v, n⟩ <;> rw [hr] at e
      · cases e
      · obtain ⟨rfl, _⟩ := Prod.mk.inj (R.ok.inj e); exact hs rfl
      · obtain ⟨rfl, _⟩ := Prod.mk.inj (R.ok.inj e); exact hs rfl
      · dsimp only at e
        rcases ht : setUniType c s0 v with er | ⟨c1, s1⟩ <;> rw [ht] at e
        · obtain ⟨rfl, _⟩ := Prod.mk.inj (R.ok.inj e); exact hs rfl
        · obtain ⟨ty, a, b, d, rfl, rfl, m1, m2, m3⟩ := uniType_mono ht
          dsimp only at e
          split_ifs at e
          · obtain ⟨rfl, _⟩ := Prod.mk.inj (R.ok.inj e)
            exact ⟨a, b, d, rfl, m1, m2, m3⟩
          · rcases hdl : deliverUni ty (src.drop n) fin with er | rr | rr | rr <;> rw [hdl] at e <;>
              obtain ⟨rfl, _⟩ := Prod.mk.inj (R.ok.inj e)
            · exact hs rfl
            · exact ⟨a, b, d, rfl, m1, m2, m3⟩
            · exact ⟨a, b, d, rfl, m1, m2, m3⟩
            · exact ⟨a, b, d, rfl, m1, m2, m3⟩

theorem step_glob (h : Inv w v c) {o : Op F} {r : Ret} (e : step encode c o = .ok (c', r)) : GlobStep c (glob c') o := by
  have same : ∀ {c1 : Conn E F} {r1 : Ret}, (R.ok (c1, r1) : R (Conn E F × Ret)) = .ok (c', r) → glob c1 = glob c → glob c' = glob c := by
    intro c1 r1 g1 g2
    obtain ⟨rfl, _⟩ := Prod.mk.inj (R.ok.inj g1); exact g2
  cases o with
  | bindControl id =>
    change bindControl c id = _ at e
    unfold bindControl at e
    split_ifs at e with h1 h2 h3
    · exact Or.inl (same e rfl)
    · exact Or.inl (same e rfl)
    · obtain ⟨o, _, e2⟩ := bind_ok e
      obtain ⟨rfl, _⟩ := Prod.mk.inj (R.ok.inj e2)
      exact Or.inr ⟨by simpa using h2, rfl⟩
  | bindQpack a d =>
    change bindQpack c a d = _ at e
    unfold bindQpack at e
    split_ifs at e with h1 h2 h3
    · exact Or.inl (same e rfl)
    · exact Or.inl (same e rfl)
    · obtain ⟨o, _, e2⟩ := bind_ok e
      dsimp only at e2
      have h2' : c.qenc = none ∧ c.qdec = none := by
        revert h2; cases c.qenc <;> cases c.qdec <;> simp
      refine Or.inr ⟨h2'.1, h2'.2, ?_⟩
      split_ifs at e2
      · obtain ⟨rfl, _⟩ := Prod.mk.inj (R.ok.inj e2); exact Or.inl rfl
      · obtain ⟨o2, _, e4⟩ := bind_ok e2
        obtain ⟨rfl, _⟩ := Prod.mk.inj (R.ok.inj e4); exact Or.inr rfl
  | submitRequest id nva dr =>
    change submitRequest c id nva dr = _ at e
    change glob c' = glob c
    unfold submitRequest at e
    split_ifs at e
    · exact same e rfl
    · split at e
      · exact same e rfl
      · obtain ⟨c1, e1, e2⟩ := bind_ok e
        have := glob_submit e1
        exact same e2 (this.trans rfl)
  | submitInfo id nva =>
    change submitInfo c id nva = _ at e
    change glob c' = glob c
    unfold submitInfo at e
    split_ifs at e
    split at e
    · exact same e rfl
    · obtain ⟨c1, e1, e2⟩ := bind_ok e
      exact same e2 (glob_submit e1)
  | submitResponse id nva dr =>
    change submitResponse c id nva dr = _ at e
    change glob c' = glob c
    unfold submitResponse at e
    by_cases hc : (!c.server || c.qenc.isNone) = true
    · rw [if_pos hc] at e; cases e
    rw [if_neg hc] at e
    split at e
    · exact same e rfl
    · obtain ⟨c1, e1, e2⟩ := bind_ok e
      exact same e2 (glob_submit e1)
  | submitTrailers id nva =>
    change submitTrailers c id nva = _ at e
    change glob c' = glob c
    unfold submitTrailers at e
    split_ifs at e
    split at e
    · exact same e rfl
    · split_ifs at e
      · exact same e rfl
      · obtain ⟨c1, e1, e2⟩ := bind_ok e
        exact same e2 (glob_submit e1)
  | writev k db as => exact glob_writev h e
  | addWrite id n =>
    change addWriteOffset c id n = _ at e
    change glob c' = glob c
    unfold addWriteOffset at e
    split at e
    · exact same e rfl
    · obtain ⟨o, _, e2⟩ := bind_ok e
      dsimp only at e2
      split_ifs at e2
      · exact same e2 rfl
      · obtain ⟨c1, e3, e4⟩ := bind_ok e2
        exact same e4 (glob_unschedule e3)
      · exact same e2 rfl
      · obtain ⟨c1, e3, e4⟩ := bind_ok e2
        exact same e4 (glob_schedule e3)
  | addAck id n =>
    change addAckOffset c id n = _ at e
    change glob c' = glob c
    unfold addAckOffset at e
    split at e
    · exact same e rfl
    · obtain ⟨o, _, e2⟩ := bind_ok e
      exact same e2 rfl
  | updAck id off =>
    change updateAckOffset c id off = _ at e
    change glob c' = glob c
    unfold updateAckOffset at e
    split at e
    · exact same e rfl
    · split at e
      · exact same e rfl
      · obtain ⟨o, _, e2⟩ := bind_ok e
        exact same e2 rfl
  | block id =>
    change blockStream c id = _ at e
    change glob c' = glob c
    unfold blockStream at e
    split at e
    · exact same e rfl
    · dsimp only at e
      split_ifs at e
      · obtain ⟨c1, e3, e4⟩ := bind_ok e
        exact same e4 (glob_unschedule e3)
      · exact same e rfl
  | unblock id =>
    change unblockStream c id = _ at e
    change glob c' = glob c
    unfold unblockStream at e
    split at e
    · exact same e rfl
    · dsimp only at e
      split_ifs at e
      · obtain ⟨c1, e3, e4⟩ := bind_ok e
        exact same e4 (glob_ensure e3)
      · exact same e rfl
  | shutWr id =>
    change shutdownWrite c id = _ at e
    change glob c' = glob c
    unfold shutdownWrite at e
    split at e
    · exact same e rfl
    · dsimp only at e
      split_ifs at e
      · obtain ⟨c1, e3, e4⟩ := bind_ok e
        exact same e4 (glob_unschedule e3)
      · exact same e rfl
  | resume id =>
    change resumeStream c id = _ at e
    change glob c' = glob c
    unfold resumeStream at e
    split at e
    · exact same e rfl
    · dsimp only at e
      split_ifs at e
      · obtain ⟨c1, e3, e4⟩ := bind_ok e
        exact same e4 (glob_ensure e3)
      · exact same e rfl
  | shutRd id =>
    change shutdownRead c id = _ at e
    change glob c' = glob c
    unfold shutdownRead at e
    split_ifs at e
    · exact same e rfl
    · split at e
      · exact same e rfl
      · exact same e rfl
  | close id =>
    change closeStream c id = _ at e
    change glob c' = glob c
    unfold closeStream at e
    split at e
    · exact same e rfl
    · split_ifs at e
      · exact same e rfl
      · obtain ⟨c1, e3, e4⟩ := bind_ok e
        dsimp only at e4
        split_ifs at e4
        · obtain ⟨c2, e5, e6⟩ := bind_ok e4
          exact same e6 ((glob_delete e5).trans (glob_unschedule e3))
        · have := glob_unschedule e3
          exact same e4 (Eq.trans rfl this)
  | notice =>
    change submitNotice c = _ at e
    unfold submitNotice at e
    obtain ⟨c1, e1, e2⟩ := bind_ok e
    obtain ⟨rfl, _⟩ := Prod.mk.inj (R.ok.inj e2)
    exact ⟨_, rfl, (glob_queueGoaway e1).2, (glob_queueGoaway e1).1⟩
  | shutdown =>
    change shutdown c = _ at e
    unfold shutdown at e
    obtain ⟨c1, e1, e2⟩ := bind_ok e
    obtain ⟨rfl, _⟩ := Prod.mk.inj (R.ok.inj e2)
    refine ⟨_, rfl, (glob_queueGoaway e1).2, ?_⟩
    have := (glob_queueGoaway e1).1
    unfold glob at this ⊢
    injection this
    simp_all
  | setServerPri id pri =>
    change setServerPriority c id pri = _ at e
    change glob c' = glob c
    unfold setServerPriority at e
    split_ifs at e
    · exact same e rfl
    · split at e
      · exact same e rfl
      · obtain ⟨c1, e1, e2⟩ := bind_ok e
        exact same e2 (glob_update e1)
  | setClientPri id va =>
    change setClientPriority c id va = _ at e
    change glob c' = glob c
    unfold setClientPriority at e
    split_ifs at e
    · exact same e rfl
    · split at e
      · exact same e rfl
      · obtain ⟨c1, e1, e2⟩ := bind_ok e
        exact same e2 (glob_ctrlFrame e1)
  | setMaxClient n =>
    change setMaxClientStreams c n = _ at e
    unfold setMaxClientStreams at e
    split_ifs at e with h1
    obtain ⟨rfl, _⟩ := Prod.mk.inj (R.ok.inj e)
    refine ⟨?_, rfl⟩
    simp at h1
    exact h1.2
  | «open» id empty =>
    change openStream c id empty = _ at e
    unfold openStream at e
    by_cases h1 : decide (id ≥ 2 ^ 62) = true
    · rw [if_pos h1] at e; cases e
    rw [if_neg h1] at e
    split at e
    · split_ifs at e
      exact Or.inl (same e rfl)
    · rename_i hn
      by_cases h2 : c.server = true
      · rw [if_pos h2] at e
        by_cases h3 : clientBidi id = true
        · rw [if_pos h3] at e
          split at e
          · cases e
          · rename_i g _ hg
            obtain ⟨rfl, _⟩ := Prod.mk.inj (R.ok.inj e)
            exact Or.inr ⟨h3, h2, hn, by rw [hg]; rfl⟩
        · rw [if_neg h3] at e
          split_ifs at e <;> exact Or.inl (same e rfl)
      · rw [if_neg h2] at e
        split_ifs at e <;> exact Or.inl (same e rfl)
  | uni id src fin => exact glob_uni e
  | priUpd id pri =>
    change onPriorityUpdate c id pri = _ at e
    unfold onPriorityUpdate at e
    by_cases h1 : (!c.server) = true
    · rw [if_pos h1] at e; cases e
    rw [if_neg h1] at e
    by_cases h2 : (!clientBidi id || decide (ordStreamId id > c.maxClient)) = true
    · rw [if_pos h2] at e; exact Or.inl (same e rfl)
    rw [if_neg h2] at e
    split at e
    · rename_i hn
      by_cases h3 : rejects c id = true
      · rw [if_pos h3] at e; exact Or.inl (same e rfl)
      rw [if_neg h3] at e
      split at e
      · cases e
      · exact Or.inl (same e rfl)
      · rename_i g hg
        obtain ⟨rfl, _⟩ := Prod.mk.inj (R.ok.inj e)
        exact Or.inr ⟨by simp at h2; exact h2.1, by simpa using h1, hn, by rw [hg]; rfl⟩
    · split_ifs at e
      · exact Or.inl (same e rfl)
      · obtain ⟨c1, e1, e2⟩ := bind_ok e
        exact Or.inl (same e2 (glob_update e1))
  | hdrPri id pri => exact glob_header e
  | qpackBlock id =>
    change qpackBlock c id = _ at e
    change glob c' = glob c
    unfold qpackBlock at e
    split at e
    · cases e
    · split_ifs at e
      exact same e rfl
  | qpackUnblock id pri again =>
    change qpackUnblock c id pri again = _ at e
    change glob c' = glob c
    unfold qpackUnblock at e
    split at e
    · cases e
    · rename_i s1 _
      by_cases hb : s1.qblocked = false
      · rw [if_pos hb] at e; cases e
      rw [if_neg hb] at e
      dsimp only at e
      obtain ⟨⟨c1, r1⟩, e1, e2⟩ := bind_ok e
      have h1 : glob c1 = glob c := by
        cases pri with
        | none => obtain ⟨rfl, _⟩ := Prod.mk.inj (R.ok.inj e1); rfl
        | some p =>
          have := glob_header e1
          exact this.trans rfl
      dsimp only at e2
      split at e2
      · cases e2
      · split_ifs at e2
        · exact same e2 h1
        · obtain ⟨c2, e3, e4⟩ := bind_ok e2
          exact same e4 ((glob_delete e3).trans h1)
        · exact same e2 h1
  | recvGoaway =>
    obtain ⟨rfl, _⟩ := Prod.mk.inj (R.ok.inj e)
    exact rfl

end Conn
end Nghttp3
