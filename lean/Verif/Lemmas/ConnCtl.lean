import Verif.Lemmas.ConnSent5
/-! What calls ask for on the control stream. -/
namespace Nghttp3
namespace Conn
open PQ (upd upd_same upd_ne)
open Outq (R Frent Ans Bytes St Emit FrentOk EncodeOk)
open Sent (Book Ledger subm closes enter note Permits Run)

variable {E F : Type} {w v : Prop} {c c' : Conn E F} {encode : Encode E F} {peer : E → E → Prop}

/-- the identifiers of the GOAWAY frames -/
def gids (fs : List (Frent F)) : List Nat := fs.filterMap fun | .goaway id => some id | _ => none

theorem gids_append (a b : List (Frent F)) : gids (a ++ b) = gids a ++ gids b := List.filterMap_append

theorem enter_submitted (b : Book F) (c : Conn E F) (o : Op F) (r : Ret) (x : Nat) : (enter b c o r x).submitted = b.submitted ++ subm c o r x := by
  have z : ∀ {l : List (Frent F)}, subm c o r x = [] → l = l ++ subm c o r x := fun h => by rw [h, List.append_nil]
  unfold enter
  split
  · rename_i k db as
    have hs : subm c (.writev k db as) r x = [] := by unfold subm; split_ifs <;> rfl
    split
    · split_ifs
      · exact (by rw [hs, List.append_nil])
      · exact (by rw [hs, List.append_nil])
    · exact (by rw [hs, List.append_nil])
  · rename_i id n
    have hs : subm c (.addWrite id n) r x = [] := by unfold subm; split_ifs <;> rfl
    split_ifs <;> exact (by rw [hs, List.append_nil])
  · rename_i id n
    have hs : subm c (.addAck id n) r x = [] := by unfold subm; split_ifs <;> rfl
    split_ifs <;> exact (by rw [hs, List.append_nil])
  · rename_i id n
    have hs : subm c (.updAck id n) r x = [] := by unfold subm; split_ifs <;> rfl
    split_ifs <;> exact (by rw [hs, List.append_nil])
  · rfl

theorem note_submitted {l : Ledger F} {o : Op F} {r : Ret} {x : Nat} (h : (c.str x).isSome = true) :
    ((note l c o r).at x).submitted = (l.at x).submitted ++ subm c o r x := by
  unfold note
  dsimp only
  rw [if_pos h, enter_submitted]

/-- what is known of the control stream -/
structure CtlInv (server : Bool) (st : Settings) (l : Ledger F) (c : Conn E F) : Prop where
  sv : c.server = server
  set : c.settings = st
  none : c.ctrl = none → c.goaways = []
  some : ∀ x, c.ctrl = some x → ∃ t, (l.at x).submitted = .settings st :: t ∧ gids t = c.goaways.reverse ∧
    ∀ f ∈ t, (∃ id, f = .goaway id) ∨ ∃ id v, f = .priorityUpdate 0x0f0700 id v ∧ server = false
  mod : server = true → ∀ g ∈ c.goaways, g % 4 = 0

theorem step_server (h : Inv w v c) {o : Op F} {r : Ret} (e : step encode c o = .ok (c', r)) : c'.server = c.server := by
  have hg := step_glob h e
  have key : ∀ g : Glob, glob c' = g → g.server = c.server → c'.server = c.server := by
    rintro g rfl k1; exact k1
  cases o with
  | bindControl id => rcases hg with hg | ⟨_, hg⟩ <;> exact key _ hg rfl
  | bindQpack a b => rcases hg with hg | ⟨_, _, hg | hg⟩ <;> exact key _ hg rfl
  | notice => obtain ⟨i, _, _, hg⟩ := hg; exact key _ hg rfl
  | shutdown => obtain ⟨i, _, _, hg⟩ := hg; exact key _ hg rfl
  | setMaxClient n => exact key _ hg.2 rfl
  | «open» id em => rcases hg with hg | ⟨_, _, _, hg⟩ <;> exact key _ hg rfl
  | priUpd id p => rcases hg with hg | ⟨_, _, _, hg⟩ <;> exact key _ hg rfl
  | uni a b d => obtain ⟨_, _, _, hg, _⟩ := hg; exact key _ hg rfl
  | _ => exact key _ hg rfl

/-- calls that do not queue GOAWAY frames or bind the control stream -/
theorem step_goaways (h : Inv w v c) {o : Op F} {r : Ret} (h1 : ∀ id, o ≠ .bindControl id) (h2 : o ≠ .notice) (h3 : o ≠ .shutdown)
    (e : step encode c o = .ok (c', r)) : c'.goaways = c.goaways ∧ c'.ctrl = c.ctrl := by
  have hg := step_glob h e
  have key : ∀ g : Glob, glob c' = g → g.goaways = c.goaways → g.ctrl = c.ctrl → c'.goaways = c.goaways ∧ c'.ctrl = c.ctrl := by
    rintro g rfl k1 k2; exact ⟨k1, k2⟩
  cases o with
  | bindControl id => exact absurd rfl (h1 id)
  | bindQpack a b => rcases hg with hg | ⟨_, _, hg | hg⟩ <;> exact key _ hg rfl rfl
  | notice => exact absurd rfl h2
  | shutdown => exact absurd rfl h3
  | setMaxClient n => exact key _ hg.2 rfl rfl
  | «open» id em => rcases hg with hg | ⟨_, _, _, hg⟩ <;> exact key _ hg rfl rfl
  | priUpd id p => rcases hg with hg | ⟨_, _, _, hg⟩ <;> exact key _ hg rfl rfl
  | uni a b d => obtain ⟨_, _, _, hg, _⟩ := hg; exact key _ hg rfl rfl
  | _ => exact key _ hg rfl rfl

/-- what the other calls ask for on the control stream: nothing, or a PRIORITY_UPDATE frame by a client -/
theorem subm_ctl (h : Inv w v c) {o : Op F} {r : Ret} {l : Ledger F} (h1 : ∀ id, o ≠ .bindControl id) (h2 : o ≠ .notice) (h3 : o ≠ .shutdown)
    (hp : Permits l c o) (e : step encode c o = .ok (c', r)) {x : Nat} (hx : c.ctrl = some x) :
    subm c o r x = [] ∨ ∃ id v, subm c o r x = [.priorityUpdate 0x0f0700 id v] ∧ c.server = false := by
  have hu := (isCritical_uni h (Or.inl hx)).1
  have ne : ∀ {id : Nat}, clientBidi id = true → ¬ id = x := by
    rintro id hb rfl; rw [hb] at hu; cases hu
  unfold subm
  by_cases hr : r = .code 0
  · rw [if_pos hr]
    cases o with
    | bindControl id => exact absurd rfl (h1 id)
    | notice => exact absurd rfl h2
    | shutdown => exact absurd rfl h3
    | submitRequest id nva dr =>
      dsimp only
      have hb : clientBidi id = true := by
        change submitRequest c id nva dr = _ at e
        unfold submitRequest at e
        by_cases hg : (c.server || c.qenc.isNone || decide (id ≥ 2 ^ 62) || !clientBidi id) = true
        · rw [if_pos hg] at e; cases e
        · simp only [Bool.or_eq_true, Bool.not_eq_true', not_or] at hg
          simpa using hg.2
      rw [if_neg (ne hb)]; exact .inl rfl
    | submitInfo id nva => dsimp only; rw [if_neg (ne hp.1)]; exact .inl rfl
    | submitResponse id nva dr => dsimp only; rw [if_neg (ne hp.1)]; exact .inl rfl
    | submitTrailers id nva => dsimp only; rw [if_neg (ne hp.1)]; exact .inl rfl
    | setClientPri id va =>
      dsimp only
      rw [if_pos hx]
      refine .inr ⟨id, va, rfl, ?_⟩
      change setClientPriority c id va = _ at e
      unfold setClientPriority at e
      by_cases hg : (c.server || decide (id ≥ 2 ^ 62)) = true
      · rw [if_pos hg] at e; cases e
      · simp only [Bool.or_eq_true, not_or] at hg
        simpa using hg.1
    | _ => exact .inl rfl
  · rw [if_neg hr]; exact .inl rfl

theorem crit_some (h : Inv w v c) {x : Nat} (hx : c.ctrl = some x) : (c.str x).isSome = true := by
  rcases hs : c.str x with _ | s
  · exact absurd hx (crit_live h hs).1
  · rfl

theorem ctl_goaway {server : Bool} {st : Settings} {l : Ledger F} (hi : CtlInv server st l c) (h : Inv w v c) {o : Op F} {g : Nat} {r : Ret}
    (hr : r = .code 0) (hs : ∀ x, c.ctrl = some x → subm c o r x = [.goaway g]) (hm : server = true → g % 4 = 0) (k1 : c'.server = c.server)
    (k2 : c'.settings = c.settings) (k3 : c'.ctrl = c.ctrl) (k4 : c'.goaways = g :: c.goaways) (k5 : c.ctrl ≠ none) : CtlInv server st (note l c o r) c' := by
  refine ⟨k1.trans hi.sv, k2.trans hi.set, fun g => absurd (k3.symm.trans g) k5, fun x hx => ?_, fun hsv i hi' => ?_⟩
  · rw [k3] at hx
    obtain ⟨t, t1, t2, t3⟩ := hi.some x hx
    have hl := crit_some h hx
    refine ⟨t ++ [.goaway g], ?_, ?_, fun f hf => ?_⟩
    · rw [note_submitted hl, hs x hx, t1]; rfl
    · rw [gids_append, t2, k4, List.reverse_cons]; rfl
    · rcases List.mem_append.1 hf with hf | hf
      · exact t3 f hf
      · obtain rfl := List.mem_singleton.1 hf; exact .inl ⟨g, rfl⟩
  · rw [k4] at hi'
    rcases List.mem_cons.1 hi' with rfl | hi'
    · exact hm hsv
    · exact hi.mod hsv i hi'

theorem ctl_step {server : Bool} {st : Settings} {l : Ledger F} (hi : CtlInv server st l c) (h : Inv False False c) {o : Op F} {r : Ret}
    (hp : Permits l c o) (e : step encode c o = .ok (c', r)) : CtlInv server st (note l c o r) c' := by
  have sv := step_server h e
  have ss := step_settings h e
  by_cases o1 : ∃ id, o = .bindControl id
  · obtain ⟨id, rfl⟩ := o1
    change bindControl c id = _ at e
    have fail : ∀ {n : Int}, n ≠ 0 → c' = c → r = .code n → CtlInv server st (note l c (.bindControl id) r) c' := by
      rintro n hn rfl rfl
      refine ⟨hi.sv, hi.set, hi.none, fun x hx => ?_, hi.mod⟩
      obtain ⟨t, t1, t2, t3⟩ := hi.some x hx
      exact ⟨t, by rw [note_submitted (crit_some h hx), subm_err hn, t1, List.append_nil], t2, t3⟩
    unfold bindControl at e
    split_ifs at e with q1 q2 q3
    · obtain ⟨rfl, rfl⟩ := Prod.mk.inj (R.ok.inj e); exact fail (by decide) rfl rfl
    · obtain ⟨rfl, rfl⟩ := Prod.mk.inj (R.ok.inj e); exact fail (by decide) rfl rfl
    · obtain ⟨o, _, e2⟩ := bind_ok e
      obtain ⟨rfl, rfl⟩ := Prod.mk.inj (R.ok.inj e2)
      have hg := hi.none (by simpa using q2)
      refine ⟨hi.sv, hi.set, (fun g => by cases g), fun x hx => ?_, hi.mod⟩
      obtain rfl : id = x := Option.some.inj hx
      refine ⟨[], ?_, ?_, (fun f hf => by cases hf)⟩
      · unfold note
        dsimp only
        rw [if_neg q3, enter_submitted, ← hi.set]
        unfold subm
        rw [if_pos rfl]
        dsimp only
        rw [if_pos rfl]; rfl
      · show gids [] = c.goaways.reverse
        rw [hg]; rfl
  by_cases o2 : o = .notice
  · subst o2
    have e' : submitNotice c = _ := e
    obtain ⟨i, hii, _, hg⟩ := step_glob h e
    obtain ⟨c1, e1, e2⟩ := bind_ok e'
    obtain ⟨rfl, rfl⟩ := Prod.mk.inj (R.ok.inj e2)
    have hc : c.ctrl ≠ none := by
      intro k; unfold queueGoaway at e1; rw [k, if_pos (by rfl)] at e1; cases e1
    refine ctl_goaway hi h rfl (g := i) (fun x hx => ?_) (fun hsv => ?_) sv ss ?_ ?_ hc
    · unfold subm; rw [if_pos rfl]; dsimp only; rw [if_pos hx, hii]
    · rw [hii, hi.sv, hsv, if_pos rfl]; decide
    · exact congrArg Glob.ctrl hg
    · exact congrArg Glob.goaways hg
  by_cases o3 : o = .shutdown
  · subst o3
    have e' : shutdown c = _ := e
    obtain ⟨i, hii, _, hg⟩ := step_glob h e
    obtain ⟨c1, e1, e2⟩ := bind_ok e'
    obtain ⟨rfl, rfl⟩ := Prod.mk.inj (R.ok.inj e2)
    have hc : c.ctrl ≠ none := by
      intro k; unfold queueGoaway at e1; rw [k, if_pos (by rfl)] at e1; cases e1
    refine ctl_goaway hi h rfl (g := i) (fun x hx => ?_) (fun hsv => ?_) sv ss ?_ ?_ hc
    · unfold subm; rw [if_pos rfl]; dsimp only; rw [if_pos hx, hii]
    · have := h.mb
      rw [hii, hi.sv, hsv, if_pos rfl]; omega
    · exact congrArg Glob.ctrl hg
    · exact congrArg Glob.goaways hg
  have o1' : ∀ id, o ≠ .bindControl id := fun id g => o1 ⟨id, g⟩
  obtain ⟨g1, g2⟩ := step_goaways h o1' o2 o3 e
  refine ⟨sv.trans hi.sv, ss.trans hi.set, fun g => ?_, fun x hx => ?_, fun hs g hg => ?_⟩
  · rw [g1]; exact hi.none (g2 ▸ g)
  · rw [g2] at hx
    obtain ⟨t, t1, t2, t3⟩ := hi.some x hx
    rw [note_submitted (crit_some h hx), t1, g1]
    rcases subm_ctl h o1' o2 o3 hp e hx with k | ⟨id, va, k, k2⟩ <;> rw [k]
    · exact ⟨t, by rw [List.append_nil], t2, t3⟩
    · refine ⟨t ++ [.priorityUpdate 0x0f0700 id va], rfl, ?_, fun f hf => ?_⟩
      · rw [gids_append, t2]; exact List.append_nil _
      · rcases List.mem_append.1 hf with hf | hf
        · exact t3 f hf
        · obtain rfl := List.mem_singleton.1 hf; exact .inr ⟨id, va, rfl, hi.sv.symm.trans k2⟩
  · rw [g1] at hg; exact hi.mod hs g hg

theorem run_ctl (henc : EncodeOk encode) {server : Bool} {st : Settings} {e0 : E} (hst : FrentOk (.settings st : Frent F)) {l : Ledger F}
    (h : Run encode peer (init server st e0) l c) : CtlInv server st l c := by
  induction h with
  | init => exact ⟨rfl, rfl, fun _ => rfl, (fun x g => by cases g), (fun _ g hg => by cases hg)⟩
  | step h1 hp e ih =>
    obtain ⟨log, g⟩ := run_rinv henc hst h1
    exact ctl_step ih g.inv hp e
  | peer _ _ ih => exact ⟨ih.sv, ih.set, ih.none, ih.some, ih.mod⟩

end Conn
end Nghttp3
