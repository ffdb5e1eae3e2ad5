import Verif.Lemmas.ConnLife
import Verif.Lemmas.OutqFill
import Verif.Props.Gaptr
import Verif.Spec.Calls
/-! No assertion fails and no freed stream is used. -/
namespace Nghttp3
namespace Conn
open PQ (Mem IdxOk Heap upd upd_same upd_ne)
open Outq (R Frent Ans Bytes St FrentOk AnsOk EncodeOk)
open Props (runConnOpens C04_conn_idtr)

variable {E F : Type} {w v : Prop} {c c' : Conn E F} {id : Nat} {s0 s : Strm F} {encode : Encode E F}

/-- the output of a stream is in order -/
def OOk (o : St F) : Prop := (∃ m, Outq.Inv m o) ∧ ∀ f ∈ o.frq, FrentOk f

theorem ook_init : OOk ({} : St F) := ⟨⟨[], Outq.inv_init⟩, (fun _ h => by cases h)⟩

theorem OOk.flags {o : St F} (h : OOk o) (a b : Bool) : OOk { o with endStream := a, readBlocked := b } :=
  ⟨⟨_, Outq.inv_flags h.1.choose_spec a b⟩, h.2⟩

theorem OOk.frq {o : St F} (h : OOk o) (l : List (Frent F)) (hl : ∀ f ∈ l, FrentOk f) : OOk { o with frq := o.frq ++ l } := by
  refine ⟨⟨_, Outq.inv_frq h.1.choose_spec _⟩, fun f hf => ?_⟩
  rcases List.mem_append.1 hf with hf | hf
  · exact h.2 f hf
  · exact hl f hf

/-- the frames that need an encoder -/
structure Safe (c : Conn E F) : Prop where
  outs : ∀ x s, c.str x = some s → OOk s.out
  noq : c.qenc = none → ∀ x s, c.str x = some s → streamUni x = false → s.out.frq = []
  ids : ∀ x s, c.str x = some s → x % 4 ≠ 1
  tx : c.shutdownCommenced = false → (if c.server then 2 ^ 62 - 4 else 2 ^ 62 - 1) ≤ c.txGoaway
  gp : ∃ l, (∀ x ∈ l, x % 4 = 0 ∧ x < 2 ^ 62) ∧ c.gaps = (runConnOpens l).2
  st : FrentOk (.settings c.settings : Frent F)

theorem Safe.withEnc (h : Safe c) (e : E) : Safe { c with enc := e } := ⟨h.outs, h.noq, h.ids, h.tx, h.gp, h.st⟩

/-- the result is no failed assertion, and the new state is in order -/
def NC (r : R (Conn E F × Ret)) : Prop := r ≠ .crash ∧ ∀ c' x, r = .ok (c', x) → Safe c'

theorem nc_ok {r : Ret} (h : Safe c) : NC (.ok (c, r) : R (Conn E F × Ret)) :=
  ⟨by simp, fun c' x e => by obtain ⟨rfl, _⟩ := Prod.mk.inj (R.ok.inj e); exact h⟩

theorem nc_bind {α : Type} {r : R α} {f : α → R (Conn E F × Ret)} (h : r ≠ .crash) (hf : ∀ a, r = .ok a → NC (f a)) : NC (r.bind f) := by
  cases r with
  | ok a => exact hf a rfl
  | crash => exact absurd rfl h
  | overflow => exact ⟨(fun g => by cases g), (fun _ _ g => by cases g)⟩
  | callbackFailure => exact ⟨(fun g => by cases g), (fun _ _ g => by cases g)⟩

theorem safe_one (h : Safe c) (ho : One c id s c') (k1 : OOk s.out) (k2 : c.qenc = none → streamUni id = false → s.out.frq = [])
    (k3 : id % 4 ≠ 1) : Safe c' := by
  obtain ⟨a, b, d, e, rfl⟩ := ho
  refine ⟨fun x t hx => ?_, fun hq x t hx hu => ?_, fun x t hx => ?_, h.tx, h.gp, h.st⟩
  all_goals
    by_cases hxi : x = id
    · subst hxi
      rw [set_str] at hx
      obtain rfl := Option.some.inj hx
      first | exact k1 | exact k2 hq hu | exact k3
    · rw [set_ne _ _ _ _ hxi] at hx
      first | exact h.outs x t hx | exact h.noq hq x t hx hu | exact h.ids x t hx

theorem nc_one {r : R (Conn E F)} {x : Ret} (h : Safe c) (hr : ∃ c', r = .ok c' ∧ One c id s c') (k1 : OOk s.out)
    (k2 : c.qenc = none → streamUni id = false → s.out.frq = []) (k3 : id % 4 ≠ 1) : NC (r.bind fun c => .ok (c, x)) := by
  obtain ⟨c', rfl, ho⟩ := hr
  exact nc_ok (safe_one h ho k1 k2 k3)

theorem schedule_ok (h : Reg c) (h0 : c.str id = some s0) (h1 : s.sched = s0.sched) (h2 : s.pri = s0.pri) :
    ∃ c', scheduleStream c id s = .ok c' ∧ One c id s c' := by
  obtain ⟨_, _, _, e, _⟩ := schedule_spec h h0 h1 h2
  exact ⟨_, e, one_schedule e⟩

theorem unschedule_ok (h : Reg c) (h0 : c.str id = some s0) (h1 : s.sched = s0.sched) (h2 : s.pri = s0.pri) :
    ∃ c', unscheduleStream c id s = .ok c' ∧ One c id s c' := by
  obtain ⟨_, e, _⟩ := unschedule_spec h h0 h1 h2
  exact ⟨_, e, one_unschedule e⟩

theorem ensure_ok (h : Reg c) (h0 : c.str id = some s0) (h1 : s.sched = s0.sched) (h2 : s.pri = s0.pri) :
    ∃ c', ensureScheduled c id s = .ok c' ∧ One c id s c' := by
  unfold ensureScheduled
  split_ifs
  · exact ⟨_, rfl, one_set⟩
  · exact schedule_ok h h0 h1 h2

theorem schedule_new (h1 : s.sched = false) (h2 : s.pri.urgency < 8) : ∃ c', scheduleStream c id s = .ok c' := by
  unfold scheduleStream
  rw [if_neg (show ¬ s.pri.urgency ≥ URGENCY_LEVELS by unfold URGENCY_LEVELS; omega)]
  unfold tnodeSchedule
  rw [if_pos h1]
  exact ⟨_, rfl⟩

theorem update_ok (h : Core w c) (hb : clientBidi id = true) (h0 : c.str id = some s0) (h1 : s.sched = s0.sched) (h2 : s.pri = s0.pri)
    {pri : Http.Pri} (hp : pri.urgency < 8) : ∃ c', updatePriority c id s pri = .ok c' ∧ One c id { s with pri := pri } c' := by
  have key : ∃ c', updatePriority c id s pri = .ok c' := by
    unfold updatePriority
    rw [if_neg (by rw [hb]; decide)]
    split_ifs with g
    · exact ⟨_, rfl⟩
    · obtain ⟨sch, e, hr, _⟩ := unschedule_spec h.reg h0 h1 h2
      rw [e]
      change ∃ c', (if requireSchedule { s with sched := false, pri := pri } = true then _ else _) = R.ok c'
      split_ifs
      · exact schedule_new rfl hp
      · exact ⟨_, rfl⟩
  obtain ⟨c', e⟩ := key
  exact ⟨c', e, one_update e⟩

theorem submit_ok (h : Reg c) (h0 : c.str id = some s0) (h1 : s.sched = s0.sched) (h2 : s.pri = s0.pri) (nva : F) (dr : Bool) :
    ∃ c', submitHeadersData c id s nva dr = .ok c' ∧
      One c id { s with out := { s.out with frq := s.out.frq ++ (Frent.headers nva :: if dr then [Frent.data] else []) } } c' := by
  unfold submitHeadersData
  generalize (Frent.headers nva :: if dr = true then [Frent.data] else []) = l
  dsimp only
  split
  · exact schedule_ok (s := { s with out := { s.out with frq := s.out.frq ++ l } }) h h0 h1 h2
  · exact ⟨_, rfl, one_set⟩

theorem frames_ok (nva : F) (dr : Bool) : ∀ f ∈ (Frent.headers nva :: if dr then [Frent.data] else []), FrentOk f := by
  cases dr <;> simp [FrentOk]

theorem delete_ok (h : Inv w v c) (h0 : c.str id = some s0) (hs : s.sched = false) : ∃ c', deleteStream c id s = .ok c' := by
  unfold deleteStream
  have hn : (c.server && clientBidi id && c.num == 0) = false := by
    obtain ⟨l, g1, g2, g3⟩ := h.cnt
    by_cases hb : clientBidi id = true
    · have hm := (g2 id).2 ⟨hb, by rw [h0]; rfl⟩
      have : 0 < l.length := List.length_pos_of_mem hm
      cases hsv : c.server
      · rfl
      · rw [hsv, if_pos rfl] at g3
        rw [hb, g3]; simp; exact List.ne_nil_of_mem hm
    · simp [hb]
  rw [if_neg (by rw [hn]; decide), if_neg (by rw [hs]; decide)]
  exact ⟨_, rfl⟩

theorem safe_delete (h : Safe c) (e : deleteStream c id s = .ok c') : Safe c' := by
  have hs := delete_str e
  have hg := glob_delete e
  unfold deleteStream at e
  by_cases g1 : (c.server && clientBidi id && c.num == 0) = true
  · rw [if_pos g1] at e; cases e
  rw [if_neg g1] at e
  by_cases g2 : s.sched = true
  · rw [if_pos g2] at e; cases e
  rw [if_neg g2] at e
  obtain rfl := R.ok.inj e
  have hx : ∀ x t, upd c.str id none x = some t → c.str x = some t := by
    intro x t hx
    by_cases hxi : x = id
    · rw [hxi, upd_same] at hx; cases hx
    · rw [upd_ne _ _ hxi] at hx; exact hx
  exact ⟨fun x t g => h.outs x t (hx x t g), fun hq x t g hu => h.noq hq x t (hx x t g) hu, fun x t g => h.ids x t (hx x t g), h.tx, h.gp, h.st⟩

theorem safe_create (h : Safe c) {a : Strm F} (k1 : OOk a.out) (k2 : c.qenc = none → streamUni id = false → a.out.frq = [])
    (k3 : id % 4 ≠ 1) : Safe (createStream c id a) := by
  refine ⟨fun x t hx => ?_, fun hq x t hx hu => ?_, fun x t hx => ?_, h.tx, h.gp, h.st⟩
  all_goals
    change upd c.str id (some a) x = some t at hx
    by_cases hxi : x = id
    · subst hxi
      rw [upd_same] at hx
      obtain rfl := Option.some.inj hx
      first | exact k1 | exact k2 hq hu | exact k3
    · rw [upd_ne _ _ hxi] at hx
      first | exact h.outs x t hx | exact h.noq hq x t hx hu | exact h.ids x t hx

theorem type_ok (ty : Nat) (h : ty < 2 ^ 62) : Outq.writeStreamType ({} : St F) ty ≠ .crash ∧
    ∀ o, Outq.writeStreamType ({} : St F) ty = .ok o → OOk o ∧ o.frq = [] := by
  rcases Outq.adds_shared (F := F) Outq.inv_init (putVarintLen ty) (putVarint ty) (Outq.putVarint_ne ty h) (Nat.le_of_eq (putVarint_length ty))
    with g | ⟨o, g1, g2, g3, _⟩
  · unfold Outq.writeStreamType; rw [g]
    exact ⟨(fun g => by cases g), (fun _ g => by cases g)⟩
  · unfold Outq.writeStreamType; rw [g1]
    refine ⟨(fun g => by cases g), fun o' e => ?_⟩
    obtain rfl := R.ok.inj e
    exact ⟨⟨⟨_, g2⟩, by rw [g3]; exact (fun _ h => by cases h)⟩, g3⟩

/-- opening an identifier is never refused by an assertion, and the tracker stays in order -/
theorem idtr_ok (h : Safe c) (h4 : id % 4 = 0) (hl : id < 2 ^ 62) : (connBidiIdtrOpen c.gaps id).1 ≠ .abort ∧
    ∃ l, (∀ x ∈ l, x % 4 = 0 ∧ x < 2 ^ 62) ∧ (connBidiIdtrOpen c.gaps id).2 = (runConnOpens l).2 := by
  obtain ⟨l, g1, g2⟩ := h.gp
  have hl' : ∀ x ∈ l ++ [id], x % 4 = 0 ∧ x < 2 ^ 62 := by
    intro x hx
    rcases List.mem_append.1 hx with hx | hx
    · exact g1 x hx
    · rw [List.mem_singleton.1 hx]; exact ⟨h4, hl⟩
  have hrun : runConnOpens (l ++ [id]) = ((runConnOpens l).1 ++ [(connBidiIdtrOpen c.gaps id).1], (connBidiIdtrOpen c.gaps id).2) := by
    rw [g2]; simp [runConnOpens, List.foldl_append]
  have := (C04_conn_idtr (l ++ [id]) hl').2.1
  rw [hrun] at this
  refine ⟨fun g => this (by rw [g]; simp), l ++ [id], hl', by rw [hrun]⟩

theorem safe_gaps (h : Safe c) {g : List Range} {m : Int} (hg : ∃ l, (∀ x ∈ l, x % 4 = 0 ∧ x < 2 ^ 62) ∧ g = (runConnOpens l).2) :
    Safe { c with gaps := g, maxBidi := m } := ⟨h.outs, h.noq, h.ids, h.tx, hg, h.st⟩

end Conn
end Nghttp3
