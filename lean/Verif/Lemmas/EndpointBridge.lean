import Verif.Lemmas.EndpointOps
import Verif.Lemmas.EndpointLog
/-! The history of a whole connection, seen by the part modelled in Model/Conn.lean. -/
namespace Nghttp3
namespace Endpoint
open Outq (R Ans)
open Conn (OpOk LeavesClosed Allowed clientBidi streamUni)
open Props (Fine)

variable {G : Bool × Settings} {P : Par}

theorem conn_hist_trans {Q : CC → Conn.Op Fld → Prop} {a b c : CC} {l l' : List (Conn.Op Fld)} (h : Conn.Hist encode Q a l b) (h' : Conn.Hist encode Q b l' c) :
    Conn.Hist encode Q a (l ++ l') c := by
  induction h with
  | nil => exact h'
  | cons hp e _ ih => exact .cons hp e (ih h')
  | peer e _ ih => exact .peer e (ih h')

theorem conn_hist_reach {Q : CC → Conn.Op Fld → Prop} {c0 a b : CC} {l : List (Conn.Op Fld)} (h0 : Conn.Reach encode Q c0 a) (h : Conn.Hist encode Q a l b) : Conn.Reach encode Q c0 b := by
  induction h with
  | nil => exact h0
  | cons hp e _ ih => exact ih (.step h0 hp e)
  | peer e _ ih => exact ih (.peer e h0)

theorem path_hist {t g u : Bool} {a b : CC} (h : Path t g u a b) : ∃ l, Conn.Hist encode Fine a l b ∧ ∀ o ∈ l, received o = true := by
  induction h with
  | refl => exact ⟨[], .nil, fun o g => by cases g⟩
  | @op b c o r _ _ ho _ e _ _ ih =>
    obtain ⟨l, h1, h2⟩ := ih
    refine ⟨l ++ [o], conn_hist_trans h1 (.cons ho.2 e .nil), fun q hq => ?_⟩
    rcases List.mem_append.1 hq with hq | hq
    · exact h2 q hq
    · obtain rfl := List.mem_singleton.1 hq; exact ho.1
  | @enc b e _ _ ih =>
    obtain ⟨l, h1, h2⟩ := ih
    refine ⟨l, ?_, h2⟩
    have := conn_hist_trans h1 (.peer e .nil)
    rwa [List.append_nil] at this

/-- the bytes of the decoder stream that a write may use are left out -/
def noDb : Conn.Op Fld → Conn.Op Fld
  | .writev k _ as => .writev k [] as
  | o => o

theorem opOn_some {ep : Ep} {o : Call} {op : Conn.Op Fld} (h : opOn ep o = some op) : received op = false ∧ o.op = some (noDb op) := by
  cases o with
  | read a b c => cases h
  | setMaxConc n => cases h
  | _ => cases h; exact ⟨rfl, rfl⟩

theorem opOn_none {ep : Ep} {o : Call} (h : opOn ep o = none) : o.op = none ∧ ((∃ id src fin, o = .read id src fin) ∨ ∃ n, o = .setMaxConc n) := by
  cases o with
  | read a b c => exact ⟨rfl, .inl ⟨_, _, _, rfl⟩⟩
  | setMaxConc n => exact ⟨rfl, .inr ⟨_, rfl⟩⟩
  | _ => cases h

theorem permitted_fine {ep : Ep} {o : Call} {op : Conn.Op Fld} (h : opOn ep o = some op) (hp : Permitted ep o) : Fine ep.c op := by
  unfold Permitted at hp
  rw [(opOn_some h).2] at hp
  dsimp only at hp
  obtain ⟨h1, h2, h3, _⟩ := hp
  cases op with
  | writev k db as => exact ⟨trivial, trivial, h3⟩
  | _ => exact ⟨h1, h2, h3⟩

theorem step_bridge (hP : ParOk P) {ep : Ep} (h : EInv G ep) (hg : GoSync ep) {o : Call} (hp : Permitted ep o) {ep' : Ep} {r : Conn.Ret} {ev : List Ev}
    (e : step P ep o = .ok ep' r ev) : GoSync ep' ∧ ∃ ops, Conn.Hist encode Fine ep.c ops ep'.c ∧ (ops.filter fun q => !received q).map noDb = o.op.toList := by
  rcases ho : opOn ep o with _ | op
  · obtain ⟨h1, h2⟩ := opOn_none ho
    rw [h1]
    rcases h2 with ⟨id, src, fin, rfl⟩ | ⟨n, rfl⟩
    · obtain ⟨k1, k2⟩ := hp id src fin rfl
      obtain ⟨⟨m, k3, k4⟩, k5⟩ := read_path hP h hg k1 k2 e
      obtain ⟨l1, a1, a2⟩ := path_hist k3
      obtain ⟨l2, b1, b2⟩ := path_hist k4
      refine ⟨k5, l1 ++ l2, conn_hist_trans a1 b1, ?_⟩
      have : (l1 ++ l2).filter (fun q => !received q) = [] := by
        rw [List.filter_eq_nil_iff]
        intro q hq
        rcases List.mem_append.1 hq with hq | hq
        · rw [a2 q hq]; simp
        · rw [b2 q hq]; simp
      rw [this]; rfl
    · change Res.ok _ _ _ = _ at e
      cases e
      exact ⟨hg, [], .nil, rfl⟩
  · obtain ⟨h1, h2⟩ := opOn_some ho
    obtain ⟨e1, e2⟩ := step_op ho e
    refine ⟨?_, [op], .cons (permitted_fine ho hp) e1 .nil, ?_⟩
    · show ep'.ctl.conn.goawayRecved = ep'.c.goawayRecved
      rw [e2]
      exact hg.trans (step_recved h.core.c (by rintro rfl; cases h1) e1).symm
    · rw [h2, List.filter_cons_of_pos (by rw [h1]; rfl)]; rfl

theorem hist_sync (hP : ParOk P) {server : Bool} {st : Settings} (hst : SettingsOk st) {l : Log} {ep : Ep} (h : Hist P server st l ep) : GoSync ep := by
  induction h with
  | init => rfl
  | step h1 h2 h3 ih => exact (step_bridge hP (hist_einv hP hst h1) ih h2 h3).1

/-- The end of a history of the connection is a history of its sending side: the operations of the calls, and among them those that received
data causes. -/
theorem suffix_bridge (hP : ParOk P) {server : Bool} {st : Settings} (hst : SettingsOk st) {l : Log} (l' : Log) {ep' : Ep} (h : Hist P server st (l ++ l') ep') :
    ∃ ep, Hist P server st l ep ∧ ∃ ops, Conn.Hist encode Fine ep.c ops ep'.c ∧ (ops.filter fun q => !received q).map noDb = l'.filterMap fun x => x.1.op := by
  induction l' using List.reverseRecOn generalizing ep' with
  | nil =>
    rw [List.append_nil] at h
    exact ⟨ep', h, [], .nil, rfl⟩
  | append_singleton l' y ih =>
    rw [← List.append_assoc] at h
    obtain ⟨ep1, o, r, ev, hy, h1, h2, h3⟩ : ∃ ep1 o r ev, y = (o, r, ev) ∧ Hist P server st (l ++ l') ep1 ∧ Permitted ep1 o ∧ step P ep1 o = .ok ep' r ev := by
      generalize hl : l ++ l' ++ [y] = L at h
      cases h with
      | init => simp at hl
      | step h1 h2 h3 =>
        obtain ⟨rfl, hy⟩ := List.append_inj' hl rfl
        exact ⟨_, _, _, _, List.singleton_inj.1 hy, h1, h2, h3⟩
    subst hy
    obtain ⟨ep, h4, ops, h5, h6⟩ := ih h1
    obtain ⟨_, ops', k1, k2⟩ := step_bridge hP (hist_einv hP hst h1) (hist_sync hP hst h1) h2 h3
    refine ⟨ep, h4, ops ++ ops', conn_hist_trans h5 k1, ?_⟩
    rw [List.filter_append, List.map_append, h6, k2, List.filterMap_append]
    cases o <;> rfl

theorem hist_bridge (hP : ParOk P) {server : Bool} {st : Settings} (hst : SettingsOk st) {l : Log} {ep : Ep} (h : Hist P server st l ep) :
    ∃ ops, Conn.Hist encode Fine (init server st).c ops ep.c ∧ (ops.filter fun q => !received q).map noDb = l.filterMap fun x => x.1.op := by
  obtain ⟨ep0, h0, h1⟩ := suffix_bridge hP hst (l := []) l h
  have : ep0 = init server st := by
    generalize hl : ([] : Log) = L at h0
    cases h0 with
    | init => rfl
    | step => simp at hl
  subst this
  exact h1

end Endpoint
end Nghttp3
