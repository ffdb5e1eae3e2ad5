import Verif.Lemmas.EndpointShut
import Verif.Props.Writable
/-! A request stream of a whole connection, as long as the application has not closed it. -/
namespace Nghttp3
namespace Endpoint
open Outq (R Ans)
open Conn (clientBidi Inv)
open Props (While flags_run AnyCall any_hist any_step)

variable {P : Par} {server : Bool} {st : Settings}

/-- the calls of the application, in order -/
def calls (l : Log) : List (Conn.Op Fld) := l.filterMap fun x => x.1.op

theorem calls_append (l l' : Log) : calls (l ++ l') = calls l ++ calls l' := List.filterMap_append

/-- a stream that the application has not closed stays -/
theorem open_run {x : Nat} (hx : clientBidi x = true) {c1 c2 : CC} {l : List (Conn.Op Fld)} (hl : Conn.Hist encode AnyCall c1 l c2) (hi : Inv False False c1)
    (hn : Spec.closeCalled x l = false) {s1 : Conn.Strm Fld} (h1 : c1.str x = some s1) (hc : s1.closed = false) :
    Conn.Hist encode (While x) c1 l c2 ∧ ∃ s2, c2.str x = some s2 ∧ s2.closed = false := by
  induction hl generalizing s1 with
  | nil => exact ⟨.nil, s1, h1, hc⟩
  | peer e _ ih => obtain ⟨k1, k2⟩ := ih (hi.withEnc e) hn h1 hc; exact ⟨.peer e k1, k2⟩
  | @cons ca cb cd o t r hp he ht ih =>
    have hn' : Spec.closeCalled x [o] = false ∧ Spec.closeCalled x t = false := by
      unfold Spec.closeCalled at hn ⊢
      rw [List.any_cons, Bool.or_eq_false_iff] at hn
      refine ⟨?_, hn.2⟩
      rw [List.any_cons, hn.1]; rfl
    have hb : (cb.str x).isSome = true := by
      cases Conn.step_life hi hp he with
      | same g1 _ => rw [g1 x hx, h1]; rfl
      | made y _ _ _ g0 g1 _ =>
        by_cases hxy : x = y
        · subst hxy; exact g0
        · rw [g1 x hxy hx, h1]; rfl
      | gone y s0 ho _ g0 _ g1 _ =>
        by_cases hxy : x = y
        · subst hxy
          rw [h1] at g0; cases g0
          rcases ho with rfl | ⟨k, _⟩
          · simp [Spec.closeCalled] at hn'
          · rw [hc] at k; cases k
        · rw [g1 x hxy hx, h1]; rfl
    obtain ⟨sb, hb⟩ := Option.isSome_iff_exists.1 hb
    have hcb : sb.closed = false := by
      obtain ⟨_, _, k, _⟩ := flags_run hx (Conn.Hist.cons (P := While x) ⟨hp, s1, h1⟩ he .nil) hi h1 hb
      rw [k, hc, hn'.1]; rfl
    obtain ⟨k1, k2⟩ := ih (any_step hi hp he) hn'.2 hb hcb
    exact ⟨.cons ⟨hp, s1, h1⟩ he k1, k2⟩

/-- received data does not block streams, nor shut them down, nor close them -/
theorem flags_calls (x : Nat) (l : List (Conn.Op Fld)) : let l' := (l.filter fun q => !received q).map noDb
    (∀ b, Spec.flowBlocked x b l = Spec.flowBlocked x b l') ∧ Spec.writeShut x l = Spec.writeShut x l' ∧ Spec.closeCalled x l = Spec.closeCalled x l' ∧
    (∀ b, Spec.askedSinceResume x b l = Spec.askedSinceResume x b l') ∧ l.all (fun o => !Spec.isResume x o) = l'.all fun o => !Spec.isResume x o := by
  induction l with
  | nil => exact ⟨fun _ => rfl, rfl, rfl, fun _ => rfl, rfl⟩
  | cons o t ih =>
    dsimp only at ih ⊢
    obtain ⟨h1, h2, h3, h4, h5⟩ := ih
    unfold Spec.writeShut at h2
    unfold Spec.closeCalled at h3
    cases o <;> refine ⟨fun b => ?_, ?_, ?_, fun b => ?_, ?_⟩ <;>
      simp [received, noDb, Spec.flowBlocked, Spec.writeShut, Spec.closeCalled, Spec.askedSinceResume, Spec.isResume, Spec.isWritev, h1, h2, h3, h4] <;>
      first | simpa [received, noDb, Spec.isResume] using h5 | (simp [received, noDb, Spec.isResume] at h5; rw [h5])

/-- the stream, if there is one, has none of the flags that make it unwritable -/
def Fresh (c : CC) (x : Nat) : Prop := ∀ s, c.str x = some s → s.fc = false ∧ s.shutWr = false ∧ s.closed = false ∧ s.out.readBlocked = false

theorem fresh_path {t g u : Bool} {a b : CC} {x : Nat} (h : Path t g u a b) (hf : Fresh a x) : Fresh b x := by
  induction h with
  | refl => exact hf
  | @op b c o r _ hi ho _ e _ _ ih =>
    intro s hs
    rcases Conn.step_flags hi.inv e x s hs with ⟨_, k⟩ | ⟨s0, k0, k⟩
    · exact k
    · obtain ⟨f1, f2, f3, f4⟩ := ih s0 k0
      have hr := ho.1
      have : Conn.SameF x s0 s := by cases o <;> first | (cases hr; done) | exact k
      obtain ⟨g1, g2, g3, g4⟩ := this
      exact ⟨g1.trans f1, g2.trans f2, g3.trans f3, g4.trans f4⟩
  | enc _ _ ih => exact ih

/-- a stream that a call has brought into being has none of the flags -/
theorem fresh_step (hP : ParOk P) (hst : SettingsOk st) {l : Log} {ep ep' : Ep} {o : Call} {r : Conn.Ret} {ev : List Ev} (h : Hist P server st l ep) (hp : Permitted ep o)
    (e : step P ep o = .ok ep' r ev) {x : Nat} (h0 : ep.c.str x = none) : Fresh ep'.c x := by
  have hei := hist_einv hP hst h
  have f0 : Fresh ep.c x := fun s hs => by rw [h0] at hs; cases hs
  rcases ho : opOn ep o with _ | op
  · obtain ⟨h1, ⟨id, src, fin, rfl⟩ | ⟨n, rfl⟩⟩ := opOn_none ho
    · obtain ⟨k1, k2⟩ := hp id src fin rfl
      obtain ⟨⟨m, k3, k4⟩, _⟩ := read_path hP hei (hist_sync hP hst h) k1 k2 e
      exact fresh_path k4 (fresh_path k3 f0)
    · change Res.ok _ _ _ = _ at e
      cases e
      exact f0
  · intro s hs
    rcases Conn.step_flags hei.core.c.inv (step_op ho e).1 x s hs with ⟨_, k⟩ | ⟨s0, k0, _⟩
    · exact k
    · rw [h0] at k0; cases k0

end Endpoint
end Nghttp3
