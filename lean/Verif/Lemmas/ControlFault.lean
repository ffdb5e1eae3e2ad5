import Verif.Spec.Fault
/-! The errors of the reader of the control stream. -/
namespace Nghttp3
namespace Control

variable {S : Type} {env : Env S}

/-- where an error comes from: the bytes, a callback, or the connection that is told a priority -/
def FaultOf (env : Env S) (e : Int) : Prop :=
  e ∈ faults ∨ (e = Err.CALLBACK_FAILURE ∧ ∃ l, env.cb l = false) ∨ ∃ x id p, env.onPri x id p = .error e

theorem mem_fault {e e' : Int} (h : e' = e) (hm : e' ∈ faults) : FaultOf env e := .inl (h ▸ hm)

theorem report_fault {s : St S} {c : Conn S} {ev : Ev} {rest : Bytes} {e : Int} {k : Conn S} (h : report env s c ev rest = .fail (e, k)) : FaultOf env e := by
  unfold report at h
  dsimp only at h
  split at h
  · cases h
  · rename_i g
    cases h
    exact .inr (.inl ⟨rfl, _, by simpa using g⟩)

theorem dispatch_fault {s : St S} {rest : Bytes} {e : Int} {k : Conn S} (h : dispatch env s rest = .fail (e, k)) : FaultOf env e := by
  unfold dispatch at h
  dsimp only at h
  repeat' split at h
  all_goals first
    | exact report_fault h
    | (injection h with h; injection h with h _; exact mem_fault h (by decide))
    | cases h

theorem header_fault {s : St S} {rest : Bytes} {e : Int} {k : Conn S} (h : header env s rest = .fail (e, k)) : FaultOf env e := by
  unfold header at h
  repeat' split at h
  all_goals first
    | exact dispatch_fault h
    | (injection h with h; injection h with h _; exact mem_fault h (by decide))

theorem inFrame_fault {s : St S} {src : Bytes} {f : Nat → St S → Bytes → Res S} {e : Int} {k : Conn S} (hf : ∀ v s r, f v s r = .fail (e, k) → FaultOf env e)
    (h : inFrame s src f = .fail (e, k)) : FaultOf env e := by
  unfold inFrame at h
  split at h
  · cases h
  · injection h with h; injection h with h _; exact mem_fault h (by decide)
  · cases h
  · exact hf _ _ _ h

theorem onEntry_fault {c : Conn S} {i v : Nat} {e : Int} (h : onEntry c i v = .error e) : FaultOf env e := by
  unfold onEntry at h
  repeat' split at h
  all_goals first
    | (injection h with h; exact mem_fault h (by decide))
    | cases h

theorem applyPri_fault {s : St S} {buf rest : Bytes} {p : Http.Pri} {e : Int} {k : Conn S} (h : applyPri env s buf p rest = .fail (e, k)) : FaultOf env e := by
  unfold applyPri at h
  split at h
  · rename_i g
    cases h
    exact .inr (.inr ⟨_, _, _, g⟩)
  · cases h

theorem gotField_fault {s : St S} {f rest : Bytes} {e : Int} {k : Conn S} (h : gotField env s f rest = .fail (e, k)) : FaultOf env e := by
  unfold gotField at h
  split at h
  · injection h with h; injection h with h _; exact mem_fault h (by decide)
  · exact applyPri_fault h

theorem step_fault {s : St S} {src : Bytes} {e : Int} {k : Conn S} (h : step env s src = .fail (e, k)) : FaultOf env e := by
  have gid : ∀ v s r, gotId v s r = (.fail (e, k) : Res S) → FaultOf env e := by
    intro v s r h
    unfold gotId at h
    split at h
    · injection h with h; injection h with h _; exact mem_fault h (by decide)
    · cases h
  unfold step at h
  split at h
  · split at h
    · cases h
    · injection h with h; injection h with h _; exact mem_fault h (by decide)
    · cases h
    · cases h
  · split at h
    · cases h
    · injection h with h; injection h with h _; exact mem_fault h (by decide)
    · cases h
    · exact header_fault h
  · split at h
    · exact report_fault h
    split at h
    · cases h
    · exact inFrame_fault gid h
  · exact inFrame_fault gid h
  · refine inFrame_fault (fun v s r h => ?_) h
    unfold gotVal at h
    split at h
    · rename_i g
      cases h
      exact onEntry_fault g
    · split at h
      · cases h
      · exact report_fault h
  · refine inFrame_fault (fun v s r h => ?_) h
    unfold gotGoaway at h
    split at h
    · injection h with h; injection h with h _; exact mem_fault h (by decide)
    split at h
    · injection h with h; injection h with h _; exact mem_fault h (by decide)
    · exact report_fault h
  · refine inFrame_fault (fun v s r h => ?_) h
    unfold gotMaxPush at h
    split at h
    · injection h with h; injection h with h _; exact mem_fault h (by decide)
    · cases h
  · refine inFrame_fault (fun v s r h => ?_) h
    unfold gotElem at h
    dsimp only at h
    split at h
    · exact applyPri_fault h
    · cases h
  · unfold priField at h
    dsimp only at h
    unfold tooLong at h
    repeat' split at h
    all_goals first
      | exact gotField_fault h
      | cases h
  · unfold ignFrame at h
    dsimp only at h
    split at h <;> cases h

theorem read_fault {s : St S} {src : Bytes} {e : Int} {k : Conn S} (h : read env s src = .fail (e, k)) : FaultOf env e := by
  have key : ∀ (f : Nat) (s : St S) (src : Bytes) (b : Bool), Machine.loop (step env) f s src b = .fail (e, k) → FaultOf env e := by
    intro f
    induction f with
    | zero => intro s src b h; cases h
    | succ f ih =>
      intro s src b h
      unfold Machine.loop at h
      split at h
      · cases h
      split at h
      · cases h
      · rename_i h1
        cases h
        exact step_fault h1
      · cases h
      · exact ih _ _ _ h
      · cases h
  unfold read at h
  split at h
  · cases h
  · exact key _ _ _ _ h

end Control
end Nghttp3
