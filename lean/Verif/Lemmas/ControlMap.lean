import Verif.Model.Control
/-! The reader of the control stream does not look into the rest of the connection: a change of that rest that commutes with
nghttp3_conn_on_priority_update commutes with reading. -/
namespace Nghttp3
namespace Control

variable {S : Type}

def Conn.mapE (f : S → S) (c : Conn S) : Conn S := { c with ext := f c.ext }
def St.mapE (f : S → S) (s : St S) : St S := { s with conn := s.conn.mapE f }

def mapR (f : S → S) : Res S → Res S
  | .crash => .crash
  | .fail o => .fail (o.1, o.2.mapE f)
  | .stop o r => .stop (o.1, o.2.mapE f) r
  | .cont s r b => .cont (s.mapE f) r b
  | .ret s => .ret (s.mapE f)

def mapO (f : S → S) : Machine.Out (St S) (Int × Conn S) → Machine.Out (St S) (Int × Conn S)
  | .crash => .crash
  | .fail o => .fail (o.1, o.2.mapE f)
  | .stop o r => .stop (o.1, o.2.mapE f) r
  | .ok s => .ok (s.mapE f)

def Nat' (env : Env S) (f : S → S) : Prop := ∀ x i p, env.onPri (f x) i p = (env.onPri x i p).map f

variable {env : Env S} {f : S → S}

theorem report_map (s : St S) (c : Conn S) (e : Ev) (r : Bytes) : report env (s.mapE f) (c.mapE f) e r = mapR f (report env s c e r) := by
  unfold report
  simp only [apply_ite (mapR f)]
  rfl

theorem onEntry_map (c : Conn S) (i v : Nat) : onEntry (c.mapE f) i v = (onEntry c i v).map (Conn.mapE f) := by
  unfold onEntry
  simp only [apply_ite (Except.map (Conn.mapE f))]
  rfl

theorem dispatch_map (s : St S) (r : Bytes) : dispatch env (s.mapE f) r = mapR f (dispatch env s r) := by
  unfold dispatch
  simp only [apply_ite (mapR f), ← report_map]
  rfl

theorem header_map (s : St S) (r : Bytes) : header env (s.mapE f) r = mapR f (header env s r) := by
  unfold header
  simp only [apply_ite (mapR f), ← dispatch_map]
  rfl

theorem inFrame_map (s : St S) (x : Bytes) (k : Nat → St S → Bytes → Res S) (hk : ∀ v s r, k v (s.mapE f) r = mapR f (k v s r)) :
    inFrame (s.mapE f) x k = mapR f (inFrame s x k) := by
  unfold inFrame
  show (match rdl s.rv s.left x with | .crash => _ | .err => _ | .part rv => _ | .done v n => _) = _
  rcases rdl s.rv s.left x with _ | _ | rv | ⟨v, n⟩
  · rfl
  · rfl
  · rfl
  · exact hk v { s with rv := {}, left := s.left - n } (x.drop n)

theorem gotId_map (v : Nat) (s : St S) (r : Bytes) : gotId v (s.mapE f) r = mapR f (gotId v s r) := by
  unfold gotId
  simp only [apply_ite (mapR f)]
  rfl

theorem gotVal_map (v : Nat) (s : St S) (r : Bytes) : gotVal env v (s.mapE f) r = mapR f (gotVal env v s r) := by
  unfold gotVal
  show (match onEntry (s.conn.mapE f) s.sid v with | .error e => _ | .ok c => _) = _
  rw [onEntry_map]
  rcases onEntry s.conn s.sid v with e | c
  · rfl
  · dsimp only [Except.map]
    show (if s.left ≠ 0 then _ else _) = mapR f (if s.left ≠ 0 then _ else _)
    split_ifs
    · rfl
    · exact report_map s c _ r

theorem gotGoaway_map (v : Nat) (s : St S) (r : Bytes) : gotGoaway env v (s.mapE f) r = mapR f (gotGoaway env v s r) := by
  unfold gotGoaway
  simp only [apply_ite (mapR f), ← report_map]
  rfl

theorem gotMaxPush_map (v : Nat) (s : St S) (r : Bytes) : gotMaxPush v (s.mapE f) r = mapR f (gotMaxPush v s r) := by
  unfold gotMaxPush
  simp only [apply_ite (mapR f)]
  rfl

theorem applyPri_map (hf : Nat' env f) (s : St S) (b : Bytes) (p : Http.Pri) (r : Bytes) :
    applyPri env (s.mapE f) b p r = mapR f (applyPri env s b p r) := by
  unfold applyPri
  show (match env.onPri (f s.conn.ext) s.elem p with | .error e => _ | .ok x => _) = _
  rw [hf]
  rcases env.onPri s.conn.ext s.elem p with e | x <;> rfl

theorem gotElem_map (hf : Nat' env f) (v : Nat) (s : St S) (r : Bytes) : gotElem env v (s.mapE f) r = mapR f (gotElem env v s r) := by
  unfold gotElem
  show (if s.left = 0 then _ else _) = mapR f (if s.left = 0 then _ else _)
  split_ifs
  · exact applyPri_map hf { s with elem := v } _ _ r
  · rfl

theorem gotField_map (hf : Nat' env f) (s : St S) (v r : Bytes) : gotField env (s.mapE f) v r = mapR f (gotField env s v r) := by
  unfold gotField
  rcases env.parsePri v with _ | p
  · rfl
  · exact applyPri_map hf s _ _ r

theorem priField_map (hf : Nat' env f) (s : St S) (x : Bytes) : priField env (s.mapE f) x = mapR f (priField env s x) := by
  unfold priField
  simp only [apply_ite (mapR f), ← gotField_map hf]
  rfl

theorem ignFrame_map (s : St S) (x : Bytes) : ignFrame (s.mapE f) x = mapR f (ignFrame s x) := by
  unfold ignFrame
  simp only [apply_ite (mapR f)]
  rfl

theorem step_map (hf : Nat' env f) (s : St S) (x : Bytes) : step env (s.mapE f) x = mapR f (step env s x) := by
  unfold step
  have hst : (s.mapE f).st = s.st := rfl
  rw [hst]
  rcases s.st with _ | _ | _ | _ | _ | _ | _ | _ | _ | _ <;> dsimp only
  · show (match rd s.rv x false with | .crash => _ | .err => _ | .part rv => _ | .done v n => _) = _
    rcases rd s.rv x false with _ | _ | rv | ⟨v, n⟩ <;> rfl
  · show (match rd s.rv x false with | .crash => _ | .err => _ | .part rv => _ | .done v n => _) = _
    rcases rd s.rv x false with _ | _ | rv | ⟨v, n⟩
    · rfl
    · rfl
    · rfl
    · exact header_map { s with rv := {}, left := v } _
  · show (if s.left = 0 then _ else _) = mapR f (if s.left = 0 then _ else _)
    split_ifs
    · exact report_map s s.conn _ x
    · rfl
    · exact inFrame_map { s with st := .settingId } x _ gotId_map
  · exact inFrame_map s x _ gotId_map
  · exact inFrame_map s x _ gotVal_map
  · exact inFrame_map s x _ gotGoaway_map
  · exact inFrame_map s x _ gotMaxPush_map
  · exact inFrame_map s x _ (gotElem_map hf)
  · exact priField_map hf s x
  · exact ignFrame_map s x

theorem loop_map (hf : Nat' env f) (n : Nat) (s : St S) (x : Bytes) (b : Bool) :
    Machine.loop (step env) n (s.mapE f) x b = mapO f (Machine.loop (step env) n s x b) := by
  induction n generalizing s x b with
  | zero => rfl
  | succ n ih =>
    unfold Machine.loop
    split_ifs
    · rfl
    · rw [step_map hf]
      rcases step env s x with _ | o | ⟨o, r⟩ | ⟨s', r, b'⟩ | s'
      · rfl
      · rfl
      · rfl
      · exact ih s' r b'
      · rfl

theorem read_map (hf : Nat' env f) (s : St S) (x : Bytes) : read env (s.mapE f) x = mapO f (read env s x) := by
  unfold read
  split_ifs
  · rfl
  · exact loop_map hf _ s x false

end Control
end Nghttp3
