import Verif.Lemmas.ControlPri
/-! The reader of the control stream does not depend on the rest of the connection, as long as it accepts the bytes. -/
namespace Nghttp3
namespace Control

variable {S : Type} {env : Env S}

/-- the connection without the parts that the callbacks do not depend on -/
def Conn.recast {T : Type} (c : Conn S) (e : Qpack.Enc) (y : T) : Conn T :=
  { server := c.server, settingsRecved := c.settingsRecved, remote := c.remote, enc := e, goawayRecved := c.goawayRecved, rxGoaway := c.rxGoaway,
    maxPushes := c.maxPushes, ev := c.ev, long := c.long, ext := y }

def St.recast {T : Type} (s : St S) (e : Qpack.Enc) (y : T) : St T :=
  { conn := s.conn.recast e y, st := s.st, rv := s.rv, ty := s.ty, left := s.left, sid := s.sid, elem := s.elem, priBuf := s.priBuf }

/-- every PRIORITY_UPDATE frame is accepted, and has no effect -/
def bare (env : Env S) : Env Unit := { parsePri := env.parsePri, onPri := fun _ _ _ => .ok (), cb := env.cb }

/-- the results agree, except for errors that the connection returns when it is told a priority -/
def Agree (env : Env S) (Q : Prop) : Res S → Res Unit → Prop
  | .cont s r b, x => ∃ e, x = .cont (s.recast e ()) r b
  | .ret s, x => ∃ e, x = .ret (s.recast e ())
  | .stop _ _, _ => False
  | .crash, x => x = .crash
  | .fail (z, _), x => (∃ k, x = .fail (z, k)) ∨ Q ∧ ∃ y id p, env.onPri y id p = .error z

/-- the same for errors -/
theorem Agree.fail {env : Env S} {Q : Prop} {z : Int} {k : Conn S} {k' : Conn Unit} : Agree env Q (.fail (z, k)) (.fail (z, k')) := .inl ⟨k', rfl⟩

variable {Q : Prop}

theorem report_agree (s : St S) (c : Conn S) (ev : Ev) (rest : Bytes) (e e' : Qpack.Enc) :
    Agree env Q (report env s c ev rest) (report (bare env) (s.recast e ()) (c.recast e' ()) ev rest) := by
  unfold report
  dsimp only
  by_cases h : env.cb (c.ev ++ [ev]) = true
  · rw [if_pos h, if_pos (show (bare env).cb ((c.recast e' ()).ev ++ [ev]) = true from h)]
    exact ⟨e', rfl⟩
  · rw [if_neg h, if_neg (show ¬ (bare env).cb ((c.recast e' ()).ev ++ [ev]) = true from h)]; exact .fail

theorem dispatch_agree (s : St S) (rest : Bytes) (e : Qpack.Enc) : Agree env Q (dispatch env s rest) (dispatch (bare env) (s.recast e ()) rest) := by
  unfold dispatch
  dsimp only
  rw [show (s.recast e ()).ty = s.ty from rfl, show (s.recast e ()).left = s.left from rfl, show (s.recast e ()).conn.server = s.conn.server from rfl]
  split_ifs
  · exact report_agree s s.conn _ rest e e
  all_goals first | (first | exact .fail | rfl) | exact ⟨e, rfl⟩

theorem header_agree (s : St S) (rest : Bytes) (e : Qpack.Enc) : Agree env Q (header env s rest) (header (bare env) (s.recast e ()) rest) := by
  unfold header
  rw [show (s.recast e ()).ty = s.ty from rfl, show (s.recast e ()).conn.settingsRecved = s.conn.settingsRecved from rfl]
  split_ifs
  · (first | exact .fail | rfl)
  · exact dispatch_agree { s with conn := { s.conn with settingsRecved := true } } rest e
  · (first | exact .fail | rfl)
  · exact dispatch_agree s rest e

theorem inFrame_agree (s : St S) (x : Bytes) (k : Nat → St S → Bytes → Res S) (k' : Nat → St Unit → Bytes → Res Unit) (e : Qpack.Enc)
    (hk : ∀ v s r, Agree env Q (k v s r) (k' v (s.recast e ()) r)) : Agree env Q (inFrame s x k) (inFrame (s.recast e ()) x k') := by
  unfold inFrame
  rw [show (s.recast e ()).rv = s.rv from rfl, show (s.recast e ()).left = s.left from rfl]
  rcases rdl s.rv s.left x with _ | _ | rv | ⟨v, n⟩
  · (first | exact .fail | rfl)
  · (first | exact .fail | rfl)
  · exact ⟨e, rfl⟩
  · exact hk v { s with rv := {}, left := s.left - n } _

theorem gotId_agree (v : Nat) (s : St S) (rest : Bytes) (e : Qpack.Enc) : Agree env Q (gotId v s rest) (gotId v (s.recast e ()) rest) := by
  unfold gotId
  rw [show (s.recast e ()).left = s.left from rfl]
  split_ifs
  · (first | exact .fail | rfl)
  · exact ⟨e, rfl⟩

theorem onEntry_recast (c : Conn S) (i v : Nat) (e : Qpack.Enc) (c' : Conn S) (h : onEntry c i v = .ok c') : ∃ e', onEntry (c.recast e ()) i v = .ok (c'.recast e' ()) := by
  unfold onEntry at h ⊢
  rw [show (c.recast e ()).remote = c.remote from rfl, show (c.recast e ()).server = c.server from rfl]
  split_ifs at h ⊢
  all_goals
    injection h with h
    subst h
    exact ⟨_, rfl⟩

theorem onEntry_recast_err (c : Conn S) (i v : Nat) (e : Qpack.Enc) (z : Int) (h : onEntry c i v = .error z) : onEntry (c.recast e ()) i v = .error z := by
  unfold onEntry at h ⊢
  rw [show (c.recast e ()).remote = c.remote from rfl, show (c.recast e ()).server = c.server from rfl]
  split_ifs at h ⊢
  all_goals
    injection h with h
    subst h
    rfl

theorem gotVal_agree (v : Nat) (s : St S) (rest : Bytes) (e : Qpack.Enc) : Agree env Q (gotVal env v s rest) (gotVal (bare env) v (s.recast e ()) rest) := by
  unfold gotVal
  rcases h : onEntry s.conn s.sid v with z | c
  · rw [show onEntry (s.recast e ()).conn (s.recast e ()).sid v = _ from onEntry_recast_err _ _ _ e _ h]
    exact .fail
  · obtain ⟨e', h'⟩ := onEntry_recast _ _ _ e _ h
    rw [show onEntry (s.recast e ()).conn (s.recast e ()).sid v = _ from h']
    dsimp only
    rw [show (s.recast e ()).left = s.left from rfl]
    split_ifs
    · exact ⟨e', rfl⟩
    · exact report_agree s c _ rest e e'

theorem gotGoaway_agree (v : Nat) (s : St S) (rest : Bytes) (e : Qpack.Enc) : Agree env Q (gotGoaway env v s rest) (gotGoaway (bare env) v (s.recast e ()) rest) := by
  unfold gotGoaway
  rw [show (s.recast e ()).conn.server = s.conn.server from rfl, show (s.recast e ()).conn.rxGoaway = s.conn.rxGoaway from rfl]
  split_ifs
  · (first | exact .fail | rfl)
  · (first | exact .fail | rfl)
  · exact report_agree s { s.conn with goawayRecved := true, rxGoaway := v } _ rest e e

theorem gotMaxPush_agree (v : Nat) (s : St S) (rest : Bytes) (e : Qpack.Enc) : Agree env Q (gotMaxPush v s rest) (gotMaxPush v (s.recast e ()) rest) := by
  unfold gotMaxPush
  rw [show (s.recast e ()).conn.maxPushes = s.conn.maxPushes from rfl]
  split_ifs
  · (first | exact .fail | rfl)
  · exact ⟨e, rfl⟩

theorem applyPri_agree (hq : Q) (s : St S) (buf : Bytes) (p : Http.Pri) (rest : Bytes) (e : Qpack.Enc) :
    Agree env Q (applyPri env s buf p rest) (applyPri (bare env) (s.recast e ()) buf p rest) := by
  unfold applyPri
  rcases h : env.onPri s.conn.ext s.elem p with z | x
  · exact .inr ⟨hq, _, _, _, h⟩
  · exact ⟨e, rfl⟩

theorem gotElem_agree (hq : Q) (v : Nat) (s : St S) (rest : Bytes) (e : Qpack.Enc) : Agree env Q (gotElem env v s rest) (gotElem (bare env) v (s.recast e ()) rest) := by
  unfold gotElem
  dsimp only
  rw [show (s.recast e ()).left = s.left from rfl]
  split_ifs
  · exact applyPri_agree hq { s with elem := v } s.priBuf _ rest e
  · exact ⟨e, rfl⟩

theorem gotField_agree (hq : Q) (s : St S) (f rest : Bytes) (e : Qpack.Enc) : Agree env Q (gotField env s f rest) (gotField (bare env) (s.recast e ()) f rest) := by
  unfold gotField
  rw [show (bare env).parsePri f = env.parsePri f from rfl]
  rcases env.parsePri f with _ | p
  · (first | exact .fail | rfl)
  · exact applyPri_agree hq s [] p rest e

theorem priField_agree (hq : Q) (s : St S) (x : Bytes) (e : Qpack.Enc) : Agree env Q (priField env s x) (priField (bare env) (s.recast e ()) x) := by
  unfold priField tooLong
  dsimp only
  rw [show (s.recast e ()).left = s.left from rfl, show (s.recast e ()).priBuf = s.priBuf from rfl]
  split_ifs
  · (first | exact .fail | rfl)
  · exact ⟨e, rfl⟩
  · exact gotField_agree hq { s with left := 0 } _ _ e
  · exact ⟨e, rfl⟩
  · exact gotField_agree hq { s with left := 0, priBuf := _ } _ _ e
  · exact ⟨e, rfl⟩

theorem step_agree (s : St S) (x : Bytes) (e : Qpack.Enc) : Agree env (s.st = .elemId ∨ s.st = .priField) (step env s x) (step (bare env) (s.recast e ()) x) := by
  unfold step
  rw [show (s.recast e ()).st = s.st from rfl, show (s.recast e ()).rv = s.rv from rfl]
  rcases hs : s.st with _ | _ | _ | _ | _ | _ | _ | _ | _ | _ <;> dsimp only
  · rcases rd s.rv x false with _ | _ | rv | ⟨v, n⟩
    · (first | exact .fail | rfl)
    · (first | exact .fail | rfl)
    all_goals exact ⟨e, rfl⟩
  · rcases rd s.rv x false with _ | _ | rv | ⟨v, n⟩
    · (first | exact .fail | rfl)
    · (first | exact .fail | rfl)
    · exact ⟨e, rfl⟩
    · exact header_agree { s with rv := {}, left := v } _ e
  · rw [show (s.recast e ()).left = s.left from rfl]
    split_ifs
    · exact report_agree s s.conn _ x e e
    · exact ⟨e, rfl⟩
    · exact inFrame_agree { s with st := .settingId } _ _ _ e fun v s r => gotId_agree v s r e
  · exact inFrame_agree _ _ _ _ e fun v s r => gotId_agree v s r e
  · exact inFrame_agree _ _ _ _ e fun v s r => gotVal_agree v s r e
  · exact inFrame_agree _ _ _ _ e fun v s r => gotGoaway_agree v s r e
  · exact inFrame_agree _ _ _ _ e fun v s r => gotMaxPush_agree v s r e
  · exact inFrame_agree _ _ _ _ e fun v s r => gotElem_agree (.inl rfl) v s r e
  · exact priField_agree (.inr rfl) s x e
  · unfold ignFrame
    dsimp only
    rw [show (s.recast e ()).left = s.left from rfl]
    split_ifs
    · exact ⟨e, rfl⟩
    · exact ⟨e, rfl⟩

theorem loop_agree (f : Nat) (s : St S) (x : Bytes) (b : Bool) (e : Qpack.Enc) (s' : St S) (h : Machine.loop (step env) f s x b = .ok s') :
    ∃ e', Machine.loop (step (bare env)) f (s.recast e ()) x b = .ok (s'.recast e' ()) := by
  induction f generalizing s x b e with
  | zero => cases h
  | succ f ih =>
    unfold Machine.loop at h ⊢
    by_cases h0 : x = [] ∧ b = false
    · rw [if_pos h0] at h ⊢
      cases h
      exact ⟨e, rfl⟩
    · rw [if_neg h0] at h ⊢
      have ha := step_agree (env := env) s x e
      rcases hr : step env s x with _ | o | ⟨o, r⟩ | ⟨s1, r, b'⟩ | s1 <;> rw [hr] at ha h
      · cases h
      · cases h
      · exact ha.elim
      · obtain ⟨e1, ha⟩ := ha
        rw [ha]
        exact ih _ _ _ e1 h
      · obtain ⟨e1, ha⟩ := ha
        rw [ha]
        cases h
        exact ⟨e1, rfl⟩

/-- what an error of the first becomes -/
def Told (env : Env S) (srv : Bool) (z : Int) (o : Machine.Out (St Unit) (Int × Conn Unit)) : Prop := (∃ k, o = .fail (z, k)) ∨ srv = true ∧ ∃ y id p, env.onPri y id p = .error z

theorem loop_agree_fail (f : Nat) (s : St S) (x : Bytes) (b : Bool) (e : Qpack.Enc) (z : Int) (k : Conn S) (hi : Inv P8 s) (hb : b = true → vis s = true)
    (h : Machine.loop (step env) f s x b = .fail (z, k)) : Told env s.conn.server z (Machine.loop (step (bare env)) f (s.recast e ()) x b) := by
  induction f generalizing s x b e with
  | zero => cases h
  | succ f ih =>
    unfold Machine.loop at h ⊢
    by_cases h0 : x = [] ∧ b = false
    · rw [if_pos h0] at h; cases h
    · rw [if_neg h0] at h ⊢
      have hx : x ≠ [] ∨ vis s = true := by
        by_cases hx : x = []
        · right; apply hb; cases b <;> simp_all
        · left; exact hx
      have ha := step_agree (env := env) s x e
      have hp := step_pres (stable_server (env := env) s.conn.server) s x rfl
      have hs := step_real (env := env) buf8 s x hi hx (fun _ h => h)
      rcases hr : step env s x with _ | o | ⟨o, r⟩ | ⟨s1, r, b'⟩ | s1 <;> rw [hr] at ha h hp hs
      · cases h
      · cases h
        rcases ha with ⟨k', ha⟩ | ⟨h1, h2⟩
        · rw [ha]; exact .inl ⟨k', rfl⟩
        · refine .inr ⟨?_, h2⟩
          by_contra hc
          have := hi.role (by simpa using hc)
          rcases h1 with h1 | h1
          · exact this.2.1 h1
          · exact this.2.2 h1
      · exact ha.elim
      · obtain ⟨e1, ha⟩ := ha
        rw [ha]
        have hp : s1.conn.server = s.conn.server := hp
        rw [← hp]
        exact ih _ _ _ e1 hs.1 hs.2.1 h
      · cases h

theorem read_agree_fail (s : St S) (x : Bytes) (e : Qpack.Enc) (z : Int) (k : Conn S) (hi : Inv P8 s) (h : read env s x = .fail (z, k)) :
    Told env s.conn.server z (read (bare env) (s.recast e ()) x) := by
  unfold read at h ⊢
  split_ifs at h ⊢ with h0
  exact loop_agree_fail _ s x false e z k hi (by simp) h

theorem loop_agree_crash (f : Nat) (s : St S) (x : Bytes) (b : Bool) (e : Qpack.Enc) (h : Machine.loop (step env) f s x b = .crash) :
    Machine.loop (step (bare env)) f (s.recast e ()) x b = .crash := by
  induction f generalizing s x b e with
  | zero => rfl
  | succ f ih =>
    unfold Machine.loop at h ⊢
    by_cases h0 : x = [] ∧ b = false
    · rw [if_pos h0] at h; cases h
    · rw [if_neg h0] at h ⊢
      have ha := step_agree (env := env) s x e
      rcases hr : step env s x with _ | o | ⟨o, r⟩ | ⟨s1, r, b'⟩ | s1 <;> rw [hr] at ha h
      · rw [show step (bare env) (s.recast e ()) x = .crash from ha]
      · cases h
      · exact ha.elim
      · obtain ⟨e1, ha⟩ := ha
        rw [ha]
        exact ih _ _ _ e1 h
      · cases h

theorem read_agree_crash (s : St S) (x : Bytes) (e : Qpack.Enc) (h : read env s x = .crash) : read (bare env) (s.recast e ()) x = .crash := by
  unfold read at h ⊢
  by_cases h0 : x = []
  · rw [if_pos h0]
  · rw [if_neg h0] at h ⊢
    exact loop_agree_crash _ s x false e h

theorem read_agree (s : St S) (x : Bytes) (e : Qpack.Enc) (s' : St S) (h : read env s x = .ok s') : ∃ e', read (bare env) (s.recast e ()) x = .ok (s'.recast e' ()) := by
  unfold read at h ⊢
  split_ifs at h ⊢ with h0
  exact loop_agree _ s x false e s' h

theorem feed_snoc (s : St S) (cs : List Bytes) (x : Bytes) (s' : St S) (h : feed env s cs = .ok s') : feed env s (cs ++ [x]) = read env s' x := by
  induction cs generalizing s with
  | nil =>
    cases h
    rw [List.nil_append]
    unfold feed
    generalize read env s' x = o
    rcases o with _ | _ | _ | s1 <;> rfl
  | cons c cs ih =>
    rw [List.cons_append]
    unfold feed at h ⊢
    rcases hr : read env s c with _ | _ | _ | s1 <;> rw [hr] at h
    · cases h
    · cases h
    · cases h
    · exact ih _ h

/-- callbacks are only added -/
theorem read_grows (s : St S) (x : Bytes) (s' : St S) (h : read env s x = .ok s') : s.conn.ev <+: s'.conn.ev := by
  have hst : Stable env (fun c : Conn S => s.conn.ev <+: c.ev) :=
    ⟨fun _ h => h, fun _ h => h.trans (List.prefix_append _ _), fun _ _ _ _ h he => by rw [(onEntry_keeps he).2.2.1]; exact h,
      fun _ _ h _ _ => h.trans (List.prefix_append _ _), fun _ _ h _ => h, fun _ _ _ _ h _ => h, fun _ h => h⟩
  have := read_pres hst s x (List.prefix_refl _)
  rw [h] at this
  exact this

end Control
end Nghttp3
