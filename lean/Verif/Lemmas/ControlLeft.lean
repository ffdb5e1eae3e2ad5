import Verif.Lemmas.ControlMore
/-! How many bytes of a frame of the control stream are missing, on a client. -/
namespace Nghttp3
namespace Control

variable {S : Type} {env : Env S}

/-- inside the payload of a frame of which `D` bytes will be missing after the bytes `x` -/
def Mid (D : Nat) (s : St S) (x : Bytes) : Prop :=
  RvOk s.rv ∧ s.left = D + x.length ∧ (s.st = .settings ∨ s.st = .settingId ∨ s.st = .settingVal ∨ s.st = .ignFrame)

def MidRes (D : Nat) : Res S → Prop
  | .cont s r _ => Mid D s r
  | .ret s => s.left = D
  | .fail o => o.1 ≠ 0
  | _ => True

theorem inFrame_mid {D : Nat} (hD : 0 < D) (s : St S) (x : Bytes) (k : Nat → St S → Bytes → Res S) (hx : x ≠ []) (h1 : RvOk s.rv) (h2 : s.left = D + x.length)
    (hk : ∀ v (s' : St S) r, s'.rv = {} → s'.left = D + r.length → MidRes D (k v s' r)) : MidRes D (inFrame s x k) := by
  have h := rdl_spec s.rv s.left x h1 (by omega) hx
  unfold inFrame
  rcases he : rdl s.rv s.left x with _ | _ | rv | ⟨v, n⟩ <;> rw [he] at h <;> dsimp only at h ⊢
  · show Err.H3_FRAME_ERROR ≠ 0; decide
  · show s.left - min s.left x.length = D
    omega
  · exact hk _ _ _ rfl (by dsimp only; rw [List.length_drop]; omega)

theorem onEntry_err {c : Conn S} {i v : Nat} {e : Int} (h : onEntry c i v = .error e) : e ≠ 0 := by
  unfold onEntry at h
  split_ifs at h <;> first | (cases h; decide) | cases h

theorem stepI_mid {D : Nat} (hD : 0 < D) (s : St S) (x : Bytes) (h : Mid D s x) : MidRes D (stepI env s x) := by
  obtain ⟨h1, h2, h3⟩ := h
  have gid : ∀ v (s' : St S) r, s'.rv = {} → s'.left = D + r.length → MidRes D (gotId v s' r) := by
    intro v s' r e1 e2
    unfold gotId
    rw [if_neg (by omega)]
    exact ⟨by show RvOk s'.rv; rw [e1]; exact rvOk_idle, e2, .inr (.inr (.inl rfl))⟩
  have gval : ∀ v (s' : St S) r, s'.rv = {} → s'.left = D + r.length → MidRes D (gotVal env v s' r) := by
    intro v s' r e1 e2
    unfold gotVal
    rcases he : onEntry s'.conn s'.sid v with e | c <;> dsimp only
    · exact onEntry_err he
    · rw [if_pos (by omega)]
      exact ⟨by show RvOk s'.rv; rw [e1]; exact rvOk_idle, e2, .inl rfl⟩
  have ne : s.st ≠ .priField := by rcases h3 with h3 | h3 | h3 | h3 <;> rw [h3] <;> simp
  rw [← step_eq_of_ne _ _ ne]
  unfold step
  have hc : ∀ k, inFrame s [] k = .crash := by
    intro k
    unfold inFrame rdl rd readVarint
    simp
  rcases h3 with h3 | h3 | h3 | h3 <;> rw [h3] <;> dsimp only
  · rw [if_neg (by omega)]
    by_cases hx : x = []
    · rw [if_pos hx]; show s.left = D; rw [h2, hx]; rfl
    · rw [if_neg hx]
      exact inFrame_mid hD { s with st := .settingId } x _ hx h1 h2 gid
  · by_cases hx : x = []
    · rw [hx, hc]; trivial
    · exact inFrame_mid hD s x _ hx h1 h2 gid
  · by_cases hx : x = []
    · rw [hx, hc]; trivial
    · exact inFrame_mid hD s x _ hx h1 h2 gval
  · unfold ignFrame
    dsimp only
    rw [if_pos (by omega)]
    show s.left - min s.left x.length = D
    omega

def MidOut (D : Nat) : Machine.Out (St S) (Int × Conn S) → Prop
  | .ok s => s.left = D
  | .fail o => o.1 ≠ 0
  | _ => True

theorem loop_mid {D : Nat} (hD : 0 < D) (f : Nat) (s : St S) (x : Bytes) (b : Bool) (h : Mid D s x) {o : Machine.Out (St S) (Int × Conn S)}
    (e : Machine.loop (stepI env) f s x b = o) : MidOut D o := by
  induction f generalizing s x b with
  | zero => subst e; trivial
  | succ f ih =>
    unfold Machine.loop at e
    split_ifs at e with h0
    · subst e; show s.left = D; rw [h.2.1, h0.1]; rfl
    · have := stepI_mid (env := env) hD s x h
      rcases hr : stepI env s x with _ | o | ⟨o, r⟩ | ⟨s1, r, b'⟩ | s1 <;> rw [hr] at this e <;> dsimp only at e
      · subst e; trivial
      · subst e; exact this
      · subst e; trivial
      · exact ih _ _ _ this e
      · subst e; exact this

/-- the identifier at the beginning of the payload has not arrived completely -/
theorem loop_trunc (f : Nat) (s : St S) (x : Bytes) (hx : Trunc x) (h1 : s.rv = {}) (h2 : x.length < s.left) (h3 : s.st = .goaway ∨ s.st = .maxPush ∨ s.st = .elemId) :
    MidOut (s.left - x.length) (Machine.loop (stepI env) f s x false) := by
  cases f with
  | zero => trivial
  | succ f =>
    unfold Machine.loop
    by_cases h0 : x = []
    · subst h0
      rw [if_pos ⟨rfl, rfl⟩]
      exact (Nat.sub_zero _).symm
    · rw [if_neg (by simp [h0])]
      have hr : ∃ rv, rdl s.rv s.left x = .part rv := by
        have := rd_trunc hx h0 false
        rw [if_neg (by decide)] at this
        unfold rdl
        rw [h1, List.take_of_length_le (by omega), decide_eq_false (by omega)]
        exact this
      obtain ⟨rv, hr⟩ := hr
      have hin : ∀ k, inFrame s x k = .ret { s with rv := rv, left := s.left - x.length } := by
        intro k
        unfold inFrame
        rw [hr]
        dsimp only
        rw [Nat.min_eq_right (by omega)]
      have ne : s.st ≠ .priField := by rcases h3 with h3 | h3 | h3 <;> rw [h3] <;> simp
      have hs : stepI env s x = .ret { s with rv := rv, left := s.left - x.length } := by
        rw [← step_eq_of_ne _ _ ne]
        unfold step
        rcases h3 with h3 | h3 | h3 <;> rw [h3] <;> dsimp only <;> rw [hin, h3]
      rw [hs]
      exact rfl

/-- a complete identifier and at most 8 bytes of a priority field value -/
def PriPart (x : Bytes) : Prop := ∃ id a b, Spec.IsVarint id a ∧ x = a ++ b ∧ b.length ≤ 8

/-- the value at the end of the payload has not arrived completely -/
theorem loop_pri (f : Nat) (s : St S) (x : Bytes) (hx : PriPart x) (h1 : s.rv = {}) (h2 : x.length < s.left) (h3 : s.st = .elemId) (h4 : s.priBuf = []) :
    MidOut (s.left - x.length) (Machine.loop (stepI env) f s x false) := by
  obtain ⟨id, a, b, ha, rfl, hb⟩ := hx
  rw [List.length_append] at h2 ⊢
  have hs : stepI env s (a ++ b) = .cont { s with left := s.left - a.length, elem := id, st := .priField } b true := by
    rw [← step_eq_of_ne _ _ (by rw [h3]; simp)]
    unfold step
    rw [h3]
    dsimp only
    rw [inFrame_varint ha s h1 (by omega)]
    unfold gotElem
    dsimp only
    rw [if_neg (by omega)]
  rcases f with _ | f
  · trivial
  unfold Machine.loop
  rw [if_neg (by simp [append_ne_nil_of_varint ha b]), hs]
  dsimp only
  rcases f with _ | f
  · trivial
  unfold Machine.loop
  rw [if_neg (by simp)]
  unfold stepI priFieldI
  rw [if_pos rfl]
  dsimp only
  rw [h4, if_neg (by simp only [List.length_nil, FIELDBUF]; omega), if_neg (by omega)]
  show s.left - a.length - b.length = _
  omega

def DispRes (len : Nat) (part : Bytes) : Res S → Prop
  | .cont s r b => Mid (len - part.length) s r ∨ (b = false ∧ r = part ∧ s.rv = {} ∧ s.left = len ∧
      (Trunc part ∧ (s.st = .goaway ∨ s.st = .maxPush ∨ s.st = .elemId) ∨ PriPart part ∧ s.st = .elemId ∧ s.priBuf = []))
  | .ret _ => False
  | .fail o => o.1 ≠ 0
  | _ => True

/-- a frame of which `part` has arrived -/
theorem run_mid (c : Conn S) {ty len : Nat} {t l part : Bytes} (ht : Spec.IsVarint ty t) (hl : Spec.IsVarint len l)
    (hs : Trunc part ∨ (ty = 0x0f0700 ∧ PriPart part) ∨ (ty ≠ 7 ∧ (c.server = false ∨ (ty ≠ 0x0d ∧ ty ≠ 0x0f0700)))) (hp : part.length < len) :
    MidOut (len - part.length) (runI env { conn := c } (t ++ (l ++ part))) := by
  rw [run_hd c ht hl]
  have key : ∀ c' : Conn S, c'.server = c.server → DispRes len part (dispatch env { conn := c', st := .frameLen, ty := ty, left := len } part) := by
    intro c' hs'
    unfold dispatch
    dsimp only
    rw [hs']
    split_ifs <;> first
      | exact (by decide : Err.H3_FRAME_UNEXPECTED ≠ 0)
      | exact (by decide : Err.H3_FRAME_ERROR ≠ 0)
      | exact (by decide : Err.H3_ID_ERROR ≠ 0)
      | omega
      | exact .inl ⟨rvOk_idle, by dsimp only; omega, .inl rfl⟩
      | exact .inl ⟨rvOk_idle, by dsimp only; omega, .inr (.inr (.inr rfl))⟩
      | exact .inr ⟨rfl, rfl, rfl, rfl, .inl ⟨hs.resolve_right (fun g => g.elim (fun g => by rw [‹ty = FRAME_GOAWAY›] at g; exact absurd g.1 (by decide)) (fun g => g.1 ‹ty = FRAME_GOAWAY›)), .inl rfl⟩⟩
      | exact .inr ⟨rfl, rfl, rfl, rfl, .inl ⟨hs.resolve_right (fun g => g.elim (fun g => by rw [‹ty = FRAME_MAX_PUSH_ID›] at g; exact absurd g.1 (by decide)) (fun g => (g.2.resolve_left ‹_›).1 ‹ty = FRAME_MAX_PUSH_ID›)), .inr (.inl rfl)⟩⟩
      | exact .inr ⟨rfl, rfl, rfl, rfl, hs.elim (fun g => .inl ⟨g, .inr (.inr rfl)⟩) (fun g => g.elim (fun g => .inr ⟨g.2, rfl, rfl⟩)
          (fun g => absurd ‹ty = FRAME_PRIORITY_UPDATE› (g.2.resolve_left ‹_›).2))⟩
  have hh : DispRes len part (header env { conn := c, st := .frameLen, ty := ty, left := len } part) := by
    unfold header
    dsimp only
    split_ifs
    · exact (by decide : Err.H3_MISSING_SETTINGS ≠ 0)
    · exact key _ rfl
    · exact (by decide : Err.H3_FRAME_UNEXPECTED ≠ 0)
    · exact key _ rfl
  rcases hr : header env { conn := c, st := .frameLen, ty := ty, left := len } part with _ | o | ⟨o, r⟩ | ⟨s1, r, b'⟩ | s1 <;> rw [hr] at hh <;> dsimp only [next]
  · trivial
  · exact hh
  · trivial
  · rcases hh with hh | ⟨rfl, rfl, h2, rfl, ⟨h1, h3⟩ | ⟨h1, h3, h4⟩⟩
    · exact loop_mid (by omega) _ _ _ _ hh rfl
    · exact loop_trunc _ _ _ h1 h2 hp h3
    · exact loop_pri _ _ _ h1 h2 hp h3 h4
  · exact hh.elim

end Control
end Nghttp3
