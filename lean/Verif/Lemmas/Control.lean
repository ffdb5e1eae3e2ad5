import Verif.Model.Control
import Verif.Lemmas.Rd
/-! The control stream reader with an ideal handling of the priority field value, its chunk invariance, and the
comparison with the real reader. -/
namespace Nghttp3
namespace Control

variable {S : Type}

/-- ideal PRIORITY_UPDATE field value state: wait for input; fail at a field value that does not fit -/
def priFieldI (env : Env S) (s : St S) (src : Bytes) : Res S :=
  if FIELDBUF < min s.left src.length + s.priBuf.length then .fail (0, { s.conn with long := true })
  else if s.left ≤ src.length then
    gotField env { s with left := 0, priBuf := s.priBuf ++ src.take s.left } (s.priBuf ++ src.take s.left) (src.drop s.left)
  else .ret { s with left := s.left - src.length, priBuf := s.priBuf ++ src }

def stepI (env : Env S) (s : St S) (src : Bytes) : Res S :=
  if s.st = .priField then priFieldI env s src else step env s src

/-- what may be left in the field value buffer between two PRIORITY_UPDATE frames -/
structure Buf (P : Bytes → Prop) : Prop where
  nil : P []
  le : ∀ b, P b → b.length ≤ FIELDBUF

variable {P : Bytes → Prop}

/-- states of the readers -/
structure Inv (P : Bytes → Prop) (s : St S) : Prop where
  rv : RvOk s.rv
  buf : s.st ≠ .priField → P s.priBuf
  buf8 : s.priBuf.length ≤ FIELDBUF
  left : (s.st = .settings ∨ s.st = .settingId ∨ s.st = .settingVal ∨ s.st = .goaway ∨ s.st = .maxPush ∨ s.st = .elemId ∨
    s.st = .priField) → 0 < s.left
  rv0 : (s.st = .settings ∨ s.st = .priField ∨ s.st = .ignFrame) → s.rv = {}
  role : s.conn.server = false → s.st ≠ .maxPush ∧ s.st ≠ .elemId ∧ s.st ≠ .priField

def vis (s : St S) : Bool := match s.st with | .ignFrame => true | .priField => true | _ => false

theorem inv_idle (hP : Buf P) (c : Conn S) : Inv P ({ conn := c } : St S) :=
  ⟨rvOk_idle, fun _ => hP.nil, by simp, by simp, by simp, by simp⟩

/-- the condition on one step of a chunk invariant machine -/
def GoodRes (P : Bytes → Prop) (step : St S → Bytes → Res S) (s : St S) (x : Bytes) (r : Res S) : Prop :=
  match r with
  | .crash => False
  | .fail o => ∀ y, step s (x ++ y) = .fail o
  | .stop o rest => ∀ y, step s (x ++ y) = .stop o (rest ++ y)
  | .cont s' rest b => Inv P s' ∧ (b = true → vis s' = true) ∧ 8 * rest.length + rank s' < 8 * x.length + rank s ∧
      ∀ y, step s (x ++ y) = .cont s' (rest ++ y) b
  | .ret s' => Inv P s' ∧ (s.st ≠ .priField → s'.st ≠ .priField) ∧ ∀ y, y ≠ [] → step s (x ++ y) = step s' y

/-- what a continuation may do after an integer was read completely -/
def GoodK (P : Bytes → Prop) (n : Nat) (k : Nat → St S → Bytes → Res S) (s : St S) : Prop :=
  ∀ v rest,
    match k v s rest with
    | .crash => False
    | .fail o => ∀ r, k v s r = .fail o
    | .stop _ _ => False
    | .cont s' rest' b => Inv P s' ∧ (b = true → vis s' = true) ∧ rank s' < 8 * n ∧ rest' = rest ∧ ∀ r, k v s r = .cont s' r b
    | .ret _ => False

theorem inFrame_good (s : St S) (x : Bytes) (k : Nat → St S → Bytes → Res S) (hx : x ≠ []) (hl : 0 < s.left) (hrv : RvOk s.rv)
    (hi : ∀ rv, RvOk rv → rv.left ≠ 0 → ∀ l, 0 < l → Inv P ({ s with rv := rv, left := l } : St S))
    (hk : ∀ n, 0 < n → n ≤ s.left → GoodK P n k ({ s with rv := {}, left := s.left - n } : St S)) :
    match inFrame s x k with
    | .crash => False
    | .fail o => ∀ y, inFrame s (x ++ y) k = .fail o
    | .stop _ _ => False
    | .cont s' rest b => Inv P s' ∧ (b = true → vis s' = true) ∧ 8 * rest.length + rank s' < 8 * x.length ∧
        ∀ y, inFrame s (x ++ y) k = .cont s' (rest ++ y) b
    | .ret s' => Inv P s' ∧ s'.st = s.st ∧ 0 < s'.left ∧ s'.conn = s.conn ∧ s'.priBuf = s.priBuf ∧ s'.sid = s.sid ∧ s'.elem = s.elem ∧ s'.ty = s.ty ∧
        ∀ y, y ≠ [] → inFrame s (x ++ y) k = inFrame s' y k := by
  have h := rdl_spec s.rv s.left x hrv hl hx
  rcases he : rdl s.rv s.left x with _ | _ | rv | ⟨v, n⟩ <;> rw [he] at h <;> dsimp only at h
  · rw [show inFrame s x k = .fail (Err.H3_FRAME_ERROR, s.conn) by unfold inFrame; rw [he]]
    intro y
    unfold inFrame; rw [h.2 y]
  · obtain ⟨h1, h2, h3, h4⟩ := h
    have hm : min s.left x.length = x.length := by omega
    rw [show inFrame s x k = .ret { s with rv := rv, left := s.left - x.length } by unfold inFrame; rw [he]; dsimp only; rw [hm]]
    refine ⟨hi rv h2 h3 _ (by omega), rfl, (by dsimp only; omega), rfl, rfl, rfl, rfl, rfl, ?_⟩
    intro y hy
    unfold inFrame
    dsimp only
    rw [h4 y hy]
    rcases hr : rdl rv (s.left - x.length) y with _ | _ | rv' | ⟨v, n⟩ <;> simp only [Rd.shift]
    · congr 2
      rw [List.length_append]
      omega
    · rw [show x.length + n = x.length + n from rfl, List.drop_append, List.drop_of_length_le (by omega), List.nil_append,
        Nat.add_sub_cancel_left, Nat.sub_sub]
  · obtain ⟨h1, h2, h3, h4⟩ := h
    have e : ∀ r, inFrame s (x.take n ++ r) k = k v { s with rv := {}, left := s.left - n } r := by
      intro r
      unfold inFrame
      rw [h4 r]
      dsimp only
      rw [List.drop_append, List.drop_of_length_le (by rw [List.length_take]; omega), List.nil_append, List.length_take,
        Nat.min_eq_left h2, Nat.sub_self, List.drop_zero]
    have e0 := e (x.drop n)
    rw [List.take_append_drop] at e0
    have e1 : ∀ y, inFrame s (x ++ y) k = k v { s with rv := {}, left := s.left - n } (x.drop n ++ y) := by
      intro y
      rw [← take_append_drop_left n x y h2]; exact e _
    have hk' := hk n h1 h3 v (x.drop n)
    rw [e0]
    rcases hr : k v { s with rv := {}, left := s.left - n } (x.drop n) with _ | o | ⟨o, r⟩ | ⟨s', r, b⟩ | s' <;>
      rw [hr] at hk' <;> dsimp only at hk' ⊢
    · intro y; rw [e1]; exact hk' _
    · obtain ⟨a1, a2, a3, rfl, a5⟩ := hk'
      refine ⟨a1, a2, ?_, fun y => by rw [e1]; exact a5 _⟩
      rw [List.length_drop]; omega

theorem reset_inv (s : St S) (c : Conn S) (hP : Buf P) (hb : P s.priBuf) : Inv P (reset s c) :=
  ⟨rvOk_idle, fun _ => hb, hP.le _ hb, by simp [reset], by simp [reset], by simp [reset]⟩

theorem report_good (env : Env S) (s : St S) (c : Conn S) (e : Ev) (rest : Bytes) (hP : Buf P) (hb : P s.priBuf) :
    match report env s c e rest with
    | .crash => False
    | .fail o => ∀ r, report env s c e r = .fail o
    | .stop _ _ => False
    | .cont s' rest' b => Inv P s' ∧ b = false ∧ rank s' = 0 ∧ rest' = rest ∧ ∀ r, report env s c e r = .cont s' r b
    | .ret _ => False := by
  unfold report
  dsimp only
  split_ifs with h
  · exact ⟨reset_inv _ _ hP hb, rfl, rfl, rfl, fun r => rfl⟩
  · intro r; rfl

theorem gotId_good (n : Nat) (s : St S) (hn : 0 < n) (hP : Buf P) (hb : P s.priBuf) (hrv : s.rv = {}) : GoodK P n gotId s := by
  intro v rest
  unfold gotId
  split_ifs with h
  · intro r; rfl
  · exact ⟨⟨by rw [hrv]; exact rvOk_idle, fun _ => hb, hP.le _ hb, fun _ => Nat.pos_of_ne_zero h, by simp, by simp⟩, by simp, by simp [rank]; omega, rfl, fun r => rfl⟩

theorem gotVal_good (env : Env S) (n : Nat) (s : St S) (hn : 0 < n) (hP : Buf P) (hb : P s.priBuf) (hrv : s.rv = {}) :
    GoodK P n (gotVal env) s := by
  intro v rest
  unfold gotVal
  rcases he : onEntry s.conn s.sid v with e | c
  · intro r; rfl
  · dsimp only
    by_cases h : s.left ≠ 0
    · simp only [if_pos h]
      exact ⟨⟨by rw [hrv]; exact rvOk_idle, fun _ => hb, hP.le _ hb, fun _ => Nat.pos_of_ne_zero h, fun _ => hrv, by simp⟩, by simp, by simp [rank]; omega, trivial, fun _ => trivial⟩
    · simp only [if_neg h]
      have := report_good env s c (.settings c.remote) rest hP hb
      rcases hr : report env s c (.settings c.remote) rest with _ | o | ⟨o, r⟩ | ⟨s', r, b⟩ | s' <;> rw [hr] at this <;> dsimp only at this ⊢
      · exact this
      · exact ⟨this.1, by simp [this.2.1], by omega, this.2.2.2⟩

theorem gotGoaway_good (env : Env S) (n : Nat) (s : St S) (hn : 0 < n) (hP : Buf P) (hb : P s.priBuf) : GoodK P n (gotGoaway env) s := by
  intro v rest
  unfold gotGoaway
  by_cases h1 : s.conn.server = false ∧ v % 4 ≠ 0
  · simp only [if_pos h1]; intro r; trivial
  · simp only [if_neg h1]
    by_cases h2 : s.conn.rxGoaway < v
    · simp only [if_pos h2]; intro r; trivial
    · simp only [if_neg h2]
      have := report_good env s { s.conn with goawayRecved := true, rxGoaway := v } (.shutdown v) rest hP hb
      rcases hr : report env s { s.conn with goawayRecved := true, rxGoaway := v } (.shutdown v) rest with _ | o | ⟨o, r⟩ | ⟨s', r, b⟩ | s' <;>
        rw [hr] at this <;> dsimp only at this ⊢
      · exact this
      · exact ⟨this.1, by simp [this.2.1], by omega, this.2.2.2⟩

theorem gotMaxPush_good (n : Nat) (s : St S) (hn : 0 < n) (hP : Buf P) (hb : P s.priBuf) : GoodK P n gotMaxPush s := by
  intro v rest
  unfold gotMaxPush
  by_cases h : v + 1 < s.conn.maxPushes
  · simp only [if_pos h]; intro r; trivial
  · simp only [if_neg h]
    exact ⟨reset_inv _ _ hP hb, by simp, by simp [rank, reset]; omega, trivial, fun _ => trivial⟩

theorem applyPri_good (env : Env S) (s : St S) (p : Http.Pri) (rest buf : Bytes) (hP : Buf P) (hb : P buf) :
    match applyPri env s buf p rest with
    | .crash => False
    | .fail o => ∀ r, applyPri env s buf p r = .fail o
    | .stop _ _ => False
    | .cont s' rest' b => Inv P s' ∧ b = false ∧ rank s' = 0 ∧ rest' = rest ∧ ∀ r, applyPri env s buf p r = .cont s' r b
    | .ret _ => False := by
  unfold applyPri
  rcases env.onPri s.conn.ext s.elem p with e | x
  · intro r; rfl
  · exact ⟨⟨rvOk_idle, fun _ => hb, hP.le _ hb, by simp [reset], by simp [reset], by simp [reset]⟩, rfl, rfl, rfl, fun _ => rfl⟩

theorem gotElem_good (env : Env S) (n : Nat) (s : St S) (hn : 0 < n) (hP : Buf P) (hb : P s.priBuf) (hrv : s.rv = {})
    (hsv : s.conn.server = true) : GoodK P n (gotElem env) s := by
  intro v rest
  unfold gotElem
  dsimp only
  by_cases h : s.left = 0
  · simp only [if_pos h]
    have := applyPri_good env { s with elem := v } { urgency := 3, inc := false } rest s.priBuf hP hb
    rcases hr : applyPri env { s with elem := v } s.priBuf { urgency := 3, inc := false } rest with _ | o | ⟨o, r⟩ | ⟨s', r, b⟩ | s' <;>
      rw [hr] at this <;> dsimp only at this ⊢
    · exact this
    · exact ⟨this.1, by simp [this.2.1], by omega, this.2.2.2⟩
  · simp only [if_neg h]
    exact ⟨⟨by rw [hrv]; exact rvOk_idle, by simp, hP.le _ hb, fun _ => Nat.pos_of_ne_zero h, fun _ => hrv, by simp [hsv]⟩, by simp [vis], by simp [rank]; omega, trivial, fun _ => trivial⟩

theorem gotField_good (env : Env S) (s : St S) (f rest : Bytes) (hP : Buf P) :
    match gotField env s f rest with
    | .crash => False
    | .fail o => ∀ r, gotField env s f r = .fail o
    | .stop _ _ => False
    | .cont s' rest' b => Inv P s' ∧ b = false ∧ rank s' = 0 ∧ rest' = rest ∧ ∀ r, gotField env s f r = .cont s' r b
    | .ret _ => False := by
  unfold gotField
  rcases env.parsePri f with _ | p
  · intro r; rfl
  · exact applyPri_good env s p rest [] hP hP.nil

theorem dispatch_good (env : Env S) (s : St S) (rest : Bytes) (hP : Buf P) (hb : P s.priBuf) (hrv : s.rv = {}) :
    match dispatch env s rest with
    | .crash => False
    | .fail o => ∀ r, dispatch env s r = .fail o
    | .stop _ _ => False
    | .cont s' rest' b => Inv P s' ∧ (b = true → vis s' = true) ∧ rank s' < 8 ∧ rest' = rest ∧ ∀ r, dispatch env s r = .cont s' r b
    | .ret _ => False := by
  have hro : RvOk s.rv := by rw [hrv]; exact rvOk_idle
  unfold dispatch
  dsimp only
  by_cases h1 : s.ty = FRAME_SETTINGS
  · simp only [if_pos h1]
    by_cases h2 : s.left = 0
    · simp only [if_pos h2]
      have := report_good env s s.conn (.settings s.conn.remote) rest hP hb
      rcases hr : report env s s.conn (.settings s.conn.remote) rest with _ | o | ⟨o, r⟩ | ⟨s', r, b⟩ | s' <;>
        rw [hr] at this <;> dsimp only at this ⊢
      · exact this
      · exact ⟨this.1, by simp [this.2.1], by omega, this.2.2.2⟩
    · simp only [if_neg h2]
      exact ⟨⟨hro, fun _ => hb, hP.le _ hb, fun _ => Nat.pos_of_ne_zero h2, fun _ => hrv, by simp⟩, by simp, by simp [rank], trivial, fun _ => trivial⟩
  simp only [if_neg h1]
  by_cases h3 : s.ty = FRAME_GOAWAY
  · simp only [if_pos h3]
    by_cases h2 : s.left = 0
    · simp only [if_pos h2]; intro r; trivial
    · simp only [if_neg h2]
      exact ⟨⟨hro, fun _ => hb, hP.le _ hb, fun _ => Nat.pos_of_ne_zero h2, by simp, by simp⟩, by simp, by simp [rank], trivial, fun _ => trivial⟩
  simp only [if_neg h3]
  by_cases h4 : s.ty = FRAME_MAX_PUSH_ID
  · simp only [if_pos h4]
    by_cases h5 : s.conn.server = false
    · simp only [if_pos h5]; intro r; trivial
    simp only [if_neg h5]
    by_cases h2 : s.left = 0
    · simp only [if_pos h2]; intro r; trivial
    · simp only [if_neg h2]
      exact ⟨⟨hro, fun _ => hb, hP.le _ hb, fun _ => Nat.pos_of_ne_zero h2, by simp, fun h => absurd h h5⟩, by simp, by simp [rank], trivial, fun _ => trivial⟩
  simp only [if_neg h4]
  by_cases h6 : s.ty = FRAME_PRIORITY_UPDATE
  · simp only [if_pos h6]
    by_cases h5 : s.conn.server = false
    · simp only [if_pos h5]; intro r; trivial
    simp only [if_neg h5]
    by_cases h2 : s.left = 0
    · simp only [if_pos h2]; intro r; trivial
    · simp only [if_neg h2]
      exact ⟨⟨hro, fun _ => hb, hP.le _ hb, fun _ => Nat.pos_of_ne_zero h2, by simp, fun h => absurd h h5⟩, by simp, by simp [rank], trivial, fun _ => trivial⟩
  simp only [if_neg h6]
  by_cases h7 : s.ty = FRAME_PRIORITY_UPDATE_PUSH_ID
  · simp only [if_pos h7]; intro r; trivial
  simp only [if_neg h7]
  by_cases h8 : refused s.ty = true
  · simp only [if_pos h8]; intro r; trivial
  simp only [if_neg h8]
  exact ⟨⟨hro, fun _ => hb, hP.le _ hb, by simp, fun _ => hrv, by simp⟩, by simp [vis], by simp [rank], trivial, fun _ => trivial⟩

theorem header_good (env : Env S) (s : St S) (rest : Bytes) (hP : Buf P) (hb : P s.priBuf) (hrv : s.rv = {}) :
    match header env s rest with
    | .crash => False
    | .fail o => ∀ r, header env s r = .fail o
    | .stop _ _ => False
    | .cont s' rest' b => Inv P s' ∧ (b = true → vis s' = true) ∧ rank s' < 8 ∧ rest' = rest ∧ ∀ r, header env s r = .cont s' r b
    | .ret _ => False := by
  unfold header
  by_cases h1 : s.conn.settingsRecved = false
  · simp only [if_pos h1]
    by_cases h2 : s.ty ≠ FRAME_SETTINGS
    · simp only [if_pos h2]; intro r; trivial
    · simp only [if_neg h2]
      exact dispatch_good env _ rest hP hb hrv
  · simp only [if_neg h1]
    by_cases h2 : s.ty = FRAME_SETTINGS
    · simp only [if_pos h2]; intro r; trivial
    · simp only [if_neg h2]
      exact dispatch_good env _ rest hP hb hrv


/-- states other than the priority field value: the step of the ideal reader is chunk invariant -/
theorem step_good (env : Env S) (s : St S) (x : Bytes) (hP : Buf P) (hi : Inv P s) (hs0 : s.st ≠ .priField) (hx : x ≠ [] ∨ vis s = true) :
    GoodRes P (step env) s x (step env s x) := by
  rcases hs : s.st with _ | _ | _ | _ | _ | _ | _ | _ | _ | _
  -- frameType
  · have hx : x ≠ [] := by rcases hx with h | h; exact h; simp [vis, hs] at h
    have hb := hi.buf (by rw [hs]; decide)
    have h := rd_spec s.rv x false hi.rv hx
    have e : ∀ s' : St S, s'.st = .frameType → ∀ y, step env s' y = match rd s'.rv y false with
      | .crash => .crash
      | .err => .fail (Err.H3_GENERAL_PROTOCOL_ERROR, s'.conn)
      | .part rv => .ret { s' with rv := rv }
      | .done v n => .cont { s' with rv := {}, ty := v, st := .frameLen } (y.drop n) false := by
      intro s' h y; unfold step; rw [h]; rfl
    rw [e s hs]
    rcases he : rd s.rv x false with _ | _ | rv | ⟨v, n⟩ <;> rw [he] at h <;> dsimp only at h ⊢
    · exact absurd h (by simp)
    · obtain ⟨-, h2, h3, h4⟩ := h
      refine ⟨⟨h2, fun _ => hb, hP.le _ hb, by simp [hs], by simp [hs], by simp [hs]⟩, by simp [hs], fun y hy => ?_⟩
      rw [e s hs, e _ (by exact hs), h4 y false hy]
      dsimp only
      rcases rd rv y false with _ | _ | rv' | ⟨v, n⟩ <;> simp only [Rd.shift]
      rw [List.drop_append, List.drop_of_length_le (by omega), List.nil_append, Nat.add_sub_cancel_left]
    · obtain ⟨h1, h2, h3⟩ := h
      refine ⟨⟨rvOk_idle, fun _ => hb, hP.le _ hb, by simp, by simp, by simp⟩, by simp, by simp [rank, hs]; omega, fun y => ?_⟩
      rw [e s hs, ← take_append_drop_left n x y h2, h3]
      dsimp only
      rw [List.drop_append, List.drop_of_length_le (by rw [List.length_take]; omega), List.nil_append, List.length_take,
        Nat.min_eq_left h2, Nat.sub_self, List.drop_zero]
  -- frameLen
  · have hx : x ≠ [] := by rcases hx with h | h; exact h; simp [vis, hs] at h
    have hb := hi.buf (by rw [hs]; decide)
    have h := rd_spec s.rv x false hi.rv hx
    have e : ∀ s' : St S, s'.st = .frameLen → ∀ y, step env s' y = match rd s'.rv y false with
      | .crash => .crash
      | .err => .fail (Err.H3_FRAME_ERROR, s'.conn)
      | .part rv => .ret { s' with rv := rv }
      | .done v n => header env { s' with rv := {}, left := v } (y.drop n) := by
      intro s' h y; unfold step; rw [h]; rfl
    rw [e s hs]
    rcases he : rd s.rv x false with _ | _ | rv | ⟨v, n⟩ <;> rw [he] at h <;> dsimp only at h ⊢
    · exact absurd h (by simp)
    · obtain ⟨-, h2, h3, h4⟩ := h
      refine ⟨⟨h2, fun _ => hb, hP.le _ hb, by simp [hs], by simp [hs], by simp [hs]⟩, by simp [hs], fun y hy => ?_⟩
      rw [e s hs, e _ (by exact hs), h4 y false hy]
      dsimp only
      rcases rd rv y false with _ | _ | rv' | ⟨v, n⟩ <;> simp only [Rd.shift]
      rw [List.drop_append, List.drop_of_length_le (by omega), List.nil_append, Nat.add_sub_cancel_left]
    · obtain ⟨h1, h2, h3⟩ := h
      have e1 : ∀ y, step env s (x ++ y) = header env { s with rv := {}, left := v } (x.drop n ++ y) := by
        intro y
        rw [e s hs, ← take_append_drop_left n x y h2, h3]
        dsimp only
        rw [List.drop_append, List.drop_of_length_le (by rw [List.length_take]; omega), List.nil_append, List.length_take,
          Nat.min_eq_left h2, Nat.sub_self, List.drop_zero]
      have := header_good env { s with rv := {}, left := v } (x.drop n) hP hb rfl
      rcases hr : header env { s with rv := {}, left := v } (x.drop n) with _ | o | ⟨o, r⟩ | ⟨s', r, b⟩ | s' <;>
        rw [hr] at this <;> dsimp only at this
      · intro y; rw [e1]; exact this _
      · obtain ⟨a1, a2, a3, rfl, a5⟩ := this
        refine ⟨a1, a2, ?_, fun y => by rw [e1]; exact a5 _⟩
        rw [List.length_drop]; have e0 : rank s = 0 := by simp [rank, hs]
        omega
  -- settings
  · have hx : x ≠ [] := by rcases hx with h | h; exact h; simp [vis, hs] at h
    have hb := hi.buf (by rw [hs]; decide)
    have hl := hi.left (by simp [hs])
    have e : ∀ y, y ≠ [] → step env s y = inFrame { s with st := .settingId } y gotId := by
      intro y hy; unfold step; rw [hs]; dsimp only
      rw [if_neg (by omega), if_neg hy]
    have e' : ∀ s' : St S, s'.st = .settingId → ∀ y, step env s' y = inFrame s' y gotId := by
      intro s' h y; unfold step; rw [h]
    have := inFrame_good { s with st := .settingId } x gotId hx hl hi.rv
      (fun rv h1 h2 l h3 => ⟨h1, fun _ => hb, hP.le _ hb, fun _ => h3, by simp, by simp⟩)
      (fun n h1 h2 => gotId_good n _ h1 hP hb rfl)
    have hxy : ∀ y, x ++ y ≠ [] := fun y => by simp [hx]
    rw [e x hx]
    rcases hr : inFrame { s with st := .settingId } x gotId with _ | o | ⟨o, r⟩ | ⟨s', r, b⟩ | s' <;>
      rw [hr] at this <;> dsimp only at this
    · intro y; rw [e _ (hxy y)]; exact this y
    · exact ⟨this.1, this.2.1, by have := this.2.2.1; omega, fun y => by rw [e _ (hxy y)]; exact this.2.2.2 y⟩
    · exact ⟨this.1, by simp [this.2.1], fun y hy => by rw [e _ (hxy y), e' s' this.2.1]; exact this.2.2.2.2.2.2.2.2 y hy⟩
  -- settingId
  · have hx : x ≠ [] := by rcases hx with h | h; exact h; simp [vis, hs] at h
    have hb := hi.buf (by rw [hs]; decide)
    have hl := hi.left (by simp [hs])
    have e : ∀ s' : St S, s'.st = .settingId → ∀ y, step env s' y = inFrame s' y gotId := by
      intro s' h y; unfold step; rw [h]
    have := inFrame_good s x gotId hx hl hi.rv
      (fun rv h1 h2 l h3 => ⟨h1, fun _ => hb, hP.le _ hb, fun _ => h3, by simp [hs], by simp [hs]⟩)
      (fun n h1 h2 => gotId_good n _ h1 hP hb rfl)
    rw [e s hs x]
    rcases hr : inFrame s x gotId with _ | o | ⟨o, r⟩ | ⟨s', r, b⟩ | s' <;> rw [hr] at this <;> dsimp only at this
    · intro y; rw [e s hs]; exact this y
    · exact ⟨this.1, this.2.1, by have := this.2.2.1; omega, fun y => by rw [e s hs]; exact this.2.2.2 y⟩
    · exact ⟨this.1, by simp [this.2.1, hs], fun y hy => by rw [e s hs, e s' (this.2.1.trans hs)]; exact this.2.2.2.2.2.2.2.2 y hy⟩
  -- settingVal
  · have hx : x ≠ [] := by rcases hx with h | h; exact h; simp [vis, hs] at h
    have hb := hi.buf (by rw [hs]; decide)
    have hl := hi.left (by simp [hs])
    have e : ∀ s' : St S, s'.st = .settingVal → ∀ y, step env s' y = inFrame s' y (gotVal env) := by
      intro s' h y; unfold step; rw [h]
    have := inFrame_good s x (gotVal env) hx hl hi.rv
      (fun rv h1 h2 l h3 => ⟨h1, fun _ => hb, hP.le _ hb, fun _ => h3, by simp [hs], by simp [hs]⟩)
      (fun n h1 h2 => gotVal_good env n _ h1 hP hb rfl)
    rw [e s hs x]
    rcases hr : inFrame s x (gotVal env) with _ | o | ⟨o, r⟩ | ⟨s', r, b⟩ | s' <;> rw [hr] at this <;> dsimp only at this
    · intro y; rw [e s hs]; exact this y
    · exact ⟨this.1, this.2.1, by have := this.2.2.1; omega, fun y => by rw [e s hs]; exact this.2.2.2 y⟩
    · exact ⟨this.1, by simp [this.2.1, hs], fun y hy => by rw [e s hs, e s' (this.2.1.trans hs)]; exact this.2.2.2.2.2.2.2.2 y hy⟩
  -- goaway
  · have hx : x ≠ [] := by rcases hx with h | h; exact h; simp [vis, hs] at h
    have hb := hi.buf (by rw [hs]; decide)
    have hl := hi.left (by simp [hs])
    have e : ∀ s' : St S, s'.st = .goaway → ∀ y, step env s' y = inFrame s' y (gotGoaway env) := by
      intro s' h y; unfold step; rw [h]
    have := inFrame_good s x (gotGoaway env) hx hl hi.rv
      (fun rv h1 h2 l h3 => ⟨h1, fun _ => hb, hP.le _ hb, fun _ => h3, by simp [hs], by simp [hs]⟩)
      (fun n h1 h2 => gotGoaway_good env n _ h1 hP hb)
    rw [e s hs x]
    rcases hr : inFrame s x (gotGoaway env) with _ | o | ⟨o, r⟩ | ⟨s', r, b⟩ | s' <;> rw [hr] at this <;> dsimp only at this
    · intro y; rw [e s hs]; exact this y
    · exact ⟨this.1, this.2.1, by have := this.2.2.1; omega, fun y => by rw [e s hs]; exact this.2.2.2 y⟩
    · exact ⟨this.1, by simp [this.2.1, hs], fun y hy => by rw [e s hs, e s' (this.2.1.trans hs)]; exact this.2.2.2.2.2.2.2.2 y hy⟩
  -- maxPush
  · have hx : x ≠ [] := by rcases hx with h | h; exact h; simp [vis, hs] at h
    have hb := hi.buf (by rw [hs]; decide)
    have hl := hi.left (by simp [hs])
    have hsv : s.conn.server = true := by
      cases h : s.conn.server
      · exact absurd hs (hi.role h).1
      · rfl
    have e : ∀ s' : St S, s'.st = .maxPush → ∀ y, step env s' y = inFrame s' y gotMaxPush := by
      intro s' h y; unfold step; rw [h]
    have := inFrame_good s x gotMaxPush hx hl hi.rv
      (fun rv h1 h2 l h3 => ⟨h1, fun _ => hb, hP.le _ hb, fun _ => h3, by simp [hs], by simp [hsv]⟩)
      (fun n h1 h2 => gotMaxPush_good n _ h1 hP hb)
    rw [e s hs x]
    rcases hr : inFrame s x gotMaxPush with _ | o | ⟨o, r⟩ | ⟨s', r, b⟩ | s' <;> rw [hr] at this <;> dsimp only at this
    · intro y; rw [e s hs]; exact this y
    · exact ⟨this.1, this.2.1, by have := this.2.2.1; omega, fun y => by rw [e s hs]; exact this.2.2.2 y⟩
    · exact ⟨this.1, by simp [this.2.1, hs], fun y hy => by rw [e s hs, e s' (this.2.1.trans hs)]; exact this.2.2.2.2.2.2.2.2 y hy⟩
  -- elemId
  · have hx : x ≠ [] := by rcases hx with h | h; exact h; simp [vis, hs] at h
    have hb := hi.buf (by rw [hs]; decide)
    have hl := hi.left (by simp [hs])
    have hsv : s.conn.server = true := by
      cases h : s.conn.server
      · exact absurd hs (hi.role h).2.1
      · rfl
    have e : ∀ s' : St S, s'.st = .elemId → ∀ y, step env s' y = inFrame s' y (gotElem env) := by
      intro s' h y; unfold step; rw [h]
    have := inFrame_good s x (gotElem env) hx hl hi.rv
      (fun rv h1 h2 l h3 => ⟨h1, fun _ => hb, hP.le _ hb, fun _ => h3, by simp [hs], by simp [hsv]⟩)
      (fun n h1 h2 => gotElem_good env n _ h1 hP hb rfl hsv)
    rw [e s hs x]
    rcases hr : inFrame s x (gotElem env) with _ | o | ⟨o, r⟩ | ⟨s', r, b⟩ | s' <;> rw [hr] at this <;> dsimp only at this
    · intro y; rw [e s hs]; exact this y
    · exact ⟨this.1, this.2.1, by have := this.2.2.1; omega, fun y => by rw [e s hs]; exact this.2.2.2 y⟩
    · exact ⟨this.1, by simp [this.2.1, hs], fun y hy => by rw [e s hs, e s' (this.2.1.trans hs)]; exact this.2.2.2.2.2.2.2.2 y hy⟩
  -- priField
  · exact absurd hs hs0
  -- ignFrame
  · have hb := hi.buf (by rw [hs]; decide)
    have hrv := hi.rv0 (by simp [hs])
    have e : ∀ s' : St S, s'.st = .ignFrame → ∀ y, step env s' y = ignFrame s' y := by
      intro s' h y; unfold step; rw [h]
    rw [e s hs]
    unfold ignFrame
    dsimp only
    by_cases h1 : s.left ≤ x.length
    · rw [Nat.min_eq_left h1, if_neg (by omega)]
      refine ⟨reset_inv _ _ hP hb, by simp, ?_, fun y => ?_⟩
      · rw [List.length_drop]; simp [rank, hs, reset]; omega
      · rw [e s hs]; unfold ignFrame; dsimp only
        rw [Nat.min_eq_left (by rw [List.length_append]; omega), if_neg (by omega), List.drop_append_of_le_length h1]
    · rw [Nat.min_eq_right (by omega), if_pos (by omega)]
      refine ⟨⟨by rw [hrv]; exact rvOk_idle, fun _ => hb, hP.le _ hb, by simp [hs], fun _ => hrv, by simp [hs]⟩, by simp [hs], fun y hy => ?_⟩
      rw [e s hs, e _ (by exact hs)]
      unfold ignFrame
      dsimp only
      rw [List.length_append]
      by_cases h2 : s.left ≤ x.length + y.length
      · rw [Nat.min_eq_left h2, if_neg (by omega), Nat.min_eq_left (by omega), if_neg (by omega), List.drop_append,
          List.drop_of_length_le (by omega), List.nil_append]
        rfl
      · rw [Nat.min_eq_right (by omega), if_pos (by omega), Nat.min_eq_right (by omega), if_pos (by omega), Nat.sub_sub]


theorem stepI_pri (env : Env S) (s : St S) (x : Bytes) (hP : Buf P) (hi : Inv P s) (hs : s.st = .priField) :
    GoodRes P (stepI env) s x (stepI env s x) := by
  have hl := hi.left (by simp [hs])
  have hrv := hi.rv0 (by simp [hs])
  have hsv : s.conn.server = true := by
    cases h : s.conn.server
    · exact absurd hs (hi.role h).2.2
    · rfl
  have e : ∀ s' : St S, s'.st = .priField → ∀ y, stepI env s' y = priFieldI env s' y := by
    intro s' h y; unfold stepI; rw [if_pos h]
  rw [e s hs]
  unfold priFieldI
  by_cases h1 : FIELDBUF < min s.left x.length + s.priBuf.length
  · rw [if_pos h1]
    intro y; rw [e s hs]; unfold priFieldI; rw [if_pos (by rw [List.length_append]; omega)]
  rw [if_neg h1]
  by_cases h2 : s.left ≤ x.length
  · rw [if_pos h2]
    have e1 : ∀ y, stepI env s (x ++ y) = gotField env { s with left := 0, priBuf := s.priBuf ++ x.take s.left } (s.priBuf ++ x.take s.left) (x.drop s.left ++ y) := by
      intro y
      rw [e s hs]; unfold priFieldI
      rw [if_neg (by rw [List.length_append]; omega), if_pos (by rw [List.length_append]; omega), List.take_append_of_le_length h2,
        List.drop_append_of_le_length h2]
    have := gotField_good env { s with left := 0, priBuf := s.priBuf ++ x.take s.left } (s.priBuf ++ x.take s.left) (x.drop s.left) hP
    rcases hr : gotField env { s with left := 0, priBuf := s.priBuf ++ x.take s.left } (s.priBuf ++ x.take s.left) (x.drop s.left) with _ | o | ⟨o, r⟩ | ⟨s', r, b⟩ | s' <;>
      rw [hr] at this <;> dsimp only at this
    · intro y; rw [e1]; exact this _
    · obtain ⟨a1, a2, a3, rfl, a5⟩ := this
      refine ⟨a1, by simp [a2], ?_, fun y => by rw [e1]; exact a5 _⟩
      rw [List.length_drop]; simp [rank, hs] at a3 ⊢; omega
  · rw [if_neg h2]
    refine ⟨⟨by rw [hrv]; exact rvOk_idle, by simp [hs], ?_, fun _ => by dsimp only; omega, fun _ => hrv, by simp [hsv]⟩,
      fun h => absurd hs h, fun y hy => ?_⟩
    · dsimp only; rw [List.length_append]; omega
    rw [e s hs, e _ (by exact hs)]
    unfold priFieldI
    dsimp only
    rw [List.length_append, List.length_append]
    by_cases h4 : FIELDBUF < min s.left (x.length + y.length) + s.priBuf.length
    · rw [if_pos h4, if_pos (by omega)]
    rw [if_neg h4, if_neg (show ¬ FIELDBUF < min (s.left - x.length) y.length + (s.priBuf.length + x.length) by omega)]
    by_cases h3 : s.left ≤ x.length + y.length
    · rw [if_pos h3, if_pos (show s.left - x.length ≤ y.length by omega), List.take_append, List.take_of_length_le (by omega),
        List.drop_append, List.drop_of_length_le (by omega), List.nil_append, List.append_assoc]
    · rw [if_neg h3, if_neg (show ¬ s.left - x.length ≤ y.length by omega),
        Nat.sub_sub, List.append_assoc]

theorem stepI_good (env : Env S) (s : St S) (x : Bytes) (hP : Buf P) (hi : Inv P s) (hx : x ≠ [] ∨ vis s = true) :
    GoodRes P (stepI env) s x (stepI env s x) := by
  by_cases hs : s.st = .priField
  · exact stepI_pri env s x hP hi hs
  have hstI : ∀ s' : St S, s'.st ≠ .priField → ∀ y, stepI env s' y = step env s' y := by
    intro s' h y; unfold stepI; rw [if_neg h]
  have := step_good env s x hP hi hs hx
  rw [hstI s hs]
  rcases hr : step env s x with _ | o | ⟨o, r⟩ | ⟨s', r, b⟩ | s' <;> rw [hr] at this <;> unfold GoodRes at this ⊢ <;>
    simp only [hstI s hs] <;> dsimp only at this ⊢
  · exact this
  · exact this
  · exact this
  · exact ⟨this.1, this.2.1, fun y hy => by rw [hstI s' (this.2.1 hs)]; exact this.2.2 y hy⟩

theorem goodI (env : Env S) (hP : Buf P) : Machine.Good (stepI env) (Inv (S := S) P) vis rank := by
  constructor
  intro s x hi hx
  have := stepI_good env s x hP hi hx
  unfold GoodRes at this
  generalize stepI env s x = z at this ⊢
  cases z
  · exact this
  · exact this
  · exact this
  · exact this
  · exact ⟨this.1, this.2.2⟩

end Control
end Nghttp3
