import Verif.Lemmas.BidiExec
/-! What reading a request stream does to the parts of the stream that other parts of the connection use: the flags, the priority. -/
namespace Nghttp3
namespace Bidi
open Http Qpack

variable {c : Cfg}

/-- urgencies that the parser yields are below 8 if those it starts from are -/
def PpOk (pp : Pri → Bytes → Option Pri) : Prop := ∀ p b q, p.urgency < 8 → pp p b = some q → q.urgency < 8

/-- the priorities among the callbacks are in range, and come only on a server -/
def EvOk (c : Cfg) (ev : List Ev) : Prop := ∀ p, Ev.priority p ∈ ev → p.urgency < 8 ∧ c.server = true

theorem EvOk.nil : EvOk c [] := fun _ h => by cases h
theorem EvOk.app {a b : List Ev} (h1 : EvOk c a) (h2 : EvOk c b) : EvOk c (a ++ b) := fun p h => (List.mem_append.1 h).elim (h1 p) (h2 p)
theorem EvOk.one {e : Ev} (h : ∀ p, e ≠ .priority p) : EvOk c [e] := fun p g => absurd (List.mem_singleton.1 g).symm (h p)

def HU (s : State) : Prop := s.pri.urgency < 8

def ResU : Http.Res → Prop
  | .ok s => HU s
  | .remove s => HU s
  | .malformed => True

theorem recordMethod_pri (s : State) (v : List UInt8) : (recordMethod s v).pri = s.pri := by
  unfold recordMethod; split_ifs <;> rfl

theorem requestOnHeader_pri {pp : Pri → Bytes → Option Pri} (hpp : PpOk pp) (s : State) (f : Field) (tok : Option Nat) (tr cp : Bool) (h : HU s) :
    ResU (requestOnHeader pp s f tok tr cp) := by
  have ite : ∀ (p : Prop) [Decidable p] (a b : Http.Res), ResU a → ResU b → ResU (if p then a else b) := by
    intro p _ a b ha hb; split <;> assumption
  unfold requestOnHeader
  repeat' apply ite
  all_goals first
    | exact trivial
    | exact h
    | (show (recordMethod _ _).pri.urgency < 8; rw [recordMethod_pri]; exact h)
    | (rcases hp : pp s.pri f.value with _ | p
       · exact h
       · exact hpp _ _ _ h hp)

theorem responseOnHeader_pri (s : State) (f : Field) (tok : Option Nat) (tr : Bool) (h : HU s) : ResU (responseOnHeader s f tok tr) := by
  unfold responseOnHeader
  repeat' split
  all_goals first | exact trivial | exact h

theorem fieldRes_pri (hpp : PpOk c.pp) (hs : Hs) (http : State) (nv : QNv) (h : HU http) : ResU (fieldRes c hs http nv) := by
  unfold fieldRes onHeader
  dsimp only
  split_ifs
  all_goals first | exact trivial | exact h | exact requestOnHeader_pri hpp _ _ _ _ _ h | exact responseOnHeader_pri _ _ _ _ h

theorem onDataChunk_pri {s s' : State} {n : Nat} (e : onDataChunk s n = some s') : s'.pri = s.pri := by
  unfold onDataChunk at e
  dsimp only at e
  split_ifs at e
  cases e; rfl

theorem endSection_pri {hs : Hs} {s s' : State} (e : endSection hs s = some s') : s'.pri = s.pri := by
  unfold endSection onRequestHeaders onResponseHeaders at e
  dsimp only at e
  repeat' split at e
  all_goals first | (cases e; done) | (cases e; rfl)

def DResU (http : DRes) : Prop :=
  match http with
  | .more _ _ h => HU h
  | .done _ _ h => HU h
  | .blocked _ _ h _ => HU h
  | _ => True

theorem fieldEv_ne (hs : Hs) (nv : QNv) (p : Pri) : fieldEv hs nv ≠ .priority p := by
  unfold fieldEv; split_ifs <;> simp

theorem decLoop_pri (hpp : PpOk c.pp) (hs : Hs) (fin : Bool) (f : Nat) (d : Dec) (s : SCtx) (http : State) (src : Bytes) (acc : List Ev) (h : HU http)
    (ha : EvOk c acc) : EvOk c (decLoop c hs f d s http src fin acc).1 ∧ DResU (decLoop c hs f d s http src fin acc).2 := by
  induction f generalizing d s http src acc with
  | zero => exact ⟨ha, trivial⟩
  | succ f ih =>
    unfold decLoop
    cases d.readRequest s src fin with
    | crash => exact ⟨ha, trivial⟩
    | fail _ e => exact ⟨ha, trivial⟩
    | more d' s' => exact ⟨ha, h⟩
    | final d' s' => exact ⟨ha, h⟩
    | blocked d' s' rest => exact ⟨ha, h⟩
    | emit d' s' nv rest =>
      dsimp only
      split_ifs
      · exact ⟨ha, h⟩
      · have hf := fieldRes_pri hpp hs http nv h
        cases hr : fieldRes c hs http nv with
        | malformed => exact ⟨ha, trivial⟩
        | remove h' => rw [hr] at hf; exact ih _ _ _ _ _ hf ha
        | ok h' => rw [hr] at hf; exact ih _ _ _ _ _ hf (ha.app (.one (fieldEv_ne hs nv)))

theorem onHeaders_pri (hpp : PpOk c.pp) (hs : Hs) (d : Dec) (s : SCtx) (http : State) (src : Bytes) (fin : Bool) (h : HU http) :
    EvOk c (onHeaders c hs d s http src fin).1 ∧ DResU (onHeaders c hs d s http src fin).2 := by
  unfold onHeaders
  split_ifs
  · exact ⟨.nil, h⟩
  · exact decLoop_pri hpp hs fin _ d s http src [] h .nil

/-- what stays -/
structure Kp (c : Cfg) (s s' : Str) (ev : List Ev) : Prop where
  pf : s'.priFixed = s.priFixed
  u : HU s'.http
  ev : EvOk c ev

/-- after one pass -/
def BKp (c : Cfg) (room : Bool) (s : Str) : BRes → Prop
  | .crash => True
  | .fail _ => True
  | .cont s' _ _ _ ev _ => Kp c s s' ev ∧ s'.blocked = s.blocked
  | .ret s' _ ev _ => Kp c s s' ev ∧ s'.blocked = s.blocked
  | .blocked s' _ _ ev _ => Kp c s s' ev ∧ s'.blocked = true ∧ room = true

theorem endFrame_kp {room : Bool} {s0 s : Str} (hp : s.priFixed = s0.priFixed) (hb : s.blocked = s0.blocked) (hu : HU s.http) (d : Dec) (e : Hev) (rest : Bytes)
    {ev : List Ev} (hev : EvOk c ev) (n : Nat) : BKp c room s0 (endFrame s d e rest ev n) := by
  unfold endFrame
  split
  · exact ⟨⟨hp, hu, hev⟩, hb⟩
  · trivial

theorem transitOr_kp {room : Bool} {s0 s : Str} (e : Hev) (k : Str → BRes) (h : ∀ h', BKp c room s0 (k { s with h := h' })) : BKp c room s0 (transitOr s e k) := by
  unfold transitOr
  split
  · trivial
  · trivial
  · trivial
  · exact h _

theorem frameHead_kp {room : Bool} {s0 s : Str} (hp : s.priFixed = s0.priFixed) (hb : s.blocked = s0.blocked) (hu : HU s.http) (d : Dec) (rest : Bytes) (n : Nat) :
    BKp c room s0 (frameHead s d rest n) := by
  unfold frameHead
  split_ifs
  · refine transitOr_kp _ _ fun h' => ?_
    split_ifs
    · exact endFrame_kp (by exact hp) (by exact hb) (by exact hu) d _ rest .nil n
    · exact ⟨⟨hp, hu, .nil⟩, hb⟩
  · refine transitOr_kp _ _ fun h' => ?_
    split_ifs
    · exact endFrame_kp (by exact hp) (by exact hb) (by exact hu) d _ rest .nil n
    · trivial
    · split
      · exact ⟨⟨hp, hu, .one (by simp)⟩, hb⟩
      · exact ⟨⟨hp, hu, .one (by simp)⟩, hb⟩
      · exact ⟨⟨hp, hu, .one (by simp)⟩, hb⟩
      · exact ⟨⟨hp, hu, .one (by simp)⟩, hb⟩
      · trivial
  · trivial
  · exact ⟨⟨hp, hu, .nil⟩, hb⟩

theorem sectionEnd_kp {room : Bool} (last : Bool) {s0 s : Str} (hp : s.priFixed = s0.priFixed) (hb : s.blocked = s0.blocked) (hu : HU s.http) (d : Dec) (rest : Bytes)
    {ev : List Ev} (hev : EvOk c ev) (n : Nat) : BKp c room s0 (sectionEnd c last s d rest ev n) := by
  unfold sectionEnd
  split
  · exact ⟨⟨hp, hu, hev.app fun p h => by simp at h⟩, hb⟩
  · rename_i http he
    have hu' : HU http := by unfold HU; rw [endSection_pri he]; exact hu
    dsimp only
    split
    · refine endFrame_kp (s0 := s0) (s := { s with http := http }) hp hb hu' d _ rest ((hev.app ?_).app (.one (by simp))) n
      split_ifs with g
      · intro p h
        obtain ⟨rfl⟩ := List.mem_singleton.1 h
        simp only [Bool.and_eq_true] at g
        exact ⟨hu', g.1.1⟩
      · exact .nil
    · exact endFrame_kp (s := { s with http := http }) hp hb hu' d _ rest (hev.app (.one (by simp))) n
    · exact endFrame_kp (s := { s with http := http }) hp hb hu' d _ rest (hev.app (.one (by simp))) n
    · exact endFrame_kp (s := { s with http := http }) hp hb hu' d _ rest (hev.app (.one (by simp))) n
    · trivial

theorem step_kp (hpp : PpOk c.pp) (room fin : Bool) (s : Str) (d : Dec) (x : Bytes) (hu : HU s.http) : BKp c room s (step c room fin s d x) := by
  unfold step
  split
  · split
    · trivial
    · trivial
    · exact ⟨⟨rfl, hu, .nil⟩, rfl⟩
    · exact ⟨⟨rfl, hu, .nil⟩, rfl⟩
  · split
    · trivial
    · trivial
    · exact ⟨⟨rfl, hu, .nil⟩, rfl⟩
    · exact frameHead_kp (by rfl) (by rfl) (by exact hu) d _ _
  · unfold dataStep
    dsimp only
    split
    · trivial
    · rename_i http he
      have hu' : HU http := by unfold HU; rw [onDataChunk_pri he]; exact hu
      split_ifs
      · exact ⟨⟨rfl, hu', .one (by simp)⟩, rfl⟩
      · exact endFrame_kp (by rfl) (by rfl) (by exact hu') d _ _ (.one (by intro p; simp)) _
  · unfold headersStep
    dsimp only
    have h := onHeaders_pri hpp s.h d s.sc s.http (x.take s.left) (decide ((x.take s.left).length = s.left)) hu
    generalize onHeaders c s.h d s.sc s.http (x.take s.left) (decide ((x.take s.left).length = s.left)) = r at h ⊢
    obtain ⟨ev, r⟩ := r
    cases r with
    | crash => trivial
    | fail e => trivial
    | malformed d' => exact ⟨⟨rfl, hu, h.1.app fun p g => by simp at g⟩, rfl⟩
    | blocked d' sc http rest =>
      dsimp only
      split_ifs with g
      · exact ⟨⟨rfl, h.2, h.1⟩, rfl, g⟩
      · trivial
    | more d' sc http =>
      dsimp only
      split_ifs with g
      · exact ⟨⟨rfl, h.2, h.1⟩, rfl⟩
      · exact sectionEnd_kp _ (by rfl) (by rfl) (by exact h.2) _ _ (by exact h.1) _
    | done d' sc http =>
      dsimp only
      split_ifs with g
      · exact ⟨⟨rfl, h.2, h.1⟩, rfl⟩
      · exact sectionEnd_kp _ (by rfl) (by rfl) (by exact h.2) _ _ (by exact h.1) _
  · dsimp only
    split_ifs
    · exact ⟨⟨rfl, hu, .nil⟩, rfl⟩
    · exact ⟨⟨rfl, hu, .nil⟩, rfl⟩
  · exact ⟨⟨rfl, hu, .nil⟩, rfl⟩

/-- after a call -/
def OKp (c : Cfg) (room : Bool) (s : Str) (ev0 : List Ev) : Out → Prop
  | .ok s' _ ev _ _ => s'.priFixed = s.priFixed ∧ HU s'.http ∧ (EvOk c ev0 → EvOk c ev) ∧ (s'.blocked = true → s.blocked = true ∨ room = true)
  | _ => True

theorem almostDone_kp {room : Bool} (fin : Bool) {s0 s : Str} (hp : s.priFixed = s0.priFixed) (hb : s.blocked = true → s0.blocked = true ∨ room = true) (hu : HU s.http) (d : Dec)
    {ev0 ev : List Ev} (hev : EvOk c ev0 → EvOk c ev) (n : Nat) : OKp c room s0 ev0 (almostDone fin s d ev n) := by
  unfold almostDone
  cases fin
  · exact ⟨hp, hu, hev, hb⟩
  simp only [if_true]
  split
  · by_cases h0 : s.rv.left ≠ 0
    · rw [if_pos h0]; trivial
    · rw [if_neg h0]
      split
      · trivial
      · trivial
      · trivial
      · exact ⟨hp, hu, fun h => (hev h).app (.one (by simp)), hb⟩
  · exact ⟨hp, hu, hev, hb⟩
  · trivial

theorem loop_kp (hpp : PpOk c.pp) (room fin : Bool) (f : Nat) (s : Str) (d : Dec) (x : Bytes) (b : Bool) (ev : List Ev) (n : Nat) (hu : HU s.http) :
    OKp c room s ev (loop c room fin f s d x b ev n) := by
  induction f generalizing s d x b ev n with
  | zero => trivial
  | succ f ih =>
    unfold loop
    split_ifs
    · exact almostDone_kp fin rfl Or.inl hu d id n
    · have hk := step_kp hpp room fin s d x hu
      generalize step c room fin s d x = r at hk ⊢
      cases r with
      | crash => trivial
      | fail e => trivial
      | cont s' d' rest b' ev' n' =>
        have := ih s' d' rest b' (ev ++ ev') (n + n') hk.1.u
        dsimp only
        generalize loop c room fin f s' d' rest b' (ev ++ ev') (n + n') = o at this ⊢
        cases o with
        | crash => trivial
        | fail e => trivial
        | ok s2 d2 ev2 n2 r2 =>
          exact ⟨this.1.trans hk.1.pf, this.2.1, fun h => this.2.2.1 (h.app hk.1.ev), fun h => (this.2.2.2 h).imp_left fun g => hk.2 ▸ g⟩
      | ret s' d' ev' n' => exact almostDone_kp fin hk.1.pf (fun h => Or.inl (hk.2 ▸ h)) hk.1.u d' (fun h => h.app hk.1.ev) _
      | blocked s' d' rest ev' n' =>
        dsimp only
        unfold justBlocked
        split_ifs
        · exact ⟨hk.1.pf, hk.1.u, fun h => h.app hk.1.ev, fun _ => Or.inr hk.2.2⟩
        · exact ⟨hk.1.pf, hk.1.u, fun h => h.app hk.1.ev, fun _ => Or.inr hk.2.2⟩

theorem readBidi_kp (hpp : PpOk c.pp) (room fin : Bool) (s : Str) (d : Dec) (x : Bytes) (hu : HU s.http) : OKp c room s [] (readBidi c room fin s d x) := by
  unfold readBidi
  split_ifs
  · exact ⟨rfl, hu, id, Or.inl⟩
  · exact ⟨rfl, hu, id, Or.inl⟩
  · exact ⟨rfl, hu, id, Or.inl⟩
  · exact loop_kp hpp room fin _ s d x false [] 0 hu

theorem readStream_kp (hpp : PpOk c.pp) (room fin : Bool) (s : Str) (d : Dec) (x : Bytes) (hu : HU s.http) : OKp c room s [] (readStream c room fin s d x) := by
  unfold readStream
  split_ifs
  · exact ⟨rfl, hu, id, Or.inl⟩
  · have := readBidi_kp hpp room fin { s with eof := true } d x hu
    generalize readBidi c room fin { s with eof := true } d x = o at this ⊢
    cases o <;> exact this
  · exact readBidi_kp hpp room fin s d x hu

theorem deferred_evOk (n : Nat) : EvOk c (deferred n) := by
  unfold deferred; split_ifs
  · exact .nil
  · exact .one (by simp)

theorem procLoop_kp (hpp : PpOk c.pp) (room : Bool) (f : Nat) (s : Str) (d : Dec) (ev : List Ev) (hu : HU s.http) : OKp c room s ev (procLoop c room f s d ev) := by
  induction f generalizing s d ev with
  | zero => trivial
  | succ f ih =>
    unfold procLoop
    split
    · exact ⟨rfl, hu, id, Or.inl⟩
    · rename_i b t hin
      have hk := readBidi_kp hpp room (decide (t = []) && s.eof) s d b.data hu
      generalize readBidi c room (decide (t = []) && s.eof) s d b.data = r at hk ⊢
      cases r with
      | crash => trivial
      | fail e => trivial
      | ok s' d' ev' n rest =>
        obtain ⟨k1, k2, k3, k4⟩ := hk
        have k3' := k3 .nil
        dsimp only
        split_ifs with g
        all_goals first
          | exact ⟨k1, k2, fun h => (h.app k3').app (deferred_evOk n), k4⟩
          | skip
        · have := ih { s' with inq := t } d' (ev ++ ev' ++ deferred n) k2
          generalize procLoop c room f { s' with inq := t } d' (ev ++ ev' ++ deferred n) = o at this ⊢
          cases o with
          | crash => trivial
          | fail e => trivial
          | ok s2 d2 ev2 n2 r2 => exact ⟨this.1.trans k1, this.2.1, fun h => this.2.2.1 ((h.app k3').app (deferred_evOk n)), fun h => (this.2.2.2 h).elim k4 Or.inr⟩
        · have := ih { s' with inq := { b with data := rest } :: t } d' (ev ++ ev' ++ deferred n) k2
          generalize procLoop c room f { s' with inq := { b with data := rest } :: t } d' (ev ++ ev' ++ deferred n) = o at this ⊢
          cases o with
          | crash => trivial
          | fail e => trivial
          | ok s2 d2 ev2 n2 r2 => exact ⟨this.1.trans k1, this.2.1, fun h => this.2.2.1 ((h.app k3').app (deferred_evOk n)), fun h => (this.2.2.2 h).elim k4 Or.inr⟩

theorem processBlocked_kp (hpp : PpOk c.pp) (room : Bool) (s : Str) (d : Dec) (hu : HU s.http) : OKp c room s [] (processBlocked c room s d) := by
  unfold processBlocked
  have := procLoop_kp hpp room (s.inq.length + 1) s d [] hu
  generalize procLoop c room (s.inq.length + 1) s d [] = o at this ⊢
  cases o with
  | crash => trivial
  | fail e => trivial
  | ok s2 d2 ev2 n2 r2 =>
    dsimp only
    split_ifs with g
    · refine ⟨this.1, this.2.1, fun h => ?_, this.2.2.2⟩
      unfold delete
      exact ((this.2.2.1 h).app (deferred_evOk _)).app (.one (by simp))
    · exact ⟨this.1, this.2.1, this.2.2.1, this.2.2.2⟩

end Bidi
end Nghttp3
