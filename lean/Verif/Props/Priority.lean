import Verif.Model.Priority
import Verif.Lemmas.ConnConst
import Verif.Props.Sched
import Mathlib.Tactic.SplitIfs
/-! Property theorems C36: priorities. -/
namespace Nghttp3
namespace Props
open Http (Pri SfVal priorityLoop parsePriority)

/-! ## the field value -/

/-- the value of the last member with this one-character key -/
def lastMember (k : UInt8) (l : List (List UInt8 × SfVal)) : Option SfVal := (l.filter fun m => m.1 == [k]).getLast?.map (·.2)

/-- every `i` is a boolean and every `u` an integer from 0 to 7; other members are free -/
def MembersOk (l : List (List UInt8 × SfVal)) : Prop :=
  (∀ v, ([0x69], v) ∈ l → ∃ b, v = .boolean b) ∧ (∀ v, ([0x75], v) ∈ l → ∃ n : Int, v = .integer n ∧ 0 ≤ n ∧ n ≤ 7)

/-- what the members say: the last `u` and the last `i` win, what is not mentioned stays -/
def pickPri (dest : Pri) (l : List (List UInt8 × SfVal)) : Pri :=
  ⟨match lastMember 0x75 l with | some (.integer n) => n.toNat | _ => dest.urgency,
   match lastMember 0x69 l with | some (.boolean b) => b | _ => dest.inc⟩

theorem lastMember_cons (k : UInt8) (m : List UInt8 × SfVal) (t : List (List UInt8 × SfVal)) :
    lastMember k (m :: t) = match lastMember k t with
      | some v => some v
      | none => if m.1 = [k] then some m.2 else none := by
  unfold lastMember
  by_cases h : m.1 = [k]
  · rw [List.filter_cons_of_pos (by simpa using h), if_pos h]
    cases hf : t.filter (fun m => m.1 == [k]) with
    | nil => rfl
    | cons a l =>
      rw [List.getLast?_cons_cons]
      rcases hl : (a :: l).getLast? with _ | z
      · simp at hl
      · rfl
  · rw [List.filter_cons_of_neg (by simpa using h), if_neg h]
    cases ((t.filter fun m => m.1 == [k]).getLast?.map (·.2)) <;> rfl

theorem lastMember_mem {k : UInt8} {l : List (List UInt8 × SfVal)} {v : SfVal} (h : lastMember k l = some v) : ([k], v) ∈ l := by
  unfold lastMember at h
  rw [Option.map_eq_some_iff] at h
  obtain ⟨⟨k', v'⟩, h1, rfl⟩ := h
  have hm := List.mem_of_getLast? h1
  rw [List.mem_filter] at hm
  obtain ⟨hm, hk⟩ := hm
  obtain rfl : k' = [k] := by simpa using hk
  exact hm

theorem priorityLoop_spec (eof : Bool) : ∀ (l : List (List UInt8 × SfVal)) (d p : Pri),
    priorityLoop d eof l = some p ↔ eof = true ∧ MembersOk l ∧ p = pickPri d l := by
  intro l
  induction l with
  | nil =>
    intro d p
    unfold priorityLoop pickPri
    have h1 : MembersOk [] := ⟨(fun _ h => by cases h), (fun _ h => by cases h)⟩
    cases eof
    · simp
    · simp only [lastMember, h1, true_and, if_true]
      exact ⟨fun g => (Option.some.inj g).symm, fun g => congrArg some g.symm⟩
  | cons m t ih =>
    obtain ⟨k, v⟩ := m
    intro d p
    have skip : k ≠ [0x69] → k ≠ [0x75] → (priorityLoop d eof t = some p ↔ eof = true ∧ MembersOk ((k, v) :: t) ∧ p = pickPri d ((k, v) :: t)) := by
      intro h1 h2
      rw [ih]
      have e1 : MembersOk ((k, v) :: t) ↔ MembersOk t := by
        unfold MembersOk
        simp [List.mem_cons, Ne.symm h1, Ne.symm h2]
      have e2 : pickPri d ((k, v) :: t) = pickPri d t := by
        unfold pickPri
        rw [lastMember_cons, lastMember_cons, if_neg h1, if_neg h2]
        cases lastMember 0x75 t <;> cases lastMember 0x69 t <;> rfl
      rw [e1, e2]
    unfold priorityLoop
    by_cases hl : k.length ≠ 1
    · rw [if_pos hl]
      exact skip (by rintro rfl; simp at hl) (by rintro rfl; simp at hl)
    rw [if_neg hl]
    obtain ⟨a, rfl⟩ : ∃ a, k = [a] := by
      match k, hl with
      | [a], _ => exact ⟨a, rfl⟩
      | [], hl => simp at hl
      | _ :: _ :: _, hl => simp at hl
    change (if a = 0x69 then _ else if a = 0x75 then _ else _) = some p ↔ _
    by_cases hi : a = 0x69
    · subst hi
      rw [if_pos rfl]
      cases v with
      | boolean b =>
        dsimp only
        rw [ih]
        have e1 : MembersOk (([0x69], SfVal.boolean b) :: t) ↔ MembersOk t := by
          unfold MembersOk
          simp [List.mem_cons]
        have e2 : MembersOk t → pickPri d (([0x69], SfVal.boolean b) :: t) = pickPri { d with inc := b } t := by
          intro ho
          unfold pickPri
          rw [lastMember_cons, lastMember_cons, if_pos rfl, if_neg (show ¬ ([0x69] : List UInt8) = [0x75] by decide)]
          rcases hl : lastMember 0x69 t with _ | z
          · cases lastMember 0x75 t <;> rfl
          · obtain ⟨b', rfl⟩ := ho.1 _ (lastMember_mem hl)
            cases lastMember 0x75 t <;> rfl
        rw [e1]
        exact and_congr_right fun _ => and_congr_right fun ho => by rw [e2 ho]
      | integer n =>
        constructor
        · intro g; cases g
        · rintro ⟨_, g, _⟩; obtain ⟨b, hb⟩ := g.1 _ List.mem_cons_self; cases hb
      | other =>
        constructor
        · intro g; cases g
        · rintro ⟨_, g, _⟩; obtain ⟨b, hb⟩ := g.1 _ List.mem_cons_self; cases hb
    rw [if_neg hi]
    by_cases hu : a = 0x75
    · subst hu
      rw [if_pos rfl]
      cases v with
      | integer n =>
        dsimp only
        by_cases hn : n < 0 ∨ 7 < n
        · rw [if_pos hn]
          constructor
          · intro g; cases g
          · rintro ⟨_, g, _⟩; obtain ⟨b, hb, h1, h2⟩ := g.2 _ List.mem_cons_self; cases hb; omega
        · rw [if_neg hn, ih]
          have e1 : MembersOk (([0x75], SfVal.integer n) :: t) ↔ MembersOk t := by
            unfold MembersOk
            simp only [List.mem_cons]
            constructor
            · rintro ⟨g1, g2⟩; exact ⟨fun v h => g1 v (Or.inr h), fun v h => g2 v (Or.inr h)⟩
            · rintro ⟨g1, g2⟩
              refine ⟨fun v h => ?_, fun v h => ?_⟩
              · rcases h with h | h
                · cases h
                · exact g1 v h
              · rcases h with h | h
                · cases h; exact ⟨n, rfl, by omega, by omega⟩
                · exact g2 v h
          have e2 : MembersOk t → pickPri d (([0x75], SfVal.integer n) :: t) = pickPri { d with urgency := n.toNat } t := by
            intro ho
            unfold pickPri
            rw [lastMember_cons, lastMember_cons, if_pos rfl, if_neg (show ¬ ([0x75] : List UInt8) = [0x69] by decide)]
            rcases hl : lastMember 0x75 t with _ | z
            · cases lastMember 0x69 t <;> rfl
            · obtain ⟨b', rfl, _⟩ := ho.2 _ (lastMember_mem hl)
              cases lastMember 0x69 t <;> rfl
          rw [e1]
          exact and_congr_right fun _ => and_congr_right fun ho => by rw [e2 ho]
      | boolean n =>
        constructor
        · intro g; cases g
        · rintro ⟨_, g, _⟩; obtain ⟨b, hb, _⟩ := g.2 _ List.mem_cons_self; cases hb
      | other =>
        constructor
        · intro g; cases g
        · rintro ⟨_, g, _⟩; obtain ⟨b, hb, _⟩ := g.2 _ List.mem_cons_self; cases hb
    rw [if_neg hu]
    exact skip (by simpa using hi) (by simpa using hu)

open Classical in
/-- C36.  A priority field value that is a dictionary in which every `i` is a boolean and every `u` an integer from 0 to 7 is accepted, and
then the last `u` and the last `i` count, other members are ignored, and what is not mentioned stays as it was; any other value is refused
and changes nothing. -/
theorem C36_parse (sf : List UInt8 → List (List UInt8 × SfVal) × Bool) (dest : Pri) (value : List UInt8) :
    parsePriority sf dest value =
      if (sf value).2 = true ∧ MembersOk (sf value).1 then (0, pickPri dest (sf value).1) else (Err.INVALID_ARGUMENT, dest) := by
  unfold parsePriority
  split_ifs with h
  · rw [(priorityLoop_spec _ _ dest _).2 ⟨h.1, h.2, rfl⟩]
  · rcases hp : priorityLoop dest (sf value).2 (sf value).1 with _ | p
    · rfl
    · obtain ⟨h1, h2, _⟩ := (priorityLoop_spec _ _ _ _).1 hp
      exact absurd ⟨h1, h2⟩ h

/-- C36.  An accepted value never leads to an urgency that is out of range. -/
theorem C36_parse_range (sf : List UInt8 → List (List UInt8 × SfVal) × Bool) (dest : Pri) (value : List UInt8) (h : dest.urgency < 8) :
    (parsePriority sf dest value).2.urgency < 8 := by
  classical
  rw [C36_parse]
  split_ifs with hc
  · obtain ⟨_, _, hu⟩ := hc
    change (match lastMember 0x75 (sf value).1 with | some (.integer n) => n.toNat | _ => dest.urgency) < 8
    split
    · rename_i n hn
      obtain ⟨m, g1, g2, g3⟩ := hu _ (lastMember_mem hn)
      cases g1
      exact (Int.toNat_lt g2).2 (Int.lt_of_le_of_lt g3 (by decide))
    · exact h
  · exact h

/-- `u=5, i, u=1, x=2` -/
def demoSf : List UInt8 → List (List UInt8 × SfVal) × Bool := fun _ =>
  ([([0x75], .integer 5), ([0x69], .boolean true), ([0x75], .integer 1), ([0x78], .integer 2)], true)
example : parsePriority demoSf ⟨3, false⟩ [] = (0, ⟨1, true⟩) := by decide +kernel
/-- `u=8` -/
example : parsePriority (fun _ => ([([0x75], .integer 8)], true)) ⟨3, false⟩ [] = (Err.INVALID_ARGUMENT, ⟨3, false⟩) := by decide +kernel

/-! ## the priority of a stream -/
open Conn
open Outq (R Ans Bytes)

variable {E F : Type} {encode : Encode E F} {c c' : Conn E F}

/-- The priority of a stream, and whether the server has set it, and whether a PRIORITY_UPDATE frame has. -/
abbrev PriSt := Pri × Bool × Bool

/-- How one call or received frame changes the priority of request stream `x`: the server's own choice wins over a PRIORITY_UPDATE frame, and
this over the priority header field. -/
def applyPri (server : Bool) (x : Nat) (s : PriSt) : Op F → PriSt
  | .setServerPri y p => if y = x then (p, true, s.2.2) else s
  | .priUpd y p => if y = x ∧ s.2.1 = false then (p, false, true) else s
  | .hdrPri y p => if y = x ∧ server = true ∧ s.2.1 = false ∧ s.2.2 = false then (p, false, false) else s
  | .qpackUnblock y (some p) _ => if y = x ∧ server = true ∧ s.2.1 = false ∧ s.2.2 = false then (p, false, false) else s
  | _ => s

/-- the call is allowed and stream `x` exists -/
def Alive (x : Nat) (c : Conn E F) (o : Op F) : Prop := OpOk o ∧ (c.str x).isSome = true

theorem step_apply {w v : Prop} (h : Inv w v c) {o : Op F} {r : Ret} (h1 : OpOk o) {x : Nat} (hx : clientBidi x = true) (hw : w → FairWrite c o)
    (e : step encode c o = .ok (c', r)) {s0 s' : Strm F} (h0 : c.str x = some s0) (h' : c'.str x = some s') (hm : Conn.ordStreamId x ≤ c.maxClient) :
    ((s'.pri, s'.srvPri, s'.priUpd) : PriSt) = applyPri c.server x (s0.pri, s0.srvPri, s0.priUpd) o := by
  have hp := step_pri h h1 hx hw e h'
  rw [h0] at hp
  cases hp with
  | same _ _ _ hs hn =>
    obtain ⟨g1, g2, g3⟩ := hs
    rw [g1, g2, g3]
    cases o with
    | setServerPri y p =>
      by_cases hy : y = x
      · subst hy; exact ((hn p).1 rfl).elim
      · simp only [applyPri]; rw [if_neg hy]
    | priUpd y p =>
      simp only [applyPri]
      by_cases hy : y = x
      · subst hy
        rcases (hn p).2.1 rfl with g | g
        · rw [if_neg (by rw [g]; simp)]
        · omega
      · rw [if_neg (fun g => hy g.1)]
    | hdrPri y p =>
      simp only [applyPri]
      rw [if_neg]
      rintro ⟨rfl, g1, g2, g3⟩
      rcases (hn p).2.2 (Or.inl rfl) g1 with g | g
      · rw [g] at g3; cases g3
      · rw [g] at g2; cases g2
    | qpackUnblock y p b =>
      cases p with
      | none => rfl
      | some p =>
        simp only [applyPri]
        rw [if_neg]
        rintro ⟨rfl, g1, g2, g3⟩
        rcases (hn p).2.2 (Or.inr ⟨b, rfl⟩) g1 with g | g
        · rw [g] at g3; cases g3
        · rw [g] at g2; cases g2
    | _ => rfl
  | server p _ _ g1 g2 g3 => simp only [applyPri, if_true]; rw [g1, g2, g3]
  | update p _ _ g0 g1 g2 g3 => simp only [applyPri, true_and]; rw [if_pos g0, g1, g2, g3]
  | header _ p _ _ ho hc g0 g0' g1 g2 g3 =>
    rcases ho with rfl | ⟨b, rfl⟩ <;> (simp only [applyPri, true_and]; rw [if_pos ⟨hc, g0, g0'⟩, g1, g2, g3])

theorem glob_server {w v : Prop} (h : Inv w v c) {o : Op F} {r : Ret} (e : step encode c o = .ok (c', r)) : c'.server = c.server ∧ c.maxClient ≤ c'.maxClient := by
  have hg := step_glob h e
  have k : ∀ {g : Glob}, glob c' = g → g.server = c.server → c.maxClient ≤ g.maxClient → c'.server = c.server ∧ c.maxClient ≤ c'.maxClient := by
    intro g g1 g2 g3
    subst g1
    exact ⟨g2, g3⟩
  cases o with
  | bindControl id => rcases hg with g | ⟨_, g⟩ <;> exact k g rfl (Nat.le_refl _)
  | bindQpack a b => rcases hg with g | ⟨_, _, g | g⟩ <;> exact k g rfl (Nat.le_refl _)
  | notice => obtain ⟨_, _, _, g⟩ := hg; exact k g rfl (Nat.le_refl _)
  | shutdown => obtain ⟨_, _, _, g⟩ := hg; exact k g rfl (Nat.le_refl _)
  | setMaxClient n => exact k hg.2 rfl hg.1
  | «open» id b => rcases hg with g | ⟨_, _, _, g⟩ <;> exact k g rfl (Nat.le_refl _)
  | priUpd id p => rcases hg with g | ⟨_, _, _, g⟩ <;> exact k g rfl (Nat.le_refl _)
  | uni a b d => obtain ⟨_, _, _, g, _⟩ := hg; exact k g rfl (Nat.le_refl _)
  | _ => exact k hg rfl (Nat.le_refl _)

theorem hist_apply {x : Nat} (hx : clientBidi x = true) {l : List (Op F)} (hh : Hist encode (Alive x) c l c') : Inv False False c →
    Conn.ordStreamId x ≤ c.maxClient → ∀ {s0 s' : Strm F}, c.str x = some s0 → c'.str x = some s' →
    ((s'.pri, s'.srvPri, s'.priUpd) : PriSt) = l.foldl (applyPri c.server x) (s0.pri, s0.srvPri, s0.priUpd) := by
  induction hh with
  | nil => intro _ _ s0 s' h0 h'; rw [h0] at h'; cases h'; rfl
  | peer e _ ih => intro hi hm s0 s' h0 h'; exact ih (hi.withEnc e) hm h0 h'
  | @cons c c1 c2 o t r hp e ht ih =>
    intro hi hm s0 s' h0 h'
    obtain ⟨g1, g2⟩ := glob_server hi e
    have i1 := step_inv hi hp.1 (fun f => f.elim) (fun f => f.elim) e
    have h1 : ∃ s1, c1.str x = some s1 := Option.isSome_iff_exists.1 (ht.exists_at_start (fun _ _ g => g.2) (by rw [h']; rfl))
    obtain ⟨s1, h1⟩ := h1
    have hs := step_apply hi hp.1 hx (fun f => f.elim) e h0 h1 hm
    rw [List.foldl_cons, ← hs, ← g1]
    exact ih i1 (by omega) h1 h'

/-- C36.  In every history, as long as a request stream exists, its priority, as nghttp3_conn_get_stream_priority reports it, is what
`applyPri` makes of the calls and frames that name it: nothing else changes it. -/
theorem C36_history {server : Bool} {st : Settings} {e0 : E} (h : Reach encode (fun _ o => OpOk o) (init server st e0) c)
    {x : Nat} (hx : clientBidi x = true) (hm : Conn.ordStreamId x ≤ c.maxClient) {l : List (Op F)} (hl : Hist encode (Alive x) c l c')
    {s0 : Strm F} (h0 : c.str x = some s0) (h' : (c'.str x).isSome = true) :
    getStreamPriority c' x = .ok (l.foldl (applyPri c.server x) (s0.pri, s0.srvPri, s0.priUpd)).1 := by
  obtain ⟨s', h'⟩ := Option.isSome_iff_exists.1 h'
  rw [← hist_apply hx hl (reach_ok h) hm h0 h']
  unfold getStreamPriority
  rw [if_neg (by rw [hx]; decide), h']

/-- a priority that the server has set is kept by everything except another choice of the server -/
theorem fold_server (sv : Bool) (x : Nat) : ∀ (l : List (Op F)) (p : Pri) (b : Bool), (∀ q, Op.setServerPri x q ∉ l) →
    (l.foldl (applyPri sv x) (p, true, b)).1 = p := by
  intro l
  induction l with
  | nil => intro p b _; rfl
  | cons o t ih =>
    intro p b hn
    rw [List.foldl_cons]
    have : applyPri sv x (p, true, b) o = (p, true, b) := by
      cases o with
      | setServerPri y q =>
        simp only [applyPri]
        rw [if_neg]
        rintro rfl
        exact hn q List.mem_cons_self
      | qpackUnblock y q a => cases q <;> simp [applyPri]
      | _ => simp [applyPri]
    rw [this]
    exact ih p b fun q hq => hn q (List.mem_cons_of_mem _ hq)

/-- C36.  A priority set by nghttp3_conn_set_server_stream_priority stays, whatever the client sends, until the server sets another one. -/
theorem C36_server_sticks {server : Bool} {st : Settings} {e0 : E} (h : Reach encode (fun _ o => OpOk o) (init server st e0) c)
    {x : Nat} (hm : Conn.ordStreamId x ≤ c.maxClient) {p : Pri} {c1 : Conn E F}
    (e : setServerPriority c x p = .ok (c1, .code 0)) {l : List (Op F)} (hl : Hist encode (Alive x) c1 l c') (hn : ∀ q, Op.setServerPri x q ∉ l)
    (h' : (c'.str x).isSome = true) : getStreamPriority c' x = .ok p := by
  have hi := reach_ok h
  have e' : step encode c (.setServerPri x p) = .ok (c1, .code 0) := e
  unfold setServerPriority at e
  split_ifs at e with g1 g2
  · cases e
  have hx : clientBidi x = true := by simpa using g2
  rcases h0 : c.str x with _ | s0
  · rw [h0] at e; cases e
  · have hok : OpOk (F := F) (.setServerPri x p) := trivial
    have i1 := step_inv hi hok (fun f => f.elim) (fun f => f.elim) e'
    have h1 : ∃ s1, c1.str x = some s1 := Option.isSome_iff_exists.1 (hl.exists_at_start (fun _ _ g => g.2) h')
    obtain ⟨s1, h1⟩ := h1
    have hs := step_apply hi hok hx (fun f => f.elim) e' h0 h1 hm
    obtain ⟨g1, g2⟩ := glob_server hi e'
    rw [C36_history (h.step hok e') hx (by omega) hl h1 h', hs]
    change Except.ok (List.foldl _ (if x = x then (p, true, s0.priUpd) else _) l).1 = _
    rw [if_pos rfl, fold_server _ _ _ _ _ hn]

/-- a PRIORITY_UPDATE is not overridden by the header field -/
theorem fold_update (sv : Bool) (x : Nat) : ∀ (l : List (Op F)) (p : Pri), (∀ q, Op.setServerPri x q ∉ l) → (∀ q, Op.priUpd x q ∉ l) →
    (l.foldl (applyPri sv x) (p, false, true)).1 = p := by
  intro l
  induction l with
  | nil => intro p _ _; rfl
  | cons o t ih =>
    intro p hn hu
    rw [List.foldl_cons]
    have : applyPri sv x (p, false, true) o = (p, false, true) := by
      cases o with
      | setServerPri y q =>
        simp only [applyPri]
        rw [if_neg]
        rintro rfl
        exact hn q List.mem_cons_self
      | priUpd y q =>
        simp only [applyPri]
        rw [if_neg]
        rintro ⟨rfl, _⟩
        exact hu q List.mem_cons_self
      | qpackUnblock y q a => cases q <;> simp [applyPri]
      | _ => simp [applyPri]
    rw [this]
    exact ih p (fun q hq => hn q (List.mem_cons_of_mem _ hq)) (fun q hq => hu q (List.mem_cons_of_mem _ hq))

/-- C36.  After a PRIORITY_UPDATE frame for a stream whose priority the server has not set, its priority is the one in the frame, and a
priority header field that comes later (the frame may overtake the request) does not change it.  The stream may not have existed before
the frame. -/
theorem C36_update_wins {server : Bool} {st : Settings} {e0 : E} (h : Reach encode (fun _ o => OpOk o) (init server st e0) c)
    {x : Nat} (hx : clientBidi x = true) (hm : Conn.ordStreamId x ≤ c.maxClient) {p : Pri} (hp : p.urgency < 8) {c1 : Conn E F} {r : Ret}
    (hs : ∀ s, c.str x = some s → s.srvPri = false) (e : onPriorityUpdate c x p = .ok (c1, r))
    {l : List (Op F)} (hl : Hist encode (Alive x) c1 l c') (hn : ∀ q, Op.setServerPri x q ∉ l) (hu : ∀ q, Op.priUpd x q ∉ l)
    (h' : (c'.str x).isSome = true) : getStreamPriority c' x = .ok p := by
  have hi := reach_ok h
  have e' : step encode c (.priUpd x p) = .ok (c1, r) := e
  have hok : OpOk (F := F) (.priUpd x p) := hp
  have h1 : ∃ s1, c1.str x = some s1 := Option.isSome_iff_exists.1 (hl.exists_at_start (fun _ _ g => g.2) h')
  obtain ⟨s1, h1⟩ := h1
  obtain ⟨g1, g2⟩ := glob_server hi e'
  have hs1 : ((s1.pri, s1.srvPri, s1.priUpd) : PriSt) = (p, false, true) := by
    rcases h0 : c.str x with _ | s0
    · -- a new stream
      have e2 := e
      unfold onPriorityUpdate at e2
      rw [h0] at e2
      by_cases a1 : (!c.server) = true
      · rw [if_pos a1] at e2; cases e2
      rw [if_neg a1] at e2
      by_cases a2 : (!clientBidi x || decide (Conn.ordStreamId x > c.maxClient)) = true
      · rw [if_pos a2] at e2
        obtain ⟨rfl, _⟩ := Prod.mk.inj (R.ok.inj e2); rw [h0] at h1; cases h1
      rw [if_neg a2] at e2
      dsimp only at e2
      by_cases a3 : rejects c x = true
      · rw [if_pos a3] at e2
        obtain ⟨rfl, _⟩ := Prod.mk.inj (R.ok.inj e2); rw [h0] at h1; cases h1
      rw [if_neg a3] at e2
      split at e2
      · cases e2
      · obtain ⟨rfl, _⟩ := Prod.mk.inj (R.ok.inj e2); rw [h0] at h1; cases h1
      · obtain ⟨rfl, _⟩ := Prod.mk.inj (R.ok.inj e2)
        change PQ.upd c.str x _ x = _ at h1
        rw [PQ.upd_same] at h1
        cases h1; rfl
    · rw [step_apply hi hok hx (fun f => f.elim) e' h0 h1 hm]
      simp only [applyPri, true_and]
      rw [if_pos (hs s0 h0)]
  rw [C36_history (h.step hok e') hx (by omega) hl h1 h', hs1, fold_update _ _ _ _ hn hu]

/-- C36.  A request that the client has opened has urgency 3 and is not incremental until the first of these signals. -/
theorem C36_default {server : Bool} {st : Settings} {e0 : E} (h : Reach encode (fun _ o => OpOk o) (init server st e0) c)
    {x : Nat} (hx : clientBidi x = true) (hm : Conn.ordStreamId x ≤ c.maxClient) (h0 : c.str x = none) {b : Bool} {c1 : Conn E F} {r : Ret}
    (e : openStream c x b = .ok (c1, r)) {l : List (Op F)} (hl : Hist encode (Alive x) c1 l c') (h' : (c'.str x).isSome = true) :
    getStreamPriority c' x = .ok (l.foldl (applyPri c.server x) (⟨3, false⟩, false, false)).1 := by
  have hi := reach_ok h
  have e' : step encode c (.open x b) = .ok (c1, r) := e
  have hok : OpOk (F := F) (.open x b) := trivial
  have h1 : ∃ s1, c1.str x = some s1 := Option.isSome_iff_exists.1 (hl.exists_at_start (fun _ _ g => g.2) h')
  obtain ⟨s1, h1⟩ := h1
  obtain ⟨g1, g2⟩ := glob_server hi e'
  have hp := step_pri hi hok hx (fun f => f.elim) e' h1
  rw [h0] at hp
  cases hp with
  | new _ _ k1 k2 k3 => rw [C36_history (h.step hok e') hx (by omega) hl h1 h', k1, k2, k3, g1]

/-! ## examples -/

/-- what nghttp3_conn_get_stream_priority reports at the end of a history -/
def priAfter (l : List (Op Bytes)) (x : Nat) : Option Pri :=
  match Conn.run demoEnc demoInit l with
  | .ok c => match getStreamPriority c x with | .ok p => some p | .error _ => none
  | _ => none

/-- a PRIORITY_UPDATE overtakes the request; then the server decides; later signals have no effect -/
example : priAfter [.setMaxClient 10, .priUpd 4 ⟨1, true⟩] 4 = some ⟨1, true⟩ ∧
    priAfter [.setMaxClient 10, .priUpd 4 ⟨1, true⟩, .open 4 false, .hdrPri 4 ⟨6, false⟩] 4 = some ⟨1, true⟩ ∧
    priAfter [.setMaxClient 10, .open 4 false, .hdrPri 4 ⟨6, false⟩] 4 = some ⟨6, false⟩ ∧
    priAfter [.setMaxClient 10, .priUpd 4 ⟨1, true⟩, .setServerPri 4 ⟨2, true⟩, .priUpd 4 ⟨0, false⟩, .hdrPri 4 ⟨7, false⟩] 4 = some ⟨2, true⟩ := by
  refine ⟨?_, ?_, ?_, ?_⟩ <;> decide +kernel

/-- the hypotheses of `C36_server_sticks` are met -/
example : ∃ c c1 c', Reach demoEnc (fun _ o => OpOk o) demoInit c ∧ Conn.ordStreamId 4 ≤ c.maxClient ∧ setServerPriority c 4 ⟨2, true⟩ = .ok (c1, .code 0) ∧
    Hist demoEnc (Alive 4) c1 [.priUpd 4 ⟨0, false⟩] c' ∧ (c'.str 4).isSome = true := by
  have h : (match Conn.run demoEnc demoInit [.setMaxClient 10, .open 4 false] with
      | .ok c => decide (2 ≤ c.maxClient) && (match setServerPriority c 4 ⟨2, true⟩ with
        | .ok (c1, .code 0) => (c1.str 4).isSome && (match step demoEnc c1 (.priUpd 4 ⟨0, false⟩) with
          | .ok (c2, _) => (c2.str 4).isSome
          | _ => false)
        | _ => false)
      | _ => false) = true := by decide +kernel
  split at h
  · rename_i c hc
    rw [Bool.and_eq_true] at h
    obtain ⟨h1, h2⟩ := h
    split at h2
    · rename_i c1 h3
      rw [Bool.and_eq_true] at h2
      obtain ⟨h4, h5⟩ := h2
      split at h5
      · rename_i c2 r h6
        refine ⟨c, c1, c2, reach_run (P := OpOk) ?_ hc, by simpa [Conn.ordStreamId] using h1, h3, .cons ⟨show (0 : Nat) < 8 by decide, h4⟩ h6 .nil, h5⟩
        intro o ho
        simp only [List.mem_cons, List.not_mem_nil, or_false] at ho
        rcases ho with rfl | rfl <;> trivial
      · cases h5
    · cases h2
  · cases h

end Props
end Nghttp3
