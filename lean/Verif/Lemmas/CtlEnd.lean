import Verif.Lemmas.ConnCtl
import Verif.Props.Control
import Verif.Props.Sent
/-! The control stream of one endpoint read by the other. -/
namespace Nghttp3
namespace Control
open Spec.Control
variable {S : Type} {env : Env S} {Q : Conn S → Prop}

theorem stepI_pres (hQ : Stable env Q) (s : St S) (x : Bytes) (h : Q s.conn) : ResQ Q (stepI env s x) := by
  unfold stepI
  split_ifs
  · unfold priFieldI
    split_ifs
    · exact hQ.long _ h
    · exact gotField_pres hQ _ _ _ h
    · exact h
  · exact step_pres hQ s x h

theorem loopI_pres (hQ : Stable env Q) (f : Nat) (s : St S) (x : Bytes) (b : Bool) (h : Q s.conn) :
    OutQ Q (Machine.loop (stepI env) f s x b) := by
  induction f generalizing s x b with
  | zero => trivial
  | succ f ih =>
    unfold Machine.loop
    split_ifs with h0
    · exact h
    · have := stepI_pres hQ s x h
      rcases hr : stepI env s x with _ | o | ⟨o, r⟩ | ⟨s', r, b'⟩ | s' <;> rw [hr] at this
      · trivial
      · exact this
      · exact this.elim
      · exact ih _ _ _ this
      · exact this

theorem stable_evs (l : List Ev) : Stable env (fun c : Conn S => l <+: c.ev) :=
  ⟨fun _ h => h, fun _ h => h.trans (List.prefix_append _ _), fun _ _ _ _ h he => by rw [(onEntry_keeps he).2.2.1]; exact h,
    fun _ _ h _ _ => h.trans (List.prefix_append _ _), fun _ _ h _ => h, fun _ _ _ _ h _ => h, fun _ h => h⟩

/-- what is read before -/
theorem runI_prefix {s s2 : St S} {a b : Bytes} (hi : Inv Pnil s) (h : runI env s (a ++ b) = .ok s2) :
    ∃ s1, runI env s a = .ok s1 ∧ s1.conn.ev <+: s2.conn.ev := by
  rw [runI_append s a b hi] at h
  rcases hr : runI env s a with _ | o | ⟨o, r⟩ | s1 <;> rw [hr] at h <;> dsimp only at h
  · cases h
  · cases h
  · cases h
  · refine ⟨s1, rfl, ?_⟩
    have h' : Machine.run (stepI env) rank s1 b false = .ok s2 := h
    unfold Machine.run at h'
    have := fun f => loopI_pres (stable_evs (env := env) s1.conn.ev) f s1 b false (List.prefix_refl _)
    have := this (8 * List.length b + rank s1 + 1)
    rw [h'] at this
    exact this

/-- the frames after SETTINGS, by the peer of a `server` -/
def FrameOk (server : Bool) : Frame → Prop
  | .goaway id => server = true → id % 4 = 0
  | .priorityUpdate _ _ => server = false
  | _ => False

def goawayIds (fs : List Frame) : List Nat := fs.filterMap fun | .goaway id => some id | _ => none
def updatesOf (fs : List Frame) : List (Nat × List UInt8) := fs.filterMap fun | .priorityUpdate id v => some (id, v) | _ => none

theorem mem_goawayIds {fs : List Frame} {i : Nat} : .goaway i ∈ fs ↔ i ∈ goawayIds fs := by
  unfold goawayIds
  rw [List.mem_filterMap]
  constructor
  · intro h; exact ⟨_, h, rfl⟩
  · rintro ⟨f, h1, h2⟩
    cases f <;> simp at h2
    subst h2; exact h1

theorem outcome_ok {server : Bool} (pri : S → Nat → List UInt8 → Except Int S) (fs : List Frame) :
    ∀ (past : List Frame) (y : S), past ≠ [] → (∀ f ∈ fs, FrameOk server f) → (goawayIds (past ++ fs)).Pairwise (· ≥ ·) →
      (∀ id v, .priorityUpdate id v ∈ fs → ∀ y, ∃ y', pri y id v = .ok y') →
      ∃ y', outcome (!server) pri past y fs = .accepted (past ++ fs) y' ∧ (updatesOf fs).foldlM (fun y p => pri y p.1 p.2) y = .ok y' := by
  induction fs with
  | nil => intro past y _ _ _ _; exact ⟨y, by rw [outcome, List.append_nil], rfl⟩
  | cons f t ih =>
    intro past y hp hf hg hpri
    have hk := hf f List.mem_cons_self
    have e1 : past ++ f :: t = past ++ [f] ++ t := by simp
    have hn : past ++ [f] ≠ [] := by simp
    cases f with
    | goaway id =>
      obtain ⟨y', h1, h2⟩ := ih (past ++ [.goaway id]) y hn (fun f hf' => hf f (List.mem_cons_of_mem _ hf')) (by rw [← e1]; exact hg)
        (fun i v hi => hpri i v (List.mem_cons_of_mem _ hi))
      have hv : verdict (!server) past (.goaway id) = none := by
        unfold verdict
        dsimp only
        rw [if_neg hp, if_neg, if_neg]
        · rintro ⟨i, hi, hlt⟩
          have : (goawayIds past ++ (id :: goawayIds t)).Pairwise (· ≥ ·) := by
            have : goawayIds (past ++ .goaway id :: t) = goawayIds past ++ (id :: goawayIds t) := by
              unfold goawayIds; rw [List.filterMap_append]; rfl
            rw [← this]; exact hg
          have := (List.pairwise_append.1 this).2.2 i (mem_goawayIds.1 hi) id List.mem_cons_self
          omega
        · rintro ⟨hs, hm⟩
          exact hm (hk (by simpa using hs))
      refine ⟨y', ?_, h2⟩
      rw [outcome, hv, e1]
      · exact h1
      · intro _ _ g; cases g
    | priorityUpdate id v =>
      obtain ⟨y1, hy⟩ := hpri id v List.mem_cons_self y
      obtain ⟨y', h1, h2⟩ := ih (past ++ [.priorityUpdate id v]) y1 hn (fun f hf' => hf f (List.mem_cons_of_mem _ hf')) (by rw [← e1]; exact hg)
        (fun i v hi => hpri i v (List.mem_cons_of_mem _ hi))
      have hv : verdict (!server) past (.priorityUpdate id v) = none := by
        unfold verdict
        dsimp only
        have : server = false := hk
        rw [if_neg hp, if_neg (by rw [this]; decide)]
      refine ⟨y', ?_, ?_⟩
      · rw [outcome, hv, e1]
        dsimp only
        rw [hy]
        exact h1
      · show List.foldlM _ y ((id, v) :: updatesOf t) = _
        rw [List.foldlM_cons, hy]
        exact h2
    | settings => exact hk.elim
    | maxPushId => exact hk.elim
    | other => exact hk.elim

/-- what a SETTINGS frame carries -/
def ivsOf (s : Settings) : List (Nat × Nat) :=
  [(0x06, s.maxFieldSectionSize), (0x01, s.qpackMaxDtableCapacity), (0x07, s.qpackBlockedStreams)] ++
    (if s.h3Datagram then [(0x33, 1)] else []) ++ (if s.enableConnectProtocol then [(0x08, 1)] else [])

theorem before_dup {i v w : Nat} {ivs : List (Nat × Nat)} (h : Before i v w ivs) : ¬ (ivs.map Prod.fst).Nodup := by
  obtain ⟨a, b, c, rfl⟩ := h
  intro hn
  rw [List.map_append, List.map_append, List.nodup_append] at hn
  exact hn.2.2 i (List.mem_append_right _ List.mem_cons_self) i List.mem_cons_self rfl

theorem ivs_nodup (s : Settings) : ((ivsOf s).map Prod.fst).Nodup := by
  unfold ivsOf
  cases s.h3Datagram <;> cases s.enableConnectProtocol <;> simp

theorem ivs_ok (server : Bool) (s : Settings) : SettingsOk server (ivsOf s) := by
  refine ⟨?_, ?_, fun _ => ⟨?_, fun g => before_dup g (ivs_nodup s)⟩, fun _ _ g => absurd (ivs_nodup s) (before_dup g), fun _ _ g => absurd (ivs_nodup s) (before_dup g)⟩
  all_goals
    unfold ivsOf
    intro iv hiv
    simp at hiv
    rcases hiv with h | h | h | ⟨-, h⟩ | ⟨-, h⟩ <;> subst h <;> simp

theorem ivs_settings (server : Bool) (s : Settings) : settingsOf server (ivsOf s) =
    { maxFieldSectionSize := s.maxFieldSectionSize, qpackMaxDtableCapacity := s.qpackMaxDtableCapacity, qpackEncoderMaxDtableCapacity := 4096,
      qpackBlockedStreams := s.qpackBlockedStreams, enableConnectProtocol := server && s.enableConnectProtocol, h3Datagram := s.h3Datagram } := by
  unfold settingsOf ivsOf lastOf
  rcases s with ⟨a, b, c, d, e, f⟩
  cases e <;> cases f <;> simp

end Control

namespace Conn
open Spec.Control
open Outq (R Frent Ans Bytes St Emit FrentOk EncodeOk EmitOk itemsBytes itemBytes own Wire)
open Sent (Book Ledger Made Serves)
variable {E F : Type}

/-- the frame as the receiver sees it -/
def frameOf : Frent F → Frame
  | .settings s => .settings (Control.ivsOf s)
  | .goaway id => .goaway id
  | .priorityUpdate _ id v => .priorityUpdate id v
  | _ => .other 0 []

/-- the frames that are queued on a control stream -/
def CtlFrent : Frent F → Prop
  | .settings _ => True
  | .goaway _ => True
  | .priorityUpdate ft _ _ => ft = 0x0f0700
  | _ => False

theorem own_fst (b : Bytes) : (own b).map Prod.fst = b := by
  unfold own; rw [List.map_map]; exact List.map_id b

theorem itemsBytes_cons_fst (i : Emit) (t : List Emit) : (itemsBytes (i :: t)).map Prod.fst = (itemBytes i).map Prod.fst ++ (itemsBytes t).map Prod.fst := by
  unfold itemsBytes; rw [List.map_cons, List.flatten_cons, List.map_append]

theorem serves_frames {fs rest : List (Frent F)} {ks : List (Made F)} {em : List Emit} (h : Serves fs ks em rest) (hk : ks = [])
    (hc : ∀ f ∈ fs, CtlFrent f) (hok : ∀ i ∈ em, EmitOk i) :
    ∃ dn, fs = dn ++ rest ∧ EncodesAll (dn.map frameOf) ((itemsBytes em).map Prod.fst) := by
  induction h with
  | done rest => exact ⟨[], rfl, .nil⟩
  | @settings s fs ks em rest h ih =>
    obtain ⟨dn, e1, e2⟩ := ih hk (fun f hf => hc f (List.mem_cons_of_mem _ hf)) (fun i hi => hok i (List.mem_cons_of_mem _ hi))
    obtain ⟨b, p, w1, w2, w3⟩ := Outq.wire_item _ (hok _ List.mem_cons_self)
    refine ⟨.settings s :: dn, by rw [e1]; rfl, ?_⟩
    rw [itemsBytes_cons_fst, w2, own_fst]
    exact .cons (f := .settings (Control.ivsOf s)) ⟨p, w3, w1⟩ e2
  | headers h ih => cases hk
  | dataMore h ih => exact (hc _ List.mem_cons_self).elim
  | dataEnd h ih => exact (hc _ List.mem_cons_self).elim
  | @goaway id fs ks em rest h ih =>
    obtain ⟨dn, e1, e2⟩ := ih hk (fun f hf => hc f (List.mem_cons_of_mem _ hf)) (fun i hi => hok i (List.mem_cons_of_mem _ hi))
    obtain ⟨b, p, w1, w2, w3⟩ := Outq.wire_item _ (hok _ List.mem_cons_self)
    refine ⟨.goaway id :: dn, by rw [e1]; rfl, ?_⟩
    rw [itemsBytes_cons_fst, w2, own_fst]
    exact .cons (f := .goaway id) ⟨p, w3, w1⟩ e2
  | @priorityUpdate ft el v fs ks em rest h ih =>
    obtain ⟨dn, e1, e2⟩ := ih hk (fun f hf => hc f (List.mem_cons_of_mem _ hf)) (fun i hi => hok i (List.mem_cons_of_mem _ hi))
    obtain ⟨b, p, w1, w2, w3⟩ := Outq.wire_item _ (hok _ List.mem_cons_self)
    have hft : ft = 0x0f0700 := hc _ List.mem_cons_self
    refine ⟨.priorityUpdate ft el v :: dn, by rw [e1]; rfl, ?_⟩
    rw [itemsBytes_cons_fst, w2, own_fst]
    exact .cons (f := .priorityUpdate el v) ⟨p, w3, hft ▸ w1⟩ e2

/-- nothing is left to write -/
theorem unsent_done {Q : Outq.Tagged} {s : St F} (h : Outq.Inv Q s) (hd : Outq.writeDone s = true) : s.unsent = 0 := by
  have hall : ∀ e ∈ s.outq, e.pos = e.last := by
    unfold Outq.writeDone at hd
    rw [Bool.or_eq_true, beq_iff_eq, decide_eq_true_eq] at hd
    rcases hd with hd | hd
    · intro e he; rw [List.length_eq_zero_iff.1 hd] at he; cases he
    · have := h.q.before
      rw [List.take_of_length_le hd] at this
      exact this
  have e1 : Outq.written s.outq = (s.outq.map fun e => e.last - e.beg).sum := by
    unfold Outq.written
    congr 1
    exact List.map_congr_left fun e he => by rw [hall e he]
  have e2 := Outq.content_length h.q.live
  rw [h.q.content, List.length_drop] at e2
  have := h.sent
  have := h.base
  omega

end Conn
end Nghttp3
