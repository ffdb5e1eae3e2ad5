import Verif.Lemmas.DuoMsg
/-! Two endpoints: the receiver cannot tell bytes that are still with the sender from bytes on their way. -/
namespace Nghttp3
namespace Duo
open Http Qpack Bidi
open Outq (R Frent Ans Emit EmitOk itemsBytes itemBytes dataAnswers EncodeOk)
open Sent (Book Ledger Made Serve Serves)
open Net (SFrame NOp NRes Par NStr)

/-- the same with more on its way: messages, bytes of the streams and of the encoder stream -/
def lift (n : Net.Sys) (msg : Nat → List SFrame) (pend : Nat → Bidi.Bytes) (pe : Bidi.Bytes) : Net.Sys :=
  { n with ech := n.ech ++ pe, str := fun x => { n.str x with msg := msg x, wire := (n.str x).wire ++ pend x } }

variable {P : Par} {n n' : Net.Sys} {msg : Nat → List SFrame} {pend : Nat → Bidi.Bytes} {pe : Bidi.Bytes}

theorem lift_room (id : Nat) : (lift n msg pend pe).room P id = n.room P id := rfl

theorem lift_set (id : Nat) (st : NStr) (d : Dec) :
    ({ lift n msg pend pe with dec := d } : Net.Sys).set id { st with msg := msg id, wire := st.wire ++ pend id } = lift (({ n with dec := d } : Net.Sys).set id st) msg pend pe := by
  unfold lift Net.Sys.set
  dsimp only
  congr 1
  funext j
  by_cases hj : j = id
  · subst hj; rw [if_pos rfl, if_pos rfl]
  · rw [if_neg hj, if_neg hj]

def liftR (r : NRes) (msg : Nat → List SFrame) (pend : Nat → Bidi.Bytes) (pe : Bidi.Bytes) : NRes :=
  match r with
  | .ok n => .ok (lift n msg pend pe)
  | r => r

theorem lift_after (id : Nat) (st : NStr) (o : Out) :
    (lift n msg pend pe).after id { st with msg := msg id, wire := st.wire ++ pend id } o = liftR (n.after id st o) msg pend pe := by
  cases o with
  | crash => rfl
  | fail e => rfl
  | ok s d ev k rest =>
    unfold Net.Sys.after liftR
    dsimp only
    rw [← lift_set]

theorem lift_wakeAll (ord : List Nat) : Net.wakeAll P (lift n msg pend pe) ord = liftR (Net.wakeAll P n ord) msg pend pe := by
  induction ord generalizing n with
  | nil => rfl
  | cons id t ih =>
    unfold Net.wakeAll
    have := lift_after (n := n) (msg := msg) (pend := pend) (pe := pe) id (n.str id) (wake (P.cfg id) (n.room P id) (n.str id).s n.dec)
    have e : (lift n msg pend pe).after id ((lift n msg pend pe).str id) (wake (P.cfg id) ((lift n msg pend pe).room P id) ((lift n msg pend pe).str id).s (lift n msg pend pe).dec) =
        liftR (n.after id (n.str id) (wake (P.cfg id) (n.room P id) (n.str id).s n.dec)) msg pend pe := this
    rw [e]
    cases n.after id (n.str id) (wake (P.cfg id) (n.room P id) (n.str id).s n.dec) with
    | ok n1 => exact ih
    | _ => rfl

/-- the same operation when there is more on its way -/
def cap (n : Net.Sys) : NOp → NOp
  | .recv id k => .recv id (min k (n.str id).wire.length)
  | .readEnc k ord => .readEnc (min k n.ech.length) ord
  | o => o

theorem lift_step {o : NOp} (ho : receiver o = true) (he : ∀ x, (n.str x).ended = true → pend x = []) :
    (lift n msg pend pe).step P (cap n o) = liftR (n.step P o) msg pend pe := by
  cases o with
  | headers _ _ => cases ho
  | data _ _ => cases ho
  | fin _ => cases ho
  | setCap k =>
    show (match n.sys.step (.setCap k) with | .ok s => NRes.ok { lift n msg pend pe with sys := s } | _ => .crash) = liftR (match n.sys.step (.setCap k) with | .ok s => NRes.ok { n with sys := s } | _ => .crash) msg pend pe
    cases n.sys.step (.setCap k) <;> rfl
  | setMaxBlocked k =>
    show (match n.sys.step (.setMaxBlocked k) with | .ok s => NRes.ok { lift n msg pend pe with sys := s } | _ => .crash) = liftR (match n.sys.step (.setMaxBlocked k) with | .ok s => NRes.ok { n with sys := s } | _ => .crash) msg pend pe
    cases n.sys.step (.setMaxBlocked k) <;> rfl
  | flush => rfl
  | deliver i =>
    unfold cap Net.Sys.step
    dsimp only
    have e1 : (lift n msg pend pe).dch = n.dch := rfl
    have e2 : (lift n msg pend pe).sys = n.sys := rfl
    rw [e1, e2]
    by_cases hp : i.bytes <+: n.dch
    · rw [if_pos hp, if_pos hp]
      cases n.sys.step (.instr i.1 i.2) <;> rfl
    · rw [if_neg hp, if_neg hp]; rfl
  | stop id =>
    have := lift_after (n := n) (msg := msg) (pend := pend) (pe := pe) id (n.str id) (shutdownRead (P.cfg id) (n.str id).s n.dec)
    exact this
  | recv id k =>
    unfold cap Net.Sys.step
    dsimp only
    have e1 : ((lift n msg pend pe).str id).fin = (n.str id).fin := rfl
    rw [e1]
    by_cases hf : (n.str id).fin = true
    · rw [if_pos hf, if_pos hf]; rfl
    · rw [if_neg hf, if_neg hf]
      have ew : ((lift n msg pend pe).str id).wire = (n.str id).wire ++ pend id := rfl
      have hm : min k (n.str id).wire.length ≤ (n.str id).wire.length := Nat.min_le_right _ _
      have ed : ((lift n msg pend pe).str id).wire.drop (min k (n.str id).wire.length) = (n.str id).wire.drop k ++ pend id := by
        rw [ew, List.drop_append_of_le_length hm]
        congr 1
        rcases Nat.le_total k (n.str id).wire.length with h | h
        · rw [Nat.min_eq_left h]
        · rw [Nat.min_eq_right h, List.drop_eq_nil_of_le h, List.drop_length]
      have et : ((lift n msg pend pe).str id).wire.take (min k (n.str id).wire.length) = (n.str id).wire.take k := by
        rw [ew, List.take_append_of_le_length hm]
        rcases Nat.le_total k (n.str id).wire.length with h | h
        · rw [Nat.min_eq_left h]
        · rw [Nat.min_eq_right h, List.take_of_length_le h, List.take_length]
      have ef : (((lift n msg pend pe).str id).ended && decide (((lift n msg pend pe).str id).wire.length ≤ min k (n.str id).wire.length)) = ((n.str id).ended && decide ((n.str id).wire.length ≤ k)) := by
        have e2 : ((lift n msg pend pe).str id).ended = (n.str id).ended := rfl
        rw [e2]
        cases hen : (n.str id).ended with
        | false => rfl
        | true =>
          rw [ew, he id hen, List.append_nil]
          simp
      rw [ed, et, ef]
      exact lift_after id { n.str id with wire := (n.str id).wire.drop k, fin := (n.str id).ended && decide ((n.str id).wire.length ≤ k) }
        (readStream (P.cfg id) (n.room P id) ((n.str id).ended && decide ((n.str id).wire.length ≤ k)) (n.str id).s n.dec ((n.str id).wire.take k))
  | readEnc k ord =>
    unfold cap Net.Sys.step
    dsimp only
    have hm : min k n.ech.length ≤ n.ech.length := Nat.min_le_right _ _
    have e1 : (lift n msg pend pe).ech = n.ech ++ pe := rfl
    have et : (lift n msg pend pe).ech.take (min k n.ech.length) = n.ech.take k := by
      rw [e1, List.take_append_of_le_length hm]
      rcases Nat.le_total k n.ech.length with h | h
      · rw [Nat.min_eq_left h]
      · rw [Nat.min_eq_right h, List.take_of_length_le h, List.take_length]
    have ed : (lift n msg pend pe).ech.drop (min k n.ech.length) = n.ech.drop k ++ pe := by
      rw [e1, List.drop_append_of_le_length hm]
      congr 1
      rcases Nat.le_total k n.ech.length with h | h
      · rw [Nat.min_eq_left h]
      · rw [Nat.min_eq_right h, List.drop_eq_nil_of_le h, List.drop_length]
    rw [et, ed]
    have e2 : (lift n msg pend pe).dec = n.dec := rfl
    rw [e2]
    cases n.dec.readEncoder (n.ech.take k) with
    | crash => rfl
    | fail d e => rfl
    | ok d =>
      exact lift_wakeAll (n := { n with dec := d, ech := n.ech.drop k }) ord

theorem lift_admits {o : NOp} (ho : receiver o = true) (h : n.admits P o) : (lift n msg pend pe).admits P (cap n o) := by
  cases o with
  | headers _ _ => cases ho
  | data _ _ => cases ho
  | fin _ => cases ho
  | setCap k => exact h
  | setMaxBlocked k => exact h
  | flush => exact h
  | deliver i => exact h
  | stop id => exact h
  | recv id k => exact h
  | readEnc k ord => exact ⟨h.1, Nat.le_trans (Nat.add_le_add_left (Nat.min_le_left _ _) _) h.2.1, h.2.2⟩

/-- histories of the network -/
theorem adm_append {a b : List NOp} {m : Net.Sys} (h1 : Net.Admissible P n a) (h2 : n.run P a = .ok m) (h3 : Net.Admissible P m b) : Net.Admissible P n (a ++ b) := by
  induction a generalizing n with
  | nil => cases h2; exact h3
  | cons o t ih =>
    refine ⟨h1.1, fun n1 hn => ?_⟩
    unfold Net.Sys.run at h2
    rw [hn] at h2
    exact ih (h1.2 n1 hn) h2

theorem run_append {a b : List NOp} {m : Net.Sys} (h2 : n.run P a = .ok m) : n.run P (a ++ b) = m.run P b := by
  induction a generalizing n with
  | nil => cases h2; rfl
  | cons o t ih =>
    unfold Net.Sys.run at h2
    rw [List.cons_append, Net.Sys.run]
    cases hs : n.step P o with
    | ok n1 => rw [hs] at h2; exact ih h2
    | crash => rw [hs] at h2; cases h2
    | fail e => rw [hs] at h2; cases h2
    | refused => rw [hs] at h2; cases h2

/-- reachable by an admissible history -/
def Reached (P : Par) (n : Net.Sys) : Prop := ∃ ops, Net.Admissible P (Net.init P) ops ∧ (Net.init P).run P ops = .ok n

theorem reached_step {o : NOp} (h : Reached P n) (ha : n.admits P o) (hs : n.step P o = .ok n') : Reached P n' := by
  obtain ⟨ops, h1, h2⟩ := h
  refine ⟨ops ++ [o], adm_append h1 h2 ⟨ha, fun _ _ => trivial⟩, ?_⟩
  rw [run_append h2, Net.Sys.run, hs]; rfl

/-- no operation that is admitted fails -/
theorem reached_ok {o : NOp} (hP : P.Ok) (h : Reached P n) (ha : n.admits P o) : ∃ n', n.step P o = .ok n' := by
  obtain ⟨ops, h1, h2⟩ := h
  obtain ⟨g1, g2⟩ := Net.net_init hP
  obtain ⟨n', l, g3, g4, g5⟩ := Net.net_run hP g1 g2 ops h1
  rw [h2] at g3; cases g3
  obtain ⟨n1, l1, g6, _⟩ := Net.net_step hP g4 g5 o ha
  exact ⟨n1, g6⟩

end Duo
end Nghttp3
