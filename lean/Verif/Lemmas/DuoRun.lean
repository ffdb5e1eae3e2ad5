import Verif.Lemmas.DuoWrite
/-! Two endpoints: every reachable state satisfies the invariant. -/
namespace Nghttp3
namespace Duo
open Http Qpack Bidi
open Conn (streamUni RInv SInv)
open Outq (R Frent Ans Emit EmitOk itemsBytes itemBytes dataAnswers EncodeOk FrentOk)
open Sent (Book Ledger Made Serve Serves servedSince note enter subm closes Permits)
open Net (SFrame NOp NRes Par NStr)

variable {P : Par} {e0 : ESys} {d : Duo} {log : List (Serve Fld)} {items : Nat → List Emit} {rest : Nat → List (Frent Fld)} {del pe : Bidi.Bytes}

/-- all calls of the sender -/
theorem dinv_call (hP : ∀ x ∈ P.ids, streamUni x = false) (h : DInv P e0 d log items rest del pe) {o : Conn.Op Fld} {c' : Conn.Conn ESys Fld} {r : Conn.Ret}
    (hp : Permits d.l d.c o) (e : Conn.step encode d.c o = .ok (c', r)) (hk : Keeps P d o r) (hg : ∀ x, d.gone x = true → c'.str x = none) :
    ∃ log items rest del pe, DInv P e0 (d.call o c' r) log items rest del pe := by
  by_cases h3 : ∃ k db as, o = .writev k db as
  · obtain ⟨k, db, as, rfl⟩ := h3
    obtain ⟨sv, it, p, g⟩ := dinv_write hP h hp e hg
    exact ⟨_, _, _, _, _, g⟩
  have h3 : ∀ k db as, o ≠ .writev k db as := fun k db as g => h3 ⟨k, db, as, g⟩
  by_cases hw : ∃ id n, o = .addWrite id n
  · obtain ⟨id, n, rfl⟩ := hw
    obtain ⟨a, b, g⟩ := dinv_take hP h hp e hg
    exact ⟨_, _, _, _, _, g⟩
  have hw : ∀ id n, o ≠ .addWrite id n := fun id n g => hw ⟨id, n, g⟩
  refine ⟨_, _, _, _, _, dinv_quiet hP h h3 hp e hk hg ?_ (fun x hx => after_taken h3 (after_call h h3 hp e hk hg x hx) (hw x)) (fun q hq => ?_)⟩
  · unfold Duo.sent
    cases o <;> first | rfl | exact absurd rfl (hw _ _)
  · obtain ⟨_, s, k1, _⟩ := h.rinv.inv.tqenc q hq
    rw [note_old k1]
    exact (enter_taken _ _ _ _ _ (hw q)).1

/-- what the receiver's operations leave alone -/
theorem after_keep {n n' : Net.Sys} {id : Nat} {st : NStr} {o : Out} (he : st.ended = (n.str id).ended) (h : n.after id st o = .ok n') :
    n'.sys = n.sys ∧ n'.ech = n.ech ∧ ∀ x, (n'.str x).ended = (n.str x).ended := by
  cases o with
  | crash => cases h
  | fail e => cases h
  | ok s dd ev k rest =>
    unfold Net.Sys.after at h
    cases h
    refine ⟨rfl, rfl, fun x => ?_⟩
    unfold Net.Sys.set
    dsimp only
    by_cases hx : x = id
    · rw [if_pos hx, hx]; exact he
    · rw [if_neg hx]

theorem wakeAll_keep {ord : List Nat} {n n' : Net.Sys} (h : Net.wakeAll P n ord = .ok n') : n'.sys = n.sys ∧ n'.ech = n.ech ∧ ∀ x, (n'.str x).ended = (n.str x).ended := by
  induction ord generalizing n with
  | nil => cases h; exact ⟨rfl, rfl, fun _ => rfl⟩
  | cons id t ih =>
    unfold Net.wakeAll at h
    rcases ha : n.after id (n.str id) (wake (P.cfg id) (n.room P id) (n.str id).s n.dec) with _ | _ | _ | n1 <;> rw [ha] at h
    · cases h
    · cases h
    · cases h
    · obtain ⟨g1, g2, g3⟩ := ih h
      obtain ⟨k1, k2, k3⟩ := after_keep rfl ha
      exact ⟨g1.trans k1, g2.trans k2, fun x => (g3 x).trans (k3 x)⟩

theorem net_keep {o : NOp} {n n' : Net.Sys} (ho : receiver o = true) (h : n.step P o = .ok n') :
    (n'.sys = n.sys ∨ Peer n.sys n'.sys) ∧ (∃ u, n.ech = u ++ n'.ech) ∧ ∀ x, (n'.str x).ended = (n.str x).ended := by
  cases o with
  | headers _ _ => cases ho
  | data _ _ => cases ho
  | fin _ => cases ho
  | setCap k =>
    unfold Net.Sys.step at h
    dsimp only at h
    split at h
    · rename_i s hs
      cases h
      exact ⟨.inr ⟨_, hs⟩, ⟨[], rfl⟩, fun _ => rfl⟩
    · cases h
  | setMaxBlocked k =>
    unfold Net.Sys.step at h
    dsimp only at h
    split at h
    · rename_i s hs
      cases h
      exact ⟨.inr ⟨_, hs⟩, ⟨[], rfl⟩, fun _ => rfl⟩
    · cases h
  | flush => cases h; exact ⟨.inl rfl, ⟨[], rfl⟩, fun _ => rfl⟩
  | deliver i =>
    unfold Net.Sys.step at h
    dsimp only at h
    split_ifs at h
    · split at h
      · cases h
      · cases h
      · rename_i s hs
        cases h
        exact ⟨.inr ⟨_, hs⟩, ⟨[], rfl⟩, fun _ => rfl⟩
    · cases h; exact ⟨.inl rfl, ⟨[], rfl⟩, fun _ => rfl⟩
  | stop id =>
    obtain ⟨g1, g2, g3⟩ := after_keep rfl h
    exact ⟨.inl g1, ⟨[], g2.symm⟩, g3⟩
  | recv id k =>
    unfold Net.Sys.step at h
    dsimp only at h
    by_cases hf : (n.str id).fin = true
    · rw [if_pos hf] at h
      cases h; exact ⟨.inl rfl, ⟨[], rfl⟩, fun _ => rfl⟩
    · rw [if_neg hf] at h
      obtain ⟨g1, g2, g3⟩ := after_keep (n := n) (id := id) (st := { n.str id with wire := (n.str id).wire.drop k, fin := (n.str id).ended && decide ((n.str id).wire.length ≤ k) }) rfl h
      exact ⟨.inl g1, ⟨[], g2.symm⟩, g3⟩
  | readEnc k ord =>
    unfold Net.Sys.step at h
    dsimp only at h
    split at h
    · cases h
    · cases h
    · obtain ⟨g1, g2, g3⟩ := wakeAll_keep h
      exact ⟨.inl g1, ⟨n.ech.take k, by rw [g2]; exact (List.take_append_drop k n.ech).symm⟩, g3⟩

theorem ended_pend (h : DInv P e0 d log items rest del pe) (x : Nat) (hx : (d.net.str x).ended = true) : (bytes (items x)).drop (d.book x).taken.length = [] := by
  obtain ⟨_, _, g⟩ := h.ended x hx
  rw [g, List.drop_length]

/-- the receiver's operations keep the invariant -/
theorem dinv_net (h : DInv P e0 d log items rest del pe) {o : NOp} {n : Net.Sys} (ho : receiver o = true) (ha : d.net.admits P o) (e : d.net.step P o = .ok n) :
    ∃ del, DInv P e0 { d with net := n, c := { d.c with enc := n.sys } } log items rest del pe := by
  obtain ⟨g1, ⟨u, g2⟩, g3⟩ := net_keep ho e
  have hr : RInv encode Peer e0 d.l { d.c with enc := n.sys } log := by
    rw [h.sys] at g1
    rcases g1 with g | g
    · rw [g]; exact h.rinv
    · exact Conn.rinv_peer h.rinv g
  refine ⟨del ++ u, hr, rfl, h.live, h.fresh, h.uni, h.strm, h.last, h.sealed, h.lsea, fun x hx => h.ended x (by rw [← g3 x]; exact hx), ?_, fun q hq => ?_, fun hw => ?_⟩
  · have := h.enc
    rw [g2] at this
    rw [this]
    simp only [List.append_assoc]
  · have := h.etak q hq
    rw [g2] at this
    simpa only [List.append_assoc] using this
  · have hwf : d.Wellformed P log := by
      intro x hx
      have := hw x hx
      dsimp only at this
      rw [g3 x] at this
      exact this
    refine reached_step (h.sim hwf) (lift_admits ho ha) ?_
    rw [lift_step ho (ended_pend h), e]; rfl

theorem dinv_init (hP : P.Ok) (server : Bool) (st : Settings) (hst : FrentOk (.settings st : Frent Fld)) :
    DInv P (ESys.init P.H) (init P server st) [] (fun _ => []) (fun _ => []) [] [] := by
  have hi : RInv encode Peer (ESys.init P.H) ({} : Ledger Fld) (Conn.init server st (ESys.init P.H)) [] := by
    refine ⟨Conn.init_inv _ _ _, hst, ⟨rfl, (fun p hp => by cases hp)⟩, .nil _, fun _ => rfl, fun _ => rfl, fun x s hx => ?_, fun x s hx => ?_⟩
    · cases hx
    · cases hx
  refine ⟨hi, rfl, (fun x s _ hx => by cases hx), fun _ _ _ => rfl, fun _ _ => rfl, fun x _ => ?_, (fun x s _ hx => by cases hx), (fun x _ hx => by cases hx), (fun x hx => by cases hx), (fun x hx => by cases hx), rfl, (fun q hq => by cases hq), fun _ => ?_⟩
  · exact ⟨.done [], rfl, (fun f hf => by cases hf), fun g => absurd rfl g, (fun i hi => by cases hi), List.prefix_refl _, Nat.zero_le _, (fun g => by cases g)⟩
  · exact ⟨[], trivial, rfl⟩

/-- the end of a stream arrives after all its bytes -/
def Fin (n : Net.Sys) : Prop := ∀ x, (n.str x).fin = true → (n.str x).ended = true ∧ (n.str x).wire = []

theorem after_fin {n n' : Net.Sys} {id : Nat} {st : NStr} {o : Out} (hf : Fin n) (he : st.fin = true → st.ended = true ∧ st.wire = []) (h : n.after id st o = .ok n') : Fin n' := by
  cases o with
  | crash => cases h
  | fail e => cases h
  | ok s dd ev k rest =>
    unfold Net.Sys.after at h
    cases h
    intro x
    unfold Net.Sys.set
    dsimp only
    by_cases hx : x = id
    · rw [if_pos hx]; exact he
    · rw [if_neg hx]; exact hf x

theorem wakeAll_fin {ord : List Nat} {n n' : Net.Sys} (hf : Fin n) (h : Net.wakeAll P n ord = .ok n') : Fin n' := by
  induction ord generalizing n with
  | nil => cases h; exact hf
  | cons id t ih =>
    unfold Net.wakeAll at h
    rcases ha : n.after id (n.str id) (wake (P.cfg id) (n.room P id) (n.str id).s n.dec) with _ | _ | _ | n1 <;> rw [ha] at h
    · cases h
    · cases h
    · cases h
    · exact ih (after_fin hf (hf id) ha) h

theorem net_fin {o : NOp} {n n' : Net.Sys} (hf : Fin n) (ho : receiver o = true) (h : n.step P o = .ok n') : Fin n' := by
  cases o with
  | headers _ _ => cases ho
  | data _ _ => cases ho
  | fin _ => cases ho
  | setCap k =>
    unfold Net.Sys.step at h
    dsimp only at h
    split at h
    · cases h; exact hf
    · cases h
  | setMaxBlocked k =>
    unfold Net.Sys.step at h
    dsimp only at h
    split at h
    · cases h; exact hf
    · cases h
  | flush => cases h; exact hf
  | deliver i =>
    unfold Net.Sys.step at h
    dsimp only at h
    split_ifs at h
    · split at h
      · cases h
      · cases h
      · cases h; exact hf
    · cases h; exact hf
  | stop id => exact after_fin hf (hf id) h
  | recv id k =>
    unfold Net.Sys.step at h
    dsimp only at h
    by_cases hfi : (n.str id).fin = true
    · rw [if_pos hfi] at h
      cases h; exact hf
    · rw [if_neg hfi] at h
      refine after_fin (n := n) (id := id) (st := { n.str id with wire := (n.str id).wire.drop k, fin := (n.str id).ended && decide ((n.str id).wire.length ≤ k) }) hf (fun g => ?_) h
      simp only [Bool.and_eq_true, decide_eq_true_eq] at g
      exact ⟨g.1, List.drop_eq_nil_of_le g.2⟩
  | readEnc k ord =>
    unfold Net.Sys.step at h
    dsimp only at h
    split at h
    · cases h
    · cases h
    · refine wakeAll_fin ?_ h
      exact hf

theorem call_fin (h : DInv P e0 d log items rest del pe) (hf : Fin d.net) (o : Conn.Op Fld) (c' : Conn.Conn ESys Fld) (r : Conn.Ret) : Fin (d.call o c' r).net := by
  have key : Fin (d.sent o) → Fin (d.call o c' r).net := fun g => g
  refine key ?_
  by_cases hw : ∃ id n, o = .addWrite id n
  · obtain ⟨id, n, rfl⟩ := hw
    unfold Duo.sent
    dsimp only
    rcases hc : d.c.str id with _ | s
    · rw [if_neg (by simp)]; exact hf
    rw [if_pos (show (some s).isSome = true from rfl)]
    by_cases hq : d.c.qenc = some id
    · rw [if_pos hq]; exact hf
    rw [if_neg hq]
    by_cases hu : streamUni id = true
    · rw [if_pos hu]; exact hf
    rw [if_neg hu]
    intro x
    by_cases hx : x = id
    · subst hx
      rw [set_at]
      dsimp only
      intro g
      obtain ⟨g1, g2⟩ := hf x g
      refine ⟨by rw [g1]; rfl, ?_⟩
      obtain ⟨k1, k2, k3⟩ := h.ended x g1
      obtain ⟨l1, l2, _⟩ := h.live x s k1 hc
      have := l2.pre.length_le
      rw [l1] at k3 this
      have hb := congrArg List.length k3
      unfold bytes at hb
      rw [List.length_append] at this
      have : (d.l.at x).offered = [] := List.eq_nil_of_length_eq_zero (by omega)
      rw [g2, this, List.take_nil]; rfl
    · unfold Net.Sys.set
      dsimp only
      rw [if_neg hx]; exact hf x
  · have : d.sent o = d.net := by
      unfold Duo.sent
      cases o <;> first | rfl | exact absurd ⟨_, _, rfl⟩ hw
    rw [this]; exact hf

theorem run_dinv (hP : P.Ok) (hu : ∀ x ∈ P.ids, streamUni x = false) {server : Bool} {st : Settings} (hst : FrentOk (.settings st : Frent Fld)) (h : Run P server st d) :
    (∃ log items rest del pe, DInv P (ESys.init P.H) d log items rest del pe) ∧ Fin d.net := by
  induction h with
  | init => exact ⟨⟨_, _, _, _, _, dinv_init hP server st hst⟩, (fun x g => by cases g)⟩
  | call _ hp e hk hg ih =>
    obtain ⟨⟨log, items, rest, del, pe, g⟩, g2⟩ := ih
    exact ⟨dinv_call hu g hp e hk hg, call_fin g g2 _ _ _⟩
  | net _ ho ha e ih =>
    obtain ⟨⟨log, items, rest, del, pe, g⟩, g2⟩ := ih
    obtain ⟨del', g'⟩ := dinv_net g ho ha e
    exact ⟨⟨_, _, _, _, _, g'⟩, net_fin g2 ho e⟩

end Duo
end Nghttp3
