import Verif.Lemmas.BidiKeep
/-! What the rest of the connection needs to know about reading a request stream. -/
namespace Nghttp3
namespace Bidi
open Http Qpack

variable {c : Cfg}

/-- the outcome of reading from a stream that is not deleted -/
structure RecvOk (c : Cfg) (room : Bool) (s : Str) (d : Dec) (s' : Str) (d' : Dec) (ev : List Ev) : Prop where
  inv : SInv s' d'
  same : SameEnc d d'
  closed : s'.closed = s.closed
  gone : s'.gone = s.gone
  shut : s'.shutRd = s.shutRd
  wait : s.blocked = false → s'.blocked = true → d'.ctx.next < s'.sc.ricnt
  stay : s.blocked = true → s'.blocked = true ∧ s'.sc = s.sc
  hu : HU s'.http
  evs : EvOk c ev
  room : s'.blocked = true → s.blocked = true ∨ room = true

theorem recv_ok (hpp : PpOk c.pp) (room fin : Bool) (s : Str) (d : Dec) (x : Bytes) (hs : SInv s d) (hu : HU s.http) :
    (∃ e, readStream c room fin s d x = .fail e) ∨ ∃ s' d' ev n rest, readStream c room fin s d x = .ok s' d' ev n rest ∧ RecvOk c room s d s' d' ev := by
  have h1 := recv_sim c room fin s d x hs
  have h2 := readStream_kp hpp room fin s d x hu
  unfold Sim at h1
  rcases ha : aRecv c room fin s.canon d x with _ | e | ⟨s1, d1, ob, n, r⟩ <;> rw [ha] at h1 <;> dsimp only at h1
  · exact .inl ⟨e, h1⟩
  obtain ⟨s', ev, n', rest, k1, k2, k3, k4, k5, k6, k7, k8⟩ := h1
  rw [k1] at h2
  obtain ⟨m1, m2, m3, m4⟩ := h2
  refine .inr ⟨s', d1, ev, n', rest, k1, ?_⟩
  suffices s'.closed = s.closed ∧ s'.gone = s.gone ∧ s'.shutRd = s.shutRd ∧ (s.blocked = false → s'.blocked = true → d1.ctx.next < s'.sc.ricnt) ∧
      (s.blocked = true → s'.blocked = true ∧ s'.sc = s.sc) from
    ⟨k6, k7, this.1, this.2.1, this.2.2.1, this.2.2.2.1, this.2.2.2.2, m2, m3 .nil, m4⟩
  unfold readStream at k1
  split_ifs at k1 with g0 g1
  · injection k1 with a1 a2; subst a1; exact ⟨rfl, rfl, rfl, (fun a b => by rw [a] at b; cases b), fun a => ⟨a, rfl⟩⟩
  all_goals
    unfold readBidi at k1
    split_ifs at k1 with g2 g3 g4
    · injection k1 with a1 a2; subst a1; exact ⟨rfl, rfl, rfl, (fun a b => by rw [show _ = true from b] at a; cases a), fun a => ⟨a, rfl⟩⟩
    · injection k1 with a1 a2; subst a1; exact ⟨rfl, rfl, rfl, (fun a b => by rw [show _ = true from b] at a; cases a), fun a => ⟨a, rfl⟩⟩
    · injection k1 with a1 a2; subst a1; exact ⟨rfl, rfl, rfl, (fun a b => by rw [show _ = true from b] at a; cases a), fun a => ⟨a, rfl⟩⟩
    · have hacc := k1 ▸ loop_acc c room fin (fuel x) _ d x false [] 0 (by exact inv_of hs.inv rfl rfl rfl rfl rfl) (by simp) (by exact eq_false_of_ne_true g3)
      obtain ⟨_, _, _, s0, ⟨f1, f2, f3, f4, f5⟩, hq⟩ := hacc
      have hnb : s.blocked = false := by simpa using g3
      rcases hq with ⟨q1, q2, rfl⟩ | ⟨q1, q2, q3, rfl⟩
      · exact ⟨f4, f5, f2, (fun _ b => by rw [b] at q1; cases q1), fun a => by rw [a] at hnb; cases hnb⟩
      · have hj : (justBlocked s0 rest).closed = s0.closed ∧ (justBlocked s0 rest).gone = s0.gone ∧ (justBlocked s0 rest).shutRd = s0.shutRd := by
          unfold justBlocked; split_ifs <;> exact ⟨rfl, rfl, rfl⟩
        exact ⟨hj.1.trans f4, hj.2.1.trans f5, hj.2.2.trans f2, fun _ _ => q2, fun a => by rw [a] at hnb; cases hnb⟩

theorem procLoop_wait (room : Bool) (f : Nat) (s : Str) (d : Dec) (ev : List Ev) (hi : Inv s d) (hb : s.blocked = false) :
    match procLoop c room f s d ev with
    | .ok s' d' _ _ _ => s'.closed = s.closed ∧ s'.gone = s.gone ∧ s'.shutRd = s.shutRd ∧ (s'.blocked = true → d'.ctx.next < s'.sc.ricnt)
    | _ => True := by
  induction f generalizing s d ev with
  | zero => trivial
  | succ f ih =>
    unfold procLoop
    rcases hin : s.inq with _ | ⟨b, t⟩ <;> dsimp only
    · exact ⟨rfl, rfl, rfl, fun a => by rw [a] at hb; cases hb⟩
    ·
      by_cases hsh : s.shutRd = true
      · have hr : readBidi c room (decide (t = []) && s.eof) s d b.data = .ok s d [] b.data.length [] := by unfold readBidi; rw [if_pos hsh]
        rw [hr]
        dsimp only
        rw [if_pos rfl, if_neg (by rw [hb]; simp)]
        exact ih { s with inq := t } d _ (inv_of hi rfl rfl rfl rfl rfl) hb
      · have hr : readBidi c room (decide (t = []) && s.eof) s d b.data = loop c room (decide (t = []) && s.eof) (fuel b.data) s d b.data false [] 0 := by
          unfold readBidi; rw [if_neg hsh, if_neg (by rw [hb]; simp)]
        rw [hr]
        have hacc := loop_acc c room (decide (t = []) && s.eof) (fuel b.data) s d b.data false [] 0 hi (by simp) hb
        generalize loop c room (decide (t = []) && s.eof) (fuel b.data) s d b.data false [] 0 = r at hacc ⊢
        cases r with
        | crash => trivial
        | fail e => trivial
        | ok s1 d1 ev1 n rest =>
          obtain ⟨i1, _, _, s0, ⟨f1, f2, f3, f4, f5⟩, hq⟩ := hacc
          have hj : (justBlocked s0 rest).closed = s0.closed ∧ (justBlocked s0 rest).gone = s0.gone ∧ (justBlocked s0 rest).shutRd = s0.shutRd := by
            unfold justBlocked; split_ifs <;> exact ⟨rfl, rfl, rfl⟩
          dsimp only
          rcases hq with ⟨q1, q2, rfl⟩ | ⟨q1, q2, q3, rfl⟩
          · rw [if_neg (by rw [q1]; simp)]
            have := ih { s1 with inq := if rest = [] then t else { b with data := rest } :: t } d1 (ev ++ ev1 ++ deferred n) (inv_of i1 rfl rfl rfl rfl rfl) q1
            generalize procLoop c room f { s1 with inq := if rest = [] then t else { b with data := rest } :: t } d1 (ev ++ ev1 ++ deferred n) = o at this ⊢
            cases o with
            | crash => trivial
            | fail e => trivial
            | ok s2 d2 ev2 n2 r2 => exact ⟨this.1.trans f4, this.2.1.trans f5, this.2.2.1.trans f2, this.2.2.2⟩
          · rw [if_pos (by exact q1)]
            exact ⟨hj.1.trans f4, hj.2.1.trans f5, hj.2.2.trans f2, fun _ => q2⟩

/-- the outcome of processing what a released stream has buffered -/
structure WakeOk (c : Cfg) (room : Bool) (s : Str) (d : Dec) (s' : Str) (d' : Dec) (ev : List Ev) : Prop where
  inv : SInv s' d'
  same : SameEnc d d'
  closed : s'.closed = s.closed
  gone : s'.gone = (s.gone || (!s'.blocked && s'.closed))
  wait : s'.blocked = true → d'.ctx.next < s'.sc.ricnt
  hu : HU s'.http
  evs : EvOk c ev
  room : s'.blocked = true → room = true

theorem wake_ok (hpp : PpOk c.pp) (room : Bool) (s : Str) (d : Dec) (hs : SInv s d) (hu : HU s.http) (hb : s.blocked = true) (hn : s.sc.ricnt ≤ d.ctx.next) :
    (∃ e, processBlocked c room { s with blocked := false } d = .fail e) ∨
      ∃ s' d' ev n rest, processBlocked c room { s with blocked := false } d = .ok s' d' ev n rest ∧ WakeOk c room s d s' d' ev := by
  have h1 := wake_sim c room s d hs
  have h2 := processBlocked_kp hpp room { s with blocked := false } d hu
  rw [show wake c room s d = processBlocked c room { s with blocked := false } d by unfold wake; rw [if_pos ⟨hb, hn⟩]] at h1
  unfold Sim at h1
  rcases ha : aWake c room s.canon d with _ | e | ⟨s1, d1, ob, n, r⟩ <;> rw [ha] at h1 <;> dsimp only at h1
  · exact .inl ⟨e, h1⟩
  obtain ⟨s', ev, n', rest, k1, k2, k3, k4, k5, k6, k7, k8⟩ := h1
  rw [k1] at h2
  obtain ⟨m1, m2, m3, m4⟩ := h2
  refine .inr ⟨s', d1, ev, n', rest, k1, ?_⟩
  suffices s'.closed = s.closed ∧ s'.gone = (s.gone || (!s'.blocked && s'.closed)) ∧ (s'.blocked = true → d1.ctx.next < s'.sc.ricnt) from
    ⟨k6, k7, this.1, this.2.1, this.2.2, m2, m3 .nil, fun g => (m4 g).resolve_left (by simp)⟩
  unfold processBlocked at k1
  have hw := procLoop_wait (c := c) room (s.inq.length + 1) { s with blocked := false } d [] (inv_of hs.inv rfl rfl rfl rfl rfl) rfl
  dsimp only at k1
  generalize procLoop c room (s.inq.length + 1) { s with blocked := false } d [] = o at hw k1
  cases o with
  | crash => cases k1
  | fail e => cases k1
  | ok s2 d2 ev2 n2 r2 =>
    dsimp only at k1 hw
    obtain ⟨w1, w2, w3, w4⟩ := hw
    split_ifs at k1 with g
    · injection k1 with a1 a2
      subst a1; subst a2
      refine ⟨w1, ?_, fun h => by unfold delete at h; dsimp only at h; rw [g.1] at h; cases h⟩
      unfold delete; dsimp only; rw [g.1, g.2]; simp
    · injection k1 with a1 a2
      subst a1; subst a2
      refine ⟨w1, ?_, w4⟩
      have : (!s2.blocked && s2.closed) = false := by
        cases h1 : s2.blocked <;> cases h2 : s2.closed <;> simp_all
      rw [this, Bool.or_false]; exact w2

end Bidi
end Nghttp3
