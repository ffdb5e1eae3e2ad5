import Verif.Lemmas.BidiLeft
import Verif.Lemmas.EndpointLog
/-! Where in the bytes of a request stream a whole connection is. -/
namespace Nghttp3
namespace Bidi
open Http Qpack

theorem Gave.left {a : List Ev} (h : Gave a) (b : List Ev) : Gave (a ++ b) := List.mem_append_left _ h
theorem Gave.right (a : List Ev) {b : List Ev} (h : Gave b) : Gave (a ++ b) := List.mem_append_right _ h

theorem almostDone_pos (fin : Bool) (s : Str) (d : Dec) (ev : List Ev) (n : Nat) :
    match almostDone fin s d ev n with
    | .ok s' _ ev' _ rest => rest = [] ∧ (Gave ev → Gave ev') ∧ ∀ seen, Pos s seen → Pos s' seen
    | _ => True := by
  unfold almostDone
  cases fin
  · exact ⟨rfl, id, fun _ => id⟩
  simp only [if_true]
  rcases hr : s.rst with _ | _ | _ | _ | _ | _ <;> dsimp only
  · split_ifs
    · trivial
    · rcases transit s.h s.http .msgEnd with _ | _ | _ | h' <;> dsimp only
      exact ⟨rfl, fun h => h.left _, fun seen h => h.same hr.symm rfl rfl⟩
  · exact ⟨rfl, id, fun _ => id⟩

theorem justBlocked_pos {s : Str} {rest seen : Bytes} (h : Pos s seen) : Pos (justBlocked s rest) seen := by
  unfold justBlocked
  split_ifs
  · exact h.same rfl rfl rfl
  · exact h

/-- callbacks are only added -/
theorem loop_mono (c : Cfg) (room fin : Bool) (f : Nat) (s : Str) (d : Dec) (x : Bytes) (b : Bool) (ev : List Ev) (n : Nat) (h : Gave ev) :
    match loop c room fin f s d x b ev n with
    | .ok _ _ ev' _ _ => Gave ev'
    | _ => True := by
  have ha : ∀ s d ev n, Gave ev → match almostDone fin s d ev n with
      | .ok _ _ ev' _ _ => Gave ev'
      | _ => True := by
    intro s d ev n h
    have ha := almostDone_pos fin s d ev n
    generalize almostDone fin s d ev n = o at ha ⊢
    cases o with
    | ok => exact ha.2.1 h
    | _ => trivial
  induction f generalizing s d x b ev n with
  | zero => trivial
  | succ f ih =>
    unfold loop
    by_cases h0 : x = [] ∧ b = false
    · rw [if_pos h0]; exact ha _ _ _ _ h
    rw [if_neg h0]
    rcases step c room fin s d x with _ | e | ⟨s', d', rest, b', ev', n'⟩ | ⟨s', d', ev', n'⟩ | ⟨s', d', rest, ev', n'⟩ <;> dsimp only
    · exact ih _ _ _ _ _ _ (h.left _)
    · exact ha _ _ _ _ (h.left _)
    · exact h.left _

/-- the bytes of one call -/
theorem loop_pos (c : Cfg) (room fin : Bool) (f : Nat) (s : Str) (d : Dec) (x seen : Bytes) (b : Bool) (ev : List Ev) (n : Nat) (hi : Inv s d)
    (hb : b = true → s.rst = .ignFrame ∨ s.rst = .ignRest) (hp : Gave ev ∨ Pos s seen) :
    match loop c room fin f s d x b ev n with
    | .ok s' _ ev' _ rest => Gave ev' ∨ ∃ p, x = p ++ rest ∧ Pos s' (seen ++ p)
    | _ => True := by
  induction f generalizing s d x seen b ev n with
  | zero => trivial
  | succ f ih =>
    unfold loop
    by_cases h0 : x = [] ∧ b = false
    · rw [if_pos h0]
      have ha := almostDone_pos fin s d ev n
      generalize almostDone fin s d ev n = o at ha ⊢
      cases o with
      | crash => trivial
      | fail e => trivial
      | ok s' d' ev' n' rest =>
        obtain ⟨rfl, a1, a2⟩ := ha
        exact hp.imp a1 fun k => ⟨[], h0.1, by rw [List.append_nil]; exact a2 _ k⟩
    rw [if_neg h0]
    have hx : x ≠ [] ∨ s.rst = .ignFrame ∨ s.rst = .ignRest := by
      by_cases hx : x = []
      · right; apply hb; cases b <;> simp_all
      · left; exact hx
    have hacc := step_acc c room fin s d x hi hx
    have hpos : Gave ev ∨ _ := hp.imp id fun k => step_pos c room fin s d x seen k hx
    rcases hs : step c room fin s d x with _ | e | ⟨s', d', rest, b', ev', n'⟩ | ⟨s', d', ev', n'⟩ | ⟨s', d', rest, ev', n'⟩ <;> rw [hs] at hacc hpos <;> dsimp only at hacc hpos ⊢
    · obtain ⟨h1, h2, _⟩ := hacc
      rcases hpos with g | ⟨p, hp1, hp2⟩
      · have := loop_mono c room fin f s' d' rest b' (ev ++ ev') (n + n') (g.left _)
        generalize loop c room fin f s' d' rest b' (ev ++ ev') (n + n') = o at this ⊢
        cases o with
        | ok => exact .inl this
        | _ => trivial
      · have := ih s' d' rest (seen ++ p) b' (ev ++ ev') (n + n') h1 h2 (hp2.imp (fun k => k.right _) id)
        generalize loop c room fin f s' d' rest b' (ev ++ ev') (n + n') = o at this ⊢
        cases o with
        | crash => trivial
        | fail e => trivial
        | ok s2 d2 ev2 n2 rest2 =>
          refine this.imp id ?_
          rintro ⟨p2, k1, k2⟩
          exact ⟨p ++ p2, by rw [hp1, k1, List.append_assoc], by rw [← List.append_assoc]; exact k2⟩
    · have ha := almostDone_pos fin s' d' (ev ++ ev') (n + n')
      generalize almostDone fin s' d' (ev ++ ev') (n + n') = o at ha ⊢
      cases o with
      | crash => trivial
      | fail e => trivial
      | ok s2 d2 ev2 n2 rest =>
        obtain ⟨rfl, a1, a2⟩ := ha
        rcases hpos with g | g
        · exact .inl (a1 (g.left _))
        · exact .inr ⟨x, (List.append_nil _).symm, a2 _ g⟩
    · rcases hpos with g | ⟨p, hp1, hp2⟩
      · exact .inl (g.left _)
      · exact .inr ⟨p, hp1, justBlocked_pos hp2⟩

theorem justBlocked_buffered {s0 : Str} (rest : Bytes) (h : s0.inq = []) : buffered (justBlocked s0 rest) = rest := by
  unfold justBlocked buffered
  rw [h]
  by_cases hr : rest = []
  · rw [if_neg (fun k => k.1 hr), h, hr]; rfl
  · rw [if_pos ⟨hr, rfl⟩]
    have := (bufferData_flat [] rest (by simp [BufOk])).1
    simpa using this

theorem justBlocked_flags (s0 : Str) (rest : Bytes) : (justBlocked s0 rest).shutRd = s0.shutRd ∧ (justBlocked s0 rest).gone = s0.gone ∧ (justBlocked s0 rest).blocked = s0.blocked ∧
    (s0.inq ≠ [] → BufOk s0.inq → (justBlocked s0 rest).inq = s0.inq) := by
  unfold justBlocked
  split_ifs with h
  · refine ⟨rfl, rfl, rfl, fun h1 h2 => ?_⟩
    exact absurd h.2 ((bufferedLen_pos h2).resolve_left h1)
  · exact ⟨rfl, rfl, rfl, fun _ _ => rfl⟩

/-- a call of nghttp3_conn_read_stream -/
theorem readStream_pos (c : Cfg) (room fin : Bool) (s : Str) (d : Dec) (src seen : Bytes) (hi : SInv s d) (hs : s.shutRd = false) (hp : Pos s seen) :
    match readStream c room fin s d src with
    | .ok s' _ ev _ _ => s'.shutRd = false ∧ (Gave ev ∨ ∃ p, buffered s ++ src = p ++ buffered s' ∧ Pos s' (seen ++ p))
    | _ => True := by
  have keep : ∀ s' : Str, s'.rst = s.rst → s'.rv = s.rv → s'.left = s.left → Pos s' (seen ++ []) := fun s' h1 h2 h3 => by
    rw [List.append_nil]; exact hp.same h1 h2 h3
  unfold readStream
  by_cases h0 : src = [] ∧ fin = false
  · rw [if_pos h0, h0.1]
    exact ⟨hs, .inr ⟨[], by simp, keep _ rfl rfl rfl⟩⟩
  rw [if_neg h0]
  generalize hs1 : (if fin = true then { s with eof := true } else s) = s1
  have e1 : s1.rst = s.rst ∧ s1.rv = s.rv ∧ s1.left = s.left ∧ s1.shutRd = s.shutRd ∧ s1.inq = s.inq ∧ s1.blocked = s.blocked ∧ Inv s1 d := by
    rw [← hs1]; split_ifs
    · exact ⟨rfl, rfl, rfl, rfl, rfl, rfl, inv_of hi.inv rfl rfl rfl rfl rfl⟩
    · exact ⟨rfl, rfl, rfl, rfl, rfl, rfl, hi.inv⟩
  obtain ⟨f1, f2, f3, f4, f5, f6, hi1⟩ := e1
  have fb : buffered s1 = buffered s := by unfold buffered; rw [f5]
  unfold readBidi
  rw [if_neg (by rw [f4, hs]; simp)]
  by_cases hb : s1.blocked = true
  · rw [if_pos hb]
    by_cases hx : src = []
    · rw [if_pos hx, hx]
      exact ⟨f4.trans hs, .inr ⟨[], by rw [fb]; simp, keep _ f1 f2 f3⟩⟩
    · rw [if_neg hx]
      refine ⟨f4.trans hs, .inr ⟨[], ?_, keep _ f1 f2 f3⟩⟩
      have := (bufferData_flat s1.inq src (by rw [f5]; exact hi.buf)).1
      show _ = [] ++ (bufferData s1.inq src).flatMap Buf.data
      rw [this, f5]; rfl
  · rw [if_neg hb]
    have hb : s1.blocked = false := by simpa using hb
    have hq : s.inq = [] := by
      by_cases k : s.inq = []
      · exact k
      · have := hi.inq k; rw [← f6, hb] at this; cases this
    have hacc := loop_acc c room fin (fuel src) s1 d src false [] 0 hi1 (by simp) hb
    have hpos := loop_pos c room fin (fuel src) s1 d src seen false [] 0 hi1 (by simp) (.inr (hp.same f1 f2 f3))
    generalize loop c room fin (fuel src) s1 d src false [] 0 = o at hacc hpos ⊢
    cases o with
    | crash => trivial
    | fail e => trivial
    | ok s' d' ev' n' rest =>
      dsimp only at hacc hpos ⊢
      obtain ⟨_, _, _, s0, ⟨g1, g2, g3, g4, g5⟩, hz⟩ := hacc
      have hbs : buffered s = [] := by unfold buffered; rw [hq]; rfl
      rcases hz with ⟨z1, rfl, rfl⟩ | ⟨z1, _, _, rfl⟩
      · refine ⟨g2.trans (f4.trans hs), hpos.imp id ?_⟩
        rintro ⟨p, k1, k2⟩
        refine ⟨p, ?_, k2⟩
        unfold buffered at hbs ⊢
        rw [g1, f5, hq, k1]; simp
      · refine ⟨(justBlocked_flags s0 rest).1.trans (g2.trans (f4.trans hs)), hpos.imp id ?_⟩
        rintro ⟨p, k1, k2⟩
        exact ⟨p, by rw [hbs, justBlocked_buffered rest (by rw [g1, f5, hq]), k1]; rfl, k2⟩

/-- the bytes of a stream that is no longer blocked -/
theorem procLoop_pos (c : Cfg) (room : Bool) (f : Nat) (s : Str) (d : Dec) (ev : List Ev) (seen : Bytes) (hi : Inv s d) (hb : s.blocked = false) (hs : s.shutRd = false)
    (hq : BufOk s.inq) (hp : Gave ev ∨ Pos s seen) :
    match procLoop c room f s d ev with
    | .ok s' _ ev' _ _ => s'.shutRd = false ∧ (Gave ev' ∨ ∃ p, buffered s = p ++ buffered s' ∧ Pos s' (seen ++ p))
    | _ => True := by
  induction f generalizing s d ev seen with
  | zero => trivial
  | succ f ih =>
    unfold procLoop
    rcases hin : s.inq with _ | ⟨b, t⟩ <;> dsimp only
    · exact ⟨hs, hp.imp id fun k => ⟨[], rfl, by rw [List.append_nil]; exact k⟩⟩
    · have hr : readBidi c room (decide (t = []) && s.eof) s d b.data = loop c room (decide (t = []) && s.eof) (fuel b.data) s d b.data false [] 0 := by
        unfold readBidi; rw [if_neg (by rw [hs]; simp), if_neg (by rw [hb]; simp)]
      rw [hr]
      have hacc := loop_acc c room (decide (t = []) && s.eof) (fuel b.data) s d b.data false [] 0 hi (by simp) hb
      have hpos : Gave ev ∨ _ := hp.imp id fun k => loop_pos c room (decide (t = []) && s.eof) (fuel b.data) s d b.data seen false [] 0 hi (by simp) (.inr k)
      generalize loop c room (decide (t = []) && s.eof) (fuel b.data) s d b.data false [] 0 = o at hacc hpos ⊢
      cases o with
      | crash => trivial
      | fail e => trivial
      | ok s1 d1 ev1 n rest =>
        dsimp only at hacc hpos ⊢
        obtain ⟨i1, _, _, s0, ⟨g1, g2, g3, g4, g5⟩, hz⟩ := hacc
        have hbt : BufOk t := fun x hx => hq x (by rw [hin]; exact List.mem_cons_of_mem _ hx)
        have hbuf : buffered s = b.data ++ t.flatMap Buf.data := by unfold buffered; rw [hin]; rfl
        rcases hz with ⟨z1, rfl, rfl⟩ | ⟨z1, _, _, rfl⟩
        · rw [if_neg (by rw [z1]; simp), if_pos rfl]
          have hp' : Gave (ev ++ ev1 ++ deferred n) ∨ Pos { s1 with inq := t } (seen ++ b.data) := by
            rcases hpos with k | k | ⟨p, k1, k2⟩
            · exact .inl ((k.left _).left _)
            · exact .inl ((k.right _).left _)
            · rw [List.append_nil] at k1
              rw [k1]; exact .inr (k2.same rfl rfl rfl)
          have := ih { s1 with inq := t } d1 _ (seen ++ b.data) (inv_of i1 rfl rfl rfl rfl rfl) z1 (g2.trans hs) hbt hp'
          generalize procLoop c room f { s1 with inq := t } d1 (ev ++ ev1 ++ deferred n) = o at this ⊢
          cases o with
          | crash => trivial
          | fail e => trivial
          | ok s2 d2 ev2 n2 r2 =>
            refine ⟨this.1, this.2.imp id ?_⟩
            rintro ⟨p, k1, k2⟩
            exact ⟨b.data ++ p, by rw [hbuf, List.append_assoc, ← k1]; rfl, by rw [← List.append_assoc]; exact k2⟩
        · rw [if_pos (by exact z1)]
          refine ⟨(justBlocked_flags s0 rest).1.trans (g2.trans hs), ?_⟩
          rcases hpos with k | k | ⟨p, k1, k2⟩
          · exact .inl ((k.left _).left _)
          · exact .inl ((k.right _).left _)
          · refine .inr ⟨p, ?_, k2.same rfl rfl rfl⟩
            rw [hbuf, k1]
            unfold buffered
            dsimp only
            split_ifs with hr0
            · rw [hr0]; simp
            · simp

end Bidi

namespace Endpoint
open Conn (clientBidi)
open Qpack (Dec)

variable {P : Par} {K : Bidi.Cfg} {Q : Bool → List Http.Field → Prop} {S : Prop}

/-- where the stream is in the bytes that have arrived -/
def Live (o : Option Bidi.Str) (bytes : Bytes) : Prop :=
  match o with
  | none => bytes = []
  | some s => s.shutRd = false ∧ ∃ seen, bytes = seen ++ Bidi.buffered s ∧ Bidi.Pos s seen

/-- the stream has not been given up -/
def StillOn (e : List Bidi.Ev) : Prop := Bidi.Ev.streamClose ∉ e ∧ ∀ code, Bidi.Ev.resetStream code ∉ e

theorem StillOn.gave {e : List Bidi.Ev} (h : StillOn e) : ¬ Bidi.Gave e := h.2 _

theorem Move.live {a b : Option Bidi.Str} {g : List (Bytes × Bool)} {e : List Bidi.Ev} {u : Int} (m : Move K Q False a g e u b) {bytes : Bytes} (ha : Live a bytes) (he : StillOn e) :
    Live b (bytes ++ g.flatMap fun p => p.1) := by
  cases m with
  | made req k =>
    rw [show bytes = [] from ha]
    exact ⟨rfl, [], rfl, [], [], rfl, Bidi.closed_nil, rfl, Bidi.unknown_nil⟩
  | refused k => exact absurd (by simp) (he.2 0x010b)
  | recv s d b room fin src s' d' _ n rest hs k =>
    obtain ⟨h1, seen, rfl, h2⟩ := ha
    have hs' : Bidi.SInv { s with priFixed := b } d := ⟨Bidi.inv_of hs.inv rfl rfl rfl rfl rfl, hs.buf, hs.inq, hs.blk⟩
    have := Bidi.readStream_pos K room fin { s with priFixed := b } d src seen hs' h1 (h2.same rfl rfl rfl)
    rw [k] at this
    obtain ⟨k1, k2⟩ := this
    obtain ⟨p, k3, k4⟩ := k2.resolve_left he.gave
    refine ⟨k1, seen ++ p, ?_, k4⟩
    rw [List.append_assoc seen p, ← k3]
    show seen ++ Bidi.buffered s ++ (src ++ []) = seen ++ (Bidi.buffered s ++ src)
    rw [List.append_nil, List.append_assoc]
  | woken s d b room s' d' _ n rest hs hg hb hn k =>
    obtain ⟨h1, seen, rfl, h2⟩ := ha
    have := Bidi.procLoop_pos K room (s.inq.length + 1) { s with blocked := false, priFixed := b } d [] seen (Bidi.inv_of hs.inv rfl rfl rfl rfl rfl) rfl h1 hs.buf (.inr (h2.same rfl rfl rfl))
    have hg' := Bidi.procLoop_wait (c := K) room (s.inq.length + 1) { s with blocked := false, priFixed := b } d [] (Bidi.inv_of hs.inv rfl rfl rfl rfl rfl) rfl
    unfold Bidi.processBlocked at k
    dsimp only at k
    generalize Bidi.procLoop K room (s.inq.length + 1) { s with blocked := false, priFixed := b } d [] = o at this hg' k
    cases o with
    | crash => cases k
    | fail e => cases k
    | ok s2 d2 ev2 n2 r2 =>
      dsimp only at k this hg'
      split_ifs at k with hd
      · injection k with a1 a2 a3
        rw [← a3] at he
        exact absurd (by unfold Bidi.delete; simp) he.1
      · injection k with a1 a2 a3
        subst a1; subst a3
        obtain ⟨k1, k2⟩ := this
        obtain ⟨p, k3, k4⟩ := k2.resolve_left he.gave
        rw [hg'.2.1, show (({ s with blocked := false, priFixed := b } : Bidi.Str)).gone = false from hg]
        refine ⟨k1, seen ++ p, ?_, k4⟩
        rw [List.append_assoc seen p, ← k3]
        show seen ++ Bidi.buffered s ++ [] = seen ++ Bidi.buffered s
        rw [List.append_nil]
  | shut s k => exact k.elim
  | closed s d s' d' _ n rest hs hg k =>
    obtain ⟨h1, seen, rfl, h2⟩ := ha
    unfold Bidi.closeStream at k
    split_ifs at k
    · injection k with a1 a2 a3
      subst a1
      rw [show ({ s with closed := true } : Bidi.Str).gone = false from hg]
      exact ⟨h1, seen, by simp [Bidi.buffered], h2.same rfl rfl rfl⟩
    · injection k with a1 a2 a3
      rw [← a3] at he
      exact absurd (by unfold Bidi.delete; simp) he.1

theorem Chain.live {a b : Option Bidi.Str} {g : List (Bytes × Bool)} {e : List Bidi.Ev} {u : Int} (m : Chain K Q False a g e u b) {bytes : Bytes} (ha : Live a bytes) (he : StillOn e) :
    Live b (bytes ++ g.flatMap fun p => p.1) := by
  induction m with
  | refl => simpa using ha
  | step _ m ih =>
    have h1 := ih ⟨fun k => he.1 (List.mem_append_left _ k), fun c k => he.2 c (List.mem_append_left _ k)⟩
    have h2 := m.live h1 ⟨fun k => he.1 (List.mem_append_right _ k), fun c k => he.2 c (List.mem_append_right _ k)⟩
    rwa [List.append_assoc, ← List.flatMap_append] at h2

end Endpoint
end Nghttp3
