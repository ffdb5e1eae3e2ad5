import Verif.Lemmas.BidiCanon
/-! Operations on a request stream, up to the way its buffers and events are cut into pieces. -/
namespace Nghttp3
namespace Bidi
open Http Qpack

/-- states between calls -/
structure SInv (s : Str) (d : Dec) : Prop where
  inv : Inv s d
  buf : BufOk s.inq
  inq : s.inq ≠ [] → s.blocked = true
  blk : s.blocked = true → s.rst = .headers

theorem canon_flags (s : Str) : s.canon.blocked = s.blocked ∧ s.canon.shutRd = s.shutRd ∧ s.canon.eof = s.eof ∧ s.canon.closed = s.closed ∧ s.canon.gone = s.gone ∧
    buffered s.canon = buffered s ∧ s.canon.inq = pack (buffered s) := by
  have := norm_flags s
  exact ⟨this.2.1, this.2.2.1, this.2.2.2.1, this.2.2.2.2.1, this.2.2.2.2.2, (pack_flat _).1, rfl⟩

theorem abs_ok {o : Out} {s d ob n rest} (h : o.abs = .ok s d ob n rest) : ∃ s' ev, o = .ok s' d ev n rest ∧ s'.norm = s ∧ obs ev = ob := by
  cases o with
  | crash => cases h
  | fail e => cases h
  | ok s' d' ev n' rest' => cases h; exact ⟨s', ev, rfl, rfl, rfl⟩

theorem abs_fail {o : Out} {e} (h : o.abs = .fail e) : o = .fail e := by
  cases o with
  | crash => cases h
  | fail e' => cases h; rfl
  | ok => cases h

theorem fuel_ok (s : Str) (d : Dec) (o : List Obs) (n : Nat) (x : Bytes) : 8 * x.length + rank ⟨s, d, o, n⟩ < fuel x := by
  unfold fuel rank; split_ifs <;> omega

theorem norm_eof (s : Str) (e : Bool) : { s with eof := e }.norm = { s.norm with eof := e } := by
  unfold Str.norm
  by_cases h : s.rst = .ignRest
  · rw [if_pos (by exact h), if_pos h]
  · rw [if_neg (by exact h), if_neg h]

/-- what the loop does, compared with the canonical call -/
theorem loop_sim (c : Cfg) (room fin : Bool) (s : Str) (d : Dec) (x : Bytes) (hi : Inv s d) (hb : s.blocked = false)
    (hq : s.inq = [] ∨ bufferedLen s.inq ≠ 0) :
    match aBidi c room fin { s with inq := [] } d x with
    | .crash => False
    | .fail e => loop c room fin (fuel x) s d x false [] 0 = .fail e
    | .ok s1 d1 o n _ => ∃ s' ev rest, loop c room fin (fuel x) s d x false [] 0 = .ok s' d1 ev n rest ∧ obs ev = o ∧ deferredLen ev = 0 ∧
        n + dataLen ev + rest.length = x.length ∧ Inv s' d1 ∧ SameEnc d d1 ∧ s'.shutRd = s.shutRd ∧ s'.eof = s.eof ∧ s'.closed = s.closed ∧ s'.gone = s.gone ∧
        ((s'.blocked = false ∧ rest = [] ∧ s'.inq = s.inq ∧ s1 = { s'.norm with inq := [] }) ∨
          (s'.blocked = true ∧ s'.rst = .headers ∧ s1 = { s'.norm with inq := pack rest } ∧
            s'.inq = if s.inq = [] ∧ rest ≠ [] then bufferData [] rest else s.inq)) := by
  have hi0 : Inv { s with inq := [] } d := ⟨hi.ctx, hi.wf, hi.idle, hi.rv, hi.hok, hi.left⟩
  have hsafe := aBidi_safe c room fin { s with inq := [] } d x hi0 hb
  have habs := loop_abs c room fin (fuel x) s d x false [] 0 hi (by simp) (fuel_ok _ _ _ _ _)
  have hacc := loop_acc c room fin (fuel x) s d x false [] 0 hi (by simp) hb
  have hsame := loop_same c room fin (fuel x) s d x false [] 0 hi (by simp)
  have hchg := run_chg s.inq s.shutRd s.eof s.closed s.gone [] 0 c room ⟨{ s with inq := [] }, d, [], 0⟩ x
  rw [show chg s.inq s.shutRd s.eof s.closed s.gone [] 0 ⟨{ s with inq := [] }, d, [], 0⟩ = ⟨s, d, obs [], 0⟩ from rfl] at hchg
  rw [show Machine.run (mStep c room) rank ⟨s, d, obs [], 0⟩ x false = bRun c room ⟨s, d, obs [], 0⟩ x from rfl, hchg] at habs
  have hf := run_facts c room { s with inq := [] } d [] 0 x hi0 hb
  unfold aBidi at hsafe ⊢
  rcases hr : bRun c room ⟨{ s with inq := [] }, d, [], 0⟩ x with _ | (e | _) | ⟨_ | m, rest⟩ | m <;> rw [hr] at hf habs hsafe <;> dsimp only at hf <;>
    dsimp only [Machine.Out.map, chgStop, aFinish, finish] at habs hsafe ⊢
  · exact abs_fail habs
  · -- blocked
    obtain ⟨s', ev, h1, h2, h3⟩ := abs_ok habs
    rw [h1] at hacc hsame
    dsimp only at hacc hsame
    obtain ⟨a1, a2, a3, s0, a4, a5⟩ := hacc
    simp only [chg] at h1 h2 h3 a1 a2
    rw [List.nil_append] at h3
    rw [Nat.zero_add] at h1 a2
    have hmb : (m.s.setf s.inq s.shutRd s.eof s.closed s.gone).rst = .headers := hf.2.2
    have hj : ∃ q, justBlocked (m.s.setf s.inq s.shutRd s.eof s.closed s.gone) rest = m.s.setf q s.shutRd s.eof s.closed s.gone ∧
        q = if s.inq = [] ∧ rest ≠ [] then bufferData [] rest else s.inq := by
      unfold justBlocked
      rw [show (m.s.setf s.inq s.shutRd s.eof s.closed s.gone).inq = s.inq from rfl]
      rcases hq with hq | hq
      · rw [hq]
        by_cases h0 : rest = []
        · rw [if_neg (by simp [h0]), if_neg (by simp [h0])]; exact ⟨[], rfl, rfl⟩
        · rw [if_pos ⟨h0, rfl⟩, if_pos ⟨rfl, h0⟩]; exact ⟨_, rfl, rfl⟩
      · rw [if_neg (by simp [hq]), if_neg (by intro h; rw [h.1] at hq; exact hq rfl)]; exact ⟨_, rfl, rfl⟩
    obtain ⟨q, hj1, hj2⟩ := hj
    rw [hj1, norm_of_ne (s := m.s.setf q s.shutRd s.eof s.closed s.gone) (by rw [show (m.s.setf q s.shutRd s.eof s.closed s.gone).rst = m.s.rst from rfl, hf.2.2]; simp)] at h2
    have hs' : s' = m.s.setf q s.shutRd s.eof s.closed s.gone := by
      rw [← h2, norm_of_ne]
      rw [← norm_rst, h2]
      show m.s.rst ≠ _
      rw [hf.2.2]; simp
    refine ⟨s', ev, rest, h1, h3, a3, by rw [a2]; show 0 + 0 + _ = _; omega, a1, hsame, by rw [hs']; rfl, by rw [hs']; rfl, by rw [hs']; rfl, by rw [hs']; rfl, Or.inr ⟨?_, ?_, ?_, ?_⟩⟩
    · rw [hs']; exact hf.2.1
    · rw [hs']; exact hf.2.2
    · rw [norm_of_ne (s := s') (by rw [hs']; show m.s.rst ≠ _; rw [hf.2.2]; simp), norm_of_ne (s := m.s) (by rw [hf.2.2]; simp), hs']
      unfold Str.setf
      rw [← hf.1.2.1, ← hf.1.2.2.1, ← hf.1.2.2.2.1, ← hf.1.2.2.2.2]
    · rw [hs']; exact hj2
  · -- all input was processed
    rw [show aDone fin (chg s.inq s.shutRd s.eof s.closed s.gone [] 0 m) = (aDone fin m).mapS (·.setf s.inq s.shutRd s.eof s.closed s.gone) by
      unfold chg; rw [aDone_setf, List.nil_append, Nat.zero_add]] at habs
    have hfl : match aDone fin m with
        | .ok s' _ _ _ r => Flags { s with inq := [] } s' ∧ s'.blocked = false ∧ r = []
        | _ => True := by
      unfold aDone
      have hn := norm_flags m.s
      cases fin
      · exact ⟨hf.2.1.norm, hn.2.1.trans hf.2.2, rfl⟩
      simp only [if_true]
      rcases m.s.rst with _ | _ | _ | _ | _ | _ <;> dsimp only <;> try trivial
      · split_ifs
        · trivial
        · rcases transit m.s.h m.s.http .msgEnd with _ | _ | _ | h' <;> dsimp only
          have hn := norm_flags { m.s with h := h', rst := .frameType }
          exact ⟨Flags.norm (s' := { m.s with h := h', rst := .frameType }) ⟨hf.2.1.1, hf.2.1.2⟩, hn.2.1.trans hf.2.2, rfl⟩
      · exact ⟨hf.2.1.norm, hn.2.1.trans hf.2.2, rfl⟩
    rcases hd : aDone fin m with _ | e | ⟨s1, d1, o, n, r⟩ <;> rw [hd] at habs hsafe hfl <;> dsimp only [ARes.mapS] at habs hsafe hfl ⊢
    · exact hsafe rfl
    · exact abs_fail habs
    · obtain ⟨s', ev, h1, h2, h3⟩ := abs_ok habs
      rw [h1] at hacc hsame
      dsimp only at hacc hsame
      obtain ⟨a1, a2, a3, s0, a4, a5⟩ := hacc
      have hn := norm_flags s'
      have hbl : s'.blocked = false := by rw [← hn.2.1, h2]; exact hfl.2.1
      refine ⟨s', ev, r, h1, h3, a3, by rw [a2]; show 0 + 0 + _ = _; omega, a1, hsame, by rw [← hn.2.2.1, h2]; rfl, by rw [← hn.2.2.2.1, h2]; rfl,
        by rw [← hn.2.2.2.2.1, h2]; rfl, by rw [← hn.2.2.2.2.2, h2]; rfl, Or.inl ⟨hbl, hfl.2.2, by rw [← hn.1, h2]; rfl, ?_⟩⟩
      rw [h2]
      unfold Str.setf
      rw [← hfl.1.2.1, ← hfl.1.2.2.1, ← hfl.1.2.2.2.1, ← hfl.1.2.2.2.2]
      have := hfl.1.1
      dsimp only at this
      rw [← this]

/-- an outcome, compared with the canonical one: `x` bytes were received -/
def Sim (s : Str) (d : Dec) (x : Nat) (a : ARes) (out : Out) : Prop :=
  match a with
  | .crash => False
  | .fail e => out = .fail e
  | .ok s1 d1 o n _ => ∃ s' ev n' rest, out = .ok s' d1 ev n' rest ∧ s'.canon = s1 ∧ obs ev = o ∧ n' + deferredLen ev = n ∧
      n + dataLen ev + (buffered s').length = x + (buffered s).length ∧ SInv s' d1 ∧ SameEnc d d1 ∧
      (s'.gone = s.gone ∨ s'.inq = [])

/-! ### nghttp3_conn_read_stream -/

def aRecv (c : Cfg) (room fin : Bool) (s : Str) (d : Dec) (x : Bytes) : ARes :=
  if x = [] ∧ fin = false then .ok s d [] 0 []
  else
    let s := { s with eof := s.eof || fin }
    if s.shutRd then .ok s d [] x.length []
    else if s.blocked then .ok { s with inq := pack (buffered s ++ x) } d [] 0 []
    else aBidi c room fin s d x

theorem canon_of_inq_nil {s : Str} (h : s.inq = []) : s.canon = s.norm := by
  unfold Str.canon
  have : pack (buffered s) = s.norm.inq := by rw [(norm_flags s).1, h]; unfold buffered; rw [h]; rfl
  rw [this]

theorem canon_eof (s : Str) (e : Bool) : { s with eof := e }.canon = { s.canon with eof := e } := by
  unfold Str.canon; rw [norm_eof]; rfl

theorem canon_inq (s : Str) (q : List Buf) : { s with inq := q }.canon = { s.norm with inq := pack (q.flatMap Buf.data) } := by
  unfold Str.canon; rw [norm_setInq]; rfl

theorem inv_of {s s' : Str} {d : Dec} (h : Inv s d) (h1 : s'.rst = s.rst) (h2 : s'.rv = s.rv) (h3 : s'.left = s.left) (h4 : s'.h = s.h) (h5 : s'.sc = s.sc) :
    Inv s' d := by
  constructor
  · exact h.ctx
  · rw [h5]; exact h.wf
  · rw [h5]; exact h.idle
  · rw [h2]; exact h.rv
  · rw [h1, h4]; exact h.hok
  · rw [h1, h3]; exact h.left

theorem SInv.eof {s : Str} {d : Dec} (h : SInv s d) (e : Bool) : SInv { s with eof := e } d :=
  ⟨inv_of h.inv rfl rfl rfl rfl rfl, h.buf, h.inq, h.blk⟩

theorem recv_sim (c : Cfg) (room fin : Bool) (s : Str) (d : Dec) (x : Bytes) (hs : SInv s d) :
    Sim s d x.length (aRecv c room fin s.canon d x) (readStream c room fin s d x) := by
  unfold aRecv readStream
  by_cases h0 : x = [] ∧ fin = false
  · rw [if_pos h0, if_pos h0, h0.1]
    exact ⟨s, [], 0, [], rfl, rfl, rfl, rfl, by show 0 + 0 + _ = 0 + _; omega, hs, .refl d, Or.inl rfl⟩
  rw [if_neg h0, if_neg h0]
  have he : (if fin then { s with eof := true } else s) = { s with eof := s.eof || fin } := by
    cases fin
    · simp
    · simp
  have hce : ({ s.canon with eof := s.canon.eof || fin } : Str) = { s with eof := s.eof || fin }.canon := by
    have h1 : (s.canon.eof || fin) = (s.eof || fin) := by rw [(canon_flags s).2.2.1]
    rw [canon_eof s (s.eof || fin), ← h1]
  rw [he, hce]
  generalize hs0 : ({ s with eof := s.eof || fin } : Str) = s0
  have h0s : SInv s0 d := by rw [← hs0]; exact hs.eof _
  have hb0 : buffered s0 = buffered s := by rw [← hs0]; rfl
  have hg0 : s0.gone = s.gone := by rw [← hs0]
  have hcf := canon_flags s0
  dsimp only
  unfold readBidi
  by_cases h1 : s0.shutRd = true
  · rw [if_pos (hcf.2.1.trans h1), if_pos h1]
    refine ⟨s0, [], x.length, [], rfl, rfl, rfl, rfl, ?_, h0s, .refl d, Or.inl hg0⟩
    rw [hb0]; rfl
  rw [if_neg (by rw [hcf.2.1]; exact h1), if_neg h1]
  by_cases h2 : s0.blocked = true
  · rw [if_pos (hcf.1.trans h2), if_pos h2]
    have hc : buffered s0.canon = buffered s0 := (pack_flat _).1
    rw [hc]
    by_cases hx : x = []
    · rw [if_pos hx]
      refine ⟨s0, [], 0, x, rfl, ?_, rfl, rfl, ?_, h0s, .refl d, Or.inl hg0⟩
      · rw [hx, List.append_nil]; rfl
      · rw [hb0, hx]; show 0 + 0 + _ = 0 + _; omega
    · rw [if_neg hx]
      have hbf := bufferData_flat s0.inq x h0s.buf
      refine ⟨_, [], 0, x, rfl, ?_, rfl, rfl, ?_, ⟨inv_of h0s.inv rfl rfl rfl rfl rfl, hbf.2, fun _ => h2, h0s.blk⟩, .refl d, Or.inl hg0⟩
      · rw [canon_inq, hbf.1]; rfl
      · show 0 + 0 + ((bufferData s0.inq x).flatMap Buf.data).length = _
        rw [hbf.1, List.length_append, ← hb0]; unfold buffered; omega
  · rw [if_neg (by rw [hcf.1]; exact h2), if_neg h2]
    have hb : s0.blocked = false := by simpa using h2
    have hq : s0.inq = [] := by
      by_contra hne; exact h2 (h0s.inq hne)
    have hsim := loop_sim c room fin s0 d x h0s.inv hb (Or.inl hq)
    have e1 : ({ s0 with inq := [] } : Str) = s0 := by rw [← hq]
    rw [e1] at hsim
    rw [canon_of_inq_nil hq, aBidi_norm]
    rcases ha : aBidi c room fin s0 d x with _ | e | ⟨s1, d1, o, n, r⟩ <;> rw [ha] at hsim <;> dsimp only at hsim
    · exact hsim
    · obtain ⟨s', ev, rest, k1, k2, k3, k4, k5, k6, k7, k8, k9, k10, k11⟩ := hsim
      rcases k11 with ⟨l1, l2, l3, l4⟩ | ⟨l1, l2, l3, l4⟩
      · have l5 : s'.inq = [] := l3.trans hq
        refine ⟨s', ev, n, rest, k1, ?_, k2, by rw [k3]; rfl, ?_, ⟨k5, by rw [l5]; simp [BufOk], fun h => absurd l5 h, fun h => by rw [l1] at h; cases h⟩, k6, Or.inl (k10.trans hg0)⟩
        · rw [l4, canon_of_inq_nil l5, ← l5, ← norm_setInq]
        · rw [← hb0]
          unfold buffered
          rw [l5, hq]
          rw [l2] at k4
          simpa using k4
      · have hfl : s'.inq.flatMap Buf.data = rest ∧ BufOk s'.inq := by
          rw [l4, hq]
          by_cases hr : rest = []
          · rw [if_neg (by simp [hr]), hr]; exact ⟨rfl, by simp [BufOk]⟩
          · rw [if_pos ⟨rfl, hr⟩]
            exact bufferData_flat [] rest (by simp [BufOk])
        refine ⟨s', ev, n, rest, k1, ?_, k2, by rw [k3]; rfl, ?_, ⟨k5, hfl.2, fun _ => l1, fun _ => l2⟩, k6, Or.inl (k10.trans hg0)⟩
        · rw [l3]; unfold Str.canon buffered; rw [hfl.1]
        · rw [← hb0]
          unfold buffered
          rw [hfl.1, hq, k4]; rfl

/-! ### unblocking -/

def aProc (c : Cfg) (room : Bool) (s : Str) (d : Dec) : ARes :=
  if buffered s = [] then .ok s d [] 0 []
  else if s.shutRd then .ok { s with inq := [] } d [] (buffered s).length []
  else aBidi c room s.eof { s with inq := [] } d (buffered s)

theorem obs_deferred (n : Nat) : obs (deferred n) = [] := by unfold deferred; split_ifs <;> rfl
theorem deferredLen_deferred (n : Nat) : deferredLen (deferred n) = n := by
  unfold deferred; split_ifs with h
  · rw [h]; rfl
  · simp [deferredLen, Ev.deferredLen]
theorem dataLen_deferred (n : Nat) : dataLen (deferred n) = 0 := by unfold deferred; split_ifs <;> rfl

theorem bufferedLen_pos {q : List Buf} (hq : BufOk q) : q = [] ∨ bufferedLen q ≠ 0 := by
  by_cases h : q = []
  · exact Or.inl h
  · right; rw [bufferedLen_eq]; intro h0; exact h (flat_nil hq (List.length_eq_zero_iff.1 h0))

theorem canon_blocked_false (s : Str) : { s with blocked := false }.canon = { s.canon with blocked := false } := by
  unfold Str.canon Str.norm
  by_cases h : s.rst = .ignRest
  · rw [if_pos (by exact h), if_pos h]; rfl
  · rw [if_neg (by exact h), if_neg h]; rfl

theorem proc_sim (c : Cfg) (room : Bool) (f : Nat) (s : Str) (d : Dec) (ev : List Ev) (hi : Inv s d) (hb : s.blocked = false) (hq : BufOk s.inq)
    (hf : s.inq.length < f) :
    match (aProc c room s.canon d).shift (obs ev) (deferredLen ev) with
    | .crash => False
    | .fail e => procLoop c room f s d ev = .fail e
    | .ok s1 d1 o n _ => ∃ s' ev', procLoop c room f s d ev = .ok s' d1 ev' 0 [] ∧ s'.canon = s1 ∧ obs ev' = o ∧ deferredLen ev' = n ∧
        n + dataLen ev' + (buffered s').length = deferredLen ev + dataLen ev + (buffered s).length ∧ SInv s' d1 ∧ SameEnc d d1 ∧ s'.gone = s.gone := by
  induction f generalizing s d ev with
  | zero => omega
  | succ f ih =>
    unfold procLoop
    rcases hin : s.inq with _ | ⟨b, t⟩
    · have hbu : buffered s = [] := by unfold buffered; rw [hin]; rfl
      unfold aProc
      rw [(canon_flags s).2.2.2.2.2.1, if_pos hbu]
      dsimp only [ARes.shift]
      refine ⟨s, ev, rfl, rfl, by simp, by simp, by simp, ⟨hi, hq, fun h => absurd hin h, fun h => by rw [hb] at h; cases h⟩, .refl d, rfl⟩
    dsimp only
    have hbu : buffered s = b.data ++ t.flatMap Buf.data := by unfold buffered; rw [hin, List.flatMap_cons]
    have hbd : b.data ≠ [] := hq b (by rw [hin]; simp)
    have hbt : BufOk t := fun b' h => hq b' (by rw [hin]; simp [h])
    have hcf := canon_flags s
    have hap : aProc c room s.canon d = if s.shutRd then .ok { s.norm with inq := [] } d [] (buffered s).length [] else aBidi c room s.eof { s.norm with inq := [] } d (buffered s) := by
      unfold aProc
      have h1 : ({ s.canon with inq := [] } : Str) = { s.norm with inq := [] } := rfl
      rw [hcf.2.2.2.2.2.1, if_neg (by rw [hbu]; simp [hbd]), h1]
      by_cases hsh : s.shutRd = true
      · rw [if_pos (hcf.2.1.trans hsh), if_pos hsh]
      · rw [if_neg (by rw [hcf.2.1]; exact hsh), if_neg hsh, show s.canon.eof = s.eof from hcf.2.2.1]
    rw [hap]
    unfold readBidi
    by_cases hsh : s.shutRd = true
    · rw [if_pos hsh, if_pos hsh]
      dsimp only
      rw [if_pos rfl, if_neg (by rw [hb]; simp)]
      have hi' : Inv { s with inq := t } d := inv_of hi rfl rfl rfl rfl rfl
      have := ih { s with inq := t } d (ev ++ [] ++ deferred b.data.length) hi' hb hbt (by dsimp only; rw [hin] at hf; simp at hf; omega)
      have hbt' : buffered { s with inq := t } = t.flatMap Buf.data := rfl
      have hcf2 := canon_flags { s with inq := t }
      have e2 : aProc c room { s with inq := t }.canon d = .ok { s.norm with inq := [] } d [] (t.flatMap Buf.data).length [] := by
        unfold aProc
        rw [hcf2.2.2.2.2.2.1]
        by_cases ht : buffered { s with inq := t } = []
        · rw [if_pos ht]
          rw [hbt'] at ht
          rw [ht, canon_inq, ht]; rfl
        · rw [if_neg ht, if_pos (hcf2.2.1.trans hsh), hbt', canon_inq]
      rw [e2] at this
      dsimp only [ARes.shift] at this ⊢
      obtain ⟨s', ev', k1, k2, k3, k4, k5, k6, k7, k8⟩ := this
      refine ⟨s', ev', k1, k2, ?_, ?_, ?_, k6, k7, k8⟩
      · rw [k3]; simp [obs_append, obs_deferred]
      · rw [k4]; simp [deferredLen_append, deferredLen_deferred, hbu]; omega
      · simp only [deferredLen_append, dataLen_append, dataLen_deferred, deferredLen_deferred, hbt', hbu, List.length_append] at k5 ⊢
        have z1 : deferredLen [] = 0 := rfl
        have z2 : dataLen [] = 0 := rfl
        omega
    rw [if_neg hsh, if_neg hsh, if_neg (by rw [hb]; simp)]
    -- the buffer at the front
    have hsim := loop_sim c room (decide (t = []) && s.eof) s d b.data hi hb (bufferedLen_pos hq)
    have hi0 : Inv { s with inq := [] } d := inv_of hi rfl rfl rfl rfl rfl
    have hn0 : ({ s.norm with inq := [] } : Str) = { s with inq := [] }.norm := (norm_setInq s []).symm
    rw [hn0, aBidi_norm]
    by_cases ht : t = []
    · have hbu' : buffered s = b.data := by rw [hbu, ht]; simp
      have hfe : (decide (t = []) && s.eof) = s.eof := by simp [ht]
      rw [hfe] at hsim
      rw [hbu', hfe]
      rcases ha : aBidi c room s.eof { s with inq := [] } d b.data with _ | e | ⟨s1, d1, o, n, r⟩ <;> rw [ha] at hsim <;> dsimp only [ARes.shift] at hsim ⊢
      · rw [hsim]
      · obtain ⟨s', ev', rest, k1, k2, k3, k4, k5, k6, k7, k8, k9, k10, k11⟩ := hsim
        rw [k1]
        dsimp only
        rcases k11 with ⟨l1, l2, l3, l4⟩ | ⟨l1, l2, l3, l4⟩
        · rw [l2, if_pos rfl, if_neg (by rw [l1]; simp)]
          have hf1 : ∃ f', f = f' + 1 := ⟨f - 1, by rw [hin] at hf; simp at hf; omega⟩
          obtain ⟨f', rfl⟩ := hf1
          unfold procLoop
          dsimp only
          rw [ht]
          dsimp only
          refine ⟨_, _, rfl, ?_, ?_, ?_, ?_, ⟨inv_of k5 rfl rfl rfl rfl rfl, by simp [BufOk], fun h => absurd rfl h, fun h => by dsimp only at h; rw [l1] at h; cases h⟩, k6, k10⟩
          · rw [l4, canon_inq]; rfl
          · rw [obs_append, obs_append, k2, obs_deferred, List.append_nil]
          · rw [deferredLen_append, deferredLen_append, k3, deferredLen_deferred]; omega
          · rw [dataLen_append, dataLen_append, dataLen_deferred]
            show _ + 0 = _
            rw [l2] at k4
            simp at k4
            omega
        · rw [if_pos (by exact l1)]
          have hfl : (if rest = [] then t else { b with data := rest } :: t).flatMap Buf.data = rest ∧ BufOk (if rest = [] then t else { b with data := rest } :: t) := by
            by_cases hr : rest = []
            · rw [if_pos hr, ht, hr]; exact ⟨rfl, by simp [BufOk]⟩
            · rw [if_neg hr, ht]; exact ⟨by simp, by simpa [BufOk] using hr⟩
          refine ⟨_, _, rfl, ?_, ?_, ?_, ?_, ⟨inv_of k5 rfl rfl rfl rfl rfl, hfl.2, fun _ => l1, fun _ => l2⟩, k6, k10⟩
          · rw [canon_inq, hfl.1, l3]
          · rw [obs_append, obs_append, k2, obs_deferred, List.append_nil]
          · rw [deferredLen_append, deferredLen_append, k3, deferredLen_deferred]; omega
          · rw [dataLen_append, dataLen_append, dataLen_deferred]
            unfold buffered
            dsimp only
            rw [hfl.1]
            omega
    · have hfe : (decide (t = []) && s.eof) = false := by simp [ht]
      rw [hfe] at hsim
      rw [hbu, hfe, aBidi_append c room s.eof { s with inq := [] } d b.data _ hi0 hb]
      rcases ha : aBidi c room false { s with inq := [] } d b.data with _ | e | ⟨s1, d1, o, n, r⟩ <;> rw [ha] at hsim <;> dsimp only at hsim ⊢
      · dsimp only [ARes.shift]; rw [hsim]
      · obtain ⟨s', ev', rest, k1, k2, k3, k4, k5, k6, k7, k8, k9, k10, k11⟩ := hsim
        rw [k1]
        dsimp only
        rcases k11 with ⟨l1, l2, l3, l4⟩ | ⟨l1, l2, l3, l4⟩
        · have hs1b : s1.blocked = false := by rw [l4]; exact (norm_flags s').2.1.trans l1
          rw [l2, if_pos rfl, if_neg (by rw [hs1b]; simp), if_neg (by rw [l1]; simp)]
          have := ih { s' with inq := t } d1 (ev ++ ev' ++ deferred n) (inv_of k5 rfl rfl rfl rfl rfl) l1 hbt (by dsimp only; rw [hin] at hf; simp at hf; omega)
          have hcf2 := canon_flags { s' with inq := t }
          have e2 : aProc c room { s' with inq := t }.canon d1 = aBidi c room s.eof s1 d1 (t.flatMap Buf.data) := by
            unfold aProc
            have hne : buffered { s' with inq := t } ≠ [] := fun h => ht (flat_nil hbt h)
            have hc : ({ ({ s' with inq := t } : Str).canon with inq := [] } : Str) = s1 := by rw [l4, canon_inq]
            rw [hcf2.2.2.2.2.2.1, if_neg hne, if_neg (by rw [hcf2.2.1]; show ¬ s'.shutRd = true; rw [k7]; exact hsh), hc,
              show ({ s' with inq := t } : Str).canon.eof = s.eof from hcf2.2.2.1.trans k8]
            rfl
          rw [e2] at this
          rcases hz : aBidi c room s.eof s1 d1 (t.flatMap Buf.data) with _ | e | ⟨s2, d2, o2, n2, r2⟩ <;> rw [hz] at this <;> dsimp only [ARes.shift] at this ⊢
          · exact this
          · obtain ⟨s'', ev'', m1, m2, m3, m4, m5, m6, m7, m8⟩ := this
            refine ⟨s'', ev'', m1, m2, ?_, ?_, ?_, m6, k6.trans m7, m8.trans k10⟩
            · rw [m3, obs_append, obs_append, obs_deferred, k2, List.append_nil, List.append_assoc]
            · rw [m4, deferredLen_append, deferredLen_append, deferredLen_deferred, k3]; omega
            · simp only [deferredLen_append, dataLen_append, dataLen_deferred, deferredLen_deferred, k3] at m5
              rw [show buffered { s' with inq := t } = t.flatMap Buf.data from rfl] at m5
              rw [List.length_append]
              rw [l2] at k4
              simp only [List.length_nil] at k4
              simp only [deferredLen_append, deferredLen_deferred, k3] at m4
              omega
        · have hs1b : s1.blocked = true := by rw [l3]; exact (norm_flags s').2.1.trans l1
          rw [if_pos hs1b, if_pos (by exact l1)]
          dsimp only [ARes.shift]
          have hfl : (if rest = [] then t else { b with data := rest } :: t).flatMap Buf.data = rest ++ t.flatMap Buf.data ∧ BufOk (if rest = [] then t else { b with data := rest } :: t) := by
            by_cases hr : rest = []
            · rw [if_pos hr, hr]; exact ⟨rfl, hbt⟩
            · rw [if_neg hr]
              refine ⟨by simp, fun b' hb' => ?_⟩
              rcases List.mem_cons.1 hb' with rfl | h
              · exact hr
              · exact hbt b' h
          refine ⟨_, _, rfl, ?_, ?_, ?_, ?_, ⟨inv_of k5 rfl rfl rfl rfl rfl, hfl.2, fun _ => l1, fun _ => l2⟩, k6, k10⟩
          · rw [canon_inq, hfl.1, l3, buffered_pack]
          · rw [obs_append, obs_append, k2, obs_deferred, List.append_nil]; simp
          · rw [deferredLen_append, deferredLen_append, k3, deferredLen_deferred]; omega
          · rw [dataLen_append, dataLen_append, dataLen_deferred]
            unfold buffered
            dsimp only
            rw [hfl.1, List.length_append, List.length_append]
            omega

end Bidi
end Nghttp3
