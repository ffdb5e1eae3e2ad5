import Verif.Lemmas.BidiWorld
import Verif.Spec.BidiHist
import Verif.Props.QpackDec
/-! Histories of a request stream, up to the way buffers and events are cut into pieces. -/
namespace Nghttp3
namespace Bidi
open Http Qpack

/-! ### the other operations -/

def aDelete (s : Str) (d : Dec) (o : List Obs) (n : Nat) : ARes :=
  .ok { s with inq := [], gone := true } d (o ++ [.streamClose]) (n + (buffered s).length) []

def aWake (c : Cfg) (room : Bool) (s : Str) (d : Dec) : ARes :=
  if s.blocked ∧ s.sc.ricnt ≤ d.ctx.next then
    match aProc c room { s with blocked := false } d with
    | .ok s1 d1 o n _ => if s1.blocked = false ∧ s1.closed then aDelete s1 d1 o n else .ok s1 d1 o n []
    | r => r
  else .ok s d [] 0 []

def aShut (c : Cfg) (s : Str) (d : Dec) : ARes :=
  if s.shutRd then .ok s d [] 0 []
  else
    match d.cancelStream c.id with
    | none => .fail Err.QPACK_FATAL
    | some d' => .ok { s with shutRd := true } d' [] 0 []

def aClose (s : Str) (d : Dec) : ARes :=
  if s.blocked then .ok { s with closed := true } d [] 0 [] else aDelete s d [] 0

theorem canon_shutRd (s : Str) : { s with shutRd := true }.canon = { s.canon with shutRd := true } := by
  unfold Str.canon Str.norm
  by_cases h : s.rst = .ignRest
  · rw [if_pos (by exact h), if_pos h]; rfl
  · rw [if_neg (by exact h), if_neg h]; rfl

theorem canon_closed (s : Str) : { s with closed := true }.canon = { s.canon with closed := true } := by
  unfold Str.canon Str.norm
  by_cases h : s.rst = .ignRest
  · rw [if_pos (by exact h), if_pos h]; rfl
  · rw [if_neg (by exact h), if_neg h]; rfl

theorem canon_priFixed (s : Str) : { s with priFixed := true }.canon = { s.canon with priFixed := true } := by
  unfold Str.canon Str.norm
  by_cases h : s.rst = .ignRest
  · rw [if_pos (by exact h), if_pos h]; rfl
  · rw [if_neg (by exact h), if_neg h]; rfl

theorem canon_gone (s : Str) : { s with inq := [], gone := true }.canon = { s.canon with inq := [], gone := true } := by
  unfold Str.canon Str.norm
  by_cases h : s.rst = .ignRest
  · rw [if_pos (by exact h), if_pos h]; rfl
  · rw [if_neg (by exact h), if_neg h]; rfl

theorem Sim.delete {s0 : Str} {d0 : Dec} {x : Nat} {s : Str} {d : Dec} {ev : List Ev} (hs : SInv s d) (hsame : SameEnc d0 d) (hb : s.blocked = false)
    (hl : deferredLen ev + dataLen ev + (buffered s).length = x + (buffered s0).length) :
    Sim s0 d0 x (aDelete s.canon d (obs ev) (deferredLen ev)) (.ok (delete s ev).1 d (delete s ev).2 0 []) := by
  unfold aDelete
  refine ⟨_, _, 0, [], rfl, canon_gone s, ?_, ?_, ?_, ⟨inv_of hs.inv rfl rfl rfl rfl rfl, ?_, ?_, ?_⟩, hsame, Or.inr rfl⟩
  · unfold Bidi.delete; dsimp only; rw [obs_append, obs_append, obs_deferred, List.append_nil]; rfl
  · unfold Bidi.delete; dsimp only
    rw [deferredLen_append, deferredLen_append, deferredLen_deferred, bufferedLen_eq, (canon_flags s).2.2.2.2.2.1]
    show 0 + (_ + 0) = _
    unfold buffered; omega
  · unfold Bidi.delete; dsimp only
    rw [dataLen_append, dataLen_append, dataLen_deferred, (canon_flags s).2.2.2.2.2.1]
    show _ + (_ + 0) + 0 = _
    omega
  · show BufOk []; simp [BufOk]
  · intro h; exact absurd rfl h
  · intro h
    have : s.blocked = true := h
    rw [hb] at this; cases this

theorem wake_sim (c : Cfg) (room : Bool) (s : Str) (d : Dec) (hs : SInv s d) : Sim s d 0 (aWake c room s.canon d) (wake c room s d) := by
  unfold aWake wake
  have hcf := canon_flags s
  by_cases hb : s.blocked = true
  swap
  · rw [if_neg (by rw [hcf.1]; exact fun h => hb h.1), if_neg (fun h => hb h.1)]
    exact ⟨s, [], 0, [], rfl, rfl, rfl, rfl, by show 0 + 0 + _ = 0 + _; omega, hs, .refl d, Or.inl rfl⟩
  have hsc : s.canon.sc = s.sc := by
    unfold Str.canon; rw [norm_of_ne (by rw [hs.blk hb]; simp)]
  by_cases hn : s.sc.ricnt ≤ d.ctx.next
  swap
  · rw [if_neg (by rw [hsc]; exact fun h => hn h.2), if_neg (fun h => hn h.2)]
    exact ⟨s, [], 0, [], rfl, rfl, rfl, rfl, by show 0 + 0 + _ = 0 + _; omega, hs, .refl d, Or.inl rfl⟩
  rw [if_pos ⟨hcf.1.trans hb, by rw [hsc]; exact hn⟩, if_pos ⟨hb, hn⟩]
  unfold processBlocked
  have hp := proc_sim c room (s.inq.length + 1) { s with blocked := false } d [] (inv_of hs.inv rfl rfl rfl rfl rfl) rfl hs.buf (Nat.lt_succ_self _)
  rw [canon_blocked_false] at hp
  rcases ha : aProc c room { s.canon with blocked := false } d with _ | e | ⟨s1, d1, o, n, r⟩ <;> rw [ha] at hp <;> dsimp only [ARes.shift] at hp ⊢
  · show _ = _
    rw [hp]
  · obtain ⟨s', ev', k1, k2, k3, k4, k5, k6, k7, k8⟩ := hp
    rw [k1]
    dsimp only
    have hcf' := canon_flags s'
    rw [k2] at hcf'
    have hb1 : (s1.blocked = false ∧ s1.closed = true) ↔ (s'.blocked = false ∧ s'.closed = true) := by rw [hcf'.1, hcf'.2.2.2.1]
    have k4' : deferredLen ev' = n := by rw [k4]; show 0 + n = n; omega
    have k3' : obs ev' = o := by rw [k3]; rfl
    have hlen : deferredLen ev' + dataLen ev' + (buffered s').length = 0 + (buffered s).length := by
      have z : (0 : Nat) + n + dataLen ev' + (buffered s').length = 0 + 0 + (buffered s).length := k5
      omega
    by_cases hc : s'.blocked = false ∧ s'.closed = true
    · rw [if_pos (hb1.2 hc), if_pos hc, ← k2, ← k3', ← k4']
      exact Sim.delete k6 k7 hc.1 hlen
    · rw [if_neg (fun h => hc (hb1.1 h)), if_neg hc]
      exact ⟨s', ev', 0, [], rfl, k2, k3', by omega, by omega, k6, k7, Or.inl k8⟩

theorem cancel_same {d d' : Dec} {id : Nat} (h : d.cancelStream id = some d') : SameEnc d d' := by
  unfold Dec.cancelStream at h
  split_ifs at h
  cases h; exact .refl d

theorem shut_sim (c : Cfg) (s : Str) (d : Dec) (hs : SInv s d) : Sim s d 0 (aShut c s.canon d) (shutdownRead c s d) := by
  unfold aShut shutdownRead
  have hcf := canon_flags s
  by_cases h : s.shutRd = true
  · rw [if_pos (hcf.2.1.trans h), if_pos h]
    exact ⟨s, [], 0, [], rfl, rfl, rfl, rfl, by show 0 + 0 + _ = 0 + _; omega, hs, .refl d, Or.inl rfl⟩
  · rw [if_neg (by rw [hcf.2.1]; exact h), if_neg h]
    rcases hc : d.cancelStream c.id with _ | d' <;> dsimp only
    · rfl
    · have hsm := cancel_same hc
      exact ⟨_, [], 0, [], rfl, canon_shutRd s, rfl, rfl, by show 0 + 0 + _ = 0 + _; rw [Nat.zero_add, Nat.zero_add, Nat.zero_add]; rfl,
        ⟨⟨by rw [hsm.1]; exact hs.inv.ctx, hs.inv.wf, hs.inv.idle, hs.inv.rv, hs.inv.hok, hs.inv.left⟩, hs.buf, hs.inq, hs.blk⟩, hsm, Or.inl rfl⟩

theorem close_sim (s : Str) (d : Dec) (hs : SInv s d) : Sim s d 0 (aClose s.canon d) (closeStream s d) := by
  unfold aClose closeStream
  have hcf := canon_flags s
  by_cases h : s.blocked = true
  · rw [if_pos (hcf.1.trans h), if_pos h]
    exact ⟨_, [], 0, [], rfl, canon_closed s, rfl, rfl, by show 0 + 0 + _ = 0 + _; rw [Nat.zero_add, Nat.zero_add, Nat.zero_add]; rfl,
      ⟨inv_of hs.inv rfl rfl rfl rfl rfl, hs.buf, hs.inq, hs.blk⟩, .refl d, Or.inl rfl⟩
  · rw [if_neg (by rw [hcf.1]; exact h), if_neg h]
    have := Sim.delete (s0 := s) (d0 := d) (x := 0) (ev := []) hs (.refl d) (by simpa using h) (by show 0 + 0 + _ = _; omega)
    exact this

/-! ### histories -/

/-- what is left of a history when pieces do not count -/
structure AWorld where
  s : Str
  d : Dec
  oth : Nat → SCtx
  ob : List Obs
  got : Nat
  credit : Nat

inductive AWRes where
  | crash
  | fail (e : Int)
  | ok (a : AWorld)

def World.abs (w : World) : AWorld := ⟨w.s.canon, w.d, w.oth, obs w.ev, w.got, w.used + deferredLen w.ev⟩

def aAfter (a : AWorld) (got : Nat) : ARes → AWRes
  | .crash => .crash
  | .fail e => .fail e
  | .ok s d o n _ => .ok ⟨s, d, a.oth, a.ob ++ o, a.got + got, a.credit + n⟩

def aExec (c : Cfg) (a : AWorld) : Op → AWRes
  | .recv x fin room => if a.s.gone then .ok a else aAfter a x.length (aRecv c room fin a.s a.d x)
  | .env o =>
    match (DSys.mk a.d a.oth).step o with
    | none => .crash
    | some st => .ok { a with d := st.d, oth := st.sc }
  | .wake room => if a.s.gone then .ok a else aAfter a 0 (aWake c room a.s a.d)
  | .shutdownRead => if a.s.gone then .ok a else aAfter a 0 (aShut c a.s a.d)
  | .close => if a.s.gone then .ok a else aAfter a 0 (aClose a.s a.d)
  | .priority => .ok { a with s := { a.s with priFixed := true } }

def aExec' (c : Cfg) (r : AWRes) (op : Op) : AWRes :=
  match r with
  | .ok a => aExec c a op
  | r => r

def aHist (c : Cfg) (a : AWorld) (ops : List Op) : AWRes := ops.foldl (aExec' c) (.ok a)

structure WInv (w : World) : Prop where
  str : SInv w.s w.d
  sys : SysOk w.d.ctx.hardMax ⟨w.d, w.oth⟩
  sum : w.used + deferredLen w.ev + dataLen w.ev + (buffered w.s).length = w.got
  gone : w.s.gone = true → w.s.inq = []

/-- the concrete result, compared with the canonical one -/
def WSim (a : AWRes) (r : WRes) : Prop :=
  match a with
  | .crash => False
  | .fail e => r = .fail e
  | .ok a => ∃ w, r = .ok w ∧ w.abs = a ∧ WInv w

theorem sysOk_same {d d' : Dec} {oth : Nat → SCtx} (h : SysOk d.ctx.hardMax ⟨d, oth⟩) (hs : SameEnc d d') : SysOk d'.ctx.hardMax ⟨d', oth⟩ := by
  refine ⟨?_, rfl, ?_, h.str⟩
  · show CtxOk d'.ctx; rw [hs.1]; exact h.ctx
  · show d'.ctx.bad = true ∨ DecWF d'
    rw [hs.1]
    exact h.dec.imp id fun g => DecWF.same g hs.1 hs.2.1 hs.2.2.1 hs.2.2.2

theorem after_sim {w : World} (hw : WInv w) (hg : ¬ w.s.gone = true) {k : Nat} {a : ARes} {o : Out} (h : Sim w.s w.d k a o) : WSim (aAfter w.abs k a) (after w k o) := by
  unfold Sim at h
  rcases a with _ | e | ⟨s1, d1, ob, n, r⟩ <;> dsimp only at h
  · rw [h]; rfl
  · obtain ⟨s', ev, n', rest, k1, k2, k3, k4, k5, k6, k7, k8⟩ := h
    rw [k1]
    refine ⟨_, rfl, ?_, ⟨k6, sysOk_same hw.sys k7, ?_, fun g => k8.elim (fun h => absurd (h.symm.trans g) hg) id⟩⟩
    · unfold World.abs
      dsimp only
      rw [k2, obs_append, deferredLen_append, k3, ← k4]
      congr 1
      omega
    · have := hw.sum
      dsimp only
      rw [deferredLen_append, dataLen_append]
      omega

theorem exec_sim (c : Cfg) (w : World) (hw : WInv w) (op : Op) : WSim (aExec c w.abs op) (exec c w op) := by
  have hg : w.abs.s.gone = w.s.gone := (canon_flags w.s).2.2.2.2.1
  cases op with
  | recv x fin room =>
    unfold aExec exec
    dsimp only
    rw [hg]
    by_cases h : w.s.gone = true
    · rw [if_pos h, if_pos h]; exact ⟨w, rfl, rfl, hw⟩
    · rw [if_neg h, if_neg h]; exact after_sim hw h (recv_sim c room fin w.s w.d x hw.str)
  | env o =>
    unfold aExec exec
    dsimp only
    obtain ⟨st, h1, h2⟩ := Props.sys_step hw.sys o
    rw [show w.abs.d = w.d from rfl, show w.abs.oth = w.oth from rfl, h1]
    dsimp only
    refine ⟨_, rfl, rfl, ⟨⟨⟨h2.ctx, hw.str.inv.wf, hw.str.inv.idle, hw.str.inv.rv, hw.str.inv.hok, hw.str.inv.left⟩, hw.str.buf, hw.str.inq, hw.str.blk⟩, ?_, hw.sum, hw.gone⟩⟩
    exact ⟨h2.ctx, rfl, h2.dec, h2.str⟩
  | wake room =>
    unfold aExec exec
    dsimp only
    rw [hg]
    by_cases h : w.s.gone = true
    · rw [if_pos h, if_pos h]; exact ⟨w, rfl, rfl, hw⟩
    · rw [if_neg h, if_neg h]; exact after_sim hw h (wake_sim c room w.s w.d hw.str)
  | shutdownRead =>
    unfold aExec exec
    dsimp only
    rw [hg]
    by_cases h : w.s.gone = true
    · rw [if_pos h, if_pos h]; exact ⟨w, rfl, rfl, hw⟩
    · rw [if_neg h, if_neg h]; exact after_sim hw h (shut_sim c w.s w.d hw.str)
  | close =>
    unfold aExec exec
    dsimp only
    rw [hg]
    by_cases h : w.s.gone = true
    · rw [if_pos h, if_pos h]; exact ⟨w, rfl, rfl, hw⟩
    · rw [if_neg h, if_neg h]; exact after_sim hw h (close_sim w.s w.d hw.str)
  | priority =>
    unfold aExec exec
    refine ⟨_, rfl, ?_, ⟨⟨inv_of hw.str.inv rfl rfl rfl rfl rfl, hw.str.buf, hw.str.inq, hw.str.blk⟩, hw.sys, hw.sum, hw.gone⟩⟩
    unfold World.abs
    dsimp only
    rw [canon_priFixed]

theorem hist_cons (c : Cfg) (w : World) (op : Op) (ops : List Op) :
    hist c w (op :: ops) = match exec c w op with
      | .ok w' => hist c w' ops
      | r => r := by
  unfold hist
  rw [List.foldl_cons]
  rcases h : exec' c (.ok w) op with _ | e | w'
  · have h' : exec c w op = .crash := h
    rw [h']
    dsimp only
    induction ops with
    | nil => rfl
    | cons o t ih => exact ih
  · have h' : exec c w op = .fail e := h
    rw [h']
    dsimp only
    induction ops with
    | nil => rfl
    | cons o t ih => exact ih
  · have h' : exec c w op = .ok w' := h
    rw [h']

theorem aHist_cons (c : Cfg) (a : AWorld) (op : Op) (ops : List Op) :
    aHist c a (op :: ops) = match aExec c a op with
      | .ok w' => aHist c w' ops
      | r => r := by
  unfold aHist
  rw [List.foldl_cons]
  rcases h : aExec' c (.ok a) op with _ | e | w'
  · have h' : aExec c a op = .crash := h
    rw [h']
    dsimp only
    induction ops with
    | nil => rfl
    | cons o t ih => exact ih
  · have h' : aExec c a op = .fail e := h
    rw [h']
    dsimp only
    induction ops with
    | nil => rfl
    | cons o t ih => exact ih
  · have h' : aExec c a op = .ok w' := h
    rw [h']

theorem hist_sim (c : Cfg) (w : World) (hw : WInv w) (ops : List Op) : WSim (aHist c w.abs ops) (hist c w ops) := by
  induction ops generalizing w with
  | nil => exact ⟨w, rfl, rfl, hw⟩
  | cons op ops ih =>
    rw [hist_cons, aHist_cons]
    have h := exec_sim c w hw op
    rcases ha : aExec c w.abs op with _ | e | a <;> rw [ha] at h
    · exact h.elim
    · have h' : exec c w op = .fail e := h
      rw [h']; rfl
    · obtain ⟨w', h1, h2, h3⟩ := h
      rw [h1]
      dsimp only
      rw [← h2]
      exact ih w' h3

theorem winv_start (c : Cfg) (hardMax maxBlocked : Nat) : WInv (World.start c hardMax maxBlocked) := by
  refine ⟨⟨⟨CtxOk.init _ _, SWF.init _, (fun g => by cases g), rvOk_idle, ?_, (fun g => by cases g)⟩, ?_, (fun g => absurd rfl g), (fun g => by cases g)⟩, Props.sys_init hardMax maxBlocked, rfl, (fun g => by cases g)⟩
  · show HOk .frameType (if c.server then .reqInitial else .respInitial)
    cases c.server <;> simp [HOk]
  · show BufOk []; simp [BufOk]

/-! ### two pieces are as good as one -/

theorem aBidi_flags {c : Cfg} {room : Bool} {s : Str} {d : Dec} {x : Bytes} {s' : Str} {d' : Dec} {o : List Obs} {n : Nat} {r : Bytes}
    (hi : Inv s d) (hb : s.blocked = false) (h : aBidi c room false s d x = .ok s' d' o n r) :
    s'.shutRd = s.shutRd ∧ s'.eof = s.eof ∧ s'.gone = s.gone ∧ r = [] := by
  have hf := run_facts c room s d [] 0 x hi hb
  unfold aBidi at h
  rcases hr : bRun c room ⟨s, d, [], 0⟩ x with _ | (e | _) | ⟨_ | m, rest⟩ | m <;> rw [hr] at hf h <;> dsimp only [aFinish] at h hf
  · cases h
  · cases h
    have hn := hf.1.norm
    exact ⟨hn.2.1, hn.2.2.1, hn.2.2.2.2, rfl⟩
  · unfold aDone at h
    cases h
    have hn := hf.2.1.norm
    exact ⟨hn.2.1, hn.2.2.1, hn.2.2.2.2, rfl⟩

theorem shift_zero (r : ARes) : r.shift [] 0 = r := by
  cases r <;> simp [ARes.shift]

theorem eof_self (s : Str) : ({ s with eof := s.eof || false } : Str) = s := by simp

theorem aRecv_append (c : Cfg) (room fin : Bool) (s : Str) (d : Dec) (x y : Bytes) (hi : Inv s d) :
    aRecv c room fin s d (x ++ y) =
      match aRecv c room false s d x with
      | .ok s' d' o n _ => (aRecv c room fin s' d' y).shift o n
      | r => r := by
  by_cases hx : x = []
  · have : aRecv c room false s d x = .ok s d [] 0 [] := by unfold aRecv; rw [if_pos ⟨hx, rfl⟩]
    rw [this]
    dsimp only
    rw [shift_zero, hx, List.nil_append]
  by_cases hy : y = [] ∧ fin = false
  · have hr : ∀ s d, aRecv c room fin s d y = .ok s d [] 0 [] := by intro s d; unfold aRecv; rw [if_pos hy]
    rw [hy.1, hy.2, List.append_nil]
    rw [hy.1, hy.2] at hr
    have hnil : ∀ s' d' o n r, aRecv c room false s d x = .ok s' d' o n r → r = [] := by
      intro s' d' o n r h
      unfold aRecv at h
      rw [if_neg (fun g => hx g.1)] at h
      dsimp only at h
      by_cases h1 : s.shutRd = true
      · rw [if_pos (by exact h1)] at h; cases h; rfl
      rw [if_neg (by exact h1)] at h
      by_cases h2 : s.blocked = true
      · rw [if_pos (by exact h2)] at h; cases h; rfl
      rw [if_neg (by exact h2)] at h
      rw [eof_self] at h
      exact (aBidi_flags hi (by simpa using h2) h).2.2.2
    rcases ha : aRecv c room false s d x with _ | e | ⟨s', d', o, n, r⟩ <;> dsimp only
    rw [hr, hnil _ _ _ _ _ ha]
    simp [ARes.shift]
  have e1 : aRecv c room fin s d (x ++ y) =
      if s.shutRd then .ok { s with eof := s.eof || fin } d [] (x ++ y).length []
      else if s.blocked then .ok { s with eof := s.eof || fin, inq := pack (buffered s ++ (x ++ y)) } d [] 0 []
      else aBidi c room fin { s with eof := s.eof || fin } d (x ++ y) := by
    unfold aRecv; rw [if_neg (by simp [hx])]; rfl
  have e2 : aRecv c room false s d x =
      if s.shutRd then .ok s d [] x.length []
      else if s.blocked then .ok { s with inq := pack (buffered s ++ x) } d [] 0 []
      else aBidi c room false s d x := by
    unfold aRecv
    rw [if_neg (fun g => hx g.1)]
    simp only [Bool.or_false]
  have e3 : ∀ (s : Str) d, aRecv c room fin s d y =
      if s.shutRd then .ok { s with eof := s.eof || fin } d [] y.length []
      else if s.blocked then .ok { s with eof := s.eof || fin, inq := pack (buffered s ++ y) } d [] 0 []
      else aBidi c room fin { s with eof := s.eof || fin } d y := by
    intro s d; unfold aRecv; rw [if_neg hy]; rfl
  rw [e1, e2]
  by_cases h1 : s.shutRd = true
  · rw [if_pos h1, if_pos h1]
    dsimp only
    rw [e3, if_pos h1]
    simp [ARes.shift]
  rw [if_neg h1, if_neg h1]
  by_cases h2 : s.blocked = true
  · rw [if_pos h2, if_pos h2]
    dsimp only
    rw [e3, if_neg (by exact h1), if_pos (by exact h2), buffered_pack, List.append_assoc, shift_zero]
  rw [if_neg h2, if_neg h2]
  have hb : s.blocked = false := by simpa using h2
  rw [aBidi_append c room fin { s with eof := s.eof || fin } d x y (inv_of hi rfl rfl rfl rfl rfl) hb, aBidi_eof c room false s d x _ hi hb]
  rcases ha : aBidi c room false s d x with _ | e | ⟨s', d', o, n, r⟩ <;> dsimp only [ARes.mapS]
  obtain ⟨f1, f2, _, f4⟩ := aBidi_flags hi hb ha
  rw [e3, if_neg (show ¬ s'.shutRd = true by rw [f1]; exact h1), f2]
  rfl

/-- replacing a call by two calls -/
theorem aExec_append (c : Cfg) (room fin : Bool) (w : World) (hw : WInv w) (x y : Bytes) (ops : List Op) :
    aHist c w.abs (.recv x false room :: .recv y fin room :: ops) = aHist c w.abs (.recv (x ++ y) fin room :: ops) := by
  rw [aHist_cons, aHist_cons]
  unfold aExec
  dsimp only
  by_cases hg : w.abs.s.gone = true
  · rw [if_pos hg, if_pos hg]
    dsimp only
    rw [aHist_cons]
    unfold aExec
    dsimp only
    rw [if_pos hg]
  rw [if_neg hg, if_neg hg]
  have hi : Inv w.abs.s w.abs.d := inv_of (s := w.s.norm) hw.str.inv.norm rfl rfl rfl rfl rfl
  rw [aRecv_append c room fin w.abs.s w.abs.d x y hi]
  have hgone : ∀ s' d' o n r, aRecv c room false w.abs.s w.abs.d x = .ok s' d' o n r → s'.gone = w.abs.s.gone := by
    intro s' d' o n r h
    unfold aRecv at h
    by_cases h0 : x = []
    · rw [if_pos ⟨h0, rfl⟩] at h; cases h; rfl
    rw [if_neg (fun g => h0 g.1)] at h
    dsimp only at h
    by_cases h1 : w.abs.s.shutRd = true
    · rw [if_pos (by exact h1)] at h; cases h; rfl
    rw [if_neg (by exact h1)] at h
    by_cases h2 : w.abs.s.blocked = true
    · rw [if_pos (by exact h2)] at h; cases h; rfl
    rw [if_neg (by exact h2), eof_self] at h
    exact (aBidi_flags hi (by simpa using h2) h).2.2.1
  rcases ha : aRecv c room false w.abs.s w.abs.d x with _ | e | ⟨s', d', o, n, r⟩
  · rfl
  · rfl
  dsimp only [aAfter]
  rw [aHist_cons]
  unfold aExec
  dsimp only
  rw [if_neg (by rw [hgone _ _ _ _ _ ha]; exact hg)]
  rcases aRecv c room fin s' d' y with _ | e | ⟨s2, d2, o2, n2, r2⟩ <;> dsimp only [aAfter, ARes.shift]
  rw [List.append_assoc, List.length_append, Nat.add_assoc, Nat.add_assoc]

end Bidi
end Nghttp3
