import Verif.Lemmas.EncCore
import Verif.Lemmas.NetSys
import Verif.Spec.EncRun
/-! An encoder that reads a decoder stream has the history that the instructions on the stream spell. -/
namespace Nghttp3
namespace Qpack
open Props

/-- the reader of the decoder stream has taken `p` of an instruction that is not complete -/
structure Rd (p : Bytes) (e : Enc) : Prop where
  idle : e.reading = false → p = []
  read : e.reading = true → ∃ b t, p = b :: t ∧ e.rs.pfx = e.dop.pfx ∧ b.toNat / 2 ^ e.dop.pfx = e.dop.bits ∧
    QInt.readInt e.dop.pfx 0 0 p = .part e.rs.left e.rs.shift

theorem opc_unique {b : UInt8} {o o' : DOpc} (h : b.toNat / 2 ^ o.pfx = o.bits) (h' : b.toNat / 2 ^ o'.pfx = o'.bits) : o = o' := by
  have := b.toNat_lt
  cases o <;> cases o' <;> simp only [DOpc.pfx, DOpc.bits] at h h' <;> first | rfl | (exfalso; omega)

theorem opc_le (o : DOpc) : o.pfx ≤ 8 := by cases o <;> simp [DOpc.pfx]
theorem opc_pos (o : DOpc) : 0 < o.pfx := by cases o <;> simp [DOpc.pfx]

theorem Rd.unfinished {p : Bytes} {e : Enc} (h : Rd p e) : Unfinished p := by
  intro x y op n hd hp
  obtain ⟨⟨b, t, rfl, hb⟩, he, hn, hl⟩ := hd
  rcases hr : e.reading with _ | _
  · have := h.idle hr
    rw [this] at hp; cases hp
  · obtain ⟨b', t', k1, _, k2, k3⟩ := h.read hr
    rw [k1] at hp
    obtain rfl : b' = b := by injection hp
    obtain rfl := opc_unique hb k2
    have := (QInt.readInt_iff (opc_le e.dop) p n y).2 ⟨_, by rw [k1, hp], he, hn, hl⟩
    obtain ⟨s, k⟩ := this
    rw [k3] at k; cases k

/-- the encoder has the history of `s`, and has taken `p` of an instruction that is not complete -/
structure Trk (s : ESys) (p : Bytes) (e : Enc) : Prop where
  ok : ESysOk s
  wf : DsWF e
  core : s.e.core = e.core
  rd : Rd p e

theorem dsNumber_trk {s : ESys} {e : Enc} {q src : Bytes} (hs : ESysOk s) (hc : s.e.core = e.core) (hr : e.reading = true) (hp : e.rs.pfx = e.dop.pfx)
    {b : UInt8} {t : Bytes} (hq : q = b :: t) (hb : b.toNat / 2 ^ e.dop.pfx = e.dop.bits)
    (hi : QInt.readInt e.rs.pfx e.rs.left e.rs.shift src = QInt.readInt e.dop.pfx 0 0 q) :
    match dsNumber e src with
    | .part e' => s.e.core = e'.core ∧ Rd q e'
    | .cont e' rest => ∃ x n s', DsInstr x e.dop n ∧ q = x ++ rest ∧ s.step (.instr e.dop n) = .ok s' ∧ ESysOk s' ∧ s'.e.core = e'.core ∧ Rd [] e'
    | _ => True := by
  unfold dsNumber
  rw [hi]
  rcases hd : QInt.readInt e.dop.pfx 0 0 q with _ | _ | ⟨l, z⟩ | ⟨l, z, rest⟩ <;> dsimp only
  · exact ⟨hc, ⟨fun h => absurd (hr.symm.trans h) (by simp), fun _ => ⟨b, t, hq, hp, hb, hd⟩⟩⟩
  · generalize hg : ({ e with rs := { e.rs with left := l, shift := z } } : Enc) = g
    have hgc : g.core = s.e.core := by rw [hc, ← hg]; rfl
    rcases ha : g.apply e.dop l with _ | _ | e1 <;> dsimp only
    obtain ⟨x, h1, h2, h3, h4⟩ := (QInt.readInt_iff (opc_le e.dop) q l rest).1 ⟨z, hd⟩
    have hlt := QInt.readInt_length hd
    have hx : ∃ b' t', x = b' :: t' := by
      rcases x with _ | ⟨b', t'⟩
      · rw [h1] at hlt; simp at hlt
      · exact ⟨_, _, rfl⟩
    obtain ⟨b', t', rfl⟩ := hx
    have hbb : b' = b := by
      rw [hq] at h1
      injection h1 with h1 _
      exact h1.symm
    subst hbb
    have hap : (s.e.apply e.dop l).core = (g.apply e.dop l).core := by rw [← core_apply s.e, ← hgc, core_apply g]
    rw [ha] at hap
    rcases hse : s.e.apply e.dop l with _ | _ | e2 <;> rw [hse] at hap
    · cases hap
    · cases hap
    · have hap : e2.core = e1.core := by injection hap
      have hst : s.step (.instr e.dop l) = .ok { s with e := e2, secs := settle e.dop l s.secs, known := knownAfter e.dop l s.secs s.known } := by
        unfold ESys.step
        dsimp only
        rw [hse]
      rcases esys_step hs (.instr e.dop l) with k | ⟨s', k, k1, _⟩
      · rw [hst] at k; cases k
      · rw [hst] at k
        injection k with k
        refine ⟨_, l, _, ⟨⟨b', t', rfl, hb⟩, h2, h3, h4⟩, h1, hst, by rw [k]; exact k1, hap, ⟨fun _ => rfl, fun h => by cases h⟩⟩

theorem dsOpcode_dop (e : Enc) (b : UInt8) : (dsOpcode e b).reading = true ∧ (dsOpcode e b).rs.pfx = (dsOpcode e b).dop.pfx ∧
    b.toNat / 2 ^ (dsOpcode e b).dop.pfx = (dsOpcode e b).dop.bits ∧ (dsOpcode e b).core = e.core ∧
    (dsOpcode e b).rs.left = e.rs.left ∧ (dsOpcode e b).rs.shift = e.rs.shift := by
  have hb := b.toNat_lt
  have : b.toNat / 128 = 1 ∨ b.toNat / 64 = 1 ∨ b.toNat / 64 = 0 := by omega
  rcases this with h | h | h
  · rw [dsOpcode_instr (op := .ack) h]; exact ⟨rfl, rfl, h, rfl, rfl, rfl⟩
  · rw [dsOpcode_instr (op := .cancel) h]; exact ⟨rfl, rfl, h, rfl, rfl, rfl⟩
  · rw [dsOpcode_instr (op := .icnt) h]; exact ⟨rfl, rfl, h, rfl, rfl, rfl⟩

theorem dsStep_trk {s : ESys} {p : Bytes} {e : Enc} (h : Trk s p e) {src : Bytes} (hsrc : src ≠ []) :
    match dsStep e src with
    | .part e' => Trk s (p ++ src) e'
    | .cont e' rest => ∃ x op n s', DsInstr x op n ∧ p ++ src = x ++ rest ∧ s.step (.instr op n) = .ok s' ∧ Trk s' [] e'
    | _ => True := by
  have hg := dsM_good.step e src h.wf (Or.inl hsrc)
  unfold dsM at hg
  have key : ∃ g b t, dsStep e src = dsNumber g src ∧ g.reading = true ∧ g.rs.pfx = g.dop.pfx ∧ b.toNat / 2 ^ g.dop.pfx = g.dop.bits ∧ g.core = e.core ∧
      p ++ src = b :: t ∧ QInt.readInt g.rs.pfx g.rs.left g.rs.shift src = QInt.readInt g.dop.pfx 0 0 (p ++ src) := by
    rcases hr : e.reading with _ | _
    · obtain rfl := h.rd.idle hr
      obtain ⟨i1, i2⟩ := h.wf.idle hr
      rcases src with _ | ⟨b, t⟩
      · exact absurd rfl hsrc
      · obtain ⟨o1, o2, o3, o4, o5, o6⟩ := dsOpcode_dop e b
        refine ⟨dsOpcode e b, b, t, ?_, o1, o2, o3, o4, rfl, ?_⟩
        · unfold dsStep
          rw [hr]
          rfl
        · rw [o5, o6, i1, i2, o2]; rfl
    · obtain ⟨b, t, k1, k2, k3, k4⟩ := h.rd.read hr
      refine ⟨e, b, t ++ src, ?_, hr, k2, k3, rfl, by rw [k1]; rfl, ?_⟩
      · unfold dsStep
        rw [hr]; rfl
      · rw [QInt.readInt_append _ _ _ (opc_pos _) p src (by rw [k1]; simp) (fun _ => rfl), k4]
        dsimp only
        rw [if_neg hsrc, k2]
  obtain ⟨g, b, t, k1, k2, k3, k4, k5, k6, k7⟩ := key
  have := dsNumber_trk (q := p ++ src) h.ok (h.core.trans k5.symm) k2 k3 k6 k4 k7
  rw [k1] at hg ⊢
  rcases hd : dsNumber g src with _ | _ | e1 | ⟨e1, r⟩ <;> rw [hd] at hg this <;> dsimp only at this ⊢
  · exact ⟨h.ok, hg.1, this.1, this.2⟩
  · obtain ⟨x, n, s', m1, m2, m3, m4, m5, m6⟩ := this
    exact ⟨x, _, n, s', m1, m2, m3, m4, hg.1, m5, m6⟩

theorem run_cons {s s1 s' : ESys} {o : EncOp} {t : List EncOp} (h : s.step o = .ok s1) (h' : s1.run t = .ok s') : s.run (o :: t) = .ok s' := by
  rw [ESys.run, h]; exact h'

def toOp (x : Bytes × DOpc × Nat) : EncOp := .instr x.2.1 x.2.2

theorem dsLoop_trk (f : Nat) {s : ESys} {p : Bytes} {e e' : Enc} (h : Trk s p e) (src : Bytes) (hd : dsLoop f e src = .ok e') :
    ∃ (l : List (Bytes × DOpc × Nat)) (p' : Bytes) (s' : ESys), (∀ x ∈ l, DsInstr x.1 x.2.1 x.2.2) ∧ p ++ src = l.flatMap (·.1) ++ p' ∧ s.run (l.map toOp) = .ok s' ∧ Trk s' p' e' := by
  induction f generalizing s p e src with
  | zero =>
    unfold dsLoop at hd
    split_ifs at hd with hx
    cases hd
    exact ⟨[], p, s, by simp, by rw [hx]; simp, rfl, h⟩
  | succ f ih =>
    unfold dsLoop at hd
    split_ifs at hd with hx
    · cases hd
      exact ⟨[], p, s, by simp, by rw [hx]; simp, rfl, h⟩
    · have := dsStep_trk h hx
      rcases hs : dsStep e src with _ | _ | e1 | ⟨e1, r⟩ <;> rw [hs] at hd this <;> dsimp only at hd this
      · cases hd
      · cases hd
      · cases hd
        exact ⟨[], _, s, by simp, by simp, rfl, this⟩
      · obtain ⟨x, op, n, s1, m1, m2, m3, m4⟩ := this
        obtain ⟨l, p', s', q1, q2, q3, q4⟩ := ih m4 r hd
        refine ⟨(x, op, n) :: l, p', s', ?_, ?_, run_cons m3 q3, q4⟩
        · intro y hy
          rcases List.mem_cons.1 hy with rfl | hy
          · exact m1
          · exact q1 y hy
        · rw [m2, List.flatMap_cons, List.append_assoc, ← q2, List.nil_append]

theorem Trk.setU {s : ESys} {p : Bytes} {e : Enc} (h : Trk s p e) (u : Nat) : Trk s p { e with uninterrupted := u } :=
  ⟨h.ok, ⟨h.wf.inv.withRs _ _ _ _, h.wf.rd, h.wf.idle⟩, h.core, h.rd.idle, h.rd.read⟩

theorem readDecoder_trk {s : ESys} {p : Bytes} {e e' : Enc} (h : Trk s p e) {src : Bytes} (hd : e.readDecoder src = .ok e') :
    ∃ (l : List (Bytes × DOpc × Nat)) (p' : Bytes) (s' : ESys), (∀ x ∈ l, DsInstr x.1 x.2.1 x.2.2) ∧ p ++ src = l.flatMap (·.1) ++ p' ∧ s.run (l.map toOp) = .ok s' ∧ Trk s' p' e' := by
  unfold Enc.readDecoder at hd
  split_ifs at hd with h0
  · cases hd
    exact ⟨[], p, s, by simp, by rw [h0]; simp, rfl, h⟩
  · dsimp only at hd
    split_ifs at hd
    exact dsLoop_trk _ (h.setU _) src hd

theorem encode_trk {s : ESys} {p : Bytes} {e : Enc} (h : Trk s p e) {id : Nat} {nvs : List Nv} {o : EncOut} (hd : e.encode id nvs = some o) :
    ∃ s', s.step (.encode id nvs) = .ok s' ∧ Trk s' p o.e := by
  obtain ⟨o1, ho1, hp⟩ := encode_ok h.wf.inv id nvs
  rw [hd] at ho1
  cases ho1
  obtain ⟨o2, s', g1, _, g2, g3, g4, _⟩ := esys_encode h.ok id nvs
  refine ⟨s', g2, g3, dswf_keep h.wf hp.inv hp.rd.1 hp.rd.2.2, ?_, ?_, ?_⟩
  · have := encode_same h.core id nvs
    rw [g1, hd] at this
    rw [g4]
    injection this with this
    exact congrArg EncOut.e this
  · rw [hp.rd.1]; exact h.rd.idle
  · rw [hp.rd.1, hp.rd.2.1, hp.rd.2.2]; exact h.rd.read

theorem setCap_trk {s : ESys} {p : Bytes} {e : Enc} (h : Trk s p e) (n : Nat) : ∃ s', s.step (.setCap n) = .ok s' ∧ Trk s' p (e.setMaxCap n) := by
  rcases esys_step h.ok (.setCap n) with k | ⟨s', k, k1, _⟩
  · cases k
  · have hs : s' = { s with e := s.e.setMaxCap n } := by
      have : s.step (.setCap n) = .ok { s with e := s.e.setMaxCap n } := rfl
      rw [this] at k; injection k with k; exact k.symm
    have h1 : (e.setMaxCap n).reading = e.reading := by unfold Enc.setMaxCap; dsimp only; split_ifs <;> rfl
    have h2 : (e.setMaxCap n).rs = e.rs := by unfold Enc.setMaxCap; dsimp only; split_ifs <;> rfl
    have h3 : (e.setMaxCap n).dop = e.dop := by unfold Enc.setMaxCap; dsimp only; split_ifs <;> rfl
    refine ⟨s', k, k1, dswf_keep h.wf (h.wf.inv.setMaxCap n) h1 h2, ?_, ?_, ?_⟩
    · rw [hs]
      show (s.e.setMaxCap n).core = _
      rw [← core_setMaxCap s.e, h.core, core_setMaxCap]
    · rw [h1]; exact h.rd.idle
    · rw [h1, h2, h3]; exact h.rd.read

theorem setBlocked_trk {s : ESys} {p : Bytes} {e : Enc} (h : Trk s p e) (n : Nat) : ∃ s', s.step (.setMaxBlocked n) = .ok s' ∧ Trk s' p (e.setMaxBlocked n) := by
  rcases esys_step h.ok (.setMaxBlocked n) with k | ⟨s', k, k1, _⟩
  · cases k
  · have hs : s' = { s with e := s.e.setMaxBlocked n } := by
      have : s.step (.setMaxBlocked n) = .ok { s with e := s.e.setMaxBlocked n } := rfl
      rw [this] at k; injection k with k; exact k.symm
    refine ⟨s', k, k1, dswf_keep h.wf (h.wf.inv.setMaxBlocked n) rfl rfl, ?_, h.rd.idle, h.rd.read⟩
    rw [hs]
    show (s.e.setMaxBlocked n).core = _
    rw [← core_setMaxBlocked s.e, h.core, core_setMaxBlocked]

end Qpack
end Nghttp3
