import Verif.Props.QpackPair
import Verif.Props.QpackWire
import Verif.Spec.EncRun
/-! An encoder with a history, followed by a decoder that has read a part of what the encoder wrote. -/
namespace Nghttp3
namespace Qpack
open Props

theorem step_inserted {s s' : ESys} {o : EncOp} (h : s.step o = .ok s') : s.inserted ≤ s'.inserted := by
  cases o with
  | setCap n => cases h; exact Nat.le_refl _
  | setMaxBlocked n => cases h; exact Nat.le_refl _
  | encode id nvs =>
    unfold ESys.step at h
    dsimp only at h
    rcases ho : s.e.encode id nvs with _ | o <;> rw [ho] at h <;> dsimp only at h
    · cases h
    · cases h
      exact Nat.le_add_right _ _
  | instr op n =>
    unfold ESys.step at h
    dsimp only at h
    rcases ho : s.e.apply op n with _ | _ | o <;> rw [ho] at h <;> dsimp only at h
    · cases h
    · cases h
    · cases h
      exact Nat.le_refl _
  | ackEverything => cases h; exact Nat.le_refl _

theorem run_inserted {s s' : ESys} {ops : List EncOp} (h : s.run ops = .ok s') : s.inserted ≤ s'.inserted := by
  induction ops generalizing s with
  | nil => cases h; exact Nat.le_refl _
  | cons o t ih =>
    rw [ESys.run] at h
    cases hx : s.step o <;> rw [hx] at h <;> dsimp only at h
    · cases h
    · cases h
    · exact Nat.le_trans (step_inserted hx) (ih h)

/-- the section on its way -/
def toFly (x : (Nat × List Nv) × EncOut) : Fly := { sec := ⟨x.1.1, x.2.ricnt, x.2.base, x.2.reps, x.1.2⟩, rem := x.2.section, s := SCtx.init x.1.1 }

theorem pair_enc {p : Pair} {s' : ESys} {o : EncOp} (h : p.sys.step o = .ok s') :
    p.step (.enc o) = .ok { p with sys := s', ech := p.ech ++ (madeBy p.sys o).flatMap (·.2.ebuf), flies := p.flies ++ (madeBy p.sys o).map toFly } := by
  cases o with
  | encode id nvs =>
    unfold Pair.step madeBy
    dsimp only
    rw [h]
    rcases ho : p.sys.e.encode id nvs with _ | o
    · unfold ESys.step at h
      dsimp only at h
      rw [ho] at h; cases h
    · simp [toFly]
  | _ =>
    unfold Pair.step madeBy
    dsimp only
    rw [h]
    simp

theorem pair_follow {p : Pair} {s' : ESys} {ops : List EncOp} (h : p.sys.run ops = .ok s') :
    p.run (ops.map .enc) = .ok { p with sys := s', ech := p.ech ++ (made p.sys ops).flatMap (·.2.ebuf), flies := p.flies ++ (made p.sys ops).map toFly } := by
  induction ops generalizing p with
  | nil => cases h; simp [Pair.run, made]
  | cons o t ih =>
    rw [ESys.run] at h
    cases hx : p.sys.step o <;> rw [hx] at h <;> dsimp only at h
    · cases h
    · cases h
    rename_i s1
    rw [List.map_cons, Pair.run, pair_enc hx]
    dsimp only
    rw [ih (p := { p with sys := s1, ech := _, flies := _ }) h, made, hx]
    dsimp only
    rw [List.flatMap_append, List.map_append, List.append_assoc, List.append_assoc]

theorem pair_admissible {H : Nat} {p : Pair} {s' : ESys} {ops : List EncOp} (hs : ESysOk p.sys) (h : p.sys.run ops = .ok s') (hfit : ∀ x ∈ made p.sys ops, ∀ nv ∈ x.1.2, NvFits nv)
    (hmax : s'.inserted ≤ QInt.INT_MAX) : Pair.Admissible H p (ops.map .enc) := by
  induction ops generalizing p with
  | nil => trivial
  | cons o t ih =>
    rw [ESys.run] at h
    cases hx : p.sys.step o <;> rw [hx] at h <;> dsimp only at h
    · cases h
    · cases h
    rename_i s1
    rw [made, hx] at hfit
    have hs1 : ESysOk s1 := by
      rcases esys_step hs o with k | ⟨s2, k1, k2, _⟩
      · rw [hx] at k; cases k
      · rw [hx] at k1; cases k1; exact k2
    refine ⟨?_, fun p' hp => ?_⟩
    · cases o with
      | encode id nvs =>
        refine ⟨fun nv hnv => ?_, fun r hr => ?_⟩
        · obtain ⟨r, s2, k1, _⟩ := esys_encode hs id nvs
          refine hfit ((id, nvs), r) (List.mem_append_left _ ?_) nv hnv
          unfold madeBy
          dsimp only
          rw [k1]
          exact List.mem_cons_self ..
        · obtain ⟨r', s2, k1, _, k3, _, k5, _⟩ := esys_encode hs id nvs
          rw [hr] at k1
          cases k1
          rw [hx] at k3
          cases k3
          rw [← k5, ← hs1.ins]
          exact Nat.le_trans (run_inserted h) hmax
      | _ => trivial
    · rw [pair_enc hx] at hp
      cases hp
      exact ih (p := { p with sys := s1, ech := _, flies := _ }) hs1 h (fun x hm => hfit x (List.mem_append_right _ hm))

/-- the encoder with its history, a decoder that has read `fed` of what it wrote, and `rest`, which is still to be read -/
theorem pair_at {H Hd B : Nat} {ops : List EncOp} {s : ESys} {fed rest : Bytes} {d d0 : Dec} (hH : H ≤ QInt.INT_MAX) (hd : H ≤ Hd) (hr : (ESys.init H).run ops = .ok s)
    (hfit : ∀ x ∈ made (ESys.init H) ops, ∀ nv ∈ x.1.2, NvFits nv) (hmax : s.inserted ≤ QInt.INT_MAX)
    (hw : DecWF d) (ht : esRun (Dec.init Hd B) fed false = .ok d0) (hc : Core d d0)
    (hb : (made (ESys.init H) ops).flatMap (·.2.ebuf) = fed ++ rest) :
    PairOk H Hd { sys := s, dec := d, ech := rest, flies := (made (ESys.init H) ops).map toFly } := by
  have h1 := pair_reach (B := B) hH hd (pair_admissible (p := Pair.init H Hd B) (esys_init H) hr hfit hmax) (pair_follow (p := Pair.init H Hd B) hr)
  obtain ⟨D, g1, g2, g3, g4⟩ := h1.trans
  dsimp only at g1
  rw [show (Pair.init H Hd B).ech = [] from rfl, List.nil_append, show made (Pair.init H Hd B).sys ops = made (ESys.init H) ops from rfl, hb,
    show (Pair.init H Hd B).dec = Dec.init Hd B from rfl, esRun, Machine.run_append' esM_good _ _ _ _ (DecWF.init Hd B) (by simp), show Machine.run esM _ _ _ _ = _ from ht] at g1
  dsimp only at g1
  obtain ⟨x1, x2, x3, x4, _⟩ := esRun_ctx (DecWF.init Hd B) (by simp) ht
  obtain ⟨e, q1, q2⟩ := esRun_core (d := d0) (e := d) ⟨hc.1.symm, hc.2.1.symm, hc.2.2.1.symm, hc.2.2.2.symm⟩ g1
  refine ⟨h1.sys, h1.hard, hw, ?_, ?_, ⟨e, q1, by rw [← q2.1]; exact g2, by rw [← q2.1]; exact g3, by rw [← q2.2.1]; exact g4⟩, fun f hf => ?_⟩
  · show d.ctx.bad = false
    rw [hc.1, x3]; rfl
  · show d.ctx.hardMax = Hd
    rw [hc.1, x2]; rfl
  · obtain ⟨E0, m, k⟩ := h1.flies f (by simpa [Pair.init] using hf)
    exact ⟨E0, m, k.mono (Ext.refl _) (Nat.zero_le _)⟩

end Qpack
end Nghttp3
