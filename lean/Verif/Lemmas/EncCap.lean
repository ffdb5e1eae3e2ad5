import Verif.Props.QpackEnc
import Verif.Spec.EncRun
/-! The size of the dynamic table of a QPACK encoder and the capacities it writes, in any history. -/
namespace Nghttp3
namespace Qpack

/-- what bounds the table -/
structure Capped (M : Nat) (e : Enc) : Prop where
  size : e.ctx.size ≤ M
  max : e.ctx.maxCap ≤ M
  last : e.pending = true → e.lastUpd ≤ M

theorem apply_last {e e' : Enc} {op : DOpc} {n : Nat} (h : e.apply op n = .ok e') : e'.lastUpd = e.lastUpd ∧ e'.pending = e.pending := by
  cases op with
  | icnt =>
    change e.addIcnt n = _ at h
    unfold Enc.addIcnt at h
    split_ifs at h
    cases h; exact ⟨rfl, rfl⟩
  | ack =>
    change e.ackHeader n = _ at h
    unfold Enc.ackHeader at h
    split at h
    · cases h
    · cases h
    dsimp only at h
    split at h
    · cases h
    · split_ifs at h <;> cases h <;> exact ⟨rfl, rfl⟩
  | cancel =>
    change e.cancelStream n = _ at h
    unfold Enc.cancelStream at h
    split at h
    · cases h; exact ⟨rfl, rfl⟩
    split at h
    · cases h
    · rename_i e1 he
      have h1 : e1.lastUpd = e.lastUpd ∧ e1.pending = e.pending := by
        split_ifs at he
        · unfold Enc.unblockStream at he
          split_ifs at he
          cases he; exact ⟨rfl, rfl⟩
        · cases he; exact ⟨rfl, rfl⟩
      split at h
      · cases h
      · cases h; exact h1

theorem InsRun.capped {P : Bytes → Bytes → Prop} {c c' : Ctx} {l : List EIns} (h : InsRun P c l c') {M : Nat} (h1 : c.size ≤ M) (h2 : c.maxCap ≤ M) :
    c'.size ≤ M ∧ ∀ n, EIns.setCap n ∉ l := by
  induction h with
  | nil => exact ⟨h1, fun _ g => by cases g⟩
  | @cons c c1 c2 i is name value hash g1 g2 g3 g4 g0 g5 ih =>
    have hm : c1.maxCap = c.maxCap := by
      unfold Ctx.add at g2
      dsimp only at g2
      split_ifs at g2
      rcases he : evictOld c.maxCap (tableSpace name.length value.length) c.ents.reverse c.size with _ | ⟨o, s⟩ <;> rw [he] at g2
      · cases g2
      · cases g2; rfl
    obtain ⟨k1, k2⟩ := ih (by have := g4.cap; omega) (by omega)
    refine ⟨k1, fun n hn => ?_⟩
    rcases List.mem_cons.1 hn with rfl | hn
    · exact g1.elim
    · exact k2 n hn

theorem Capped.encode {M : Nat} {e : Enc} (h : Capped M e) (hi : EInv e) {id : Nat} {nvs : List Nv} {o : EncOut} (ho : e.encode id nvs = some o) :
    Capped M o.e ∧ ∀ n, EIns.setCap n ∈ o.ins → n ≤ M := by
  obtain ⟨o', ho', hp⟩ := encode_ok hi id nvs
  rw [ho] at ho'
  cases ho'
  obtain ⟨e1, upd, ins, u, hins, hrun, hm, hpd, _, hl⟩ := hp.upd
  obtain ⟨n, hn, hen, _, hcase⟩ := u.ents
  have hs1 : e1.ctx.size ≤ M := by
    rw [u.inv.ctx.size, hen]
    have := spaces_take_le e.ctx.ents n
    have := hi.ctx.size
    have := h.size
    omega
  have hm1 : e1.ctx.maxCap ≤ M ∧ (e1.pending = true → e1.lastUpd ≤ M) ∧ ∀ k, EIns.setCap k ∈ upd → k ≤ M := by
    have g1 := h.max
    rcases hcase with ⟨a1, a2, a3, _, a5, _⟩ | ⟨a0, _, a3, a4, a5⟩
    · exact ⟨by omega, fun k => by rw [a5]; exact h.last (a3 ▸ k), fun k hk => by rw [a1] at hk; cases hk⟩
    · have g2 := h.last a0
      refine ⟨by omega, fun k => (by rw [a3] at k; cases k), fun k hk => ?_⟩
      rw [a5] at hk
      split_ifs at hk <;> simp at hk <;> omega
  obtain ⟨k1, k2⟩ := hrun.capped hs1 hm1.1
  refine ⟨⟨k1, by omega, fun k => by rw [hl]; exact hm1.2.1 (hpd ▸ k)⟩, fun k hk => ?_⟩
  rw [hins] at hk
  rcases List.mem_append.1 hk with hk | hk
  · exact hm1.2.2 k hk
  · exact absurd hk (k2 k)

theorem Capped.setMaxCap {M : Nat} {e : Enc} (h : Capped M e) {n : Nat} (hn : n ≤ M) : Capped M (e.setMaxCap n) := by
  have h1 := h.max
  unfold Enc.setMaxCap
  dsimp only
  split_ifs
  · exact h
  · exact ⟨h.size, by show min n e.ctx.hardMax ≤ M; omega, fun _ => by show min n e.ctx.hardMax ≤ M; omega⟩
  · exact ⟨h.size, h1, fun _ => by show min n e.ctx.hardMax ≤ M; omega⟩

theorem capped_run {M : Nat} (ops : List EncOp) {s s' : ESys} (hok : ESysOk s) (hl : ∀ n ∈ caps ops, n ≤ M) (h : Capped M s.e) (hr : s.run ops = .ok s') : Capped M s'.e := by
  induction ops generalizing s with
  | nil => cases hr; exact h
  | cons o t ih =>
    unfold ESys.run at hr
    rcases esys_step hok o with h3 | ⟨s1, h3, h4, _⟩
    · rw [h3] at hr; cases hr
    rw [h3] at hr
    dsimp only at hr
    refine ih h4 (fun n hn => hl n ?_) ?_ hr
    · cases o with
      | setCap m => exact List.mem_cons_of_mem _ hn
      | _ => exact hn
    cases o with
    | setCap n => cases h3; exact h.setMaxCap (hl n (List.mem_cons_self ..))
    | setMaxBlocked n => cases h3; exact ⟨h.size, h.max, h.last⟩
    | encode id nvs =>
      obtain ⟨o, s2, g1, _, g3, _, g5, _⟩ := esys_encode hok id nvs
      rw [h3] at g3
      cases g3
      rw [g5]
      exact (h.encode hok.inv g1).1
    | instr op n =>
      have hc : s1.e.ctx = s.e.ctx := by
        rcases esys_instr hok op n with g | ⟨s2, g1, _, _, g4, g5⟩
        · rw [h3] at g; cases g
        · rw [h3] at g1; cases g1; exact g5
      unfold ESys.step at h3
      dsimp only at h3
      rcases ha : s.e.apply op n with _ | _ | e' <;> rw [ha] at h3 <;> dsimp only at h3
      · cases h3
      · cases h3
      cases h3
      obtain ⟨k1, k2⟩ := apply_last ha
      exact ⟨by rw [hc]; exact h.size, by rw [hc]; exact h.max, fun k => by
        show e'.lastUpd ≤ M
        rw [k1]; exact h.last (k2 ▸ k)⟩
    | ackEverything => cases h3; exact ⟨h.size, h.max, h.last⟩

end Qpack
end Nghttp3
