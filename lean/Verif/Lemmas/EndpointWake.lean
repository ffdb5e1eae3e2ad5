import Verif.Lemmas.EndpointRd
/-! Received data keeps the invariant of a connection: the QPACK streams. -/
namespace Nghttp3
namespace Endpoint
open Outq (R Ans FrentOk EncodeOk)
open Conn (OpOk LeavesClosed Allowed Safe UniInv clientBidi streamUni)
open Qpack (DsWF Dec SCtx SysOk CtxOk)
variable {G : Bool × Settings}

theorem unblock_again {c c' : CC} {id : Nat} {r : Conn.Ret} (e : Conn.qpackUnblock c id none true = .ok (c', r)) : (c'.str id).isSome = true := by
  unfold Conn.qpackUnblock at e
  rcases h0 : c.str id with _ | s <;> rw [h0] at e
  · cases e
  dsimp only at e
  by_cases hq : s.qblocked = false
  · rw [if_pos hq] at e; cases e
  rw [if_neg hq] at e
  obtain ⟨r1, e1, e2⟩ := Conn.bind_ok e
  cases e1
  rw [Conn.set_str] at e2
  dsimp only at e2
  rw [if_pos rfl] at e2
  cases e2
  rw [Conn.set_str]; rfl

theorem rep_nil {less : Nat → Nat → Bool} {bq : PQ Nat} (h : PQ.Rep less bq []) : bq.top = none := by
  unfold PQ.top; rw [if_pos (by rw [h.len]; rfl)]

theorem rep_top {less : Nat → Nat → Bool} (hl : StrictWeak less) {bq : PQ Nat} {M : List Nat} (h : PQ.Rep less bq M) {m x : Nat} (ht : bq.top = some m)
    (hx : x ∈ M) : less x m = false := by
  unfold PQ.top at ht
  split_ifs at ht with h0
  cases ht
  obtain ⟨j, hj, rfl⟩ := (h.mem x).2 hx
  exact PQ.Heap.top_le hl h.heap j hj

/-- a stream whose entries have arrived is taken from the queue -/
structure Woken (P : Par) (G : Bool × Settings) (ep : Ep) (m : Nat) (bq : PQ Nat) (s' : Bidi.Str) (d' : Dec) (ev : List Bidi.Ev) (c2 : CC) : Prop where
  core : Core G { ep with c := c2, rx := PQ.upd ep.rx m s', dec := d', bq := if s'.blocked then bq.push (ricntLess (PQ.upd ep.rx m s')) m else bq }
  keep : ∀ x, clientBidi x = true → x ≠ m → Keep ep.c c2 x
  blk : Blk c2 m ↔ s'.blocked = true
  gone : (c2.str m).isSome = !s'.gone
  ok : Bidi.WakeOk (cfg P ep.c m) (room ep.c bq) { ep.rx m with priFixed := fixedPri ep.c m } ep.dec s' d' ev
  bid : clientBidi m = true
  was : ∃ t, ep.c.str m = some t ∧ Rx ep.dec (ep.rx m) t ∧ t.qblocked = true

theorem woken {P : Par} (hP : ParOk P) {ep : Ep} (h : Core G ep) {m : Nat} {bq : PQ Nat} (ht : ep.bq.top = some m) (hp : ep.bq.pop (ricntLess ep.rx) = some bq)
    (hnx : ¬ ep.dec.ctx.next < (ep.rx m).sc.ricnt) :
    (∃ e, Bidi.processBlocked (cfg P ep.c m) (room ep.c bq) { ep.rx m with blocked := false, priFixed := fixedPri ep.c m } ep.dec = .fail e) ∨
    ∃ s' d' ev n rest, Bidi.processBlocked (cfg P ep.c m) (room ep.c bq) { ep.rx m with blocked := false, priFixed := fixedPri ep.c m } ep.dec = .ok s' d' ev n rest ∧
      priorities ep.c m ev ≠ .crash ∧ ∀ c1, priorities ep.c m ev = .ok c1 → Conn.qpackUnblock c1 m none s'.blocked ≠ .crash ∧
        ∀ c2 r, Conn.qpackUnblock c1 m none s'.blocked = .ok (c2, r) → Woken P G ep m bq s' d' ev c2 := by
  obtain ⟨M, hM, hmem, hlen, hg1, hg2⟩ := h.q
  have hne : M ≠ [] := by
    rintro rfl
    rw [rep_nil hM] at ht; cases ht
  obtain ⟨m', bq', hp1, hp2, hp3, hp4, hp5⟩ := PQ.Rep.pop (ricnt_weak ep.rx) hM hne
  rw [ht] at hp1; obtain rfl := Option.some.inj hp1
  rw [hp] at hp2; obtain rfl := Option.some.inj hp2
  have hnx : (ep.rx m).sc.ricnt ≤ ep.dec.ctx.next := by omega
  obtain ⟨hb, t, h0, hq⟩ := (hmem m).1 hp3
  have hrx := h.r.str m t hb h0
  have hw := Bidi.wake_ok (c := cfg P ep.c m) hP (room ep.c bq) { ep.rx m with priFixed := fixedPri ep.c m } ep.dec (sinv_fixed hrx.inv _) hrx.hu
    (hrx.blk.trans hq) hnx
  rcases hw with ⟨e, hw⟩ | ⟨s', d', ev, n', rest, hw, ho⟩
  · exact .inl ⟨e, hw⟩
  refine .inr ⟨s', d', ev, n', rest, hw, ?_⟩
  obtain ⟨p1, p2⟩ := priorities_ok h.c hb (by rw [h0]; rfl) ev ho.evs
  refine ⟨p1, fun c1 e1 => ?_⟩
  obtain ⟨hc1, hs1, hk1⟩ := p2 c1 e1
  obtain ⟨t1, g1, g2, g3⟩ : ∃ t1, c1.str m = some t1 ∧ t1.qblocked = t.qblocked ∧ t1.closed = t.closed := by
    rcases hk1 m hb with ⟨k, _⟩ | ⟨s, s1, k1, k2, k3, k4⟩
    · rw [h0] at k; cases k
    · rw [h0] at k1; obtain rfl := Option.some.inj k1; exact ⟨s1, k2, k3, k4⟩
  have o1 : OpOk (Conn.Op.qpackUnblock m none s'.blocked : Conn.Op Fld) := ⟨hb, fun q g => by cases g⟩
  have o2 : LeavesClosed c1 (.qpackUnblock m none s'.blocked) := fun g => absurd rfl g
  have o3 : Allowed c1 (.qpackUnblock m none s'.blocked) := ⟨Conn.bidi_iff.1 hb, t1, g1, g2.trans hq⟩
  refine ⟨cinv_nc hc1 o1 o2 o3, fun c2 r e2 => ?_⟩
  have e2' : Conn.step encode c1 (.qpackUnblock m none s'.blocked) = .ok (c2, r) := e2
  have hc2 := cinv_step hc1 o1 o2 o3 (fun y g => by cases g) e2'
  have hs2 := step_sameC hc1 e2'
  have hk2 : ∀ x, clientBidi x = true → x ≠ m → Keep ep.c c2 x := fun x hx g =>
    (hk1 x hx).trans (keep_other hc1 o1 e2' hx g (.inr (.inr (.inr (.inr (.inr ⟨_, _, rfl⟩))))))
  have htr : ∀ t2, c2.str m = some t2 → t2.qblocked = s'.blocked ∧ t2.closed = t.closed ∧ (s'.blocked = false → t2.closed = false) := by
    intro t2 g
    rcases Conn.step_bl hc1.inv e2' m t2 g with k | ⟨t0, k1, k2⟩
    · rw [g1] at k; cases k.1
    · rw [g1] at k1; obtain rfl := Option.some.inj k1
      unfold Conn.TrB at k2
      dsimp only at k2
      rw [if_pos rfl] at k2
      exact ⟨k2.2.1, k2.2.2.1.trans g3, k2.2.2.2⟩
  have hblk : ∀ x, x ≠ m → (Blk c2 x ↔ Blk ep.c x) := fun x hxm => by
    by_cases hx : clientBidi x = true
    · exact (hk2 x hx hxm).blk
    · exact ⟨fun g => absurd g.1 hx, fun g => absurd g.1 hx⟩
  have hrxy : ∀ x, x ≠ m → PQ.upd ep.rx m s' x = ep.rx x := fun x g => PQ.upd_ne _ _ g
  have hmb : Blk c2 m ↔ s'.blocked = true := by
    constructor
    · rintro ⟨_, t2, k1, k2⟩; rw [← (htr t2 k1).1]; exact k2
    · intro k
      rw [k] at e2
      obtain ⟨t2, k2⟩ := Option.isSome_iff_exists.1 (unblock_again e2)
      exact ⟨hb, t2, k2, (htr t2 k2).1.trans k⟩
  have hr5 : PQ.Rep (ricntLess (PQ.upd ep.rx m s')) bq (M.erase m) := rep_congr hp5 fun x hx => by
    rw [hrxy x (fun g => by subst g; exact (List.Nodup.not_mem_erase hM.nodup) hx)]
  have hnm : m ∉ M.erase m := List.Nodup.not_mem_erase hM.nodup
  have hmm : ∀ x, x ∈ M.erase m ↔ x ≠ m ∧ Blk ep.c x := fun x => by rw [hM.nodup.mem_erase_iff, hmem x]
  have hel : (M.erase m).length + 1 = M.length := by
    have := List.length_pos_of_mem hp3
    rw [List.length_erase_of_mem hp3]; omega
  have hset : c2.settings = ep.c.settings := (hs1.trans hs2).2
  have hcl : s'.closed = t.closed := ho.closed.trans hrx.cl
  have hgn : s'.gone = (!s'.blocked && s'.closed) := by
    rw [ho.gone]
    show ((ep.rx m).gone || _) = _
    rw [hrx.gone, Bool.false_or]
  refine ⟨⟨hc2, ?_, ?_, ?_⟩, hk2, hmb, ?_, ho, hb, t, h0, hrx, hq⟩
  · refine rinv_keep (· = m) h.r (sys_same h.r.sys ho.same) (fun x hx g => ⟨hk2 x hx g, hrxy x g⟩) ?_
    rintro x t2 _ rfl g
    obtain ⟨k1, k2, k3⟩ := htr t2 g
    dsimp only
    rw [PQ.upd_same]
    refine ⟨ho.inv, k1.symm, hcl.trans k2.symm, ?_, ho.hu⟩
    rw [hgn, hcl.trans k2.symm]
    cases hbk : s'.blocked
    · rw [k3 hbk]; rfl
    · rfl
  · dsimp only
    cases hbk : s'.blocked with
    | true =>
      rw [if_pos rfl]
      refine ⟨m :: M.erase m, hr5.push (ricnt_weak _) hnm, fun x => ?_, by rw [List.length_cons, hel]; exact hlen, (hs1.trans hs2).1.trans hg1, hset.trans hg2⟩
      rw [List.mem_cons, hmm]
      by_cases hxm : x = m
      · subst hxm; exact ⟨fun _ => hmb.2 hbk, fun _ => .inl rfl⟩
      · rw [hblk x hxm]; exact ⟨fun g => (g.resolve_left hxm).2, fun g => .inr ⟨hxm, g⟩⟩
    | false =>
      rw [if_neg (by simp)]
      refine ⟨M.erase m, hr5, fun x => ?_, by omega, (hs1.trans hs2).1.trans hg1, hset.trans hg2⟩
      rw [hmm]
      by_cases hxm : x = m
      · subst hxm; exact ⟨fun g => absurd rfl g.1, fun g => by rw [hmb.1 g] at hbk; cases hbk⟩
      · rw [hblk x hxm]; exact ⟨fun g => g.2, fun g => ⟨hxm, g⟩⟩
  · show KInv c2.server ep.ctl
    rw [(hs1.trans hs2).1]; exact h.k
  · rw [hgn]
    have hl := Conn.step_life hc1.inv o1 e2'
    have e3 := e2
    unfold Conn.qpackUnblock at e3
    rw [g1] at e3
    dsimp only at e3
    rw [if_neg (by rw [g2, hq]; simp)] at e3
    obtain ⟨c3, e4, e5⟩ := Conn.bind_ok e3
    cases e4
    rw [Conn.set_str] at e5
    dsimp only at e5
    cases hbk : s'.blocked with
    | true =>
      rw [hbk, if_pos rfl] at e5
      cases e5
      rw [Conn.set_str]; rfl
    | false =>
      rw [hbk, if_neg (by simp)] at e5
      cases hct : t.closed with
      | true =>
        rw [if_pos (by rw [g3, hct])] at e5
        obtain ⟨c4, e6, e7⟩ := Conn.bind_ok e5
        cases e7
        rw [Conn.delete_str e6, PQ.upd_same, hcl, hct]; rfl
      | false =>
        rw [if_neg (by rw [g3, hct]; simp)] at e5
        rw [hcl, hct]
        cases e5
        rw [Conn.set_str]; rfl

/-- the loop ends, each stream whose entries have arrived is taken from the queue, and none is left -/
theorem release_good {P : Par} (hP : ParOk P) (n : Nat) (f : Nat) (ep : Ep) (h : Core G ep) (L : List Nat)
    (hL : ∀ x, Blk ep.c x → (ep.rx x).sc.ricnt ≤ ep.dec.ctx.next → x ∈ L) (hf : L.length < f) : Good G (release P n f ep) := by
  induction f generalizing ep L with
  | zero => omega
  | succ f ih =>
    obtain ⟨M, hM, hmem, hlen, hg1, hg2⟩ := h.q
    unfold release
    rcases eq_or_ne M [] with rfl | hne
    · rw [rep_nil hM]
      exact ⟨h, fun x hx => by have := (hmem x).2 hx; cases this⟩
    obtain ⟨m, bq, hp1, hp2, hp3, hp4, hp5⟩ := PQ.Rep.pop (ricnt_weak ep.rx) hM hne
    rw [hp1]
    dsimp only
    by_cases hnx : ep.dec.ctx.next < (ep.rx m).sc.ricnt
    · rw [if_pos hnx]
      refine ⟨h, fun x hx => ?_⟩
      have := rep_top (ricnt_weak ep.rx) hM hp1 ((hmem x).2 hx)
      unfold ricntLess at this
      simp at this
      omega
    rw [if_neg hnx, hp2]
    dsimp only
    rcases woken hP h hp1 hp2 hnx with ⟨e, hw⟩ | ⟨s', d', ev, n', rest, hw, q1, q2⟩
    · rw [hw]; trivial
    rw [hw]
    dsimp only
    refine good_lift q1 fun c1 e1 => ?_
    obtain ⟨q3, q4⟩ := q2 c1 e1
    refine good_lift q3 ?_
    rintro ⟨c2, r⟩ e2
    have W := q4 c2 r e2
    refine good_after (ih _ W.core (L.erase m) ?_ ?_)
    · intro x hx hr
      dsimp only at hx hr
      by_cases hxm : x = m
      · subst hxm
        rw [PQ.upd_same] at hr
        have := W.ok.wait (W.blk.1 hx)
        omega
      · rw [PQ.upd_ne _ _ hxm, W.ok.same.1] at hr
        have hx' : Blk ep.c x := (W.keep x hx.1 hxm).blk.1 hx
        exact (List.mem_erase_of_ne hxm).2 (hL x hx' hr)
    · have hmL : m ∈ L := hL m ((hmem m).1 hp3) (by omega)
      rw [List.length_erase_of_mem hmL]
      have := List.length_pos_of_mem hmL
      omega

theorem readQenc_good {P : Par} (hP : ParOk P) {ep : Ep} (h : EInv G ep) (src : Bytes) (n : Nat) : Good G (readQenc P ep src n) := by
  unfold readQenc
  rcases Qpack.readEncoder_safe h.core.r.sys.dec src with ⟨d', h1, h2, h3⟩ | ⟨d', e, h1, _⟩
  · rw [h1]
    dsimp only
    obtain ⟨M, hM, hmem, hlen⟩ := h.core.q
    have hsys : SysOk d'.ctx.hardMax ⟨d', SCtx.init⟩ := ⟨h2.ctx, rfl, .inr h2, h.core.r.sys.str⟩
    refine release_good hP n _ _ ⟨h.core.c, rinv_keep (fun _ => False) h.core.r hsys (fun x _ _ => ⟨.refl x, rfl⟩) (fun _ _ _ g => g.elim), ⟨M, hM, hmem, hlen⟩, h.core.k⟩
      M (fun x hx _ => (hmem x).2 hx) ?_
    rw [hM.len]; exact Nat.lt_succ_self _
  · rw [h1]; trivial

theorem readQdec_good {ep : Ep} (h : EInv G ep) (src : Bytes) (n : Nat) : Good G (readQdec ep src n) := by
  unfold readQdec
  have key : ep.c.enc.readDecoder src ≠ .crash ∧ ∀ e', ep.c.enc.readDecoder src = .ok e' → DsWF e' := by
    unfold Qpack.Enc.readDecoder
    dsimp only
    split_ifs with h1 h2
    · exact ⟨(fun g => by cases g), fun e' g => by cases g; exact h.core.c.enc⟩
    · exact ⟨(fun g => by cases g), fun e' g => by cases g⟩
    · exact Qpack.dsLoop_safe ⟨h.core.c.enc.inv.withRs ep.c.enc.rs ep.c.enc.reading ep.c.enc.dop (ep.c.enc.uninterrupted + src.length), h.core.c.enc.rd, h.core.c.enc.idle⟩ src
  rcases hd : ep.c.enc.readDecoder src with _ | _ | e
  · exact absurd hd key.1
  · trivial
  · exact einv_keep h (h.core.c.withEnc (key.2 e hd)) ⟨rfl, rfl⟩ (fun x _ => .refl x) (.refl _)

end Endpoint
end Nghttp3
