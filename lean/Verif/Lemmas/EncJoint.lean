import Verif.Lemmas.EndpointEnc
import Verif.Lemmas.EndpointKept
/-! One history of the QPACK encoder for both what the peer says and what the connection sends. -/
namespace Nghttp3
namespace Endpoint
open Outq (R Ans)
open Sent (Ledger Book Serve)


variable {P : Par} {server : Bool} {st : Settings}

theorem rinv_received {e0 : Qpack.Enc} {L : Ledger Fld} {log : List (Serve Fld)} {c c' : CC} (h : Conn.RInv encode FromPeer e0 L c log) {o : Conn.Op Fld} {r : Conn.Ret}
    (ho : received o = true) (hok : Conn.OpOk o) (e : Conn.step encode c o = .ok (c', r)) : Conn.RInv encode FromPeer e0 (Sent.note L c o r) c' log :=
  Conn.rinv_out h (by rintro id rfl; cases ho) (by rintro a b rfl; cases ho) (by rintro k d as rfl; cases ho) (permits_received ho hok) e

theorem rinv_grow {t u : Bool} {e0 : Qpack.Enc} {log : List (Serve Fld)} {a b : CC} (h : Path t true u a b) {L : Ledger Fld} (hr : Conn.RInv encode FromPeer e0 L a log) :
    (∀ x, (a.str x).isSome = true → (b.str x).isSome = true) ∧ ∃ L', Conn.RInv encode FromPeer e0 L' b log ∧ L'.asks = L.asks ∧
      ∀ x, (b.str x).isSome = true → L'.at x = if (a.str x).isSome then L.at x else { born := L.asks.length } := by
  induction h with
  | refl => exact ⟨fun x g => g, L, hr, rfl, fun x g => by rw [if_pos g]⟩
  | @op b c o r _ _ ho _ e hd _ ih =>
    obtain ⟨ig, L', h1, h2, h3⟩ := ih
    obtain ⟨k1, k2⟩ := note_received (L := L') (c := b) (r := r) ho.1
    refine ⟨fun x g => hd x (ig x g), _, rinv_received h1 ho.1 ho.2.1 e, k1.trans h2, fun x g => ?_⟩
    rw [k2, h2]
    by_cases hb : (b.str x).isSome = true
    · rw [if_pos hb, h3 x hb]
    · rw [if_neg hb, if_neg (fun ha => hb (ig x ha))]
  | enc _ he ih =>
    obtain ⟨ig, L', h1, h2, h3⟩ := ih
    exact ⟨ig, L', Conn.rinv_peer h1 he, h2, h3⟩

theorem rinv_shrink {t u : Bool} {e0 : Qpack.Enc} {log : List (Serve Fld)} {a b : CC} (h : Path t false u a b) {L : Ledger Fld} (hr : Conn.RInv encode FromPeer e0 L a log) :
    (∀ x, (b.str x).isSome = true → (a.str x).isSome = true) ∧ ∃ L', Conn.RInv encode FromPeer e0 L' b log ∧ L'.asks = L.asks ∧
      ∀ x, (b.str x).isSome = true → L'.at x = L.at x := by
  induction h with
  | refl => exact ⟨fun x g => g, L, hr, rfl, fun x g => rfl⟩
  | @op b c o r _ _ ho _ e hd _ ih =>
    obtain ⟨ig, L', h1, h2, h3⟩ := ih
    obtain ⟨k1, k2⟩ := note_received (L := L') (c := b) (r := r) ho.1
    refine ⟨fun x g => ig x (hd x g), _, rinv_received h1 ho.1 ho.2.1 e, k1.trans h2, fun x g => ?_⟩
    have g' : (b.str x).isSome = true := hd x g
    rw [k2, if_pos g', h3 x g']
  | enc _ he ih =>
    obtain ⟨ig, L', h1, h2, h3⟩ := ih
    exact ⟨ig, L', Conn.rinv_peer h1 he, h2, h3⟩

/-- the sections made for the log -/
def madeIn (log : List (Serve Fld)) : List (Sent.Made Fld) := log.flatMap Serve.made

theorem kept_joint (hP : ParOk P) (hst : SettingsOk st) {L : Ledger Fld} {l : Log} {ep : Ep} (h : Kept P server st L l ep) :
    ∃ L' log fed is p, Conn.RInv encode FromPeer (Qpack.Enc.init st.qpackEncoderMaxDtableCapacity) L' ep.c log ∧ SameBooks ep.c L L' ∧
      EncHist server st.qpackEncoderMaxDtableCapacity l ep fed is p (madeIn log) := by
  induction h with
  | init =>
    refine ⟨{}, [], [], [], [], ?_, ⟨rfl, fun _ _ => rfl⟩, encHist_init _ rfl⟩
    refine ⟨Conn.init_inv _ _ _, ⟨hst.1, hst.2.1, hst.2.2.2⟩, ⟨rfl, (fun p hp => by cases hp)⟩, .nil _, fun _ => rfl, fun _ => rfl, fun x s hx => ?_, fun x s hx => ?_⟩ <;> cases hx
  | @step L l ep ep' o r ev h0 h1 h2 h3 ih =>
    obtain ⟨L', log, fed, is, p, k1, k2, k3⟩ := ih
    rcases ho : opOn ep o with _ | op
    · obtain ⟨fed', is', p', k4⟩ := encHist_read hP hst h0.hist h1 h3 ho k3
      have hn : note L ep o r = { L with «at» := fun x => if (ep.c.str x).isSome then L.at x else { born := L.asks.length } } := by
        unfold note; rw [ho]
      rw [hn]
      obtain ⟨_, ⟨id, src, fin, rfl⟩ | ⟨n, rfl⟩⟩ := opOn_none ho
      · obtain ⟨a1, a2⟩ := h1 id src fin rfl
        obtain ⟨⟨m, b1, b2⟩, _⟩ := read_path hP (hist_einv hP hst h0.hist) (hist_sync hP hst h0.hist) a1 a2 h3
        obtain ⟨c1, L1, c2, c3, c4⟩ := rinv_grow b1 k1
        obtain ⟨d1, L2, d2, d3, d4⟩ := rinv_shrink b2 c2
        refine ⟨L2, log, fed', is', p', d2, ⟨d3.trans (c3.trans k2.asks), fun x g => ?_⟩, k4⟩
        rw [d4 x g, c4 x (d1 x g), k2.asks]
        dsimp only
        by_cases hx : (ep.c.str x).isSome = true
        · rw [if_pos hx, if_pos hx, k2.at_ x hx]
        · rw [if_neg hx, if_neg hx]
      · change Res.ok _ _ _ = _ at h3
        cases h3
        refine ⟨L', log, fed', is', p', k1, ⟨k2.asks, fun x g => ?_⟩, k4⟩
        have g' : (ep.c.str x).isSome = true := g
        dsimp only
        rw [if_pos g', k2.at_ x g]
    · obtain ⟨e1, _⟩ := step_op ho h3
      have hn : note L ep o r = Sent.note L ep.c op r := by unfold note; rw [ho]
      have hp := k2.permits (h2 op ho)
      rw [hn, ← note_same k2]
      have same : (∀ k db as, op ≠ .writev k db as) → Conn.RInv encode FromPeer (Qpack.Enc.init st.qpackEncoderMaxDtableCapacity) (Sent.note L' ep.c op r) ep'.c log →
          ∃ L2 log fed is p, Conn.RInv encode FromPeer (Qpack.Enc.init st.qpackEncoderMaxDtableCapacity) L2 ep'.c log ∧ SameBooks ep'.c (Sent.note L' ep.c op r) L2 ∧
            EncHist server st.qpackEncoderMaxDtableCapacity (l ++ [(o, r, ev)]) ep' fed is p (madeIn log) := by
        intro hnw hr
        refine ⟨_, log, fed, is, p, hr, ⟨rfl, fun _ _ => rfl⟩, encHist_op hP hst h0.hist h1 h3 ho k3 ?_⟩
        rw [Conn.step_enc_same hnw e1]; exact k3.dict
      cases op with
      | bindControl id => exact same (by rintro _ _ _ g; cases g) (Conn.rinv_control k1 e1)
      | bindQpack a b => exact same (by rintro _ _ _ g; cases g) (Conn.rinv_qpack k1 e1)
      | writev k db as =>
        obtain ⟨sv, g1, g2, _⟩ := Conn.rinv_writev encode_ok k1 hp e1
        refine ⟨_, log ++ [sv], fed, is, p, g1, ⟨rfl, fun _ _ => rfl⟩, encHist_op hP hst h0.hist h1 h3 ho k3 ?_⟩
        have := k3.dict.chain (Conn.steps_chain _ g2)
        unfold madeIn at this ⊢
        rw [List.flatMap_append]
        simpa using this
      | _ => exact same (by rintro _ _ _ g; cases g) (Conn.rinv_out k1 (by rintro _ g; cases g) (by rintro _ _ g; cases g) (by rintro _ _ _ g; cases g) hp e1)

end Endpoint
end Nghttp3
