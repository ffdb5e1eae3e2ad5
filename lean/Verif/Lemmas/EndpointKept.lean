import Verif.Lemmas.EndpointBridge
import Verif.Lemmas.ConnSent5
/-! The ledger of a whole connection is that of its sending side. -/
namespace Nghttp3
namespace Endpoint
open Outq (R Ans)
open Sent (Ledger Book)

variable {P : Par} {server : Bool} {st : Settings}

theorem Kept.hist {L : Ledger Fld} {l : Log} {ep : Ep} (h : Kept P server st L l ep) : Hist P server st l ep := by
  induction h with
  | init => exact .init
  | step _ h1 _ h2 ih => exact .step ih h1 h2

/-- the two ledgers agree about the streams that exist -/
structure SameBooks (c : CC) (L L' : Ledger Fld) : Prop where
  asks : L'.asks = L.asks
  at_ : ∀ x, (c.str x).isSome = true → L'.at x = L.at x

theorem enter_received {b : Book Fld} {c : CC} {o : Conn.Op Fld} {r : Conn.Ret} {x : Nat} (h : received o = true) : Sent.enter b c o r x = b := by
  have key : ∀ q : Conn.Op Fld, received q = true → Sent.subm c q r x = [] ∧ Sent.closes q r x = false := by
    intro q hq
    unfold Sent.subm Sent.closes
    cases q <;> first | (cases hq; done) | (split_ifs <;> exact ⟨rfl, rfl⟩)
  obtain ⟨k1, k2⟩ := key o h
  have : ({ b with submitted := b.submitted ++ Sent.subm c o r x, closed := b.closed || Sent.closes o r x } : Book Fld) = b := by rw [k1, k2]; simp
  cases o <;> first | (cases h; done) | exact this

theorem permits_received {L : Ledger Fld} {c : CC} {o : Conn.Op Fld} (h : received o = true) (hok : Conn.OpOk o) : Sent.Permits L c o := by
  refine ⟨hok, ?_⟩
  cases o <;> first | (cases h; done) | trivial

theorem note_received {L : Ledger Fld} {c : CC} {o : Conn.Op Fld} {r : Conn.Ret} (h : received o = true) :
    (Sent.note L c o r).asks = L.asks ∧ ∀ x, (Sent.note L c o r).at x = if (c.str x).isSome then L.at x else { born := L.asks.length } := by
  constructor
  · unfold Sent.note
    cases o <;> first | (cases h; done) | rfl
  · intro x
    exact enter_received h

theorem path_grow {t u : Bool} {c0 a b : CC} (h : Path t true u a b) {L : Ledger Fld} (hr : Sent.Run encode FromPeer c0 L a) :
    (∀ x, (a.str x).isSome = true → (b.str x).isSome = true) ∧ ∃ L', Sent.Run encode FromPeer c0 L' b ∧ L'.asks = L.asks ∧
      ∀ x, (b.str x).isSome = true → L'.at x = if (a.str x).isSome then L.at x else { born := L.asks.length } := by
  induction h with
  | refl => exact ⟨fun x g => g, L, hr, rfl, fun x g => by rw [if_pos g]⟩
  | @op b c o r _ _ ho _ e hd _ ih =>
    obtain ⟨ig, L', h1, h2, h3⟩ := ih
    obtain ⟨k1, k2⟩ := note_received (L := L') (c := b) (r := r) ho.1
    refine ⟨fun x g => hd x (ig x g), _, .step h1 (permits_received ho.1 ho.2.1) e, k1.trans h2, fun x g => ?_⟩
    rw [k2, h2]
    by_cases hb : (b.str x).isSome = true
    · rw [if_pos hb, h3 x hb]
    · rw [if_neg hb, if_neg (fun ha => hb (ig x ha))]
  | enc _ he ih =>
    obtain ⟨ig, L', h1, h2, h3⟩ := ih
    exact ⟨ig, L', .peer h1 he, h2, h3⟩

theorem path_shrink {t u : Bool} {c0 a b : CC} (h : Path t false u a b) {L : Ledger Fld} (hr : Sent.Run encode FromPeer c0 L a) :
    (∀ x, (b.str x).isSome = true → (a.str x).isSome = true) ∧ ∃ L', Sent.Run encode FromPeer c0 L' b ∧ L'.asks = L.asks ∧
      ∀ x, (b.str x).isSome = true → L'.at x = L.at x := by
  induction h with
  | refl => exact ⟨fun x g => g, L, hr, rfl, fun x g => rfl⟩
  | @op b c o r _ _ ho _ e hd _ ih =>
    obtain ⟨ig, L', h1, h2, h3⟩ := ih
    obtain ⟨k1, k2⟩ := note_received (L := L') (c := b) (r := r) ho.1
    refine ⟨fun x g => ig x (hd x g), _, .step h1 (permits_received ho.1 ho.2.1) e, k1.trans h2, fun x g => ?_⟩
    have g' : (b.str x).isSome = true := hd x g
    rw [k2, if_pos g', h3 x g']
  | enc _ he ih =>
    obtain ⟨ig, L', h1, h2, h3⟩ := ih
    exact ⟨ig, L', .peer h1 he, h2, h3⟩

theorem SameBooks.permits {c : CC} {L L' : Ledger Fld} (h : SameBooks c L L') {o : Conn.Op Fld} (hp : Sent.Permits L c o) : Sent.Permits L' c o := by
  refine ⟨hp.1, ?_⟩
  have h2 := hp.2
  cases o with
  | addWrite id n => exact fun g => by rw [h.at_ id g]; exact h2 g
  | addAck id n => exact fun g => by rw [h.at_ id g]; exact h2 g
  | updAck id n => exact fun g => by rw [h.at_ id g]; exact h2 g
  | _ => exact h2

theorem note_same {c : CC} {L L' : Ledger Fld} (h : SameBooks c L L') (o : Conn.Op Fld) (r : Conn.Ret) : Sent.note L' c o r = Sent.note L c o r := by
  unfold Sent.note
  rw [h.asks]
  congr 1
  funext x
  by_cases g : (c.str x).isSome = true
  · rw [if_pos g, if_pos g, h.at_ x g]
  · rw [if_neg g, if_neg g]

/-- The sending side of the connection has a history with the same ledger. -/
theorem kept_run (hP : ParOk P) (hst : SettingsOk st) {L : Ledger Fld} {l : Log} {ep : Ep} (h : Kept P server st L l ep) :
    ∃ L', Sent.Run encode FromPeer (init server st).c L' ep.c ∧ SameBooks ep.c L L' := by
  induction h with
  | init => exact ⟨{}, .init, rfl, fun _ _ => rfl⟩
  | @step L l ep ep' o r ev h0 h1 h2 h3 ih =>
    obtain ⟨L', k1, k2⟩ := ih
    rcases ho : opOn ep o with _ | op
    · have hn : note L ep o r = { L with «at» := fun x => if (ep.c.str x).isSome then L.at x else { born := L.asks.length } } := by
        unfold note; rw [ho]
      rw [hn]
      obtain ⟨_, ⟨id, src, fin, rfl⟩ | ⟨n, rfl⟩⟩ := opOn_none ho
      · obtain ⟨a1, a2⟩ := h1 id src fin rfl
        obtain ⟨⟨m, b1, b2⟩, _⟩ := read_path hP (hist_einv hP hst h0.hist) (hist_sync hP hst h0.hist) a1 a2 h3
        obtain ⟨c1, L1, c2, c3, c4⟩ := path_grow b1 k1
        obtain ⟨d1, L2, d2, d3, d4⟩ := path_shrink b2 c2
        refine ⟨L2, d2, d3.trans (c3.trans k2.asks), fun x g => ?_⟩
        rw [d4 x g, c4 x (d1 x g), k2.asks]
        dsimp only
        by_cases hx : (ep.c.str x).isSome = true
        · rw [if_pos hx, if_pos hx, k2.at_ x hx]
        · rw [if_neg hx, if_neg hx]
      · change Res.ok _ _ _ = _ at h3
        cases h3
        refine ⟨L', k1, k2.asks, fun x g => ?_⟩
        have g' : (ep.c.str x).isSome = true := g
        dsimp only
        rw [if_pos g', k2.at_ x g]
    · obtain ⟨e1, _⟩ := step_op ho h3
      have hn : note L ep o r = Sent.note L ep.c op r := by unfold note; rw [ho]
      rw [hn]
      refine ⟨_, .step k1 (k2.permits (h2 op ho)) e1, ?_, fun x _ => ?_⟩
      · rw [note_same k2]
      · rw [note_same k2]

end Endpoint
end Nghttp3
