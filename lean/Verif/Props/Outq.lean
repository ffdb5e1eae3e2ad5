import Verif.Lemmas.OutqFill
/-! Property theorems C32 (outgoing bytes) and C33 (acknowledgement). -/
namespace Nghttp3
namespace Props
open Outq

variable {E F : Type}

/-- invariant of the history of a stream -/
structure HInv (encode : E → F → Option (E × Bytes × Bytes × Bytes)) (h : Hist F) : Prop where
  inv : Inv (itemsBytes h.items) h.st
  ok : ∀ x ∈ h.items, EmitOk x
  acc : h.accepted = ((itemsBytes h.items).map Prod.fst).take (h.st.ackBase + written h.st.outq)
  ack : h.acked = h.st.ackOffset
  rep : h.reports.sum = (appBytes ((itemsBytes h.items).take h.acked) : Nat)
  nonneg : ∀ x ∈ h.reports, 0 ≤ x
  ends : h.st.endStream = h.ended
  frqOk : ∀ f ∈ h.st.frq, FrentOk f
  follows : Follows encode h.submitted h.items h.st.frq

theorem hinv_acc_len {encode : E → F → Option (E × Bytes × Bytes × Bytes)} {h : Hist F} (hi : HInv encode h) :
    h.accepted.length = h.st.ackBase + written h.st.outq ∧ h.accepted.length + h.st.unsent = (itemsBytes h.items).length := by
  have := hi.inv.sent
  rw [hi.acc, List.length_take, List.length_map]
  omega

theorem hinv_init (encode : E → F → Option (E × Bytes × Bytes × Bytes)) : HInv encode ({} : Hist F) :=
  ⟨inv_init, by simp, rfl, rfl, rfl, by simp, rfl, by simp, .done _⟩

/-- new items -/
theorem hinv_add {encode : E → F → Option (E × Bytes × Bytes × Bytes)} {h : Hist F} (hi : HInv encode h) (new : List Emit) (st : St F)
    (ended : Bool) (h1 : Inv (itemsBytes h.items ++ itemsBytes new) st) (h2 : ∀ x ∈ new, EmitOk x) (h3 : st.ackOffset = h.st.ackOffset)
    (h4 : st.ackBase + written st.outq = h.st.ackBase + written h.st.outq) (h5 : st.endStream = ended) (h6 : ∀ f ∈ st.frq, FrentOk f)
    (h7 : Follows encode h.st.frq new st.frq) :
    HInv encode { h with st := st, items := h.items ++ new, ended := ended } := by
  have hs := hi.inv.sent
  refine ⟨?_, ?_, ?_, hi.ack.trans h3.symm, ?_, hi.nonneg, h5, h6, follows_append hi.follows h7⟩
  · dsimp only; rw [itemsBytes_append]; exact h1
  · intro x hx
    rcases List.mem_append.1 hx with hx | hx
    · exact hi.ok x hx
    · exact h2 x hx
  · dsimp only
    rw [h4, hi.acc, itemsBytes_append, List.map_append, List.take_append_of_le_length (by rw [List.length_map]; omega)]
  · dsimp only
    rw [hi.rep, itemsBytes_append, List.take_append_of_le_length]
    have := hi.ack
    have := hi.inv.ack1
    omega

theorem hinv_adds {encode : E → F → Option (E × Bytes × Bytes × Bytes)} {h : Hist F} (hi : HInv encode h) (x : Emit) (hx : EmitOk x)
    (hfo : ∀ r, Follows encode r [x] r) (r : R (St F)) (ha : Adds (itemsBytes h.items) (itemBytes x) h.st r) :
    r = .overflow ∨ ∃ st, r = .ok st ∧ HInv encode { h with st := st, items := h.items ++ [x] } := by
  rcases ha with h | ⟨st, h1, h2, h3, h4, h5, h6, h7⟩
  · exact Or.inl h
  · right
    refine ⟨st, h1, ?_⟩
    have := hinv_add hi [x] st h.ended (by rw [itemsBytes_one]; exact h2) (fun y hy => by rw [List.mem_singleton.1 hy]; exact hx) h6 h7
      (h4.trans hi.ends) (by rw [h3]; exact hi.frqOk) (by rw [h3]; exact hfo _)
    exact this

/-- writing -/
theorem hinv_write {encode : E → F → Option (E × Bytes × Bytes × Bytes)} {h : Hist F} (hi : HInv encode h) (k n : Nat) (hk : 0 < k)
    (hv : ∀ vs fin, writev h.st k = .ok (vs, fin) → n ≤ vs.flatten.length) : ∃ h', h.write k n = .ok h' ∧ HInv encode h' := by
  obtain ⟨vs, fin, h1, h2, _⟩ := writev_spec hi.inv k hk
  have hn := hv vs fin h1
  have hs := hi.inv.sent
  have hl := h2.length_le
  rw [List.length_drop, List.length_map] at hl
  obtain ⟨st, g1, g2, g3, g4, g5, g6, g7, g8⟩ := addOffset_spec hi.inv n (by omega)
  unfold Hist.write
  rw [h1]
  have hb : ∀ f : List Bytes × Bool → R (Hist F), (R.ok (vs, fin)).bind f = f (vs, fin) := fun _ => rfl
  rw [hb, g1]
  refine ⟨_, rfl, g2, hi.ok, ?_, hi.ack.trans g7.symm, hi.rep, hi.nonneg, g5.trans hi.ends, by dsimp only; rw [g4]; exact hi.frqOk, by dsimp only; rw [g4]; exact hi.follows⟩
  dsimp only
  rw [g3, hi.acc]
  conv_rhs => rw [List.take_add]
  congr 1
  obtain ⟨t, ht⟩ := h2
  rw [← ht, List.take_append_of_le_length hn]

/-- acknowledgement -/
theorem hinv_ack {encode : E → F → Option (E × Bytes × Bytes × Bytes)} {h : Hist F} (hi : HInv encode h) (off : Nat) (h1 : h.acked ≤ off)
    (h2 : off ≤ h.accepted.length) : ∃ h', h.ack off = .ok h' ∧ HInv encode h' := by
  have hl := (hinv_acc_len hi).1
  have hak := hi.ack
  obtain ⟨st, rep, k, g1, g2, g3, g4, g5, g6, g7, g8, g9, g10, _⟩ := ack_spec hi.inv off (by omega) (by omega)
  unfold Hist.ack
  rw [g1]
  refine ⟨_, rfl, g2, hi.ok, ?_, g3.symm, ?_, ?_, g6.trans hi.ends, by dsimp only; rw [g5]; exact hi.frqOk, by dsimp only; rw [g5]; exact hi.follows⟩
  · dsimp only; rw [g4]; exact hi.acc
  · dsimp only
    rw [List.sum_append, hi.rep, g9]
    norm_cast
    rw [← appBytes_append, ← hak]
    congr 1
    have e0 : off = h.acked + (off - h.acked) := by omega
    conv_rhs => rw [e0]
    rw [List.take_add]
  · intro x hx
    rcases List.mem_append.1 hx with hx | hx
    · exact hi.nonneg x hx
    · exact g10 x hx

/-- one call -/
theorem world_step (encode : E → F → Option (E × Bytes × Bytes × Bytes)) (henc : EncodeOk encode) (w : World E F) (o : Op F)
    (hs : HInv encode w.s) (hq : HInv encode w.q) (hv : w.Valid o) :
    w.step encode o = .overflow ∨ w.step encode o = .callbackFailure ∨
      ∃ w', w.step encode o = .ok w' ∧ HInv encode w'.s ∧ HInv encode w'.q := by
  have hget : ∀ b, HInv encode (w.get b) := by intro b; cases b; exact hs; exact hq
  have hset : ∀ b h, HInv encode h → HInv encode (w.set b h).s ∧ HInv encode (w.set b h).q := by
    intro b h hh; cases b
    · exact ⟨hh, hq⟩
    · exact ⟨hs, hh⟩
  cases o with
  | streamType onQ ty =>
    have hty : ty < 2 ^ 62 := hv
    rcases hinv_adds (hget onQ) (.streamType ty) hty (fun r => .streamType (.done r)) (writeStreamType (w.get onQ).st ty)
      (adds_shared (hget onQ).inv _ _ (putVarint_ne ty hty) (Nat.le_of_eq (putVarint_length ty))) with h | ⟨st, h, hi⟩
    · left; unfold World.step; dsimp only; rw [h]; rfl
    · right; right; unfold World.step; dsimp only; rw [h]
      exact ⟨_, rfl, hset onQ _ hi⟩
  | submit f fin =>
    right; right
    refine ⟨_, rfl, ?_, hq⟩
    refine ⟨inv_congr hs.inv rfl rfl rfl rfl rfl rfl rfl rfl, hs.ok, hs.acc, hs.ack, hs.rep, hs.nonneg, by dsimp only; rw [hs.ends], ?_, follows_submit hs.follows f⟩
    intro x hx
    rcases List.mem_append.1 hx with hx | hx
    · exact hs.frqOk x hx
    · rw [List.mem_singleton.1 hx]; exact hv
  | raw onQ bs =>
    have hb : bs ≠ [] := hv
    rcases hinv_adds (hget onQ) (.raw bs) trivial (fun r => .raw (.done r)) (sharedWrite (w.get onQ).st bs.length bs)
      (adds_shared (hget onQ).inv _ _ hb (Nat.le_refl _)) with h | ⟨st, h, hi⟩
    · left; unfold World.step; dsimp only; rw [h]; rfl
    · right; right; unfold World.step; dsimp only; rw [h]
      exact ⟨_, rfl, hset onQ _ hi⟩
  | resume =>
    exact Or.inr (Or.inr ⟨_, rfl, ⟨inv_congr hs.inv rfl rfl rfl rfl rfl rfl rfl rfl, hs.ok, hs.acc, hs.ack, hs.rep, hs.nonneg, hs.ends, hs.frqOk, hs.follows⟩, hq⟩)
  | fill as =>
    unfold World.step
    dsimp only
    by_cases hrb : w.s.st.readBlocked = true
    · rw [if_pos hrb]; exact Or.inr (Or.inr ⟨w, rfl, hs, hq⟩)
    · rw [if_neg hrb]
      unfold fillOutq
      rcases fillLoop_spec encode henc w.s.st.frq w.e w.s.st w.q.st as [] _ _ hs.inv hq.inv hs.frqOk hv (by simpa using hrb) with
        h | h | ⟨e', s', q', new, h, hf⟩
      · rw [h]; exact Or.inr (Or.inl rfl)
      · rw [h]; exact Or.inl rfl
      · rw [h, List.nil_append]
        refine Or.inr (Or.inr ⟨_, rfl, ?_, ?_⟩)
        · exact hinv_add hs new s' (w.s.ended || endsIn new) hf.inv hf.ok hf.ack hf.sent (by rw [hf.ends, hs.ends]) hf.frqOk hf.follows
        · have hqo : ∀ x ∈ encoderItems new, EmitOk x := by
            intro x hx
            clear h hf
            induction new with
            | nil => cases hx
            | cons a t ih =>
              cases a <;> first | exact ih hx | skip
              rcases List.mem_cons.1 hx with rfl | hx
              · trivial
              · exact ih hx
          have hqf : ∀ r : List (Frent F), Follows encode r (encoderItems new) r := by
            intro r
            clear h hf hqo
            induction new with
            | nil => exact .done _
            | cons a t ih => cases a <;> first | exact ih | exact .raw ih
          have := hinv_add hq (encoderItems new) q' w.q.ended hf.invq hqo hf.qack hf.qsent (hf.qsame.2.1.trans hq.ends)
            (by rw [hf.qsame.1]; exact hq.frqOk) (by rw [hf.qsame.1]; exact hqf _)
          exact this
  | write onQ k n =>
    obtain ⟨h', h1, h2⟩ := hinv_write (hget onQ) k n hv.1 hv.2
    unfold World.step; dsimp only; rw [h1]
    exact Or.inr (Or.inr ⟨_, rfl, hset onQ _ h2⟩)
  | ack onQ off =>
    obtain ⟨h', h1, h2⟩ := hinv_ack (hget onQ) off hv.1 hv.2
    unfold World.step; dsimp only; rw [h1]
    exact Or.inr (Or.inr ⟨_, rfl, hset onQ _ h2⟩)

theorem world_run (encode : E → F → Option (E × Bytes × Bytes × Bytes)) (henc : EncodeOk encode) (ops : List (Op F)) (w : World E F)
    (hs : HInv encode w.s) (hq : HInv encode w.q) (hv : w.ValidAll encode ops) :
    w.run encode ops ≠ .crash ∧ ∀ w', w.run encode ops = .ok w' → HInv encode w'.s ∧ HInv encode w'.q := by
  induction ops generalizing w with
  | nil => exact ⟨by simp [World.run], fun w' h => by simp only [World.run, R.ok.injEq] at h; subst h; exact ⟨hs, hq⟩⟩
  | cons o t ih =>
    rcases world_step encode henc w o hs hq hv.1 with h | h | ⟨w1, h, h1, h2⟩
    · constructor
      · rw [World.run, h]; exact fun h => by cases h
      · intro w' hw; rw [World.run, h] at hw; cases hw
    · constructor
      · rw [World.run, h]; exact fun h => by cases h
      · intro w' hw; rw [World.run, h] at hw; cases hw
    · have hb : w.run encode (o :: t) = w1.run encode t := by rw [World.run, h]; rfl
      rw [hb]
      exact ih w1 h1 h2 (hv.2 w1 h)

/-- what a stream carries: its items on the wire -/
def Carries (items : List Emit) (m : Marked) : Prop := ∃ parts, List.Forall₂ Wire items parts ∧ m = parts.flatten

theorem carries_items (items : List Emit) (h : ∀ x ∈ items, EmitOk x) : Carries items (itemsBytes items) := by
  refine ⟨items.map itemBytes, ?_, rfl⟩
  induction items with
  | nil => exact .nil
  | cons x t ih => exact .cons (wire_item x (h x List.mem_cons_self)) (ih (fun y hy => h y (List.mem_cons_of_mem _ hy)))

/-- C32.  In every history of allowed calls on a stream and on the encoder stream, with any QPACK encoder, any answers of read_data, any
sizes of partial writes and any acknowledgements, starting from new streams: no assertion fails and no freed memory is read; the items queued
serve the submitted frames in order; the bytes accepted so far are a prefix of what the items look like on the wire, and the rest is exactly
what is still to be sent.  `b` selects the stream. -/
theorem C32_bytes (encode : E → F → Option (E × Bytes × Bytes × Bytes)) (henc : EncodeOk encode) (e : E) (ops : List (Op F))
    (hv : ({ e := e } : World E F).ValidAll encode ops) :
    ({ e := e } : World E F).run encode ops ≠ .crash ∧
    ∀ w, ({ e := e } : World E F).run encode ops = .ok w → ∀ b, ∃ m, Carries (w.get b).items m ∧
      Follows encode (w.get b).submitted (w.get b).items (w.get b).st.frq ∧
      (w.get b).accepted <+: m.map Prod.fst ∧ (w.get b).accepted.length + (w.get b).st.unsent = m.length := by
  obtain ⟨h1, h2⟩ := world_run encode henc ops { e := e } (hinv_init encode) (hinv_init encode) hv
  refine ⟨h1, ?_⟩
  intro w hw b
  obtain ⟨hs, hq⟩ := h2 w hw
  have hi : HInv encode (w.get b) := by cases b; exact hs; exact hq
  exact ⟨itemsBytes (w.get b).items, carries_items _ hi.ok, hi.follows, by rw [hi.acc]; exact List.take_prefix _ _, (hinv_acc_len hi).2⟩

/-- C32 (limit).  What is queued on a stream, so also what is accepted, is never more than QUIC permits, 2^62 - 1 bytes: a call that would
exceed it fails (NGHTTP3_ERR_STREAM_DATA_OVERFLOW). -/
theorem C32_limit (encode : E → F → Option (E × Bytes × Bytes × Bytes)) (henc : EncodeOk encode) (e : E) (ops : List (Op F))
    (hv : ({ e := e } : World E F).ValidAll encode ops) (w : World E F) (hw : ({ e := e } : World E F).run encode ops = .ok w) (b : Bool) :
    ∃ m, Carries (w.get b).items m ∧ m.length < 2 ^ 62 ∧ (w.get b).accepted.length < 2 ^ 62 := by
  obtain ⟨-, h2⟩ := world_run encode henc ops { e := e } (hinv_init encode) (hinv_init encode) hv
  obtain ⟨hs, hq⟩ := h2 w hw
  have hi : HInv encode (w.get b) := by cases b; exact hs; exact hq
  have hl := hi.inv.lim
  have ha := (hinv_acc_len hi).2
  exact ⟨_, carries_items _ hi.ok, by omega, by omega⟩

/-- C32 (limit).  … and queueing a buffer (nghttp3_stream_outq_add) fails only if it would be. -/
theorem C32_overflow_only (s : St F) (hs : s.txOffset < 2 ^ 62) (t : Ent) : outqAdd s t = .overflow ↔ 2 ^ 62 ≤ s.txOffset + t.len := by
  unfold outqAdd
  constructor
  · intro h
    by_cases g : t.len > Outq.MAX_VARINT - s.txOffset
    · unfold Outq.MAX_VARINT at g; omega
    · rw [if_neg g] at h
      dsimp only at h
      split at h
      · split_ifs at h
      · cases h
  · intro h
    exact if_pos (by unfold Outq.MAX_VARINT; omega)

/-- C32 (what is offered).  After every such history, a call with room for at least one vector offers bytes that come right after the accepted
ones; something is offered if anything is left; fin is offered only if all submitted frames have been served, the application has announced the
end and the offered bytes complete the stream; and fin is offered in that case if the vectors suffice. -/
theorem C32_offered (encode : E → F → Option (E × Bytes × Bytes × Bytes)) (henc : EncodeOk encode) (e : E) (ops : List (Op F))
    (hv : ({ e := e } : World E F).ValidAll encode ops) (w : World E F) (hw : ({ e := e } : World E F).run encode ops = .ok w) (b : Bool)
    (k : Nat) (hk : 0 < k) :
    ∃ vs fin m, writev (w.get b).st k = .ok (vs, fin) ∧ Carries (w.get b).items m ∧
      (w.get b).accepted ++ vs.flatten <+: m.map Prod.fst ∧ vs.length ≤ k ∧ (∀ v ∈ vs, v ≠ []) ∧
      ((w.get b).accepted.length < m.length → vs.flatten ≠ []) ∧
      (fin = true → Follows encode (w.get b).submitted (w.get b).items [] ∧ (w.get b).ended = true ∧
        (w.get b).accepted ++ vs.flatten = m.map Prod.fst) ∧
      ((w.get b).st.frq = [] → (w.get b).ended = true → (w.get b).st.outq.length < k → fin = true) := by
  obtain ⟨-, h2⟩ := world_run encode henc ops { e := e } (hinv_init encode) (hinv_init encode) hv
  obtain ⟨hs, hq⟩ := h2 w hw
  have hi : HInv encode (w.get b) := by cases b; exact hs; exact hq
  obtain ⟨vs, fin, g1, g2, g3, g4, g5, g6, g7⟩ := writev_spec hi.inv k hk
  have hl := hinv_acc_len hi
  refine ⟨vs, fin, _, g1, carries_items _ hi.ok, ?_, g5, g6, ?_, ?_, ?_⟩
  · obtain ⟨t, ht⟩ := g2
    refine ⟨t, ?_⟩
    rw [List.append_assoc, ht, hi.acc, List.take_append_drop]
  · intro hlt; exact g4 (by omega)
  · intro hf
    obtain ⟨a1, a2, a3⟩ := g3 hf
    refine ⟨by rw [← a1]; exact hi.follows, by rw [← hi.ends]; exact a2, ?_⟩
    rw [a3, hi.acc, List.take_append_drop]
  · intro a1 a2 a3
    exact g7 a1 (by rw [hi.ends]; exact a2) a3

/-- C32 (no answer of the application is lost or repeated): the body items that a call of fill_outq queues are the first answers of read_data,
in order. -/
theorem C32_answers (encode : E → F → Option (E × Bytes × Bytes × Bytes)) (henc : EncodeOk encode) (e : E) (ops : List (Op F))
    (hv : ({ e := e } : World E F).ValidAll encode ops) (w : World E F) (hw : ({ e := e } : World E F).run encode ops = .ok w)
    (as : List Ans) (ha : ∀ a ∈ as, AnsOk a) (w' : World E F) (hs' : w.step encode (.fill as) = .ok w') :
    ∃ new, w'.s.items = w.s.items ++ new ∧ dataAnswers new <+: as := by
  obtain ⟨-, h2⟩ := world_run encode henc ops { e := e } (hinv_init encode) (hinv_init encode) hv
  obtain ⟨hs, hq⟩ := h2 w hw
  unfold World.step at hs'
  dsimp only at hs'
  by_cases hrb : w.s.st.readBlocked = true
  · rw [if_pos hrb] at hs'
    simp only [R.ok.injEq] at hs'
    subst hs'
    exact ⟨[], by simp, by simp [dataAnswers]⟩
  · rw [if_neg hrb] at hs'
    unfold fillOutq at hs'
    rcases fillLoop_spec encode henc w.s.st.frq w.e w.s.st w.q.st as [] _ _ hs.inv hq.inv hs.frqOk ha (by simpa using hrb) with
      h | h | ⟨e', s', q', new, h, hf⟩
    · rw [h] at hs'; cases hs'
    · rw [h] at hs'; cases hs'
    · rw [h, List.nil_append] at hs'
      have hb : ∀ f : E × St F × St F × List Emit → R (World E F), (R.ok (e', s', q', new)).bind f = f (e', s', q', new) := fun _ => rfl
      rw [hb] at hs'
      simp only [R.ok.injEq] at hs'
      subst hs'
      exact ⟨new, rfl, hf.answers⟩

/-- C33.  In every such history the lengths reported by acked_stream_data are nonnegative and add up to the number of application bytes among
the acknowledged bytes of the stream. -/
theorem C33_reports (encode : E → F → Option (E × Bytes × Bytes × Bytes)) (henc : EncodeOk encode) (e : E) (ops : List (Op F))
    (hv : ({ e := e } : World E F).ValidAll encode ops) (w : World E F) (hw : ({ e := e } : World E F).run encode ops = .ok w) (b : Bool) :
    ∃ m, Carries (w.get b).items m ∧ (w.get b).acked ≤ (w.get b).accepted.length ∧ (w.get b).accepted.length ≤ m.length ∧
      (w.get b).reports.sum = ((m.take (w.get b).acked).countP (fun x => x.2) : Nat) ∧ ∀ x ∈ (w.get b).reports, 0 ≤ x := by
  obtain ⟨-, h2⟩ := world_run encode henc ops { e := e } (hinv_init encode) (hinv_init encode) hv
  obtain ⟨hs, hq⟩ := h2 w hw
  have hi : HInv encode (w.get b) := by cases b; exact hs; exact hq
  have hl := hinv_acc_len hi
  have h3 := hi.ack
  have h4 := hi.inv.ack1
  exact ⟨_, carries_items _ hi.ok, by omega, by omega, hi.rep, hi.nonneg⟩

/-- C33 (release).  The buffers still held are all in live memory and hold exactly the bytes of the stream from some position on that is not
after the acknowledged prefix: nothing that is not acknowledged has been released. -/
theorem C33_release (encode : E → F → Option (E × Bytes × Bytes × Bytes)) (henc : EncodeOk encode) (e : E) (ops : List (Op F))
    (hv : ({ e := e } : World E F).ValidAll encode ops) (w : World E F) (hw : ({ e := e } : World E F).run encode ops = .ok w) (b : Bool) :
    ∃ m base, Carries (w.get b).items m ∧ base ≤ (w.get b).acked ∧
      ∃ bufs : List Bytes, (w.get b).st.outq.map (fun x => (x.region (w.get b).st.chunks).map fun r => slice r x.beg x.last) = bufs.map some ∧
        bufs.flatten = (m.map Prod.fst).drop base := by
  obtain ⟨-, h2⟩ := world_run encode henc ops { e := e } (hinv_init encode) (hinv_init encode) hv
  obtain ⟨hs, hq⟩ := h2 w hw
  have hi : HInv encode (w.get b) := by cases b; exact hs; exact hq
  have h3 := hi.ack
  have h4 := hi.inv.ack0
  refine ⟨_, (w.get b).st.ackBase, carries_items _ hi.ok, by omega,
    (w.get b).st.outq.map (fun x => slice ((x.region (w.get b).st.chunks).getD []) x.beg x.last), ?_, ?_⟩
  · rw [List.map_map]
    apply List.map_congr_left
    intro x hx
    obtain ⟨r, hr, _⟩ := hi.inv.q.live x hx
    simp [hr]
  · rw [← List.map_drop, ← hi.inv.q.content, List.map_flatten, List.map_map]
    congr 1
    apply List.map_congr_left
    intro x _
    unfold Ent.tag tags
    simp [Function.comp_def]

/-- C33: an acknowledgement offset behind the current one is refused with NGHTTP3_ERR_INVALID_ARGUMENT -/
theorem C33_backwards_refused (s : St F) (off : Nat) : connUpdateAckOffset s off = none ↔ off < s.ackOffset := by
  unfold connUpdateAckOffset
  split_ifs with h <;> simp <;> omega

/-- the hypotheses of the theorems hold in a history with a response header section, a body in two answers, partial writes and an
acknowledgement in the middle of the body: the call sequence is allowed and succeeds -/
def demoEncode : Unit → Unit → Option (Unit × Bytes × Bytes × Bytes) := fun _ _ => some ((), [0, 0], [0xd9], [1, 2])

example : EncodeOk demoEncode := by
  intro e nva e' p r eb h
  simp only [demoEncode, Option.some.injEq, Prod.mk.injEq] at h
  obtain ⟨-, rfl, rfl, rfl⟩ := h
  exact ⟨by simp, by simp⟩

def demoOps : List (Op Unit) :=
  [.submit (.headers ()) false, .submit .data false, .fill [.vecs [[1, 2], [], [3]] false false], .write false 8 7, .ack false 6,
   .write true 1 2, .fill [.vecs [[4, 5, 6]] true false], .write false 8 7, .ack false 9]

/-- a check of `Valid`, for examples -/
def validB (w : World Unit Unit) : Op Unit → Bool
  | .streamType _ ty => decide (ty < 2 ^ 62)
  | .submit f _ => match f with | .headers _ => true | .data => true | .goaway id => decide (id < 2 ^ 62) | _ => false
  | .raw _ bs => !bs.isEmpty
  | .resume => true
  | .fill as => as.all fun a => match a with | .vecs v eof _ => !v.flatten.isEmpty || eof | _ => true
  | .write b k n => decide (0 < k) && match writev (w.get b).st k with | .ok r => decide (n ≤ r.1.flatten.length) | _ => true
  | .ack b off => decide ((w.get b).acked ≤ off) && decide (off ≤ (w.get b).accepted.length)

theorem validB_sound (w : World Unit Unit) (o : Op Unit) (h : validB w o = true) : w.Valid o := by
  cases o with
  | streamType b ty => simpa [validB, World.Valid] using h
  | submit f fin => cases f <;> simp [validB] at h <;> simp_all [World.Valid, FrentOk]
  | raw b bs => simpa [validB, World.Valid] using h
  | resume => trivial
  | fill as =>
    intro a ha
    have := List.all_eq_true.1 h a ha
    cases a with
    | vecs v eof noEnd => simpa [AnsOk] using this
    | wouldblock => trivial
    | fail => trivial
  | write b k n =>
    simp only [validB, Bool.and_eq_true, decide_eq_true_eq] at h
    refine ⟨h.1, ?_⟩
    intro vs fin hw
    rw [hw] at h
    simpa using h.2
  | ack b off => simpa [validB, World.Valid] using h

def validAllB (w : World Unit Unit) : List (Op Unit) → Bool
  | [] => true
  | o :: t => validB w o && match w.step demoEncode o with | .ok w' => validAllB w' t | _ => true

theorem validAllB_sound (ops : List (Op Unit)) (w : World Unit Unit) (h : validAllB w ops = true) : w.ValidAll demoEncode ops := by
  induction ops generalizing w with
  | nil => trivial
  | cons o t ih =>
    simp only [validAllB, Bool.and_eq_true] at h
    refine ⟨validB_sound w o h.1, ?_⟩
    intro w' hw
    rw [hw] at h
    exact ih w' h.2

example : ({ e := () } : World Unit Unit).ValidAll demoEncode demoOps := validAllB_sound _ _ (by decide +kernel)

example : ∃ w, ({ e := () } : World Unit Unit).run demoEncode demoOps = .ok w ∧ w.s.accepted = [1, 3, 0, 0, 0xd9, 0, 3, 1, 2, 3, 0, 3, 4, 5] ∧
    w.s.reports = [2] ∧ w.q.accepted = [1, 2] := by
  have : (match ({ e := () } : World Unit Unit).run demoEncode demoOps with
    | .ok w => decide (w.s.accepted = [1, 3, 0, 0, 0xd9, 0, 3, 1, 2, 3, 0, 3, 4, 5] ∧ w.s.reports = [2] ∧ w.q.accepted = [1, 2])
    | _ => false) = true := by decide +kernel
  revert this
  cases ({ e := () } : World Unit Unit).run demoEncode demoOps with
  | ok w => intro h; exact ⟨w, rfl, by simpa using h⟩
  | _ => intro h; cases h

/-- C32, a limit of the code: with an empty field section (no field line), the HEADERS frame is written to memory but not queued: it never
gets sent.  This is why `EncodeOk` asks for a field line. -/
theorem C32_empty_section_not_sent : ∃ s : St Unit, writeHeaderFrame ({} : St Unit) [0, 0] [] = .ok s ∧ s.outq = [] ∧ s.unsent = 0 ∧
    s.chunks.map (·.data) = [[1, 2, 0, 0]] := ⟨_, rfl, rfl, rfl, rfl⟩

/-- ... and a later acknowledgement can hit a failed assertion -/
theorem C32_empty_section_crash :
    (((((((writeStreamType ({} : St Unit) 0).bind fun s => writeHeaderFrame s [0, 0] []).bind
      fun s => sharedWrite s 300 (List.replicate 300 7)).bind fun s => addOutqOffset s 301).bind
        fun s => updateAckOffset s 301).bind fun r => R.ok r.1.ackOffset) : R Nat) = .crash := by
  decide +kernel

/-- C33, a limit of the code: acknowledging bytes that have not been sent is not refused, and is reported to the application -/
theorem C33_unsent_not_refused : ∃ s : St Unit, outqAdd ({} : St Unit) (alienEnt [1, 2, 3]) = .ok s ∧ s.unsent = 3 ∧
    ∃ s', connUpdateAckOffset s 3 = some (.ok (s', [3])) ∧ s'.unsent = 3 := ⟨_, rfl, rfl, _, rfl, rfl⟩

end Props
end Nghttp3
