import Verif.Lemmas.OutqWrite
import Verif.Spec.Outq
import Verif.Props.Conv
/-! Serving the queue of frames. -/
namespace Nghttp3
namespace Outq
variable {E F : Type}

theorem tags_own (bs : Bytes) : tags false bs = own bs := rfl
theorem tags_app (bs : Bytes) : tags true bs = app bs := rfl

/-- a function that queues the bytes `m` -/
def Adds (Q : Tagged) (m : Marked) (s : St F) (r : R (St F)) : Prop :=
  r = .overflow ∨ ∃ s', r = .ok s' ∧ Inv (Q ++ m) s' ∧ s'.frq = s.frq ∧ s'.endStream = s.endStream ∧ s'.readBlocked = s.readBlocked ∧
    s'.ackOffset = s.ackOffset ∧ s'.ackBase + written s'.outq = s.ackBase + written s.outq

theorem adds_bind {Q : Tagged} {m1 m2 : Marked} {s : St F} {r : R (St F)} {f : St F → R (St F)} (h : Adds Q m1 s r)
    (hf : ∀ s', Inv (Q ++ m1) s' → Adds (Q ++ m1) m2 s' (f s')) : Adds Q (m1 ++ m2) s (r.bind f) := by
  rcases h with rfl | ⟨s1, rfl, h1, h2, h3, h4, h5, h6⟩
  · exact Or.inl rfl
  · rcases hf s1 h1 with h | ⟨s2, g0, g1, g2, g3, g4, g5, g6⟩
    · exact Or.inl h
    · exact Or.inr ⟨s2, g0, by rw [← List.append_assoc]; exact g1, g2.trans h2, g3.trans h3, g4.trans h4, g5.trans h5, g6.trans h6⟩

theorem adds_nil {Q : Tagged} {s : St F} (h : Inv Q s) : Adds Q [] s (.ok s) :=
  Or.inr ⟨s, rfl, by rw [List.append_nil]; exact h, rfl, rfl, rfl, rfl, rfl⟩

theorem own_append (a b : Bytes) : own (a ++ b) = own a ++ own b := by unfold own; rw [List.map_append]
theorem app_append (a b : Bytes) : app (a ++ b) = app a ++ app b := by unfold app; rw [List.map_append]

theorem adds_shared {Q : Tagged} {s : St F} (h : Inv Q s) (need : Nat) (bs : Bytes) (hb : bs ≠ []) (hn : bs.length ≤ need) :
    Adds Q (own bs) s (sharedWrite s need bs) := inv_shared h need bs hb hn

theorem adds_priv {Q : Tagged} {s : St F} (h : Inv Q s) (bs : Bytes) : Adds Q (own bs) s (outqAdd s (privEnt bs)) :=
  inv_own h _ bs false rfl

theorem adds_alien {Q : Tagged} {s : St F} (h : Inv Q s) (bs : Bytes) : Adds Q (app bs) s (outqAdd s (alienEnt bs)) :=
  inv_own h _ bs true rfl

theorem putVarint_ne (n : Nat) (h : n < 2 ^ 62) : putVarint n ≠ [] := by
  obtain ⟨b, t, h1, h2⟩ := preVal_of_isVarint' (putVarint_isVarint n h)
  exact h2

theorem adds_headers {Q : Tagged} {s : St F} (h : Inv Q s) (p r : Bytes) (hr : r ≠ []) :
    Adds Q (own (frameWriteHd FRAME_HEADERS (p.length + r.length) ++ p ++ r)) s (writeHeaderFrame s p r) := by
  have hne : frameWriteHd FRAME_HEADERS (p.length + r.length) ≠ [] := by
    unfold frameWriteHd; simp [putVarint_ne 1 (by decide), FRAME_HEADERS]
  have hl := frameWriteHd_length FRAME_HEADERS (p.length + r.length)
  unfold writeHeaderFrame
  dsimp only
  split_ifs with h1 h2
  · omega
  · rw [own_append]
    refine adds_bind (adds_shared h _ _ (by simp [hne]) (by rw [List.length_append]; omega)) ?_
    intro s' h'
    exact adds_priv h' r
  · exact adds_shared h _ _ (by simp [hne]) (by simp only [List.length_append]; omega)
  all_goals exact absurd (List.length_eq_zero_iff.1 (by omega)) hr

theorem adds_encoder {Q : Tagged} {s : St F} (h : Inv Q s) (eb : Bytes) : Adds Q (own eb) s (writeEncoderBytes s eb) := by
  unfold writeEncoderBytes
  split_ifs with h1 h2
  · exact adds_priv h eb
  · exact adds_shared h _ _ (by intro e; rw [e] at h2; exact h2 rfl) (Nat.le_refl _)
  · have : eb = [] := List.length_eq_zero_iff.1 (by omega)
    rw [this]
    exact adds_nil h

theorem adds_aliens {Q : Tagged} {s : St F} (h : Inv Q s) : ∀ v : List Bytes, Adds Q (app v.flatten) s (addAlien s v)
  | [] => adds_nil h
  | b :: t => by
    rw [addAlien]
    split_ifs with h1
    · have : b = [] := List.length_eq_zero_iff.1 h1
      rw [List.flatten_cons, this]
      exact adds_aliens h t
    · rw [List.flatten_cons, app_append]
      exact adds_bind (adds_alien h b) (fun s' h' => adds_aliens h' t)

/-- the frame queued by write_data -/
def dataBytes (v : List Bytes) : Marked :=
  if v.flatten = [] then [] else own (frameWriteHd FRAME_DATA v.flatten.length) ++ app v.flatten

theorem inv_frq {Q : Tagged} {s : St F} (h : Inv Q s) (frq : List (Frent F)) : Inv Q { s with frq := frq } :=
  ⟨h.q, h.base, h.fresh, h.tx, h.lim, h.sent, h.ack0, h.ack1, h.ackHead⟩
theorem inv_congr {Q : Tagged} {s s' : St F} (h : Inv Q s) (e1 : s'.chunks = s.chunks) (e2 : s'.outq = s.outq) (e3 : s'.nextId = s.nextId)
    (e4 : s'.outqIdx = s.outqIdx) (e5 : s'.unsent = s.unsent) (e6 : s'.txOffset = s.txOffset) (e7 : s'.ackBase = s.ackBase)
    (e8 : s'.ackOffset = s.ackOffset) : Inv Q s' := by
  obtain ⟨a, b, c, d, l, e, f, g, h⟩ := h
  refine ⟨?_, ?_, ?_, ?_, l, ?_, ?_, ?_, ?_⟩
  · rw [e1, e2, e4, e7]; exact a
  · rw [e7]; exact b
  · rw [e1, e3]; exact c
  · rw [e6]; exact d
  · rw [e5, e7, e2]; exact e
  · rw [e7, e8]; exact f
  · rw [e7, e8, e2]; exact g
  · rw [e7, e8, e2]; exact h
theorem inv_flags {Q : Tagged} {s : St F} (h : Inv Q s) (a b : Bool) : Inv Q { s with endStream := a, readBlocked := b } :=
  ⟨h.q, h.base, h.fresh, h.tx, h.lim, h.sent, h.ack0, h.ack1, h.ackHead⟩

theorem writeData_spec {Q : Tagged} {s : St F} (h : Inv Q s) (a : Ans) (ha : AnsOk a) (hrb : s.readBlocked = false) :
    (a = .wouldblock ∧ writeData s a = .ok ({ s with readBlocked := true }, false)) ∨
    writeData s a = .callbackFailure ∨ writeData s a = .overflow ∨
    ∃ v eof noEnd s', a = .vecs v eof noEnd ∧ writeData s a = .ok (s', eof) ∧ Inv (Q ++ dataBytes v) s' ∧ s'.frq = s.frq ∧
      s'.endStream = (s.endStream || (eof && !noEnd)) ∧ s'.readBlocked = false ∧ s'.ackOffset = s.ackOffset ∧
      s'.ackBase + written s'.outq = s.ackBase + written s.outq ∧ v.flatten.length < 2 ^ 62 := by
  unfold writeData
  rw [hrb]
  simp only [Bool.false_eq_true, if_false]
  cases a with
  | wouldblock => exact Or.inl ⟨rfl, rfl⟩
  | fail => exact Or.inr (Or.inl rfl)
  | vecs v eof noEnd =>
    dsimp only
    rw [Props.C44_vec_len_varint, ← List.length_flatten]
    by_cases hlen : v.flatten.length ≤ 2 ^ 62 - 1
    · rw [if_pos hlen]
      dsimp only
      have hans : v.flatten ≠ [] ∨ eof = true := ha
      rw [if_neg (by
        rintro ⟨h1, h2⟩
        rcases hans with h3 | h3
        · exact h3 (List.length_eq_zero_iff.1 h1)
        · rw [h2] at h3; cases h3)]
      right; right
      generalize hs1 : setEnd s (eof && !noEnd) = s1
      unfold setEnd at hs1
      replace hs1 := hs1.symm
      have hs1i : Inv Q s1 := by
        rw [hs1]; split_ifs
        · exact inv_flags h true s.readBlocked
        · exact h
      have e1 : s1.frq = s.frq := by rw [hs1]; split_ifs <;> rfl
      have e2 : s1.endStream = (s.endStream || (eof && !noEnd)) := by
        rw [hs1]; split_ifs with hc
        · rw [hc]; simp
        · simp only [Bool.not_eq_true] at hc; rw [hc]; simp
      have e3 : s1.readBlocked = false := by rw [hs1]; split_ifs <;> exact hrb
      have e4 : s1.ackOffset = s.ackOffset := by rw [hs1]; split_ifs <;> rfl
      have e5 : s1.ackBase + written s1.outq = s.ackBase + written s.outq := by rw [hs1]; split_ifs <;> rfl
      have fin : ∀ m, m = dataBytes v → ∀ r : R (St F), Adds Q m s1 r →
          (r.bind fun s => R.ok (s, eof)) = .overflow ∨ ∃ v' eof' noEnd' s', Ans.vecs v eof noEnd = .vecs v' eof' noEnd' ∧
            (r.bind fun s => R.ok (s, eof)) = .ok (s', eof') ∧ Inv (Q ++ dataBytes v') s' ∧ s'.frq = s.frq ∧
            s'.endStream = (s.endStream || (eof' && !noEnd')) ∧ s'.readBlocked = false ∧ s'.ackOffset = s.ackOffset ∧
            s'.ackBase + written s'.outq = s.ackBase + written s.outq ∧ v'.flatten.length < 2 ^ 62 := by
        rintro m rfl r (rfl | ⟨s', rfl, g1, g2, g3, g4, g5, g6⟩)
        · exact Or.inl rfl
        · exact Or.inr ⟨v, eof, noEnd, s', rfl, rfl, g1, g2.trans e1, g3.trans e2, g4.trans e3, g5.trans e4, g6.trans e5, by omega⟩
      split_ifs with hz hd hd
      · have hv : v.flatten = [] := List.length_eq_zero_iff.1 hz
        exact fin _ (by unfold dataBytes; rw [if_pos hv]; rfl) _ (adds_priv hs1i [])
      · have hv : v.flatten = [] := List.length_eq_zero_iff.1 hz
        exact Or.inr ⟨v, eof, noEnd, s1, rfl, rfl, by unfold dataBytes; rw [if_pos hv, List.append_nil]; exact hs1i, e1, e2, e3, e4, e5, by omega⟩
      · have hv : v.flatten ≠ [] := fun e => hz (by rw [e]; rfl)
        have := fin _ (by unfold dataBytes; rw [if_neg hv]) ((sharedWrite s1 (frameWriteHdLen FRAME_DATA v.flatten.length)
            (frameWriteHd FRAME_DATA v.flatten.length)).bind fun s => addAlien s v)
          (adds_bind (adds_shared hs1i _ _ (by unfold frameWriteHd; simp [putVarint_ne 0 (by decide), FRAME_DATA])
            (Nat.le_of_eq (frameWriteHd_length _ _))) (fun s' h' => adds_aliens h' v))
        have hb : ∀ (r : R (St F)), (r.bind fun s => (addAlien s v).bind fun s => R.ok (s, eof)) =
            (r.bind fun s => addAlien s v).bind fun s => R.ok (s, eof) := by
          intro r; cases r <;> rfl
        rw [hb]
        exact this
    · rw [if_neg hlen]
      exact Or.inr (Or.inr (Or.inl rfl))

/-- bytes of an item -/
def itemBytes : Emit → Marked
  | .streamType ty => own (putVarint ty)
  | .settings s => own (streamWriteSettings s).2
  | .headers p r _ => own (frameWriteHd FRAME_HEADERS (p.length + r.length) ++ p ++ r)
  | .data v _ _ => dataBytes v
  | .goaway id => own (streamWriteGoaway id).2
  | .priorityUpdate ft el v => own (streamWritePriorityUpdate ft el v).2
  | .raw bs => own bs

def itemsBytes (em : List Emit) : Marked := (em.map itemBytes).flatten

theorem itemsBytes_append (a b : List Emit) : itemsBytes (a ++ b) = itemsBytes a ++ itemsBytes b := by
  unfold itemsBytes; rw [List.map_append, List.flatten_append]
theorem itemsBytes_one (a : Emit) : itemsBytes [a] = itemBytes a := by unfold itemsBytes; simp

/-- values fit -/
def EmitOk : Emit → Prop
  | .streamType ty => ty < 2 ^ 62
  | .settings s => s.maxFieldSectionSize < 2 ^ 62 ∧ s.qpackMaxDtableCapacity < 2 ^ 62 ∧ s.qpackBlockedStreams < 2 ^ 62
  | .headers p r _ => p.length + r.length < 2 ^ 62
  | .data v _ _ => v.flatten.length < 2 ^ 62
  | .goaway id => id < 2 ^ 62
  | .priorityUpdate ft el v => (ft = 0x0f0700 ∨ ft = 0x0f0701) ∧ el < 2 ^ 62 ∧ v.length < 2 ^ 62 - 8
  | .raw _ => True

theorem wire_item (x : Emit) (h : EmitOk x) : Wire x (itemBytes x) := by
  cases x with
  | streamType ty => exact ⟨_, putVarint_isVarint ty h, rfl⟩
  | settings s =>
    obtain ⟨h1, payload, h2, h3⟩ := Props.C03_settings s h.1 h.2.1 h.2.2
    exact ⟨_, payload, h2, rfl, h3⟩
  | headers p r eb =>
    refine ⟨_, ⟨putVarint 1, putVarint (p ++ r).length, putVarint_isVarint _ (by decide), putVarint_isVarint _ ?_, ?_⟩, rfl⟩
    · rw [List.length_append]; exact h
    · unfold frameWriteHd; rw [List.length_append, List.append_assoc]; rfl
  | data v eof noEnd =>
    by_cases hv : v.flatten = []
    · exact Or.inl ⟨hv, by show dataBytes v = _; unfold dataBytes; rw [if_pos hv]⟩
    · refine Or.inr ⟨hv, frameWriteHd FRAME_DATA v.flatten.length, ?_, by show dataBytes v = _; unfold dataBytes; rw [if_neg hv]⟩
      exact ⟨putVarint 0, putVarint v.flatten.length, putVarint_isVarint _ (by decide), putVarint_isVarint _ h, rfl⟩
  | goaway id =>
    obtain ⟨h1, payload, h2, h3⟩ := Props.C03_goaway id h
    exact ⟨_, payload, h2, rfl, h3⟩
  | priorityUpdate ft el v =>
    obtain ⟨h1, e, h2, h3⟩ := Props.C03_priority_update ft el v h.1 h.2.1 h.2.2
    exact ⟨_, e, h2, rfl, h3⟩
  | raw bs => rfl

theorem follows_append {encode : E → F → Option (E × Bytes × Bytes × Bytes)} {fs r1 r2 : List (Frent F)} {a b : List Emit}
    (h1 : Follows encode fs a r1) (h2 : Follows encode r1 b r2) : Follows encode fs (a ++ b) r2 := by
  induction h1 with
  | done => exact h2
  | settings _ ih => exact .settings (ih h2)
  | headers he _ ih => exact .headers he (ih h2)
  | dataMore _ ih => exact .dataMore (ih h2)
  | dataEnd _ ih => exact .dataEnd (ih h2)
  | goaway _ ih => exact .goaway (ih h2)
  | priorityUpdate _ ih => exact .priorityUpdate (ih h2)
  | streamType _ ih => exact .streamType (ih h2)
  | raw _ ih => exact .raw (ih h2)

theorem follows_submit {encode : E → F → Option (E × Bytes × Bytes × Bytes)} {fs r : List (Frent F)} {a : List Emit}
    (h1 : Follows encode fs a r) (x : Frent F) : Follows encode (fs ++ [x]) a (r ++ [x]) := by
  induction h1 with
  | done => exact .done _
  | settings _ ih => exact .settings ih
  | headers he _ ih => exact .headers he ih
  | dataMore _ ih => exact .dataMore ih
  | dataEnd _ ih => exact .dataEnd ih
  | goaway _ ih => exact .goaway ih
  | priorityUpdate _ ih => exact .priorityUpdate ih
  | streamType _ ih => exact .streamType ih
  | raw _ ih => exact .raw ih

/-- data answers of the items -/
def dataAnswers : List Emit → List Ans
  | [] => []
  | .data v eof noEnd :: t => .vecs v eof noEnd :: dataAnswers t
  | _ :: t => dataAnswers t

theorem dataAnswers_append (a b : List Emit) : dataAnswers (a ++ b) = dataAnswers a ++ dataAnswers b := by
  induction a with
  | nil => rfl
  | cons x t ih => cases x <;> simp [dataAnswers, ih]
theorem endsIn_append (a b : List Emit) : endsIn (a ++ b) = (endsIn a || endsIn b) := by
  induction a with
  | nil => rfl
  | cons x t ih => cases x <;> simp [endsIn, ih, Bool.or_assoc]
theorem encoderItems_append (a b : List Emit) : encoderItems (a ++ b) = encoderItems a ++ encoderItems b := by
  induction a with
  | nil => rfl
  | cons x t ih => cases x <;> simp [encoderItems, ih]

/-- what holds of a successful call of fill_outq -/
structure Filled (encode : E → F → Option (E × Bytes × Bytes × Bytes)) (fs : List (Frent F)) (Q Qq : Tagged) (s q s' q' : St F)
    (as : List Ans) (new : List Emit) : Prop where
  inv : Inv (Q ++ itemsBytes new) s'
  invq : Inv (Qq ++ itemsBytes (encoderItems new)) q'
  follows : Follows encode fs new s'.frq
  ok : ∀ x ∈ new, EmitOk x
  frqOk : ∀ f ∈ s'.frq, FrentOk f
  ends : s'.endStream = (s.endStream || endsIn new)
  answers : dataAnswers new <+: as
  ack : s'.ackOffset = s.ackOffset
  sent : s'.ackBase + written s'.outq = s.ackBase + written s.outq
  qack : q'.ackOffset = q.ackOffset
  qsent : q'.ackBase + written q'.outq = q.ackBase + written q.outq
  qsame : q'.frq = q.frq ∧ q'.endStream = q.endStream ∧ q'.readBlocked = q.readBlocked

theorem filled_cons {encode : E → F → Option (E × Bytes × Bytes × Bytes)} {f : Frent F} {t : List (Frent F)} {Q Qq mq : Tagged}
    {s q s1 q1 s' q' : St F} {as as1 : List Ans} {x : Emit} {new : List Emit}
    (h : Filled encode t (Q ++ itemBytes x) (Qq ++ mq) s1 q1 s' q' as1 new)
    (hf : ∀ em rest, Follows encode t em rest → Follows encode (f :: t) (x :: em) rest) (hx : EmitOk x)
    (hmq : itemsBytes (encoderItems [x]) = mq)
    (hends : s1.endStream = (s.endStream || endsIn [x])) (hans : ∃ pre, dataAnswers [x] = pre ∧ as = pre ++ as1)
    (hack : s1.ackOffset = s.ackOffset) (hsent : s1.ackBase + written s1.outq = s.ackBase + written s.outq)
    (hqack : q1.ackOffset = q.ackOffset) (hqsent : q1.ackBase + written q1.outq = q.ackBase + written q.outq)
    (hqsame : q1.frq = q.frq ∧ q1.endStream = q.endStream ∧ q1.readBlocked = q.readBlocked) :
    Filled encode (f :: t) Q Qq s q s' q' as (x :: new) := by
  have hxs : x :: new = [x] ++ new := rfl
  refine ⟨?_, ?_, hf _ _ h.follows, ?_, h.frqOk, ?_, ?_, h.ack.trans hack, h.sent.trans hsent, h.qack.trans hqack, h.qsent.trans hqsent, ?_⟩
  · rw [hxs, itemsBytes_append, itemsBytes_one, ← List.append_assoc]; exact h.inv
  · rw [hxs, encoderItems_append, itemsBytes_append, hmq, ← List.append_assoc]; exact h.invq
  · intro y hy
    rcases List.mem_cons.1 hy with rfl | hy
    · exact hx
    · exact h.ok y hy
  · rw [h.ends, hends, hxs, endsIn_append, Bool.or_assoc]
  · obtain ⟨pre, hp, rfl⟩ := hans
    rw [hxs, dataAnswers_append, hp]
    exact (List.prefix_append_right_inj _).2 h.answers
  · exact ⟨h.qsame.1.trans hqsame.1, h.qsame.2.1.trans hqsame.2.1, h.qsame.2.2.trans hqsame.2.2⟩

theorem fillLoop_spec (encode : E → F → Option (E × Bytes × Bytes × Bytes)) (henc : EncodeOk encode) :
    ∀ (fs : List (Frent F)) (e : E) (s q : St F) (as : List Ans) (em : List Emit) (Q Qq : Tagged), Inv Q s → Inv Qq q →
      (∀ f ∈ fs, FrentOk f) → (∀ a ∈ as, AnsOk a) → s.readBlocked = false →
      fillLoop encode fs e s q as em = .callbackFailure ∨ fillLoop encode fs e s q as em = .overflow ∨
      ∃ e' s' q' new, fillLoop encode fs e s q as em = .ok (e', s', q', em ++ new) ∧ Filled encode fs Q Qq s q s' q' as new := by
  intro fs
  induction fs with
  | nil =>
    intro e s q as em Q Qq hs hq hok ha hrb
    right; right
    refine ⟨e, _, q, [], by rw [fillLoop, List.append_nil], ?_⟩
    refine ⟨?_, ?_, .done _, by simp, by simp, by simp [endsIn], by simp [dataAnswers], rfl, rfl, rfl, rfl, ⟨rfl, rfl, rfl⟩⟩
    · rw [show itemsBytes [] = [] from rfl, List.append_nil]; exact inv_frq hs []
    · rw [show itemsBytes (encoderItems []) = [] from rfl, List.append_nil]; exact hq
  | cons f t ih =>
    intro e s q as em Q Qq hs hq hok ha hrb
    have hft := hok f List.mem_cons_self
    have htk : ∀ x ∈ t, FrentOk x := fun x hx => hok x (List.mem_cons_of_mem _ hx)
    have stop : ∀ _e : E, Filled encode (f :: t) Q Qq s q { s with frq := f :: t } q as [] := fun _ =>
      ⟨by rw [show itemsBytes [] = [] from rfl, List.append_nil]; exact inv_frq hs _,
       by rw [show itemsBytes (encoderItems []) = [] from rfl, List.append_nil]; exact hq, .done _, by simp, hok, by simp [endsIn],
       by simp [dataAnswers], rfl, rfl, rfl, rfl, ⟨rfl, rfl, rfl⟩⟩
    unfold fillLoop
    by_cases hfull : s.unsent ≥ MIN_UNSENT_BYTES
    · rw [if_pos hfull]
      exact Or.inr (Or.inr ⟨e, _, q, [], by rw [List.append_nil], stop e⟩)
    rw [if_neg hfull]
    -- frames that only write to the stream
    have simple : ∀ (x : Emit) (r : R (St F)), Adds Q (itemBytes x) s r → EmitOk x → encoderItems [x] = [] → dataAnswers [x] = [] →
        endsIn [x] = false → (∀ em rest, Follows encode t em rest → Follows encode (f :: t) (x :: em) rest) →
        (r.bind fun s => fillLoop encode t e s q as (em ++ [x])) = .callbackFailure ∨
        (r.bind fun s => fillLoop encode t e s q as (em ++ [x])) = .overflow ∨
        ∃ e' s' q' new, (r.bind fun s => fillLoop encode t e s q as (em ++ [x])) = .ok (e', s', q', em ++ new) ∧
          Filled encode (f :: t) Q Qq s q s' q' as new := by
      intro x r hr hx h1 h2 h3 hfo
      rcases hr with rfl | ⟨s1, rfl, g1, g2, g3, g4, g5, g6⟩
      · exact Or.inr (Or.inl rfl)
      · have hb : ((R.ok s1).bind fun s => fillLoop encode t e s q as (em ++ [x])) = fillLoop encode t e s1 q as (em ++ [x]) := rfl
        rw [hb]
        rcases ih e s1 q as (em ++ [x]) _ Qq g1 hq htk ha (g4.trans hrb) with h | h | ⟨e', s', q', new, h, hfl⟩
        · exact Or.inl h
        · exact Or.inr (Or.inl h)
        · refine Or.inr (Or.inr ⟨e', s', q', x :: new, by rw [h, List.append_assoc]; rfl, ?_⟩)
          exact filled_cons (mq := []) (by rw [List.append_nil]; exact hfl) hfo hx (by rw [h1]; rfl) (by rw [g3, h3, Bool.or_false])
            ⟨[], h2, rfl⟩ g5 g6 rfl rfl ⟨rfl, rfl, rfl⟩
    cases f with
    | settings st =>
      obtain ⟨hl, payload, hfr, _⟩ := Props.C03_settings st hft.1 hft.2.1 hft.2.2
      refine simple (.settings st) _ (adds_shared hs _ _ ?_ (Nat.le_of_eq hl)) hft rfl rfl rfl (fun _ _ h => .settings h)
      obtain ⟨a, b, h1, h2, h3⟩ := hfr
      obtain ⟨_, _, _, h4⟩ := preVal_of_isVarint' h1
      rw [h3]; simp [h4]
    | goaway id =>
      obtain ⟨hl, payload, hfr, _⟩ := Props.C03_goaway id hft
      refine simple (.goaway id) _ (adds_shared hs _ _ ?_ (Nat.le_of_eq hl)) hft rfl rfl rfl (fun _ _ h => .goaway h)
      obtain ⟨a, b, h1, h2, h3⟩ := hfr
      obtain ⟨_, _, _, h4⟩ := preVal_of_isVarint' h1
      rw [h3]; simp [h4]
    | priorityUpdate ft el v =>
      obtain ⟨hl, payload, hfr, _⟩ := Props.C03_priority_update ft el v hft.1 hft.2.1 hft.2.2
      refine simple (.priorityUpdate ft el v) _ (adds_shared hs _ _ ?_ (Nat.le_of_eq hl)) hft rfl rfl rfl (fun _ _ h => .priorityUpdate h)
      obtain ⟨a, b, h1, h2, h3⟩ := hfr
      obtain ⟨_, _, _, h4⟩ := preVal_of_isVarint' h1
      rw [h3]; simp [h4]
    | headers nva =>
      dsimp only
      cases henv : encode e nva with
      | none => exact Or.inl rfl
      | some r =>
        obtain ⟨e', p, r, eb⟩ := r
        obtain ⟨hr, hlen⟩ := henc _ _ _ _ _ _ henv
        dsimp only
        rcases adds_headers hs p r hr with h | ⟨s1, h, g1, g2, g3, g4, g5, g6⟩
        · rw [h]; exact Or.inr (Or.inl rfl)
        · rw [h]
          have hb : ∀ g : St F → R (E × St F × St F × List Emit), (R.ok s1).bind g = g s1 := fun _ => rfl
          rw [hb]
          rcases adds_encoder hq eb with h | ⟨q1, h, k1, k2, k3, k4, k5, k6⟩
          · rw [h]; exact Or.inr (Or.inl rfl)
          · rw [h]
            have hb : ∀ g : St F → R (E × St F × St F × List Emit), (R.ok q1).bind g = g q1 := fun _ => rfl
            rw [hb]
            rcases ih e' s1 q1 as (em ++ [.headers p r eb]) _ _ g1 k1 htk ha (g4.trans hrb) with h | h | ⟨e'', s', q', new, h, hfl⟩
            · exact Or.inl h
            · exact Or.inr (Or.inl h)
            · refine Or.inr (Or.inr ⟨e'', s', q', .headers p r eb :: new, by rw [h, List.append_assoc]; rfl, ?_⟩)
              exact filled_cons (x := .headers p r eb) hfl (fun _ _ h => .headers henv h) hlen (by simp [encoderItems, itemsBytes, itemBytes])
                (by rw [g3]; simp [endsIn]) ⟨[], rfl, rfl⟩ g5 g6 k5 k6 ⟨k2, k3, k4⟩
    | data =>
      dsimp only
      have haok : AnsOk (as.head?.getD .wouldblock) := by
        cases as with
        | nil => exact trivial
        | cons a l => exact ha a List.mem_cons_self
      rcases writeData_spec hs _ haok hrb with ⟨ha1, h⟩ | h | h | ⟨v, eof, noEnd, s1, ha1, h, g1, g2, g3, g4, g5, g6, g7⟩
      · rw [h]
        have hb : ∀ g : St F × Bool → R (E × St F × St F × List Emit), (R.ok ({ s with readBlocked := true }, false)).bind g =
          g ({ s with readBlocked := true }, false) := fun _ => rfl
        rw [hb]
        dsimp only
        rw [if_pos rfl]
        refine Or.inr (Or.inr ⟨e, _, q, [], by rw [List.append_nil], ?_⟩)
        exact ⟨by rw [show itemsBytes [] = [] from rfl, List.append_nil]; exact inv_congr hs rfl rfl rfl rfl rfl rfl rfl rfl,
          by rw [show itemsBytes (encoderItems []) = [] from rfl, List.append_nil]; exact hq, .done _, by simp, hok, by simp [endsIn],
          by simp [dataAnswers], rfl, rfl, rfl, rfl, ⟨rfl, rfl, rfl⟩⟩
      · rw [h]; exact Or.inl rfl
      · rw [h]; exact Or.inr (Or.inl rfl)
      · rw [h]
        have hb : ∀ g : St F × Bool → R (E × St F × St F × List Emit), (R.ok (s1, eof)).bind g = g (s1, eof) := fun _ => rfl
        rw [hb]
        dsimp only
        rw [g4, ha1]
        simp only [Bool.false_eq_true, if_false]
        obtain ⟨as', rfl⟩ : ∃ as', as = .vecs v eof noEnd :: as' := by
          cases as with
          | nil => simp at ha1
          | cons a l => simp at ha1; exact ⟨l, by rw [ha1]⟩
        cases eof with
        | false =>
          simp only [Bool.not_false, if_true]
          refine Or.inr (Or.inr ⟨e, _, q, [.data v false noEnd], rfl, ?_⟩)
          refine ⟨?_, ?_, .dataMore (.done _), ?_, hok, ?_, ?_, g5, g6, rfl, rfl, ⟨rfl, rfl, rfl⟩⟩
          · rw [itemsBytes_one]; exact inv_congr g1 rfl rfl rfl rfl rfl rfl rfl rfl
          · rw [show itemsBytes (encoderItems [Emit.data v false noEnd]) = [] from rfl, List.append_nil]; exact hq
          · intro x hx; rw [List.mem_singleton.1 hx]; exact g7
          · dsimp only; rw [g3]; simp [endsIn]
          · simp [dataAnswers]
        | true =>
          simp only [Bool.not_true, Bool.false_eq_true, if_false, List.tail_cons]
          rcases ih e s1 q as' (em ++ [.data v true noEnd]) _ Qq g1 hq htk (fun a h => ha a (List.mem_cons_of_mem _ h)) g4 with
            h | h | ⟨e', s', q', new, h, hfl⟩
          · exact Or.inl h
          · exact Or.inr (Or.inl h)
          · refine Or.inr (Or.inr ⟨e', s', q', .data v true noEnd :: new, by rw [h, List.append_assoc]; rfl, ?_⟩)
            exact filled_cons (mq := []) (x := .data v true noEnd) (by rw [List.append_nil]; exact hfl) (fun _ _ h => .dataEnd h) g7 rfl
              (by rw [g3]; simp [endsIn]) ⟨[.vecs v true noEnd], rfl, rfl⟩ g5 g6 rfl rfl ⟨rfl, rfl, rfl⟩

end Outq
end Nghttp3
