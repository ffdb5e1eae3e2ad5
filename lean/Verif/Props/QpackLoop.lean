import Verif.Props.QpackPair
/-! Property theorems C17, C19: an encoder whose only feedback is what the decoder of the other side writes. -/
namespace Nghttp3
namespace Qpack

/-- a decoder instruction -/
abbrev DIns := DOpc × Nat

/-- RFC 9204 section 4.4 -/
def DIns.bytes : DIns → Bytes
  | (.icnt, n) => QInt.put 0 n 6
  | (.ack, id) => QInt.put 0x80 id 7
  | (.cancel, id) => QInt.put 0x40 id 6

/-- encoder and decoder, and the decoder stream: `pend` the instructions in the decoder's buffer, `q` those written to the stream
and not yet processed by the encoder; `gone`: the streams the decoder has cancelled -/
structure Loop where
  p : Pair
  pend : List DIns := []
  q : List DIns := []
  gone : List Nat := []

def Loop.init (H B : Nat) : Loop := { p := Pair.init H H B }

inductive LoopOp where
  | encode (id : Nat) (nvs : List Nv)
  | setCap (n : Nat)
  | setMaxBlocked (n : Nat)
  | readEnc (n : Nat)
  | readSec (k n : Nat)
  /-- the decoder's buffer is written to the decoder stream -/
  | flush
  /-- the decoder gives up a stream -/
  | cancel (id : Nat)
  /-- the encoder processes the next instruction of the decoder stream -/
  | deliver

/-- the Section Acknowledgement due when section `k` has just been read to its end -/
def ackDue (p p' : Pair) (k : Nat) : List DIns :=
  match p.flies[k]?, p'.flies[k]? with
  | some f, some f' => if f.done = false ∧ f'.done = true ∧ f.sec.ricnt ≠ 0 then [(.ack, f.sec.id)] else []
  | _, _ => []

/-- the Insert Count Increment due when the decoder's buffer is written out -/
def icntDue (d : Dec) : List DIns := if d.writtenIcnt < d.ctx.next then [(.icnt, d.ctx.next - d.writtenIcnt)] else []

inductive LRes where
  | crash
  | fail
  | refused
  | ok (l : Loop)

def LRes.of (r : PRes) (f : Pair → Loop) : LRes :=
  match r with
  | .crash => .crash
  | .fail => .fail
  | .refused => .refused
  | .ok p => .ok (f p)

def Loop.step (l : Loop) : LoopOp → LRes
  | .encode id nvs => .of (l.p.step (.enc (.encode id nvs))) fun p => { l with p := p }
  | .setCap n => .of (l.p.step (.enc (.setCap n))) fun p => { l with p := p }
  | .setMaxBlocked n => .of (l.p.step (.enc (.setMaxBlocked n))) fun p => { l with p := p }
  | .readEnc n => .of (l.p.step (.readEnc n)) fun p => { l with p := p }
  | .readSec k n => .of (l.p.step (.readSec k n)) fun p => { l with p := p, pend := l.pend ++ ackDue l.p p k }
  | .flush => .of (l.p.step .flush) fun p => { l with p := p, pend := [], q := l.q ++ (l.pend ++ icntDue l.p.dec) }
  | .cancel id => .of (l.p.step (.cancel id)) fun p => { l with p := p, pend := l.pend ++ [(.cancel, id)], gone := id :: l.gone }
  | .deliver =>
    match l.q with
    | [] => .ok l
    | (op, n) :: t => .of (l.p.step (.enc (.instr op n))) fun p => { l with p := p, q := t }

/-- within the limits of the implementation and the protocol: the sections of a stream are read in order, not after the stream was
cancelled; the decoder's buffer is written out before it overflows -/
def Loop.admits (H : Nat) (l : Loop) : LoopOp → Prop
  | .encode id nvs => (∀ nv ∈ nvs, NvFits nv) ∧ ∀ o, l.p.sys.e.encode id nvs = some o → o.e.ctx.next ≤ QInt.INT_MAX
  | .readEnc n => l.p.dec.uninterrupted + n ≤ 128 * 1024
  | .readSec k _ => ∀ f, l.p.flies[k]? = some f → f.done = false →
      f.sec.id ∉ l.gone ∧ (∀ j g, j < k → l.p.flies[j]? = some g → g.sec.id = f.sec.id → g.done = true) ∧
      f.sec.ricnt ≤ l.p.dec.ctx.next + H / 32 ∧ l.p.dec.dbufOverflow = false
  | .cancel _ => l.p.dec.dbufOverflow = false
  | _ => True

def Loop.run (l : Loop) : List LoopOp → LRes
  | [] => .ok l
  | o :: t =>
    match l.step o with
    | .ok l' => l'.run t
    | r => r

def Loop.Admissible (H : Nat) : Loop → List LoopOp → Prop
  | _, [] => True
  | l, o :: t => l.admits H o ∧ ∀ l', l.step o = .ok l' → Admissible H l' t

/-! ### Instructions on their way -/

def accepted (ins k : Nat) (l : List Sec) : DIns → Prop
  | (.icnt, n) => n ≠ 0 ∧ k + n ≤ ins
  | (.ack, id) => ∃ x ∈ l, x.id = id
  | (.cancel, _) => True

/-- all instructions are accepted, and leave Known Received Count `k'` and outstanding sections `l'` -/
inductive Feeds (ins : Nat) : List DIns → Nat → List Sec → Nat → List Sec → Prop
  | nil (k l) : Feeds ins [] k l k l
  | cons {op n t k l k' l'} (h : accepted ins k l (op, n)) (ht : Feeds ins t (knownAfter op n l k) (settle op n l) k' l') : Feeds ins ((op, n) :: t) k l k' l'

theorem Feeds.snoc {ins : Nat} {q : List DIns} {k k' : Nat} {l l' : List Sec} (h : Feeds ins q k l k' l') {op : DOpc} {n : Nat} (ha : accepted ins k' l' (op, n)) :
    Feeds ins (q ++ [(op, n)]) k l (knownAfter op n l' k') (settle op n l') := by
  induction h with
  | nil => exact .cons ha (.nil _ _)
  | cons h1 _ ih => exact .cons h1 (ih ha)

theorem settle_sub (op : DOpc) (n : Nat) (l : List Sec) : (settle op n l).Sublist l := by
  cases op with
  | icnt => exact List.Sublist.refl _
  | ack => exact List.eraseP_sublist
  | cancel => exact List.filter_sublist

theorem Feeds.sub {ins : Nat} {q : List DIns} {k k' : Nat} {l l' : List Sec} (h : Feeds ins q k l k' l') : l'.Sublist l := by
  induction h with
  | nil => exact List.Sublist.refl _
  | cons _ _ ih => exact ih.trans (settle_sub ..)

theorem Feeds.mono {ins ins' : Nat} (hi : ins ≤ ins') {q : List DIns} {k k' : Nat} {l l' : List Sec} (h : Feeds ins q k l k' l') : Feeds ins' q k l k' l' := by
  induction h with
  | nil => exact .nil _ _
  | @cons op n t k l k' l' h1 _ ih =>
    refine .cons ?_ ih
    cases op with
    | icnt => exact ⟨h1.1, Nat.le_trans h1.2 hi⟩
    | ack => exact h1
    | cancel => trivial

/-- a section encoded meanwhile -/
theorem Feeds.more {ins : Nat} {q : List DIns} {k k' : Nat} {l l' : List Sec} (h : Feeds ins q k l k' l') (x : Sec) :
    ∃ r, Feeds ins q k (l ++ [x]) k' (l' ++ r) ∧ (r = [x] ∨ r = [] ∧ (.cancel, x.id) ∈ q) := by
  induction h with
  | nil => exact ⟨[x], .nil _ _, Or.inl rfl⟩
  | @cons op n t k l k' l' h1 ht ih =>
    obtain ⟨r, i1, i2⟩ := ih
    cases op with
    | icnt => exact ⟨r, .cons h1 i1, by simpa using i2⟩
    | ack =>
      obtain ⟨y, y1, y2⟩ := h1
      refine ⟨r, .cons ⟨y, by simp [y1], y2⟩ ?_, by simpa using i2⟩
      have e1 : knownAfter .ack n (l ++ [x]) k = knownAfter .ack n l k := by
        unfold knownAfter
        dsimp only
        rw [List.find?_append]
        rcases hf : l.find? (fun s => s.id == n) with _ | z
        · have := List.find?_eq_none.1 hf y y1
          simp [y2] at this
        · rw [hf, Option.some_or]
      have e2 : settle .ack n (l ++ [x]) = settle .ack n l ++ [x] := by
        unfold settle
        dsimp only
        rw [List.eraseP_append_left (a := y) (by simp [y2]) _ y1]
      rw [e1, e2]; exact i1
    | cancel =>
      by_cases hn : x.id = n
      · refine ⟨[], .cons trivial ?_, Or.inr ⟨rfl, by simp [hn]⟩⟩
        rw [List.append_nil]
        have : settle .cancel n (l ++ [x]) = settle .cancel n l := by
          unfold settle
          dsimp only
          rw [List.filter_append]
          simp [hn]
        rw [this]
        exact ht
      · refine ⟨r, .cons trivial ?_, by simpa using i2.imp id fun h => ⟨h.1, Or.inr h.2⟩⟩
        have : settle .cancel n (l ++ [x]) = settle .cancel n l ++ [x] := by
          unfold settle
          dsimp only
          rw [List.filter_append]
          simp [hn]
        rw [this]
        exact i1

/-! ### Invariant -/

/-- sections of stream `id` the decoder has still to read and acknowledge -/
def toRead (flies : List Fly) (id : Nat) : List Sec := (flies.filter fun f => f.sec.id == id && !f.done && f.sec.ricnt != 0).map (·.sec)

structure LoopOk (H : Nat) (l : Loop) : Prop where
  pair : PairOk H H l.p
  feed : ∃ k' secs', Feeds l.p.sys.inserted (l.q ++ l.pend) l.p.sys.known l.p.sys.secs k' secs' ∧ k' = l.p.dec.writtenIcnt ∧
    ∀ id, id ∉ l.gone → secs'.filter (fun s => s.id == id) = toRead l.p.flies id
  gone : ∀ id, (DOpc.cancel, id) ∈ l.q ++ l.pend → id ∈ l.gone
  wi : l.p.dec.writtenIcnt ≤ l.p.dec.ctx.next
  buf : l.p.dec.dbuf = l.pend.flatMap DIns.bytes

theorem set_split {α : Type} {l : List α} {k : Nat} {a : α} (h : l[k]? = some a) (b : α) : l = l.take k ++ a :: l.drop (k + 1) ∧ l.set k b = l.take k ++ b :: l.drop (k + 1) := by
  obtain ⟨h1, h2⟩ := List.getElem?_eq_some_iff.1 h
  refine ⟨?_, List.set_eq_take_append_cons_drop.trans (if_pos h1)⟩
  rw [← h2, ← List.drop_eq_getElem_cons h1, List.take_append_drop]

theorem toRead_set {flies : List Fly} {k : Nat} {f f' : Fly} (hk : flies[k]? = some f) (hs : f'.sec = f.sec) (h : f'.done = f.done ∨ f.sec.ricnt = 0) (id : Nat) :
    toRead (flies.set k f') id = toRead flies id := by
  obtain ⟨h1, h2⟩ := set_split hk f'
  unfold toRead
  rw [h2]
  conv => rhs; rw [h1]
  rw [List.filter_append, List.filter_append, List.filter_cons, List.filter_cons, hs]
  rcases h with h | h
  · rw [h]
    split_ifs <;> simp [hs]
  · rw [h]; simp

theorem toRead_done {flies : List Fly} {k : Nat} {f f' : Fly} (hk : flies[k]? = some f) (hs : f'.sec = f.sec) (hd : f'.done = true) (hn : f.done = false) (h0 : f.sec.ricnt ≠ 0)
    (hord : ∀ j g, j < k → flies[j]? = some g → g.sec.id = f.sec.id → g.done = true) :
    toRead flies f.sec.id = f.sec :: toRead (flies.set k f') f.sec.id ∧ ∀ id, id ≠ f.sec.id → toRead (flies.set k f') id = toRead flies id := by
  obtain ⟨h1, h2⟩ := set_split hk f'
  have ht : (flies.take k).filter (fun g => g.sec.id == f.sec.id && !g.done && g.sec.ricnt != 0) = [] := by
    rw [List.filter_eq_nil_iff]
    intro g hg
    obtain ⟨j, hj⟩ := List.mem_iff_getElem?.1 hg
    rw [List.getElem?_take] at hj
    split_ifs at hj with hjk
    by_cases hid : g.sec.id = f.sec.id
    · simp [hord j g hjk hj hid]
    · simp [hid]
  constructor
  · unfold toRead
    rw [h2]
    conv => lhs; rw [h1]
    rw [List.filter_append, List.filter_append, ht, List.filter_cons, List.filter_cons, if_pos (by simp [hn, h0]), if_neg (by simp [hd])]
    rfl
  · intro id hid
    unfold toRead
    rw [h2]
    conv => rhs; rw [h1]
    rw [List.filter_append, List.filter_append, List.filter_cons, List.filter_cons, if_neg (by simp [hd]), if_neg (by simp [Ne.symm hid])]

theorem toRead_snoc (flies : List Fly) (f : Fly) (id : Nat) :
    toRead (flies ++ [f]) id = toRead flies id ++ if f.sec.id = id ∧ f.done = false ∧ f.sec.ricnt ≠ 0 then [f.sec] else [] := by
  unfold toRead
  rw [List.filter_append, List.map_append]
  congr 1
  by_cases h : f.sec.id = id ∧ f.done = false ∧ f.sec.ricnt ≠ 0
  · rw [if_pos h]; simp [h]
  · rw [if_neg h]
    rw [List.filter_cons, if_neg]
    · rfl
    · intro hc
      apply h
      simpa [and_assoc] using hc

theorem loop_sys {H : Nat} {l : Loop} (h : LoopOk H l) {p' : Pair} (hp : PairOk H H p') (h1 : p'.sys.inserted = l.p.sys.inserted) (h2 : p'.sys.known = l.p.sys.known)
    (h3 : p'.sys.secs = l.p.sys.secs) (h4 : p'.dec.writtenIcnt = l.p.dec.writtenIcnt) (h5 : p'.flies = l.p.flies) (h6 : l.p.dec.ctx.next ≤ p'.dec.ctx.next) (h7 : p'.dec.dbuf = l.p.dec.dbuf) :
    LoopOk H { l with p := p' } := by
  refine ⟨hp, ?_, h.gone, ?_, ?_⟩
  · dsimp only
    rw [h1, h2, h3, h4, h5]; exact h.feed
  · dsimp only
    rw [h4]; exact Nat.le_trans h.wi h6
  · dsimp only
    rw [h7]; exact h.buf

theorem loop_encode {H : Nat} (hH : H ≤ QInt.INT_MAX) {l : Loop} (h : LoopOk H l) (id : Nat) (nvs : List Nv) (ha : l.admits H (.encode id nvs)) :
    ∃ l', l.step (.encode id nvs) = .ok l' ∧ LoopOk H l' := by
  obtain ⟨p', h1, h2⟩ := pair_encode hH h.pair id nvs ha
  refine ⟨{ l with p := p' }, by unfold Loop.step LRes.of; dsimp only; rw [h1], ?_⟩
  obtain ⟨o, s', g1, g2, g3, g4, g5, g6⟩ := esys_encode h.pair.sys id nvs
  unfold Pair.step at h1
  dsimp only at h1
  rw [g1, g3] at h1
  cases h1
  have hins : l.p.sys.inserted ≤ s'.inserted := by
    rw [h.pair.sys.ins, g4.ins, g5]; exact g2.ext.next
  obtain ⟨k', secs', f1, f2, f3⟩ := h.feed
  have hsecs : s'.secs = if o.ricnt = 0 then l.p.sys.secs else l.p.sys.secs ++ [⟨id, o.ricnt, o.base, o.reps, nvs⟩] := by
    unfold ESys.step at g3
    dsimp only at g3
    rw [g1] at g3
    cases g3
    rfl
  refine ⟨h2, ?_, h.gone, h.wi, h.buf⟩
  dsimp only
  rw [g6, hsecs]
  by_cases h0 : o.ricnt = 0
  · rw [if_pos h0]
    refine ⟨k', secs', f1.mono hins, f2, fun i hi => ?_⟩
    rw [toRead_snoc, if_neg (by simp [h0]), List.append_nil]; exact f3 i hi
  · rw [if_neg h0]
    obtain ⟨r, r1, r2⟩ := (f1.mono hins).more ⟨id, o.ricnt, o.base, o.reps, nvs⟩
    refine ⟨k', _, r1, f2, fun i hi => ?_⟩
    rw [toRead_snoc, List.filter_append, f3 i hi]
    congr 1
    by_cases hid : id = i
    · rw [if_pos ⟨hid, rfl, h0⟩]
      rcases r2 with r2 | ⟨_, r2⟩
      · rw [r2]; simp [hid]
      · exact absurd (h.gone _ r2) (by rw [← hid] at hi; exact hi)
    · rw [if_neg (by simp [hid])]
      rcases r2 with r2 | ⟨r2, _⟩ <;> rw [r2] <;> simp [hid]

theorem loop_readSec {H : Nat} {l : Loop} (h : LoopOk H l) (k n : Nat) (ha : l.admits H (.readSec k n)) :
    ∃ l', l.step (.readSec k n) = .ok l' ∧ LoopOk H l' := by
  obtain ⟨k', secs', f1, f2, f3⟩ := h.feed
  have hadm : l.p.admits H (.readSec k n) := by
    intro f hf hd
    obtain ⟨a1, a2, a3, a4⟩ := ha f hf hd
    refine ⟨?_, a3, a4, by rw [h.pair.dhard]⟩
    by_cases h0 : f.sec.ricnt = 0
    · exact Or.inl h0
    · right
      apply f1.sub.subset
      have hm : f.sec ∈ secs'.filter (fun s => s.id == f.sec.id) := by
        rw [f3 _ a1]
        unfold toRead
        rw [List.mem_map]
        refine ⟨f, List.mem_filter.2 ⟨List.mem_of_getElem? hf, by simp [hd, h0]⟩, rfl⟩
      exact (List.mem_filter.1 hm).1
  obtain ⟨p', h1, h2, h3⟩ := pair_readSec_eff h.pair k n hadm
  refine ⟨{ l with p := p', pend := l.pend ++ ackDue l.p p' k }, by unfold Loop.step LRes.of; dsimp only; rw [h1], ?_⟩
  rcases h3 with rfl | ⟨f, f', g1, g2, g3, g4, g5, g6, g7⟩
  · have : ackDue l.p l.p k = [] := by
      unfold ackDue
      rcases l.p.flies[k]? with _ | f
      · rfl
      · dsimp only
        rw [if_neg]
        rintro ⟨a, b, _⟩
        rw [a] at b; cases b
    rw [this, List.append_nil]
    exact h
  · have hlt := (List.getElem?_eq_some_iff.1 g1).1
    have hk' : p'.flies[k]? = some f' := by rw [g5]; exact List.getElem?_set_self hlt
    rcases g7 with ⟨g7, g8, g9⟩ | ⟨g7, g8, g9, g10, g11⟩
    · have : ackDue l.p p' k = [] := by
        unfold ackDue
        rw [g1, hk']
        dsimp only
        rw [if_neg]
        rintro ⟨a, b, c⟩
        rcases g7 with g7 | g7
        · rw [g7] at b; cases b
        · exact c g7
      rw [this, List.append_nil]
      refine ⟨h2, ?_, h.gone, ?_, ?_⟩
      · dsimp only
        rw [g3, g9, g5]
        refine ⟨k', secs', f1, f2, fun i hi => ?_⟩
        rw [f3 i hi, toRead_set g1 g6 (g7.imp (fun h => by rw [h, g2]) id)]
      · dsimp only; rw [g9, g4]; exact h.wi
      · dsimp only; rw [g8]; exact h.buf
    · have : ackDue l.p p' k = [(.ack, f.sec.id)] := by
        unfold ackDue
        rw [g1, hk']
        dsimp only
        rw [if_pos ⟨g2, g7, g8⟩]
      rw [this]
      obtain ⟨a1, a2, a3, a4⟩ := ha f g1 g2
      obtain ⟨t1, t2⟩ := toRead_done g1 g6 g7 g2 g8 a2
      have hf := f3 _ a1
      rw [t1] at hf
      have hacc : accepted l.p.sys.inserted k' secs' (.ack, f.sec.id) := by
        have : f.sec ∈ secs'.filter (fun s => s.id == f.sec.id) := by rw [hf]; simp
        exact ⟨f.sec, (List.mem_filter.1 this).1, rfl⟩
      refine ⟨h2, ?_, ?_, ?_, ?_⟩
      · dsimp only
        rw [g3, g11, g5, ← List.append_assoc]
        refine ⟨_, _, f1.snoc hacc, ?_, ?_⟩
        · unfold knownAfter
          dsimp only
          rw [find_head, hf, ← f2]
          rfl
        · intro i hi
          unfold settle
          dsimp only
          by_cases hid : i = f.sec.id
          · subst hid
            rw [filter_eraseP_eq, hf]; rfl
          · rw [filter_eraseP_ne hid, f3 i hi, t2 i hid]
      · intro i hi
        apply h.gone
        dsimp only at hi
        simpa using hi
      · dsimp only; rw [g11, g4]; have := h.wi; omega
      · dsimp only; rw [g10, h.buf, List.flatMap_append]; simp [DIns.bytes]

theorem loop_deliver {H : Nat} {l : Loop} (h : LoopOk H l) : ∃ l', l.step .deliver = .ok l' ∧ LoopOk H l' := by
  unfold Loop.step
  dsimp only
  rcases hq : l.q with _ | ⟨⟨op, n⟩, t⟩
  · exact ⟨l, rfl, h⟩
  dsimp only
  obtain ⟨k', secs', f1, f2, f3⟩ := h.feed
  rw [hq, List.cons_append] at f1
  obtain ⟨r1, r2, r3⟩ := Props.refused_iff h.pair.sys n
  rcases f1 with _ | @⟨_, _, _, _, _, _, _, ha, ht⟩
  have hok : l.p.sys.step (.instr op n) ≠ .fail := by
    cases op with
    | icnt =>
      rw [Ne, r2]
      obtain ⟨a1, a2⟩ := ha
      omega
    | ack =>
      rw [Ne, r1]
      obtain ⟨x, x1, x2⟩ := ha
      intro hc
      exact hc x x1 x2
    | cancel => exact r3
  rcases pair_other h.pair (.instr op n) (by simp) with g | ⟨p', g1, g2⟩
  · exfalso
    unfold Pair.step at g
    dsimp only at g
    rcases hs : l.p.sys.step (.instr op n) with _ | _ | s' <;> rw [hs] at g
    · cases g
    · exact hok hs
    · cases g
  · rw [g1]
    refine ⟨_, rfl, ?_⟩
    unfold Pair.step at g1
    dsimp only at g1
    rcases hs : l.p.sys.step (.instr op n) with _ | _ | s' <;> rw [hs] at g1
    · cases g1
    · cases g1
    · cases g1
      have hs' : s'.inserted = l.p.sys.inserted ∧ s'.known = knownAfter op n l.p.sys.secs l.p.sys.known ∧ s'.secs = settle op n l.p.sys.secs := by
        unfold ESys.step at hs
        dsimp only at hs
        rcases he : l.p.sys.e.apply op n with _ | _ | e <;> rw [he] at hs
        · cases hs
        · cases hs
        · cases hs; exact ⟨rfl, rfl, rfl⟩
      refine ⟨g2, ?_, ?_, h.wi, h.buf⟩
      · dsimp only
        rw [hs'.1, hs'.2.1, hs'.2.2]
        exact ⟨k', secs', ht, f2, f3⟩
      · intro i hi
        apply h.gone
        rw [hq, List.cons_append]
        exact List.mem_cons_of_mem _ hi

theorem loop_step {H : Nat} (hH : H ≤ QInt.INT_MAX) {l : Loop} (h : LoopOk H l) (o : LoopOp) (ha : l.admits H o) : ∃ l', l.step o = .ok l' ∧ LoopOk H l' := by
  cases o with
  | encode id nvs => exact loop_encode hH h id nvs ha
  | setCap n =>
    obtain ⟨p', h1, h2⟩ : ∃ p', l.p.step (.enc (.setCap n)) = .ok p' ∧ PairOk H H p' := by
      rcases pair_other h.pair (.setCap n) (by simp) with h1 | h1
      · cases h1
      · exact h1
    have h1' := h1
    cases h1
    exact ⟨_, by unfold Loop.step LRes.of; dsimp only; rw [h1'], loop_sys h h2 rfl rfl rfl rfl rfl (Nat.le_refl _) rfl⟩
  | setMaxBlocked n =>
    obtain ⟨p', h1, h2⟩ : ∃ p', l.p.step (.enc (.setMaxBlocked n)) = .ok p' ∧ PairOk H H p' := by
      rcases pair_other h.pair (.setMaxBlocked n) (by simp) with h1 | h1
      · cases h1
      · exact h1
    have h1' := h1
    cases h1
    exact ⟨_, by unfold Loop.step LRes.of; dsimp only; rw [h1'], loop_sys h h2 rfl rfl rfl rfl rfl (Nat.le_refl _) rfl⟩
  | readEnc n =>
    rcases pair_step hH h.pair (.readEnc n) ha with ⟨_, _, h1, _⟩ | ⟨p', h1, h2⟩
    · cases h1
    refine ⟨_, by unfold Loop.step LRes.of; dsimp only; rw [h1], ?_⟩
    obtain ⟨D, g1, _⟩ := h.pair.trans
    rw [← List.take_append_drop n l.p.ech] at g1
    have hle : (l.p.ech.take n).length ≤ n := by rw [List.length_take]; omega
    have ha : l.p.dec.uninterrupted + n ≤ 128 * 1024 := ha
    obtain ⟨d', dF', k1, k2, k3, k4, k5, k6, k7, k8, k9, k10, k11, k12, _⟩ := readEncoder_run h.pair.wf h.pair.bad g1 (by omega)
    unfold Pair.step at h1
    dsimp only at h1
    rw [k1] at h1
    cases h1
    exact loop_sys h h2 rfl rfl rfl k12 rfl k5.next k11
  | readSec k n => exact loop_readSec h k n ha
  | flush =>
    rcases pair_step hH h.pair .flush trivial with ⟨_, _, h1, _⟩ | ⟨p', h1, h2⟩
    · cases h1
    refine ⟨_, by unfold Loop.step LRes.of; dsimp only; rw [h1], ?_⟩
    cases h1
    obtain ⟨k', secs', f1, f2, f3⟩ := h.feed
    unfold icntDue
    unfold Dec.writeDecoder at h2 ⊢
    by_cases hc : l.p.dec.writtenIcnt < l.p.dec.ctx.next
    · rw [if_pos hc] at h2 ⊢
      rw [if_pos hc]
      have hnx : l.p.dec.ctx.next ≤ l.p.sys.inserted := by
        obtain ⟨D, g1, g2, _⟩ := h.pair.trans
        obtain ⟨x1, _⟩ := esRun_ctx h.pair.wf (by simp) g1
        rw [h.pair.sys.ins, ← g2.next]; exact x1.next
      refine ⟨h2, ⟨k' + (l.p.dec.ctx.next - l.p.dec.writtenIcnt), secs', ?_, ?_, f3⟩, ?_, ?_, rfl⟩
      · dsimp only
        rw [List.append_nil, ← List.append_assoc]
        exact f1.snoc (op := .icnt) (n := l.p.dec.ctx.next - l.p.dec.writtenIcnt) ⟨by omega, by omega⟩
      · dsimp only; omega
      · intro i hi
        apply h.gone
        dsimp only at hi
        simpa using hi
      · exact Nat.le_refl _
    · rw [if_neg hc] at h2 ⊢
      rw [if_neg hc]
      refine ⟨h2, ⟨k', secs', ?_, f2, f3⟩, ?_, h.wi, rfl⟩
      · dsimp only
        rw [List.append_nil, List.append_nil]; exact f1
      · intro i hi
        apply h.gone
        dsimp only at hi
        simpa using hi
  | cancel id =>
    rcases pair_step hH h.pair (.cancel id) ha with ⟨_, _, h1, _⟩ | ⟨p', h1, h2⟩
    · cases h1
    refine ⟨_, by unfold Loop.step LRes.of; dsimp only; rw [h1], ?_⟩
    unfold Pair.step Dec.cancelStream at h1
    dsimp only at h1
    have ha : l.p.dec.dbufOverflow = false := ha
    rw [ha, if_neg (by simp)] at h1
    cases h1
    obtain ⟨k', secs', f1, f2, f3⟩ := h.feed
    refine ⟨h2, ⟨k', settle .cancel id secs', by dsimp only; rw [← List.append_assoc]; exact f1.snoc (op := .cancel) (n := id) trivial, f2, ?_⟩, ?_, h.wi, ?_⟩
    · intro i hi
      dsimp only at hi ⊢
      have hne : i ≠ id := fun h => hi (by simp [h])
      have hng : i ∉ l.gone := fun h => hi (by simp [h])
      rw [← f3 i hng]
      unfold settle
      dsimp only
      rw [List.filter_filter]
      apply List.filter_congr
      intro x _
      by_cases hx : x.id = i
      · simp [hx, hne]
      · simp [hx]
    · intro i hi
      dsimp only at hi ⊢
      rw [← List.append_assoc] at hi
      rcases List.mem_append.1 hi with hi | hi
      · exact List.mem_cons_of_mem _ (h.gone i hi)
      · simp only [List.mem_singleton, Prod.mk.injEq, true_and] at hi
        simp [hi]
    · dsimp only
      rw [h.buf, List.flatMap_append]
      simp [DIns.bytes]
  | deliver => exact loop_deliver h

theorem loop_init (H B : Nat) : LoopOk H (Loop.init H B) :=
  ⟨pair_init (Nat.le_refl _) B, ⟨0, [], .nil _ _, rfl, fun _ _ => rfl⟩, by simp [Loop.init], Nat.le_refl _, rfl⟩

theorem loop_run {H : Nat} (hH : H ≤ QInt.INT_MAX) {l : Loop} (h : LoopOk H l) (ops : List LoopOp) (ha : Loop.Admissible H l ops) : ∃ l', l.run ops = .ok l' ∧ LoopOk H l' := by
  induction ops generalizing l with
  | nil => exact ⟨l, rfl, h⟩
  | cons o t ih =>
    obtain ⟨a1, a2⟩ := ha
    obtain ⟨l', h1, h2⟩ := loop_step hH h o a1
    unfold Loop.run
    rw [h1]
    exact ih h2 (a2 l' h1)

end Qpack

namespace Props
open Qpack

/-- C19, C17.  Encoder and decoder of this library, connected by an encoder stream, request streams and a decoder stream with any
delays, with header lists, capacity changes and cancellations in any order: the encoder never refuses the decoder's feedback, the
decoder never rejects what the encoder wrote, and no assertion fails. -/
theorem C19_honest_feedback_accepted (H B : Nat) (hH : H ≤ QInt.INT_MAX) (ops : List LoopOp) (ha : Loop.Admissible H (Loop.init H B) ops) :
    ∃ l, (Loop.init H B).run ops = .ok l := by
  obtain ⟨l, h, _⟩ := loop_run hH (loop_init H B) ops ha
  exact ⟨l, h⟩

/-- C19.  The bytes the decoder puts on the decoder stream are the encodings of these instructions. -/
theorem C19_feedback_bytes (H B : Nat) (hH : H ≤ QInt.INT_MAX) (ops : List LoopOp) (ha : Loop.Admissible H (Loop.init H B) ops)
    (l : Loop) (hr : (Loop.init H B).run ops = .ok l) :
    l.p.dec.writeDecoder.2 = (l.pend ++ icntDue l.p.dec).flatMap DIns.bytes := by
  obtain ⟨l', h, h2⟩ := loop_run hH (loop_init H B) ops ha
  rw [hr] at h; cases h
  unfold Dec.writeDecoder icntDue
  split_ifs
  · dsimp only
    rw [h2.buf, List.flatMap_append]
    simp [DIns.bytes]
  · dsimp only
    rw [h2.buf, List.append_nil]

/-- C19.  The encoder never believes the decoder to have received more than it has, and it knows exactly what the decoder has
announced once it has processed the whole decoder stream. -/
theorem C19_known_never_ahead_of_decoder (H B : Nat) (hH : H ≤ QInt.INT_MAX) (ops : List LoopOp) (ha : Loop.Admissible H (Loop.init H B) ops)
    (l : Loop) (hr : (Loop.init H B).run ops = .ok l) :
    l.p.sys.e.krcnt ≤ l.p.dec.ctx.next ∧ (l.q = [] → l.pend = [] → l.p.sys.e.krcnt = l.p.dec.writtenIcnt) := by
  obtain ⟨l', h, h2⟩ := loop_run hH (loop_init H B) ops ha
  rw [hr] at h; cases h
  obtain ⟨k', secs', f1, f2, f3⟩ := h2.feed
  rw [← h2.pair.sys.known]
  have hw := h2.wi
  constructor
  · have : l.p.sys.known ≤ k' := by
      clear f2 f3
      generalize l.q ++ l.pend = qq at f1
      generalize l.p.sys.known = kk at f1 ⊢
      generalize l.p.sys.secs = ss at f1
      induction f1 with
      | nil => exact Nat.le_refl _
      | @cons op n t k l k' l' _ _ ih =>
        refine Nat.le_trans ?_ ih
        cases op with
        | icnt => exact Nat.le_add_right ..
        | cancel => exact Nat.le_refl _
        | ack =>
          unfold knownAfter
          dsimp only
          split <;> omega
    omega
  · intro hq hp
    rw [hq, hp] at f1
    cases f1
    exact f2

/-- C17, C19.  In the closed system too, every section read to its end gave exactly the fields encoded. -/
theorem C17_closed_loop (H B : Nat) (hH : H ≤ QInt.INT_MAX) (ops : List LoopOp) (ha : Loop.Admissible H (Loop.init H B) ops)
    (l : Loop) (hr : (Loop.init H B).run ops = .ok l) (f : Fly) (hf : f ∈ l.p.flies) (hdone : f.done = true) :
    f.got.map (fun q => (q.name, q.value, q.never)) = f.sec.nvs.map (fun nv => (nv.name, nv.value, nv.never)) := by
  obtain ⟨l', h, h2⟩ := loop_run hH (loop_init H B) ops ha
  rw [hr] at h; cases h
  obtain ⟨E0, m, h⟩ := h2.pair.flies f hf
  rw [(h.fin hdone).1, List.map_map]
  rfl

/-- is an operation within the limits? -/
def _root_.Nghttp3.Qpack.Loop.check (H : Nat) (l : Loop) : LoopOp → Bool
  | .encode id nvs => l.p.check H (.enc (.encode id nvs))
  | .readEnc n => decide (l.p.dec.uninterrupted + n ≤ 128 * 1024)
  | .readSec k _ =>
    match l.p.flies[k]? with
    | none => true
    | some f => f.done || (decide (f.sec.id ∉ l.gone) && ((l.p.flies.take k).all fun g => !(g.sec.id == f.sec.id) || g.done) &&
        decide (f.sec.ricnt ≤ l.p.dec.ctx.next + H / 32) && !l.p.dec.dbufOverflow)
  | .cancel _ => !l.p.dec.dbufOverflow
  | _ => true

def _root_.Nghttp3.Qpack.Loop.checked (H : Nat) (l : Loop) : List LoopOp → Option Loop
  | [] => some l
  | o :: t =>
    if l.check H o then
      match l.step o with
      | .ok l' => l'.checked H t
      | _ => none
    else none

theorem loop_check_admits {H : Nat} {l : Loop} {o : LoopOp} (h : l.check H o = true) : l.admits H o := by
  cases o with
  | encode id nvs => exact check_admits (H := H) (p := l.p) (o := .enc (.encode id nvs)) h
  | readEnc n => simpa [Loop.check, Loop.admits] using h
  | readSec k n =>
    intro f hf hd
    unfold Loop.check at h
    dsimp only at h
    rw [hf] at h
    dsimp only at h
    rw [hd] at h
    simp only [Bool.false_or, Bool.and_eq_true, decide_eq_true_eq, Bool.not_eq_true', List.all_eq_true] at h
    refine ⟨h.1.1.1, ?_, h.1.2, h.2⟩
    intro j g hj hg hid
    have := h.1.1.2 g (List.mem_iff_getElem?.2 ⟨j, by rw [List.getElem?_take, if_pos hj]; exact hg⟩)
    simpa [hid] using this
  | cancel id => simpa [Loop.check, Loop.admits] using h
  | _ => trivial

theorem loop_checked_admissible {H : Nat} {l m : Loop} {ops : List LoopOp} (h : l.checked H ops = some m) : Loop.Admissible H l ops ∧ l.run ops = .ok m := by
  induction ops generalizing l with
  | nil => cases h; exact ⟨trivial, rfl⟩
  | cons o t ih =>
    unfold Loop.checked at h
    by_cases hc : l.check H o = true
    · rw [if_pos hc] at h
      unfold Loop.Admissible Loop.run
      rcases hs : l.step o with _ | _ | _ | l' <;> rw [hs] at h
      · cases h
      · cases h
      · cases h
      · obtain ⟨h1, h2⟩ := ih h
        exact ⟨⟨loop_check_admits hc, fun l'' hp => (by cases hp; exact h1)⟩, h2⟩
    · rw [if_neg hc] at h; cases h

/-- three sections on two streams, one blocked, one stream cancelled, feedback delivered late -/
def loopSchedule : List LoopOp :=
  [.setCap 150, .setMaxBlocked 2, .encode 0 [nvA, nvB], .readSec 0 2, .encode 4 [nvB, nvC, nvA], .readEnc 1000, .flush, .readSec 0 100, .encode 0 [nvB],
    .deliver, .readSec 1 3, .cancel 4, .flush, .readSec 2 100, .deliver, .encode 8 [{ nvA with value := [9] }], .deliver, .flush, .readEnc 1000, .readSec 3 100,
    .flush, .deliver, .deliver]

set_option maxRecDepth 100000 in
example : ((Loop.init 150 2).checked 150 loopSchedule).any (fun l =>
    (l.p.flies.map (·.done)) == [true, false, true, true] && l.q.isEmpty && l.pend.isEmpty && l.p.sys.e.krcnt == 3 && l.p.sys.secs.isEmpty) = true := by
  decide +kernel

end Props
end Nghttp3
