import Verif.Spec.Net
import Verif.Lemmas.BidiTrunc
/-! A request stream whose bytes come from an encoder of this library: what the receiver does with a piece of them. -/
namespace Nghttp3
namespace Net
open Http Qpack Bidi

/-! ### messages -/

theorem onFrames_append (pp : Pri → List UInt8 → Option Pri) (ext : Bool) (m : Msg) (a b : List Frm) :
    onFrames pp ext m (a ++ b) =
      match onFrames pp ext m a with
      | (cb, .ok m') => (cb ++ (onFrames pp ext m' b).1, (onFrames pp ext m' b).2)
      | r => r := by
  induction a generalizing m with
  | nil => rfl
  | cons f t ih =>
    rw [List.cons_append, onFrames, onFrames]
    rcases onFrame pp ext m f with ⟨cb, _ | _ | _ | _ | m'⟩ <;> dsimp only
    rw [ih]
    rcases onFrames pp ext m' t with ⟨cb', _ | _ | _ | _ | m2⟩ <;> dsimp only
    rw [List.append_assoc]

theorem runFields_append (pp : Pri → List UInt8 → Option Pri) (r t e : Bool) (s : State) (a b : List Field) :
    runFields pp r t e s (a ++ b) =
      match runFields pp r t e s a with
      | (fs, some s') => (fs ++ (runFields pp r t e s' b).1, (runFields pp r t e s' b).2)
      | q => q := by
  induction a generalizing s with
  | nil => rfl
  | cons f l ih =>
    rw [List.cons_append, runFields, runFields]
    rcases onHeader pp s f (lookupToken f.name) r t e with _ | s' | s' <;> dsimp only
    · exact ih s'
    · rw [ih s']
      rcases runFields pp r t e s' l with ⟨fs, _ | s2⟩ <;> rfl

/-! ### what is still to come on a stream -/

inductive PF where
  | sec (f : Fly)
  | dat (b : Bidi.Bytes)

def PF.bytes : PF → Bidi.Bytes
  | .sec f => frame FRAME_HEADERS f.rem
  | .dat b => frame FRAME_DATA b

def PF.ty : PF → Nat
  | .sec _ => 1
  | .dat _ => 0

def PF.payload : PF → Bidi.Bytes
  | .sec f => f.rem
  | .dat b => b

def PF.frm : PF → Frm
  | .sec f => .headers (some (f.sec.nvs.map field))
  | .dat b => .data (b.map fun _ => 1)

def PF.body : PF → Bidi.Bytes
  | .sec _ => []
  | .dat b => b

def PF.fly : PF → Option Fly
  | .sec f => some f
  | .dat _ => none

/-- the header of the frame -/
def PF.hd (f : PF) : Bidi.Bytes := frameWriteHd f.ty f.payload.length

theorem PF.bytes_eq (f : PF) : f.bytes = f.hd ++ f.payload := by cases f <;> rfl

def PF.Ok (f : PF) : Prop := f.payload.length < 2 ^ 62

theorem PF.varints {f : PF} (h : f.Ok) : Spec.IsVarint f.ty (putVarint f.ty) ∧ Spec.IsVarint f.payload.length (putVarint f.payload.length) ∧
    f.hd = putVarint f.ty ++ putVarint f.payload.length := by
  refine ⟨(Props.C01_varint_round_trip _ ?_).1, (Props.C01_varint_round_trip _ h).1, rfl⟩
  cases f <;> simp [PF.ty]

/-- a section that has not begun to arrive -/
structure Fresh (id : Nat) (f : Fly) : Prop where
  s : f.s = SCtx.init id
  got : f.got = []
  rem : f.rem ≠ []

/-- a part of an integer has been read -/
def Part (p : Bidi.Bytes) (rv : RVInt) : Prop := (p = [] ∧ rv = {}) ∨ (p ≠ [] ∧ rd {} p false = .part rv)

theorem Part.ok {p : Bidi.Bytes} {rv : RVInt} (h : Part p rv) : RvOk rv := by
  rcases h with ⟨_, rfl⟩ | ⟨h1, h2⟩
  · exact rvOk_idle
  · have := rd_spec {} p false rvOk_idle h1
    rw [h2] at this
    exact this.2.1

/-- a proper prefix of an integer -/
theorem part_of_prefix {v : Nat} {a p q : Bidi.Bytes} (ha : Spec.IsVarint v a) (h : p ++ q = a) (hq : q ≠ []) : ∃ rv, Part p rv := by
  by_cases hp : p = []
  · exact ⟨{}, Or.inl ⟨hp, rfl⟩⟩
  rcases varint_split p hp with ⟨v', a', y, h1, h2⟩ | ⟨rv, _, h1⟩
  · exfalso
    have e1 := rd_varint ha [] false
    rw [List.append_nil, ← h, h2, List.append_assoc, rd_varint h1] at e1
    have := (Rd.done.inj e1).2
    simp only [List.length_append] at this
    have : 0 < q.length := List.length_pos_iff.2 hq
    omega
  · exact ⟨rv, Or.inr ⟨hp, h1⟩⟩

/-- a part of a frame header has been read -/
inductive HdrAt (B : Str) (m : Msg) : Bidi.Bytes → Str → Prop
  | type (p rv) (h : Part p rv) : HdrAt B m p { B.at m with rv := rv }
  | len (ty t p rv) (ht : Spec.IsVarint ty t) (h : Part p rv) : HdrAt B m (t ++ p) { B.at m with rst := .frameLen, ftype := ty, rv := rv }

theorem HdrAt.nil {B : Str} (m : Msg) : HdrAt B m [] (B.at m) := HdrAt.type [] {} (Or.inl ⟨rfl, rfl⟩)

theorem HdrAt.inv {B : Str} {m : Msg} {p : Bidi.Bytes} {s : Str} (h : HdrAt B m p s) {d : Dec} (hi : Inv (B.at m) d) : Inv s d := by
  cases h with
  | type p rv h => exact ⟨hi.ctx, hi.wf, hi.idle, h.ok, hi.hok, hi.left⟩
  | len ty t p rv ht h => exact ⟨hi.ctx, hi.wf, hi.idle, h.ok, hi.hok, fun g => by cases g⟩

theorem HdrAt.flags {B : Str} {m : Msg} {p : Bidi.Bytes} {s : Str} (h : HdrAt B m p s) : s.blocked = B.blocked ∧ s.shutRd = B.shutRd ∧ s.eof = B.eof ∧ s.closed = B.closed ∧ s.inq = B.inq := by
  cases h <;> exact ⟨rfl, rfl, rfl, rfl, rfl⟩

theorem HdrAt.eof {B : Str} {m : Msg} {p : Bidi.Bytes} {s : Str} (h : HdrAt B m p s) (e : Bool) : HdrAt { B with eof := e } m p { s with eof := e } := by
  cases h with
  | type p rv h => exact HdrAt.type p rv h
  | len ty t p rv ht h => exact HdrAt.len ty t p rv ht h

theorem run_part (c : Cfg) (room : Bool) {s : Str} {d : Dec} (hi : Inv s d) (hr : s.rst = .frameType ∨ s.rst = .frameLen) (hrv : s.rv = {}) {p : Bidi.Bytes} {rv : RVInt} (h : Part p rv) (o : List Obs) (k : Nat) :
    bRun c room ⟨s, d, o, k⟩ p = .ok ⟨{ s with rv := rv }, d, o, k + p.length⟩ := by
  rcases h with ⟨rfl, rfl⟩ | ⟨h1, h2⟩
  · rw [bRun_nil, ← hrv]; rfl
  · unfold bRun
    rw [Machine.run_eq (bidi_good c room) (by exact hi) (by simp), if_neg (by simp [h1])]
    unfold mStep step
    rcases hr with hr | hr
    · dsimp only
      rw [hr, hrv, h2]
      dsimp only [view]
      rw [obs_nil, List.append_nil]
    · dsimp only
      rw [hr, hrv, h2]
      dsimp only [view]
      rw [obs_nil, List.append_nil]

theorem HdrAt.run (c : Cfg) (room : Bool) {B : Str} {m : Msg} {p : Bidi.Bytes} {s : Str} (h : HdrAt B m p s) {d : Dec} (hi : Inv (B.at m) d) (o : List Obs) (k : Nat) :
    bRun c room ⟨B.at m, d, o, k⟩ p = .ok ⟨s, d, o, k + p.length⟩ := by
  cases h with
  | type p rv h => exact run_part c room hi (Or.inl rfl) rfl h o k
  | len ty t p rv ht h =>
    have hi2 : Inv { B.at m with rst := .frameLen, ftype := ty } d := ⟨hi.ctx, hi.wf, hi.idle, rvOk_idle, hi.hok, fun g => by cases g⟩
    rw [run_type c room p hi ht, run_part c room hi2 (Or.inr rfl) rfl h, List.length_append, Nat.add_assoc]

/-- a proper prefix of a frame header -/
theorem HdrAt.make {B : Str} (m : Msg) {ty len : Nat} {t l p q : Bidi.Bytes} (ht : Spec.IsVarint ty t) (hl : Spec.IsVarint len l) (h : p ++ q = t ++ l) (hq : q ≠ []) :
    ∃ s, HdrAt B m p s := by
  rcases List.append_eq_append_iff.1 h with ⟨a, h1, h2⟩ | ⟨a, h1, h2⟩
  · by_cases ha : a = []
    · subst ha
      rw [List.append_nil] at h1
      exact ⟨_, by have := HdrAt.len (B := B) (m := m) ty t [] {} ht (Or.inl ⟨rfl, rfl⟩); rw [List.append_nil, h1] at this; exact this⟩
    · obtain ⟨rv, hp⟩ := part_of_prefix ht h1.symm ha
      exact ⟨_, HdrAt.type p rv hp⟩
  · obtain ⟨rv, hp⟩ := part_of_prefix hl h2.symm hq
    rw [h1]
    exact ⟨_, HdrAt.len ty t a rv ht hp⟩


/-! ### sections on their way -/

/-- the sections of a stream still to be read, in order -/
def undone (id : Nat) (flies : List Fly) : List Fly := flies.filter fun f => decide (f.sec.id = id) && !f.done

theorem undone_cons (id : Nat) (f : Fly) (t : List Fly) : undone id (f :: t) = if f.sec.id = id ∧ f.done = false then f :: undone id t else undone id t := by
  unfold undone
  rw [List.filter_cons]
  by_cases h : f.sec.id = id ∧ f.done = false
  · rw [if_pos (by simp [h]), if_pos h]
  · rw [if_neg (by simpa using h), if_neg h]

theorem undone_append (id : Nat) (a b : List Fly) : undone id (a ++ b) = undone id a ++ undone id b := by
  unfold undone; rw [List.filter_append]

theorem head_idx {id : Nat} {flies : List Fly} {f : Fly} {t : List Fly} (h : undone id flies = f :: t) :
    ∃ k, flies[k]? = some f ∧ f.sec.id = id ∧ f.done = false ∧ (∀ j g, j < k → flies[j]? = some g → g.sec.id = id → g.done = true) ∧
      ∀ f' : Fly, f'.sec = f.sec → undone id (flies.set k f') = (if f'.done then t else f' :: t) ∧ ∀ j, j ≠ id → undone j (flies.set k f') = undone j flies := by
  induction flies with
  | nil => cases h
  | cons g l ih =>
    rw [undone_cons] at h
    by_cases hg : g.sec.id = id ∧ g.done = false
    · rw [if_pos hg] at h
      obtain ⟨rfl, rfl⟩ := List.cons.inj h
      refine ⟨0, rfl, hg.1, hg.2, fun j _ hj => by omega, fun f' hs => ?_⟩
      rw [List.set_cons_zero]
      constructor
      · rw [undone_cons, hs]
        cases hd : f'.done
        · rw [if_pos ⟨hg.1, rfl⟩]; rfl
        · rw [if_neg (by simp)]; rfl
      · intro j hj
        rw [undone_cons, undone_cons, hs, if_neg (by rw [hg.1]; exact fun h => hj h.1.symm), if_neg (by rw [hg.1]; exact fun h => hj h.1.symm)]
    · rw [if_neg hg] at h
      obtain ⟨k, h1, h2, h3, h4, h5⟩ := ih h
      refine ⟨k + 1, h1, h2, h3, ?_, ?_⟩
      · intro j g' hj hg' hid
        cases j with
        | zero =>
          cases hg'
          by_contra hd
          exact hg ⟨hid, by simpa using hd⟩
        | succ j => exact h4 j g' (by omega) hg' hid
      · intro f' hs
        obtain ⟨e1, e2⟩ := h5 f' hs
        rw [List.set_cons_succ]
        constructor
        · rw [undone_cons, if_neg hg, e1]
        · intro j hj
          rw [undone_cons, undone_cons, e2 j hj]

/-- the size of an acknowledgement -/
def ackLen (id : Nat) : Nat := (DIns.bytes (.ack, id)).length

/-- the acknowledgements still to be written for the streams in `p` -/
def toAck (p : Nat → Bool) (flies : List Fly) : Nat := ((flies.filter fun f => p f.sec.id && !f.done && f.sec.ricnt != 0).map fun f => ackLen f.sec.id).sum

theorem toAck_append (p : Nat → Bool) (a b : List Fly) : toAck p (a ++ b) = toAck p a + toAck p b := by
  unfold toAck; rw [List.filter_append, List.map_append, List.sum_append]

theorem toAck_cons (p : Nat → Bool) (f : Fly) (t : List Fly) : toAck p (f :: t) = (if p f.sec.id ∧ f.done = false ∧ f.sec.ricnt ≠ 0 then ackLen f.sec.id else 0) + toAck p t := by
  unfold toAck
  rw [List.filter_cons]
  by_cases h : p f.sec.id ∧ f.done = false ∧ f.sec.ricnt ≠ 0
  · rw [if_pos (by simp [h]), if_pos h]; rfl
  · rw [if_neg (by simpa [and_assoc] using h), if_neg h, Nat.zero_add]

/-- … together with what is in the buffer already -/
def bud (p : Nat → Bool) (l : Loop) : Nat := l.p.dec.dbuf.length + toAck p l.p.flies

def lim (l : Loop) : Nat := max l.p.dec.maxConc 100 * 2 * 10

/-- what reading on stream `id` leaves alone -/
structure Eff (id : Nat) (l l' : Loop) : Prop where
  sys : l'.p.sys = l.p.sys
  ech : l'.p.ech = l.p.ech
  q : l'.q = l.q
  gone : l'.gone = l.gone
  ctx : l'.p.dec.ctx = l.p.dec.ctx
  conc : l'.p.dec.maxConc = l.p.dec.maxConc
  oth : ∀ j, j ≠ id → undone j l'.p.flies = undone j l.p.flies
  sub : ∀ g ∈ undone id l'.p.flies, ∃ g0 ∈ undone id l.p.flies, g0.sec = g.sec
  bud : ∀ p : Nat → Bool, p id = true → Net.bud p l' ≤ Net.bud p l

theorem Eff.refl (id : Nat) (l : Loop) : Eff id l l := ⟨rfl, rfl, rfl, rfl, rfl, rfl, fun _ _ => rfl, fun g hg => ⟨g, hg, rfl⟩, fun _ _ => Nat.le_refl _⟩

theorem Eff.trans {id : Nat} {a b c : Loop} (h : Eff id a b) (h' : Eff id b c) : Eff id a c :=
  ⟨h'.sys.trans h.sys, h'.ech.trans h.ech, h'.q.trans h.q, h'.gone.trans h.gone, h'.ctx.trans h.ctx, h'.conc.trans h.conc, fun j hj => (h'.oth j hj).trans (h.oth j hj),
    fun g hg => by obtain ⟨g1, h1, h2⟩ := h'.sub g hg; obtain ⟨g0, h3, h4⟩ := h.sub g1 h1; exact ⟨g0, h3, h4.trans h2⟩, fun p hp => Nat.le_trans (h'.bud p hp) (h.bud p hp)⟩

theorem readSection_conc {d : Dec} (hc : CtxOk d.ctx) (hbad : d.ctx.bad = false) (s : SCtx) (x : Qpack.Bytes) (fin : Bool) (hw : SWF s) (hi : Idle s) :
    match (d.readSection s x fin).2 with
    | .final d' _ => d'.maxConc = d.maxConc
    | _ => True := by
  rw [readSection_run hc hbad s x fin hw hi]
  rcases rsRun d.ctx (s, []) x false with _ | ⟨_ | _⟩ | ⟨_ | _, r⟩ | ⟨s', acc⟩ <;> dsimp only [secOut]
  · unfold almostOk
    cases fin
    · trivial
    · rw [if_pos rfl]
      split_ifs
      · trivial
      · unfold Dec.writeSectionAck
        split_ifs <;> trivial
      · rfl

theorem reps_ne {H : Nat} {E : Ctx} {n : Nat} {f : Fly} {E0 : Ctx} {m : Nat} (hf : FlyOk H E n f E0 m) (h0 : f.sec.ricnt ≠ 0) : f.sec.reps.flatMap (Rep.bytes f.sec.base) ≠ [] := by
  intro he
  obtain ⟨rep, hm, hr⟩ := hf.low h0
  have : (rep.bytes f.sec.base) = [] := List.flatMap_eq_nil_iff.1 he rep hm
  cases rep with
  | static => simp [Rep.refs] at hr
  | nameStatic => simp [Rep.refs] at hr
  | lit => simp [Rep.refs] at hr
  | dyn a =>
    unfold Rep.bytes at this
    dsimp only at this
    split_ifs at this
    · obtain ⟨b, t, e, _⟩ := QInt.put_cons 0x80 (f.sec.base - a - 1) (pfx := 6) (by omega)
      rw [e] at this; cases this
    · obtain ⟨b, t, e, _⟩ := QInt.put_cons 0x10 (a - f.sec.base) (pfx := 4) (by omega)
      rw [e] at this; cases this
  | nameDyn a v nev =>
    unfold Rep.bytes at this
    dsimp only at this
    by_cases hb : a < f.sec.base
    · rw [if_pos hb] at this
      obtain ⟨b, t, e, _⟩ := QInt.put_cons (0x40 ||| if nev then 0x20 else 0) (f.sec.base - a - 1) (pfx := 4) (by omega)
      unfold indexedNameBytes at this
      rw [e] at this; cases this
    · rw [if_neg hb] at this
      obtain ⟨b, t, e, _⟩ := QInt.put_cons (if nev then 0x08 else 0) (a - f.sec.base) (pfx := 3) (by omega)
      unfold indexedNameBytes at this
      rw [e] at this; cases this

/-- what has been handed out is the beginning of what was encoded -/
theorem secAt_prefix {cs : Ctx} {H id R base : Nat} {rb : Qpack.Bytes} {out : List QNv} {s : SCtx} {acc : List QNv} {rem : Qpack.Bytes}
    (h : SecAt cs H id R base rb out s acc rem) : ∃ l, acc ++ l = out := by
  cases h with
  | post =>
    rename_i hp hw hi h hs hR hid
    have h := ‹rsRun _ _ _ false = _›
    obtain ⟨l, _, h2⟩ := ok_pre h
    exact ⟨l, h2.symm⟩
  | _ => exact ⟨out, rfl⟩

theorem secAt_blocked {cs : Ctx} {H id R base : Nat} {rb : Qpack.Bytes} {out : List QNv} {s : SCtx} {acc : List QNv} {rem : Qpack.Bytes}
    (h : SecAt cs H id R base rb out s acc rem) (hs : s.state = .blocked) : acc = [] ∧ rem = rb ∧ s.ricnt = R := by
  cases h with
  | ric _ _ _ h => rw [h] at hs; cases hs
  | sign _ h => rw [h] at hs; cases hs
  | base _ _ _ h => rw [h] at hs; cases hs
  | blocked _ _ hR => exact ⟨rfl, rfl, hR⟩
  | post => rename_i hp hw hi h hs' hR hid; exact absurd hp (not_post hs (by simp))

theorem loop_pair_admits {H : Nat} {l : Loop} (h : LoopOk H l) {k n : Nat} (ha : l.admits H (.readSec k n)) : l.p.admits H (.readSec k n) := by
  obtain ⟨k', secs', f1, f2, f3⟩ := h.feed
  intro f hf hd
  obtain ⟨a1, a2, a3, a4⟩ := ha f hf hd
  refine ⟨?_, a3, a4, by rw [h.pair.dhard]⟩
  by_cases h0 : f.sec.ricnt = 0
  · exact Or.inl h0
  · right
    apply f1.sub.subset
    have hm : f.sec ∈ secs'.filter (fun s => s.id == f.sec.id) := by
      rw [f3 _ a1]
      unfold toRead
      rw [List.mem_map]
      refine ⟨f, List.mem_filter.2 ⟨List.mem_of_getElem? hf, by simp [hd, h0]⟩, rfl⟩
    exact (List.mem_filter.1 hm).1

/-- what reading a piece of a section did: `t` the sections after it -/
def SecRes (id : Nat) (f : Fly) (t : List Fly) (n : Nat) (l l' : Loop) (nvs : List QNv) : ROut → Prop
  | .more d s => l'.p.dec = d ∧ n < f.rem.length ∧ undone id l'.p.flies = { f with rem := f.rem.drop n, s := s, got := f.got ++ nvs } :: t
  | .final d s => l'.p.dec = d ∧ f.rem.length ≤ n ∧ s.streamId = id ∧ f.got ++ nvs = f.sec.nvs.map Nv.toQNv ∧ undone id l'.p.flies = t
  | .blocked d s rest => l'.p.dec = d ∧ nvs = [] ∧ rest ++ f.rem.drop n ≠ [] ∧ s.state = .blocked ∧ s.ricnt = f.sec.ricnt ∧ l.p.dec.ctx.next < f.sec.ricnt ∧
      rest.length ≤ (f.rem.take n).length ∧ undone id l'.p.flies = { f with rem := rest ++ f.rem.drop n, s := s, got := f.got ++ nvs } :: t
  | _ => False

/-- a piece of the first section of a stream -/
theorem sec_step {H : Nat} {l : Loop} (h : LoopOk H l) {id : Nat} {f : Fly} {t : List Fly} (hu : undone id l.p.flies = f :: t) (hg : id ∉ l.gone)
    (hid : f.s.streamId = id) (hwin : f.sec.ricnt ≤ l.p.dec.ctx.next + H / 32) (hbuf : l.p.dec.dbufOverflow = false) (n : Nat) :
    ∃ l' nvs ro, l.p.dec.readSection f.s (f.rem.take n) (decide (f.rem.length ≤ n)) = (nvs, ro) ∧ LoopOk H l' ∧ Eff id l l' ∧
      (∃ r, f.got ++ nvs ++ r = f.sec.nvs.map Nv.toQNv) ∧ SecRes id f t n l l' nvs ro := by
  obtain ⟨k, k1, k2, k3, k4, k5⟩ := head_idx hu
  have ha : l.admits H (.readSec k n) := by
    intro f' hf' _
    rw [k1] at hf'
    cases hf'
    exact ⟨by rw [k2]; exact hg, fun j g hj hg hid => k4 j g hj hg (hid.trans k2), hwin, hbuf⟩
  obtain ⟨l', h1, h2⟩ := loop_readSec h k n ha
  obtain ⟨p', e1, e2, e3⟩ := pair_readSec_eff h.pair k n (loop_pair_admits h ha)
  obtain ⟨E0, m, hfo⟩ := h.pair.flies f (List.mem_of_getElem? k1)
  obtain ⟨w1, w2⟩ := (hfo.pos k3).wf
  have hsafe := secLoop_safe h.pair.wf.ctx (decide (f.rem.length ≤ n)) ((f.rem.take n).length + 1) f.s (f.rem.take n) [] w1 w2 (by omega)
  change match (l.p.dec.readSection f.s (f.rem.take n) (decide (f.rem.length ≤ n))).2 with
    | .crash => False
    | .fail _ _ => True
    | .more d' s' => d' = l.p.dec ∧ SWF s' ∧ Idle s' 
    | .final d' _ => d'.ctx = l.p.dec.ctx ∧ decide (f.rem.length ≤ n) = true
    | .emit _ _ _ _ => False
    | .blocked d' s' rest => d' = l.p.dec ∧ SWF s' ∧ Idle s' ∧ l.p.dec.ctx.next < s'.ricnt ∧ rest.length ≤ (f.rem.take n).length ∧ s'.state = .blocked at hsafe
  have hconc := readSection_conc h.pair.wf.ctx h.pair.bad f.s (f.rem.take n) (decide (f.rem.length ≤ n)) w1 w2
  obtain ⟨_, hsid⟩ := readSection_id h.pair.wf.ctx (decide (f.rem.length ≤ n)) f.s (f.rem.take n) w1 w2
  have hmore : decide (f.rem.length ≤ n) = true → ∀ d' s', (l.p.dec.readSection f.s (f.rem.take n) (decide (f.rem.length ≤ n))).2 ≠ .more d' s' := by
    intro g d' s'
    rw [g]; exact readSection_notMore h.pair.wf.ctx f.s _ w1 w2 d' s'
  have hlt := (List.getElem?_eq_some_iff.1 k1).1
  have hl' : l' = { l with p := p', pend := l.pend ++ ackDue l.p p' k } := by
    unfold Loop.step LRes.of at h1
    dsimp only at h1
    rw [e1] at h1
    cases h1; rfl
  have hdb : ∀ f' : Fly, p'.flies = l.p.flies.set k f' → f'.sec = f.sec → p'.sys = l.p.sys ∧ p'.dec.ctx = l.p.dec.ctx ∧
      ∀ p : Nat → Bool, p id = true → bud p l' ≤ bud p l := by
    intro f' hs' hsec
    have hbs := set_split k1 f'
    have hsum : ∀ p, toAck p (l.p.flies.set k f') = toAck p (l.p.flies.take k) + ((if p f'.sec.id ∧ f'.done = false ∧ f'.sec.ricnt ≠ 0 then ackLen f'.sec.id else 0) + toAck p (l.p.flies.drop (k + 1))) ∧
        toAck p l.p.flies = toAck p (l.p.flies.take k) + ((if p f.sec.id ∧ f.done = false ∧ f.sec.ricnt ≠ 0 then ackLen f.sec.id else 0) + toAck p (l.p.flies.drop (k + 1))) := by
      intro p
      constructor
      · rw [hbs.2, toAck_append, toAck_cons]
      · conv_lhs => rw [hbs.1]
        rw [toAck_append, toAck_cons]
    rcases e3 with rfl | ⟨g, g', g1, g2, g3, g4, g5, g6, g7⟩
    · refine ⟨rfl, rfl, fun p hp => ?_⟩
      rw [hl']; exact Nat.le_refl _
    · rw [k1] at g1
      cases g1
      have hgg : g' = f' := by
        have a1 : p'.flies[k]? = some g' := by rw [g5]; exact List.getElem?_set_self hlt
        have a2 : p'.flies[k]? = some f' := by rw [hs']; exact List.getElem?_set_self hlt
        rw [a1] at a2; exact Option.some.inj a2
      subst hgg
      refine ⟨g3, g4, fun p hp => ?_⟩
      obtain ⟨s1, s2⟩ := hsum p
      unfold bud
      rw [hl']
      dsimp only
      rw [hs', s1, s2, hsec, k2, hp, k3]
      rcases g7 with ⟨g7, g8, g9⟩ | ⟨g7, g8, g9, g10, g11⟩
      · rw [g8]
        rcases g7 with g7 | g7
        · rw [g7]
        · rw [if_neg (by simp [g7]), if_neg (by simp [g7])]
      · rw [g7, g10, if_neg (by simp), if_pos ⟨rfl, rfl, g8⟩, List.length_append]
        have : (QInt.put 0x80 f.sec.id 7).length = ackLen id := by rw [k2]; rfl
        omega
  unfold Pair.step at e1
  dsimp only at e1
  rw [k1] at e1
  dsimp only at e1
  rw [if_neg (by simp [k3])] at e1
  generalize hr : l.p.dec.readSection f.s (f.rem.take n) (decide (f.rem.length ≤ n)) = r at e1 hsafe hconc hsid hmore
  obtain ⟨nvs, ro⟩ := r
  have key : ∀ f' : Fly, p'.flies = l.p.flies.set k f' → f'.sec = f.sec → p'.ech = l.p.ech → p'.dec.maxConc = l.p.dec.maxConc →
      Eff id l l' ∧ (∃ E0 m, FlyOk H p'.sys.e.ctx p'.dec.ctx.next f' E0 m) ∧ undone id l'.p.flies = if f'.done then t else f' :: t := by
    intro f' a1 a2 a3 a4
    obtain ⟨b1, b2, b3⟩ := hdb f' a1 a2
    obtain ⟨c1, c2⟩ := k5 f' a2
    have hfl : l'.p.flies = l.p.flies.set k f' := by rw [hl']; exact a1
    refine ⟨⟨by rw [hl']; exact b1, by rw [hl']; exact a3, by rw [hl'], by rw [hl'], by rw [hl']; exact b2, by rw [hl']; exact a4,
      fun j hj => by rw [hfl]; exact c2 j hj, ?_, b3⟩, ?_, by rw [hfl]; exact c1⟩
    · intro g hg
      rw [hfl, c1] at hg
      rw [hu]
      cases hd : f'.done <;> rw [hd] at hg
      · rcases List.mem_cons.1 hg with rfl | hg
        · exact ⟨f, by simp, a2.symm⟩
        · exact ⟨g, by simp [show g ∈ t from hg], rfl⟩
      · exact ⟨g, by simp [show g ∈ t from hg], rfl⟩
    · exact e2.flies f' (by rw [a1]; exact List.mem_set hlt _)
  refine ⟨l', nvs, ro, rfl, h2, ?_⟩
  rcases ro with _ | ⟨d', e⟩ | ⟨d', s'⟩ | ⟨d', s'⟩ | ⟨d', s', nv, rest⟩ | ⟨d', s', rest⟩ <;> dsimp only at e1 hsafe hconc hsid hmore
  · cases e1
  · cases e1
    obtain ⟨x1, ⟨E1, m1, x2⟩, x3⟩ := key _ rfl rfl rfl (by dsimp only; rw [hsafe.1])
    obtain ⟨r, hr⟩ := secAt_prefix (x2.pos k3)
    have hd' : ({ f with rem := f.rem.drop n, s := s', got := f.got ++ nvs } : Fly).done = false := k3
    have x3 := x3.trans (if_neg (by rw [hd']; simp))
    refine ⟨x1, ⟨r, hr⟩, by rw [hl'], ?_, x3⟩
    by_contra hn
    exact hmore (by simp; omega) _ _ rfl
  · cases e1
    obtain ⟨x1, ⟨E1, m1, x2⟩, x3⟩ := key _ rfl rfl rfl hconc
    have := (x2.fin rfl).1
    dsimp only at this
    refine ⟨x1, ⟨[], by rw [List.append_nil]; exact this⟩, by rw [hl'], by simpa using hsafe.2, hsid.trans hid, this, x3⟩
  · cases e1
    obtain ⟨x1, ⟨E1, m1, x2⟩, x3⟩ := key _ rfl rfl rfl (by dsimp only; rw [hsafe.1])
    obtain ⟨y1, y2, y3⟩ := secAt_blocked (x2.pos k3) hsafe.2.2.2.2.2
    dsimp only at y1 y2 y3
    obtain ⟨r, hr⟩ := secAt_prefix (x2.pos k3)
    have hd' : ({ f with rem := rest ++ f.rem.drop n, s := s', got := f.got ++ nvs } : Fly).done = false := k3
    have x3 := x3.trans (if_neg (by rw [hd']; simp))
    refine ⟨x1, ⟨r, hr⟩, by rw [hl'], ?_, ?_, hsafe.2.2.2.2.2, y3, ?_, hsafe.2.2.2.2.1, x3⟩
    · exact (List.append_eq_nil_iff.1 y1).2
    · rw [y2]; exact reps_ne hfo (x2.blk hsafe.2.2.2.2.2)
    · rw [← y3]; exact hsafe.2.2.2.1

/-! ### positions -/

/-- a stream of the receiver on which nothing has arrived -/
def base (c : Cfg) (e : Bool) : Str := { Str.new c with eof := e }

/-- the frames `R` are still to come, from message state `m` on -/
structure Rest (c : Cfg) (m : Msg) (R : List PF) (und : List Fly) (U : Bidi.Bytes) (cbs : List Cb) (body : Bidi.Bytes) (mend : Msg) : Prop where
  fresh : ∀ f ∈ und, Fresh c.id f
  ok : ∀ f ∈ R, f.Ok
  hk : HOk .frameType m.h
  und : und = R.filterMap PF.fly
  bytes : U = R.flatMap PF.bytes
  run : onFrames c.pp (c.server && c.ext) m (R.map PF.frm) = (cbs, .ok mend)
  body : body = R.flatMap PF.body

/-- the receiver of a stream is in state `s`; what comes: sections `und`, bytes `U`, callbacks `cbs`, body `body`, final state `mend` -/
inductive Pos (c : Cfg) (e : Bool) (mend : Msg) : List Fly → Str → Bidi.Bytes → List Cb → Bidi.Bytes → Prop
  | hdr {m R p s und U cbs body} (ha : HdrAt (base c e) m p s) (hr : Rest c m R und (p ++ U) cbs body mend) (hp : ∀ f R', R = f :: R' → p.length < f.hd.length) :
      Pos c e mend und s U cbs body
  | dat {b h http http' h' R und U cbs body} (hb : b ≠ []) (hk : HOk .data h) (hd : onDataChunk http b.length = some http') (ht : transit h http' .dataEnd = .ok h')
      (hr : Rest c ⟨h', http'⟩ R und U cbs body mend) :
      Pos c e mend und { base c e with rst := .data, rv := {}, ftype := 0, left := b.length, h := h, http := http } (b ++ U) (List.replicate b.length (.data 1) ++ cbs) (b ++ body)
  | sec {f : Fly} {nvs h http http' h' R und U cbs body} (hid : f.s.streamId = c.id) (hrem : f.rem ≠ []) (hk : HOk .headers h) (hn : f.got ++ nvs = f.sec.nvs.map Nv.toQNv)
      (hf : (runFields c.pp (isRequest h) (isTrailers h) (c.server && c.ext) http (nvs.map QNv.field)).2.bind (endSection h) = some http')
      (ht : transit h http' .headersEnd = .ok h') (hr : Rest c ⟨h', http'⟩ R und U cbs body mend) :
      Pos c e mend (f :: und) { base c e with rst := .headers, rv := {}, ftype := 1, left := f.rem.length, h := h, http := http, sc := f.s } (f.rem ++ U)
        ((runFields c.pp (isRequest h) (isTrailers h) (c.server && c.ext) http (nvs.map QNv.field)).1.map (if isTrailers h then Cb.trailer else Cb.header) ++
          (if isTrailers h then Cb.endTrailers else Cb.endHeaders) :: cbs) body

theorem base_inv (c : Cfg) (e : Bool) {d : Dec} (hc : CtxOk d.ctx) {m : Msg} (hk : HOk .frameType m.h) : Inv ((base c e).at m) d :=
  ⟨hc, SWF.init _, (fun g => by cases g), rvOk_idle, hk, fun g => by cases g⟩

theorem Pos.flags {c : Cfg} {e : Bool} {mend : Msg} {und : List Fly} {s : Str} {U : Bidi.Bytes} {cbs : List Cb} {body : Bidi.Bytes} (h : Pos c e mend und s U cbs body) :
    s.blocked = false ∧ s.shutRd = false ∧ s.eof = e ∧ s.closed = false ∧ s.inq = [] ∧ s.rst ≠ .ignRest := by
  cases h with
  | hdr ha hr hp => cases ha <;> exact ⟨rfl, rfl, rfl, rfl, rfl, by simp [Str.at]⟩
  | dat => exact ⟨rfl, rfl, rfl, rfl, rfl, by simp⟩
  | sec => exact ⟨rfl, rfl, rfl, rfl, rfl, by simp⟩

theorem Pos.eof {c : Cfg} {e : Bool} {mend : Msg} {und : List Fly} {s : Str} {U : Bidi.Bytes} {cbs : List Cb} {body : Bidi.Bytes} (h : Pos c e mend und s U cbs body) (e' : Bool) :
    Pos c e' mend und { s with eof := e' } U cbs body := by
  cases h with
  | hdr ha hr hp => exact .hdr (ha.eof e') hr hp
  | dat hb hk hd ht hr => exact .dat hb hk hd ht hr
  | sec hid hrem hk hn hf ht hr => exact .sec hid hrem hk hn hf ht hr

/-- nothing more is on its way -/
theorem Pos.idle {c : Cfg} {e : Bool} {mend : Msg} {und : List Fly} {s : Str} {cbs : List Cb} {body : Bidi.Bytes} (h : Pos c e mend und s [] cbs body) :
    s = (base c e).at mend ∧ cbs = [] ∧ body = [] ∧ und = [] := by
  generalize hU : ([] : Bidi.Bytes) = U at h
  cases h with
  | @hdr m R p s und U cbs body ha hr hp =>
    subst hU
    rcases R with _ | ⟨f, R⟩
    · have hb := hr.bytes
      rw [List.append_nil] at hb
      have hp0 : p = [] := hb
      have := hr.run
      simp only [List.map_nil, onFrames, Prod.mk.injEq, MRes.ok.injEq] at this
      refine ⟨?_, this.1.symm, hr.body, hr.und⟩
      rw [← this.2]
      subst hp0
      generalize hq : ([] : Bidi.Bytes) = q at ha
      cases ha with
      | type p rv h =>
        rcases h with ⟨_, rfl⟩ | ⟨h, _⟩
        · rfl
        · exact absurd hq.symm h
      | len ty t p rv ht h => 
        exfalso
        have := isVarint_pos ht
        have := congrArg List.length hq
        simp only [List.length_nil, List.length_append] at this
        omega
    · exfalso
      have := hp f R rfl
      have hb := hr.bytes
      rw [List.append_nil, List.flatMap_cons, PF.bytes_eq] at hb
      have := congrArg List.length hb
      simp only [List.length_append] at this
      omega
  | dat hb => exact absurd (List.append_eq_nil_iff.1 hU.symm).1 hb
  | sec hid hrem => exact absurd (List.append_eq_nil_iff.1 hU.symm).1 hrem

theorem Rest.append {c : Cfg} {m : Msg} {R : List PF} {und : List Fly} {U : Bidi.Bytes} {cbs : List Cb} {body : Bidi.Bytes} {mend : Msg} (h : Rest c m R und U cbs body mend)
    {g : PF} (hg : g.Ok) (hf : ∀ f, g.fly = some f → Fresh c.id f) {cb : List Cb} {mend' : Msg} (hm : onFrame c.pp (c.server && c.ext) mend g.frm = (cb, .ok mend')) :
    Rest c m (R ++ [g]) (und ++ g.fly.toList) (U ++ g.bytes) (cbs ++ cb) (body ++ g.body) mend' := by
  refine ⟨?_, ?_, h.hk, ?_, ?_, ?_, ?_⟩
  · intro f hm
    rcases List.mem_append.1 hm with hm | hm
    · exact h.fresh f hm
    · exact hf f (by simpa using hm)
  · intro f hm
    rcases List.mem_append.1 hm with hm | hm
    · exact h.ok f hm
    · rw [List.mem_singleton] at hm; rw [hm]; exact hg
  · rw [List.filterMap_append, h.und]
    cases g <;> rfl
  · rw [List.flatMap_append, h.bytes]; simp
  · rw [List.map_append, onFrames_append, h.run]
    dsimp only [List.map]
    rw [onFrames, hm]
    dsimp only
    rw [onFrames]
    simp
  · rw [List.flatMap_append, h.body]; simp

theorem PF.hd_pos (g : PF) : 0 < g.hd.length := by
  unfold PF.hd frameWriteHd
  rw [List.length_append]
  have := isVarint_pos (Props.C01_varint_round_trip g.ty (by cases g <;> simp [PF.ty])).1
  omega

/-- the sender sends another frame -/
theorem Pos.append {c : Cfg} {e : Bool} {mend : Msg} {und : List Fly} {s : Str} {U : Bidi.Bytes} {cbs : List Cb} {body : Bidi.Bytes} (h : Pos c e mend und s U cbs body)
    {g : PF} (hg : g.Ok) (hf : ∀ f, g.fly = some f → Fresh c.id f) {cb : List Cb} {mend' : Msg} (hm : onFrame c.pp (c.server && c.ext) mend g.frm = (cb, .ok mend')) :
    Pos c e mend' (und ++ g.fly.toList) s (U ++ g.bytes) (cbs ++ cb) (body ++ g.body) := by
  cases h with
  | @hdr m R p s und U cbs body ha hr hp =>
    have := hr.append hg hf hm
    rw [List.append_assoc] at this
    refine .hdr ha this ?_
    intro f R' hR
    rcases R with _ | ⟨f0, R0⟩
    · rw [List.nil_append] at hR
      have hp0 : p = [] := (List.append_eq_nil_iff.1 hr.bytes).1
      rw [hp0]; exact f.hd_pos
    · rw [List.cons_append] at hR
      exact hp f R0 (by rw [(List.cons.inj hR).1])
  | dat hb hk hd ht hr =>
    rw [List.append_assoc, List.append_assoc, List.append_assoc]
    exact .dat hb hk hd ht (hr.append hg hf hm)
  | sec hid hrem hk hn hf' ht hr =>
    rw [List.append_assoc, List.append_assoc, List.cons_append, List.cons_append]
    exact .sec hid hrem hk hn hf' ht (hr.append hg hf hm)

end Net
end Nghttp3
