import Verif.Lemmas.QpackTransit
import Verif.Props.QpackEnc
/-! An encoder and a decoder connected by an encoder stream and by request streams. -/
namespace Nghttp3
namespace Qpack

/-- a field section on its way: what the encoder produced, the bytes the decoder has not read yet, the decoder's stream context
and the field lines handed out so far -/
structure Fly where
  sec : Sec
  rem : Bytes
  s : SCtx
  got : List QNv := []
  done : Bool := false

/-- an encoder, a decoder, the bytes of the encoder stream in transit and all field sections produced so far -/
structure Pair where
  sys : ESys
  dec : Dec
  ech : Bytes := []
  flies : List Fly := []

/-- a new encoder with table limit `H` and a new decoder with table limit `Hd` -/
def Pair.init (H Hd maxBlocked : Nat) : Pair := { sys := ESys.init H, dec := Dec.init Hd maxBlocked }

inductive PairOp where
  /-- anything that happens to the encoder; what `encode` writes is put on the streams -/
  | enc (o : EncOp)
  /-- the decoder receives the next `n` bytes of the encoder stream -/
  | readEnc (n : Nat)
  /-- the decoder receives the next `n` bytes of the `k`th field section -/
  | readSec (k n : Nat)
  /-- the decoder's instructions are written to the decoder stream -/
  | flush
  /-- nghttp3_qpack_decoder_cancel_stream -/
  | cancel (id : Nat)

inductive PRes where
  | crash
  /-- the decoder reports an error -/
  | fail
  /-- the encoder refuses a decoder instruction -/
  | refused
  | ok (p : Pair)

def Pair.step (p : Pair) : PairOp → PRes
  | .enc (.encode id nvs) =>
    match p.sys.e.encode id nvs, p.sys.step (.encode id nvs) with
    | some o, .ok s => .ok { p with
        sys := s
        ech := p.ech ++ o.ebuf
        flies := p.flies ++ [{ sec := ⟨id, o.ricnt, o.base, o.reps, nvs⟩, rem := o.section, s := SCtx.init id }] }
    | _, _ => .crash
  | .enc o =>
    match p.sys.step o with
    | .crash => .crash
    | .fail => .refused
    | .ok s => .ok { p with sys := s }
  | .readEnc n =>
    match p.dec.readEncoder (p.ech.take n) with
    | .crash => .crash
    | .fail _ _ => .fail
    | .ok d => .ok { p with dec := d, ech := p.ech.drop n }
  | .readSec k n =>
    match p.flies[k]? with
    | none => .ok p
    | some f =>
      if f.done then .ok p
      else
        let r := p.dec.readSection f.s (f.rem.take n) (decide (f.rem.length ≤ n))
        match r.2 with
        | .crash => .crash
        | .fail _ _ => .fail
        | .emit _ _ _ _ => .crash
        | .more d s => .ok { p with dec := d, flies := p.flies.set k { f with rem := f.rem.drop n, s := s, got := f.got ++ r.1 } }
        | .final d s => .ok { p with dec := d, flies := p.flies.set k { f with rem := f.rem.drop n, s := s, got := f.got ++ r.1, done := true } }
        | .blocked d s rest => .ok { p with dec := d, flies := p.flies.set k { f with rem := rest ++ f.rem.drop n, s := s, got := f.got ++ r.1 } }
  | .flush => .ok { p with dec := p.dec.writeDecoder.1 }
  | .cancel id =>
    match p.dec.cancelStream id with
    | none => .fail
    | some d => .ok { p with dec := d }

/-- within the limits of the implementation and the protocol -/
def Pair.admits (H : Nat) (p : Pair) : PairOp → Prop
  | .enc (.encode id nvs) => (∀ nv ∈ nvs, NvFits nv) ∧ ∀ o, p.sys.e.encode id nvs = some o → o.e.ctx.next ≤ QInt.INT_MAX
  | .enc _ => True
  | .readEnc n => p.dec.uninterrupted + n ≤ 128 * 1024
  | .readSec k _ => ∀ f, p.flies[k]? = some f → f.done = false →
      (f.sec.ricnt = 0 ∨ f.sec ∈ p.sys.secs) ∧ f.sec.ricnt ≤ p.dec.ctx.next + H / 32 ∧ p.dec.dbufOverflow = false ∧ p.dec.ctx.hardMax / 32 = H / 32
  | .flush => True
  | .cancel _ => p.dec.dbufOverflow = false

/-! ### Invariant -/

structure FlyOk (H : Nat) (E : Ctx) (dnext : Nat) (f : Fly) (E0 : Ctx) (m : Nat) : Prop where
  ctx : CtxB E0
  sp : spaces E0.ents ≤ H
  ric : f.sec.ricnt ≤ E0.next
  ext : Ext E0 E
  refs : ∀ rep ∈ f.sec.reps, ∀ a ∈ rep.refs, m ≤ a ∧ a < f.sec.ricnt
  den : List.Forall₂ (fun rep nv => rep.denotes E0 nv) f.sec.reps f.sec.nvs
  low : f.sec.ricnt ≠ 0 → ∃ rep ∈ f.sec.reps, m ∈ rep.refs
  fits : ∀ rep ∈ f.sec.reps, rep.fits f.sec.base
  delta : deltaBase f.sec.ricnt f.sec.base ≤ QInt.INT_MAX
  pos : f.done = false → SecAt (E0.slice H m f.sec.ricnt) H f.sec.id f.sec.ricnt f.sec.base (f.sec.reps.flatMap (Rep.bytes f.sec.base))
    (f.sec.nvs.map Nv.toQNv) f.s f.got f.rem
  post : f.s.Post → f.sec.ricnt ≤ dnext
  blk : f.s.state = .blocked → f.sec.ricnt ≠ 0
  fin : f.done = true → f.got = f.sec.nvs.map Nv.toQNv ∧ f.rem = [] ∧ f.sec.ricnt ≤ dnext

structure PairOk (H Hd : Nat) (p : Pair) : Prop where
  sys : ESysOk p.sys
  hard : p.sys.e.ctx.hardMax = H
  wf : DecWF p.dec
  bad : p.dec.ctx.bad = false
  dhard : p.dec.ctx.hardMax = Hd
  trans : ∃ D, esRun p.dec p.ech false = .ok D ∧ Sim p.sys.e.ctx D.ctx ∧ (p.sys.e.pending = false → D.ctx.maxCap = p.sys.e.ctx.maxCap) ∧ D.state = .opcode
  flies : ∀ f ∈ p.flies, ∃ E0 m, FlyOk H p.sys.e.ctx p.dec.ctx.next f E0 m

theorem FlyOk.mono {H : Nat} {E E' : Ctx} {n n' : Nat} {f : Fly} {E0 : Ctx} {m : Nat} (h : FlyOk H E n f E0 m) (hx : Ext E E') (hn : n ≤ n') : FlyOk H E' n' f E0 m :=
  { h with ext := h.ext.trans hx, post := fun hp => Nat.le_trans (h.post hp) hn, fin := fun hf => ⟨(h.fin hf).1, (h.fin hf).2.1, Nat.le_trans (h.fin hf).2.2 hn⟩ }

theorem FlyOk.decodes {H : Nat} {E : Ctx} {n : Nat} {f : Fly} {E0 : Ctx} {m : Nat} (h : FlyOk H E n f E0 m) :
    CtxOk (E0.slice H m f.sec.ricnt) ∧ Decodes (E0.slice H m f.sec.ricnt) f.sec.id f.sec.ricnt f.sec.base (f.sec.reps.flatMap (Rep.bytes f.sec.base)) (f.sec.nvs.map Nv.toQNv) := by
  have hc := slice_ok h.ctx (H := H) (m := m) (R := f.sec.ricnt) h.sp h.ric
  refine ⟨hc, ?_⟩
  intro s hw hs hR hb hid
  have hden : List.Forall₂ (fun rep nv => rep.denotes (E0.slice H m f.sec.ricnt) nv) f.sec.reps f.sec.nvs := by
    have hd := h.den
    have hr := h.refs
    revert hr
    generalize f.sec.reps = reps at hd ⊢
    generalize f.sec.nvs = nvs at hd ⊢
    intro hr
    induction hd with
    | nil => exact .nil
    | cons h1 _ ih =>
      exact .cons (Rep.denotes_slice h.ric (hr _ (List.mem_cons_self ..)) h1) (ih fun rep hm => hr rep (List.mem_cons_of_mem _ hm))
  obtain ⟨s', g1, g2⟩ := rs_reps hc hden hw hs (fun rep hm a ha => by rw [hR]; exact (h.refs rep hm a ha).2) (fun rep hm => by rw [hb]; exact h.fits rep hm) []
  rw [hb, List.nil_append] at g2
  exact ⟨s', g2, g1.state, g1.ricnt.trans hR, g1.id.trans hid⟩

theorem Sim.oldest {E D : Ctx} (h : Sim E D) : D.oldest ≤ E.oldest := by
  have := h.len
  have := h.next
  unfold Ctx.oldest; omega

/-- what is needed to decode an outstanding section -/
theorem fly_cov {H Hd : Nat} {p : Pair} (h : PairOk H Hd p) {f : Fly} {E0 : Ctx} {m : Nat} (hf : FlyOk H p.sys.e.ctx p.dec.ctx.next f E0 m)
    (ho : f.sec.ricnt = 0 ∨ f.sec ∈ p.sys.secs) :
    (f.sec.ricnt ≤ p.dec.ctx.next → Cov (E0.slice H m f.sec.ricnt) p.dec.ctx) ∧
    (f.sec.ricnt ≠ 0 → p.dec.ctx.next < f.sec.ricnt + H / 32) := by
  obtain ⟨D, h1, h2, _, _⟩ := h.trans
  obtain ⟨x1, _, _, x4, _⟩ := esRun_ctx h.wf (by simp) h1
  have hE := h.sys.inv.ctx
  have hlow : f.sec.ricnt ≠ 0 → p.sys.e.ctx.oldest ≤ m ∧ m < f.sec.ricnt := by
    intro h0
    rcases ho with ho | ho
    · exact absurd ho h0
    obtain ⟨rep, hm, hr⟩ := hf.low h0
    obtain ⟨_, hs, _⟩ := sec_ok h.sys ho
    obtain ⟨nv, _, hd⟩ : ∃ nv ∈ f.sec.nvs, rep.denotes p.sys.e.ctx nv := by
      have := hs.den
      generalize f.sec.nvs = nvs at this
      generalize f.sec.reps = reps at this hm
      induction this with
      | nil => simp at hm
      | cons hab _ ih =>
        rcases List.mem_cons.1 hm with rfl | hm
        · exact ⟨_, List.mem_cons_self .., hab⟩
        · obtain ⟨nv, g1, g2⟩ := ih hm
          exact ⟨nv, List.mem_cons_of_mem _ g1, g2⟩
    refine ⟨?_, (hf.refs rep hm m hr).2⟩
    cases rep with
    | static => simp [Rep.refs] at hr
    | nameStatic => simp [Rep.refs] at hr
    | lit => simp [Rep.refs] at hr
    | dyn a =>
      simp only [Rep.refs, List.mem_singleton] at hr
      subst hr
      obtain ⟨_, x, hg, _⟩ := hd
      exact (hE.get_range hg).1
    | nameDyn a v n =>
      simp only [Rep.refs, List.mem_singleton] at hr
      subst hr
      obtain ⟨_, _, x, hg, _⟩ := hd
      exact (hE.get_range hg).1
  have hDn : p.dec.ctx.next ≤ p.sys.e.ctx.next := by rw [← h2.next]; exact x1.next
  refine ⟨fun hn => ⟨hn, ?_⟩, fun h0 => ?_⟩
  · intro a x hg
    obtain ⟨g1, g2, g3⟩ := slice_get_some hf.ric hg
    obtain ⟨l1, l2⟩ := hlow (by omega)
    have hEg : p.sys.e.ctx.get a = some x := by
      rw [hf.ext.same a (by omega) (by have := hf.ric; omega)]; exact g3
    obtain ⟨y, k1, k2, k3, k4, _⟩ := h2.get hE x4.ctx.toCtxB hEg
    refine ⟨y, ?_, k2, k3, k4⟩
    rw [← x1.same a (by have := h2.oldest; omega) (by omega)]; exact k1
  · obtain ⟨l1, l2⟩ := hlow h0
    have hlen : p.sys.e.ctx.ents.length ≤ H / 32 := by
      have q1 := length_le_spaces p.sys.e.ctx.ents
      have q2 := hE.size
      have q3 := h.sys.inv.hsz
      have q4 := h.hard
      omega
    unfold Ctx.oldest at l1
    omega

/-- reading a piece of a section -/
theorem fly_adv {H Hd : Nat} {p : Pair} (h : PairOk H Hd p) {f : Fly} {E0 : Ctx} {m : Nat} (hf : FlyOk H p.sys.e.ctx p.dec.ctx.next f E0 m) (hnd : f.done = false)
    (ho : f.sec.ricnt = 0 ∨ f.sec ∈ p.sys.secs) (hwin : f.sec.ricnt ≤ p.dec.ctx.next + H / 32) (hEq : p.dec.ctx.hardMax / 32 = H / 32) (n : Nat) :
    Adv (E0.slice H m f.sec.ricnt) H f.sec.id f.sec.ricnt f.sec.base (f.sec.reps.flatMap (Rep.bytes f.sec.base)) (f.sec.nvs.map Nv.toQNv) p.dec.ctx f.s f.got
      (f.rem.take n) (f.rem.drop n) := by
  obtain ⟨c1, c2⟩ := fly_cov h hf ho
  obtain ⟨d1, d2⟩ := hf.decodes
  refine SecAt.adv h.wf.ctx d1 c1 d2 hf.delta ?_ (by rw [List.take_append_drop]; exact hf.pos hnd) ?_ hf.post hf.blk
  · intro h0 he
    obtain ⟨rep, hm, hr⟩ := hf.low h0
    have : (rep.bytes f.sec.base) = [] := by
      have := List.flatMap_eq_nil_iff.1 he rep hm
      exact this
    cases rep with
    | static => simp [Rep.refs] at hr
    | nameStatic => simp [Rep.refs] at hr
    | lit => simp [Rep.refs] at hr
    | dyn a =>
      unfold Rep.bytes at this
      dsimp only at this
      split_ifs at this
      · obtain ⟨b, t, e, _⟩ := QInt.put_cons 0x80 (f.sec.base - a - 1) (pfx := 6) (by omega)
        rw [e] at this; cases this
      · obtain ⟨b, t, e, _⟩ := QInt.put_cons 0x10 (a - f.sec.base) (pfx := 4) (by omega)
        rw [e] at this; cases this
    | nameDyn a v nev =>
      unfold Rep.bytes at this
      dsimp only at this
      by_cases hb : a < f.sec.base
      · rw [if_pos hb] at this
        obtain ⟨b, t, e, _⟩ := QInt.put_cons (0x40 ||| if nev then 0x20 else 0) (f.sec.base - a - 1) (pfx := 4) (by omega)
        unfold indexedNameBytes at this
        rw [e] at this; cases this
      · rw [if_neg hb] at this
        obtain ⟨b, t, e, _⟩ := QInt.put_cons (if nev then 0x08 else 0) (a - f.sec.base) (pfx := 3) (by omega)
        unfold indexedNameBytes at this
        rw [e] at this; cases this
  · intro _
    unfold encRic
    by_cases h0 : f.sec.ricnt = 0
    · rw [if_pos h0, h0]; rfl
    · rw [if_neg h0]
      have := c2 h0
      rw [← hEq] at this hwin ⊢
      exact reconstruct_exact h0 hwin this

theorem ok_pre {c : Ctx} {s s' : SCtx} {a acc' : List QNv} {x : Bytes} (h : rsRun c (s, a) x false = .ok (s', acc')) :
    ∃ l, rsRun c (s, []) x false = .ok (s', l) ∧ acc' = a ++ l := by
  rw [rsRun_pre] at h
  rcases hr : rsRun c (s, []) x false with _ | o | ⟨o, r⟩ | ⟨s1, l⟩ <;> rw [hr] at h
  · cases h
  · cases h
  · cases h
  · cases h; exact ⟨l, rfl, rfl⟩

theorem same_dec {H Hd : Nat} {p : Pair} (h : PairOk H Hd p) {d : Dec} (hc : d.ctx = p.dec.ctx) (h1 : d.state = p.dec.state) (h2 : d.op = p.dec.op) (h3 : d.rs = p.dec.rs) {flies : List Fly}
    (hfl : ∀ f ∈ flies, ∃ E0 m, FlyOk H p.sys.e.ctx p.dec.ctx.next f E0 m) : PairOk H Hd { p with dec := d, flies := flies } := by
  obtain ⟨D, g1, g2, g3, g4⟩ := h.trans
  have hd : d = p.dec.withOut d := by
    obtain ⟨a1, a2, a3, a4, a5, a6, a7, a8⟩ := d
    dsimp only at hc h1 h2 h3
    subst hc h1 h2 h3
    rfl
  refine ⟨h.sys, h.hard, h.wf.same hc h1 h2 h3, by dsimp only; rw [hc]; exact h.bad, by dsimp only; rw [hc]; exact h.dhard, ?_, by dsimp only; rw [hc]; exact hfl⟩
  refine ⟨D.withOut d, ?_, g2, g3, g4⟩
  dsimp only
  rw [hd]; exact esRun_withOut _ g1

/-- what reading a piece of section `k` changes -/
def ReadEff (p : Pair) (k : Nat) (p' : Pair) : Prop :=
  p' = p ∨ ∃ f f', p.flies[k]? = some f ∧ f.done = false ∧ p'.sys = p.sys ∧ p'.dec.ctx = p.dec.ctx ∧ p'.flies = p.flies.set k f' ∧ f'.sec = f.sec ∧
    (((f'.done = false ∨ f.sec.ricnt = 0) ∧ p'.dec.dbuf = p.dec.dbuf ∧ p'.dec.writtenIcnt = p.dec.writtenIcnt) ∨
      (f'.done = true ∧ f.sec.ricnt ≠ 0 ∧ f.sec.ricnt ≤ p.dec.ctx.next ∧ p'.dec.dbuf = p.dec.dbuf ++ QInt.put 0x80 f.sec.id 7 ∧ p'.dec.writtenIcnt = max p.dec.writtenIcnt f.sec.ricnt))

theorem pair_readSec_eff {H Hd : Nat} {p : Pair} (h : PairOk H Hd p) (k n : Nat) (ha : p.admits H (.readSec k n)) :
    ∃ p', p.step (.readSec k n) = .ok p' ∧ PairOk H Hd p' ∧ ReadEff p k p' := by
  unfold Pair.step
  dsimp only
  rcases hk : p.flies[k]? with _ | f
  · exact ⟨p, rfl, h, Or.inl rfl⟩
  dsimp only
  by_cases hnd : f.done = true
  · rw [if_pos hnd]; exact ⟨p, rfl, h, Or.inl rfl⟩
  rw [if_neg hnd]
  have hnd : f.done = false := by simpa using hnd
  obtain ⟨a1, a2, a3, a4⟩ := ha f hk hnd
  obtain ⟨E0, m, hf⟩ := h.flies f (List.mem_of_getElem? hk)
  obtain ⟨w1, w2⟩ := (hf.pos hnd).wf
  rw [readSection_run h.wf.ctx h.bad f.s _ _ w1 w2]
  have hset : ∀ f', (∃ E0 m, FlyOk H p.sys.e.ctx p.dec.ctx.next f' E0 m) → ∀ g ∈ p.flies.set k f', ∃ E0 m, FlyOk H p.sys.e.ctx p.dec.ctx.next g E0 m := by
    intro f' hf' g hg
    rcases List.mem_or_eq_of_mem_set hg with hg | rfl
    · exact h.flies g hg
    · exact hf'
  rcases fly_adv h hf hnd a1 a2 a4 n with ⟨s', acc', r1, r2, r3⟩ | ⟨s', rest, r1, r2, r3, r4, r5⟩
  · obtain ⟨l, q1, rfl⟩ := ok_pre r1
    rw [q1]
    dsimp only [secOut]
    obtain ⟨r3, r6, r7⟩ := r3
    unfold almostOk
    by_cases hfin : f.rem.length ≤ n
    · have hy : f.rem.drop n = [] := List.drop_eq_nil_of_le hfin
      obtain ⟨t1, t2, t3, t4⟩ := r3 hy
      have hfly : ∃ E0 m, FlyOk H p.sys.e.ctx p.dec.ctx.next { f with rem := f.rem.drop n, s := s', got := f.got ++ l, done := true } E0 m :=
        ⟨E0, m, { hf with pos := (fun h => by cases h), post := r6, blk := r7, fin := fun _ => ⟨t4, hy, r6 (Or.inl t1)⟩ }⟩
      rw [if_pos (by simpa using hfin), if_neg (by simp [t1])]
      by_cases h0 : s'.ricnt = 0
      · rw [if_neg (by simp [h0])]
        dsimp only
        exact ⟨_, rfl, same_dec h (d := { p.dec with uninterrupted := 0 }) rfl rfl rfl rfl (hset _ hfly),
          Or.inr ⟨f, _, hk, hnd, rfl, rfl, rfl, rfl, Or.inl ⟨Or.inr (t2.symm.trans h0), rfl, rfl⟩⟩⟩
      · rw [if_pos h0]
        unfold Dec.writeSectionAck
        rw [a3, if_neg (by simp)]
        dsimp only
        refine ⟨_, rfl, ?_, ?_⟩
        · refine same_dec h ?_ ?_ ?_ ?_ (hset _ hfly) <;> rfl
        · refine Or.inr ⟨f, _, hk, hnd, rfl, rfl, rfl, rfl, Or.inr ⟨rfl, by rw [← t2]; exact h0, r6 (Or.inl t1), by dsimp only; rw [t3], ?_⟩⟩
          dsimp only
          rw [t2]
          split_ifs <;> omega
    · rw [if_neg (by simpa using hfin)]
      refine ⟨_, rfl, same_dec h rfl rfl rfl rfl (hset _ ⟨E0, m, { hf with pos := fun _ => r2, post := r6, blk := r7, fin := fun hd => ?_ }⟩),
        Or.inr ⟨f, _, hk, hnd, rfl, rfl, rfl, rfl, Or.inl ⟨Or.inl hnd, rfl, rfl⟩⟩⟩
      rw [hnd] at hd; cases hd
  · have q1 : rsRun p.dec.ctx (f.s, []) (f.rem.take n) false = .stop (.blocked s' []) rest := by rw [← r2]; rw [r2] at r1 ⊢; exact r1
    rw [q1]
    dsimp only [secOut]
    refine ⟨_, rfl, same_dec h rfl rfl rfl rfl (hset _ ⟨E0, m, { hf with
      pos := fun _ => (by dsimp only; rw [r2]; exact r5)
      post := fun hp => absurd hp (not_post r4 (by simp))
      blk := fun _ => (by dsimp only; omega)
      fin := fun hd => (by rw [hnd] at hd; cases hd) }⟩), Or.inr ⟨f, _, hk, hnd, rfl, rfl, rfl, rfl, Or.inl ⟨Or.inl hnd, rfl, rfl⟩⟩⟩

theorem pair_readSec {H Hd : Nat} {p : Pair} (h : PairOk H Hd p) (k n : Nat) (ha : p.admits H (.readSec k n)) : ∃ p', p.step (.readSec k n) = .ok p' ∧ PairOk H Hd p' := by
  obtain ⟨p', h1, h2, _⟩ := pair_readSec_eff h k n ha
  exact ⟨p', h1, h2⟩

theorem min_mem (l : List Nat) (h : l ≠ []) : ∃ m ∈ l, ∀ a ∈ l, m ≤ a := by
  induction l with
  | nil => exact absurd rfl h
  | cons x t ih =>
    by_cases ht : t = []
    · subst ht
      exact ⟨x, by simp, by simp⟩
    · obtain ⟨m, h1, h2⟩ := ih ht
      by_cases hx : x ≤ m
      · refine ⟨x, by simp, ?_⟩
        intro a ha
        rcases List.mem_cons.1 ha with rfl | ha
        · omega
        · have := h2 a ha; omega
      · refine ⟨m, by simp [h1], ?_⟩
        intro a ha
        rcases List.mem_cons.1 ha with rfl | ha
        · omega
        · exact h2 a ha

theorem denotes_fits {c : Ctx} {reps : List Rep} {nvs : List Nv} (h : List.Forall₂ (fun rep nv => rep.denotes c nv) reps nvs) (hf : ∀ nv ∈ nvs, NvFits nv) {R base : Nat}
    (hr : ∀ rep ∈ reps, ∀ a ∈ rep.refs, a < R) (hR : R ≤ QInt.INT_MAX) (hb : base ≤ QInt.INT_MAX) : ∀ rep ∈ reps, rep.fits base := by
  induction h with
  | nil => simp
  | @cons rep nv l1 l2 h1 _ ih =>
    intro r hm
    rcases List.mem_cons.1 hm with rfl | hm
    · have g1 := hf nv (List.mem_cons_self ..)
      have g2 := hr r (List.mem_cons_self ..)
      cases r with
      | static => trivial
      | dyn a =>
        have := g2 a (by simp [Rep.refs])
        exact ⟨by omega, hb⟩
      | nameStatic i v n =>
        obtain ⟨rfl, _⟩ := h1
        exact g1.2
      | nameDyn a v n =>
        have := g2 a (by simp [Rep.refs])
        obtain ⟨rfl, _⟩ := h1
        exact ⟨by omega, hb, g1.2⟩
      | lit n v ne =>
        obtain ⟨rfl, rfl, _⟩ := h1
        exact g1
    · exact ih (fun nv h => hf nv (List.mem_cons_of_mem _ h)) (fun rep h => hr rep (List.mem_cons_of_mem _ h)) r hm

theorem pair_encode {H Hd : Nat} {p : Pair} (hH : H ≤ QInt.INT_MAX) (h : PairOk H Hd p) (id : Nat) (nvs : List Nv) (ha : p.admits H (.enc (.encode id nvs))) :
    ∃ p', p.step (.enc (.encode id nvs)) = .ok p' ∧ PairOk H Hd p' := by
  obtain ⟨o, s', h1, h2, h3, h4, h5, h6⟩ := esys_encode h.sys id nvs
  obtain ⟨a1, a2⟩ := ha
  have a2 := a2 o h1
  unfold Pair.step
  dsimp only
  rw [h1, h3]
  dsimp only
  obtain ⟨D, g1, g2, g3, g4⟩ := h.trans
  obtain ⟨x1, x2, x3, x4, x5⟩ := esRun_ctx h.wf (by simp) g1
  obtain ⟨D', k1, k2, k3, k4, k5, k6, k7, k8⟩ := sim_encode h2 h.sys.inv a1 g2 (by rw [h.hard]; exact hH) g3 x4 g4
  have hbase : o.base ≤ o.e.ctx.next := by rw [h2.base]; exact h2.ext.next
  refine ⟨_, rfl, h4, by rw [h5, h2.hard.1]; exact h.hard, h.wf, h.bad, h.dhard, ⟨D', esRun_then h.wf g1 k1, by dsimp only; rw [h5]; exact k2, by dsimp only; rw [h5]; exact k3, k4⟩, ?_⟩
  intro f hf
  dsimp only at hf ⊢
  rw [h5]
  rcases List.mem_append.1 hf with hf | hf
  · obtain ⟨E0, m, hfo⟩ := h.flies f hf
    exact ⟨E0, m, hfo.mono h2.ext (Nat.le_refl _)⟩
  · rw [List.mem_singleton] at hf
    subst hf
    -- the lowest reference
    obtain ⟨m, hm1, hm2⟩ : ∃ m, (∀ rep ∈ o.reps, ∀ a ∈ rep.refs, m ≤ a ∧ a < o.ricnt) ∧ (o.ricnt ≠ 0 → ∃ rep ∈ o.reps, m ∈ rep.refs) := by
      by_cases h0 : o.ricnt = 0
      · refine ⟨0, fun rep hr a ha => ⟨by omega, h2.sec.refs rep hr a ha⟩, fun h => absurd h0 h⟩
      · obtain ⟨rep, q1, a, q2, q3⟩ := h2.sec.tight h0
        obtain ⟨m, m1, m2⟩ := min_mem (o.reps.flatMap Rep.refs) (by
          intro he
          have := List.flatMap_eq_nil_iff.1 he rep q1
          rw [this] at q2; cases q2)
        obtain ⟨rep', r1, r2⟩ := List.mem_flatMap.1 m1
        exact ⟨m, fun rep hr a ha => ⟨m2 a (List.mem_flatMap.2 ⟨rep, hr, ha⟩), h2.sec.refs rep hr a ha⟩, fun _ => ⟨rep', r1, r2⟩⟩
    have hric := h2.ric
    refine ⟨o.e.ctx, m, ?_⟩
    have hpfx : o.pfx = QInt.put 0 (encRic H o.ricnt) 8 ++ baseBytes o.ricnt o.base ∧ encRic H o.ricnt ≤ QInt.INT_MAX := by
      have hp := h2.pfx
      rw [h.hard] at hp
      unfold prefixBytes at hp
      dsimp only at hp
      by_cases h0 : o.ricnt ≠ 0 ∧ H / 32 = 0
      · rw [if_pos h0] at hp; cases hp
      · rw [if_neg h0] at hp
        have hp := Option.some.inj hp
        rw [← hp]
        unfold encRic baseBytes deltaBase
        refine ⟨by by_cases hlt : o.base < o.ricnt <;> simp [hlt], ?_⟩
        split_ifs with h1
        · omega
        · have := Nat.mod_lt o.ricnt (y := 2 * (H / 32)) (by omega)
          have : 2 * (H / 32) ≤ H := by omega
          omega
    have hdelta : deltaBase o.ricnt o.base ≤ QInt.INT_MAX := by
      unfold deltaBase
      split_ifs <;> omega
    obtain ⟨sh, hri⟩ := QInt.readInt_put 0 (n := encRic H o.ricnt) (pfx := 8) (by omega) hpfx.2 []
    rw [List.append_nil] at hri
    have hR : o.ricnt ≤ QInt.INT_MAX := Nat.le_trans hric a2
    have hB : o.base ≤ QInt.INT_MAX := Nat.le_trans hbase a2
    obtain ⟨b, t, hb, _⟩ := QInt.put_cons 0 (encRic H o.ricnt) (pfx := 8) (by omega)
    have hnp : ¬ (SCtx.init id).Post := not_post (s := SCtx.init id) (st := .ricnt) rfl (by simp)
    exact
      { ctx := h2.inv.ctx
        sp := by
          have q1 := h2.inv.hsz
          rw [h2.inv.ctx.size, h2.hard.1, h.hard] at q1
          exact q1
        ric := hric
        ext := Ext.refl _
        refs := hm1
        den := h2.sec.den
        low := hm2
        fits := denotes_fits h2.sec.den a1 h2.sec.refs hR hB
        delta := hdelta
        pos := fun _ => by
          show SecAt _ H id o.ricnt o.base _ _ (SCtx.init id) [] o.section
          unfold EncOut.section
          rw [hpfx.1, List.append_assoc]
          exact .ric _ _ sh rfl rfl rfl rfl (fun _ => rfl) (by rw [hb]; simp) hri
        post := fun hp => absurd hp hnp
        blk := fun hb => (by cases hb)
        fin := fun hd => (by cases hd) }

theorem pair_other {H Hd : Nat} {p : Pair} (h : PairOk H Hd p) (o : EncOp) (hne : ∀ id nvs, o ≠ .encode id nvs) :
    p.step (.enc o) = .refused ∨ ∃ p', p.step (.enc o) = .ok p' ∧ PairOk H Hd p' := by
  have key : p.sys.step o = .fail ∨ ∃ s', p.sys.step o = .ok s' ∧ ESysOk s' ∧ s'.e.ctx.ents = p.sys.e.ctx.ents ∧ s'.e.ctx.next = p.sys.e.ctx.next ∧
      s'.e.ctx.hardMax = p.sys.e.ctx.hardMax ∧ (s'.e.pending = false → p.sys.e.pending = false ∧ s'.e.ctx.maxCap = p.sys.e.ctx.maxCap) := by
    rcases esys_step h.sys o with h1 | ⟨s', h1, h2, _⟩
    · exact Or.inl h1
    · right
      refine ⟨s', h1, h2, ?_⟩
      cases o with
      | encode id nvs => exact absurd rfl (hne id nvs)
      | setCap n =>
        cases h1
        dsimp only
        unfold Enc.setMaxCap
        dsimp only
        split_ifs
        · exact ⟨rfl, rfl, rfl, fun h => ⟨h, rfl⟩⟩
        all_goals exact ⟨rfl, rfl, rfl, fun h => (by cases h)⟩
      | setMaxBlocked n => cases h1; exact ⟨rfl, rfl, rfl, fun h => ⟨h, rfl⟩⟩
      | ackEverything => cases h1; exact ⟨rfl, rfl, rfl, fun h => ⟨h, rfl⟩⟩
      | instr op n =>
        unfold ESys.step at h1
        dsimp only at h1
        rcases hq : p.sys.e.apply op n with _ | _ | e <;> rw [hq] at h1
        · cases h1
        · cases h1
        · cases h1
          dsimp only
          cases op with
          | icnt =>
            rcases addIcnt_ok h.sys.inv n with q | ⟨e', q1, _, _, _, _, q6, _⟩
            · rw [Enc.apply, q.1] at hq; cases hq
            · rw [Enc.apply, q1] at hq; cases hq
              rw [q6]; exact ⟨rfl, rfl, rfl, fun h => ⟨h, rfl⟩⟩
          | ack =>
            rcases ackHeader_ok h.sys.inv n with ⟨_, q⟩ | ⟨r, rest, e', q0, q1, q4, q5, qf, q6, q7⟩
            · rw [Enc.apply, q] at hq; cases hq
            · rw [Enc.apply, q1] at hq; cases hq
              rw [q6]; exact ⟨rfl, rfl, rfl, fun h => ⟨h, rfl⟩⟩
          | cancel =>
            obtain ⟨e', q1, q2, qf, q6, q7⟩ := cancelStream_ok h.sys.inv n
            rw [Enc.apply, q1] at hq; cases hq
            rw [q6]; exact ⟨rfl, rfl, rfl, fun h => ⟨h, rfl⟩⟩
  have hst : p.step (.enc o) = match p.sys.step o with | .crash => .crash | .fail => .refused | .ok s => .ok { p with sys := s } := by
    cases o with
    | encode id nvs => exact absurd rfl (hne id nvs)
    | _ => rfl
  rw [hst]
  rcases key with k | ⟨s', k1, k2, k3, k4, k5, k6⟩
  · rw [k]; exact Or.inl rfl
  · rw [k1]
    right
    obtain ⟨D, g1, g2, g3, g4⟩ := h.trans
    refine ⟨_, rfl, k2, by dsimp only; rw [k5]; exact h.hard, h.wf, h.bad, h.dhard, ⟨D, g1, g2.cfg k3 k4 k5, ?_, g4⟩, ?_⟩
    · intro hp
      obtain ⟨e1, e2⟩ := k6 hp
      dsimp only
      rw [e2]; exact g3 e1
    · intro f hf
      obtain ⟨E0, m, hfo⟩ := h.flies f hf
      refine ⟨E0, m, hfo.mono ?_ (Nat.le_refl _)⟩
      dsimp only
      have ho : s'.e.ctx.oldest = p.sys.e.ctx.oldest := by unfold Ctx.oldest; rw [k3, k4]
      refine ⟨by omega, by omega, ?_⟩
      intro a _ _
      unfold Ctx.get
      rw [k3, k4]

theorem pair_step {H Hd : Nat} {p : Pair} (hH : H ≤ QInt.INT_MAX) (h : PairOk H Hd p) (o : PairOp) (ha : p.admits H o) :
    (∃ op n, o = .enc (.instr op n) ∧ p.step o = .refused) ∨ ∃ p', p.step o = .ok p' ∧ PairOk H Hd p' := by
  cases o with
  | enc o =>
    cases o with
    | encode id nvs => exact Or.inr (pair_encode hH h id nvs ha)
    | instr op n =>
      rcases pair_other h (.instr op n) (by simp) with h1 | h1
      · exact Or.inl ⟨op, n, rfl, h1⟩
      · exact Or.inr h1
    | setCap n =>
      rcases pair_other h (.setCap n) (by simp) with h1 | h1
      · cases h1
      · exact Or.inr h1
    | setMaxBlocked n =>
      rcases pair_other h (.setMaxBlocked n) (by simp) with h1 | h1
      · cases h1
      · exact Or.inr h1
    | ackEverything =>
      rcases pair_other h .ackEverything (by simp) with h1 | h1
      · cases h1
      · exact Or.inr h1
  | readEnc n =>
    right
    obtain ⟨D, g1, g2, g3, g4⟩ := h.trans
    rw [← List.take_append_drop n p.ech] at g1
    have hle : (p.ech.take n).length ≤ n := by rw [List.length_take]; omega
    have ha : p.dec.uninterrupted + n ≤ 128 * 1024 := ha
    obtain ⟨d', dF', k1, k2, k3, k4, k5, k6, k7, k8, k9, k10, _⟩ := readEncoder_run h.wf h.bad g1 (by omega)
    unfold Pair.step
    dsimp only
    rw [k1]
    refine ⟨_, rfl, h.sys, h.hard, k3, k4, by dsimp only; rw [k6]; exact h.dhard, ⟨dF', k2, by rw [k7]; exact g2, by rw [k7]; exact g3, by rw [k8]; exact g4⟩, ?_⟩
    intro f hf
    obtain ⟨E0, m, hfo⟩ := h.flies f hf
    exact ⟨E0, m, hfo.mono (Ext.refl _) k5.next⟩
  | readSec k n => exact Or.inr (pair_readSec h k n ha)
  | flush =>
    right
    refine ⟨_, rfl, ?_⟩
    unfold Dec.writeDecoder
    split_ifs
    · exact same_dec h (d := { p.dec with writtenIcnt := p.dec.ctx.next, dbuf := [] }) rfl rfl rfl rfl h.flies
    · exact same_dec h (d := { p.dec with dbuf := [] }) rfl rfl rfl rfl h.flies
  | cancel id =>
    right
    unfold Pair.step Dec.cancelStream
    dsimp only
    have ha : p.dec.dbufOverflow = false := ha
    rw [ha, if_neg (by simp)]
    exact ⟨_, rfl, same_dec h (d := { p.dec with dbuf := p.dec.dbuf ++ QInt.put 64 id 6 }) rfl rfl rfl rfl h.flies⟩

theorem pair_init {H Hd : Nat} (hd : H ≤ Hd) (maxBlocked : Nat) : PairOk H Hd (Pair.init H Hd maxBlocked) := by
  refine ⟨esys_init H, rfl, DecWF.init Hd maxBlocked, rfl, rfl, ⟨Dec.init Hd maxBlocked, ?_, ⟨rfl, Nat.le_refl _, rfl, hd⟩, fun _ => rfl, rfl⟩, by simp [Pair.init]⟩
  show esRun (Dec.init Hd maxBlocked) [] false = _
  rw [esRun, Machine.run_eq esM_good (DecWF.init Hd maxBlocked) (by simp), if_pos ⟨rfl, rfl⟩]

end Qpack
end Nghttp3
