import Verif.Lemmas.QpackPair
/-! Property theorems C16, C17, C18: an encoder and a decoder talking to each other. -/
namespace Nghttp3
namespace Qpack

def Pair.run (p : Pair) : List PairOp → PRes
  | [] => .ok p
  | o :: t =>
    match p.step o with
    | .ok p' => p'.run t
    | r => r

/-- every operation is within the limits at the time it is made -/
def Pair.Admissible (H : Nat) : Pair → List PairOp → Prop
  | _, [] => True
  | p, o :: t => p.admits H o ∧ ∀ p', p.step o = .ok p' → Admissible H p' t

theorem pair_run {H Hd : Nat} {p : Pair} (hH : H ≤ QInt.INT_MAX) (h : PairOk H Hd p) (ops : List PairOp) (ha : Pair.Admissible H p ops) :
    p.run ops = .refused ∨ ∃ p', p.run ops = .ok p' ∧ PairOk H Hd p' := by
  induction ops generalizing p with
  | nil => exact Or.inr ⟨p, rfl, h⟩
  | cons o t ih =>
    obtain ⟨a1, a2⟩ := ha
    unfold Pair.run
    rcases pair_step hH h o a1 with ⟨_, _, _, h1⟩ | ⟨p', h1, h2⟩
    · rw [h1]; exact Or.inl rfl
    · rw [h1]; exact ih h2 (a2 p' h1)

theorem pair_reach {H Hd B : Nat} {ops : List PairOp} {p : Pair} (hH : H ≤ QInt.INT_MAX) (hd : H ≤ Hd) (ha : Pair.Admissible H (Pair.init H Hd B) ops)
    (hr : (Pair.init H Hd B).run ops = .ok p) : PairOk H Hd p := by
  rcases pair_run hH (pair_init hd B) ops ha with h | ⟨p', h, h2⟩
  · rw [h] at hr; cases hr
  · rw [h] at hr; cases hr; exact h2

theorem SecAt.prefix {cs : Ctx} {H id R base : Nat} {rb : Bytes} {out : List QNv} {s : SCtx} {acc : List QNv} {x : Bytes} (h : SecAt cs H id R base rb out s acc x) :
    ∃ l, out = acc ++ l := by
  cases h with
  | post _ _ sF hp hw hi h hs hR hid =>
    obtain ⟨l, _, h2⟩ := ok_pre h
    exact ⟨l, h2⟩
  | _ => exact ⟨out, rfl⟩

theorem readSec_done {H Hd : Nat} {p : Pair} (h : PairOk H Hd p) (k n : Nat) (ha : p.admits H (.readSec k n)) {f : Fly} (hk : p.flies[k]? = some f) (hnd : f.done = false)
    (hn : f.rem.length ≤ n) (hric : f.sec.ricnt ≤ p.dec.ctx.next) :
    ∃ p' f', p.step (.readSec k n) = .ok p' ∧ p'.flies[k]? = some f' ∧ f'.sec = f.sec ∧ f'.done = true := by
  obtain ⟨a1, a2, a3, a4⟩ := ha f hk hnd
  obtain ⟨E0, m, hf⟩ := h.flies f (List.mem_of_getElem? hk)
  obtain ⟨w1, w2⟩ := (hf.pos hnd).wf
  have hlt := (List.getElem?_eq_some_iff.1 hk).1
  unfold Pair.step
  dsimp only
  rw [hk]
  dsimp only
  rw [if_neg (by simp [hnd]), readSection_run h.wf.ctx h.bad f.s _ _ w1 w2]
  rcases fly_adv h hf hnd a1 a2 a4 n with ⟨s', acc', r1, r2, r3⟩ | ⟨s', rest, r1, r2, r3, r4, r5⟩
  · obtain ⟨l, q1, rfl⟩ := ok_pre r1
    rw [q1]
    dsimp only [secOut]
    obtain ⟨t1, t2, t3, t4⟩ := r3.1 (List.drop_eq_nil_of_le hn)
    unfold almostOk
    rw [if_pos (by simpa using hn), if_neg (by simp [t1])]
    by_cases h0 : s'.ricnt = 0
    · rw [if_neg (by simp [h0])]
      dsimp only
      exact ⟨_, _, rfl, List.getElem?_set_self hlt, rfl, rfl⟩
    · rw [if_pos h0]
      unfold Dec.writeSectionAck
      rw [a3, if_neg (by simp)]
      dsimp only
      exact ⟨_, _, rfl, List.getElem?_set_self hlt, rfl, rfl⟩
  · omega

end Qpack

namespace Props
open Qpack

/-! ### C16 -/

/-- C16.  Encoder with table limit `H`, decoder with table limit at least `H`; header lists, capacity changes, feedback and partial
deliveries of the encoder stream in any order: the decoder never rejects what the encoder wrote, and nothing crashes. -/
theorem C16_no_instruction_rejected (H Hd B : Nat) (hH : H ≤ QInt.INT_MAX) (hd : H ≤ Hd) (ops : List PairOp)
    (ha : Pair.Admissible H (Pair.init H Hd B) ops) :
    (Pair.init H Hd B).run ops ≠ .fail ∧ (Pair.init H Hd B).run ops ≠ .crash := by
  rcases pair_run hH (pair_init hd B) ops ha with h | ⟨p', h, _⟩ <;> rw [h] <;> simp

/-- C16.  Whenever the decoder has read the whole encoder stream, it has received exactly the insertions the encoder made and its
table has every entry the encoder's table has, under the same absolute index; and unless a capacity change is still to be
announced, both use the same capacity. -/
theorem C16_tables_agree (H Hd B : Nat) (hH : H ≤ QInt.INT_MAX) (hd : H ≤ Hd) (ops : List PairOp) (ha : Pair.Admissible H (Pair.init H Hd B) ops)
    (p : Pair) (hr : (Pair.init H Hd B).run ops = .ok p) (he : p.ech = []) :
    p.dec.ctx.next = p.sys.inserted ∧
    (∀ a x, p.sys.e.ctx.get a = some x → ∃ y, p.dec.ctx.get a = some y ∧ y.name = x.name ∧ y.value = x.value) ∧
    (p.sys.e.pending = false → p.dec.ctx.maxCap = p.sys.e.ctx.maxCap) := by
  have h := pair_reach hH hd ha hr
  obtain ⟨D, g1, g2, g3, _⟩ := h.trans
  rw [he, esRun, Machine.run_eq esM_good h.wf (by simp), if_pos ⟨rfl, rfl⟩] at g1
  cases g1
  refine ⟨by rw [h.sys.ins, g2.next], fun a x hx => ?_, g3⟩
  obtain ⟨y, k1, k2, k3, _⟩ := g2.get h.sys.inv.ctx h.wf.ctx.toCtxB hx
  exact ⟨y, k1, k2, k3⟩

/-- C16.  At no time has the decoder received more insertions than the encoder made. -/
theorem C16_decoder_never_ahead (H Hd B : Nat) (hH : H ≤ QInt.INT_MAX) (hd : H ≤ Hd) (ops : List PairOp) (ha : Pair.Admissible H (Pair.init H Hd B) ops)
    (p : Pair) (hr : (Pair.init H Hd B).run ops = .ok p) : p.dec.ctx.next ≤ p.sys.inserted := by
  have h := pair_reach hH hd ha hr
  obtain ⟨D, g1, g2, g3, _⟩ := h.trans
  obtain ⟨x1, _⟩ := esRun_ctx h.wf (by simp) g1
  rw [h.sys.ins, ← g2.next]; exact x1.next

/-! ### C17 -/

/-- C17.  In every schedule, the field lines of every section read to its end are exactly the fields that were encoded: the same
names, values and never-index marks, in the same order. -/
theorem C17_sections_decode_exactly (H Hd B : Nat) (hH : H ≤ QInt.INT_MAX) (hd : H ≤ Hd) (ops : List PairOp) (ha : Pair.Admissible H (Pair.init H Hd B) ops)
    (p : Pair) (hr : (Pair.init H Hd B).run ops = .ok p) (f : Fly) (hf : f ∈ p.flies) (hdone : f.done = true) :
    f.got.map (fun q => (q.name, q.value, q.never)) = f.sec.nvs.map (fun nv => (nv.name, nv.value, nv.never)) := by
  obtain ⟨E0, m, h⟩ := (pair_reach hH hd ha hr).flies f hf
  rw [(h.fin hdone).1, List.map_map]
  rfl

/-- C17.  … and what has been handed out of a section that is still arriving is the beginning of them. -/
theorem C17_partial_sections_are_prefixes (H Hd B : Nat) (hH : H ≤ QInt.INT_MAX) (hd : H ≤ Hd) (ops : List PairOp)
    (ha : Pair.Admissible H (Pair.init H Hd B) ops)
    (p : Pair) (hr : (Pair.init H Hd B).run ops = .ok p) (f : Fly) (hf : f ∈ p.flies) :
    f.got.map (fun q => (q.name, q.value, q.never)) <+: f.sec.nvs.map (fun nv => (nv.name, nv.value, nv.never)) := by
  obtain ⟨E0, m, h⟩ := (pair_reach hH hd ha hr).flies f hf
  have : ∃ l, f.sec.nvs.map Nv.toQNv = f.got ++ l := by
    by_cases hdone : f.done = true
    · exact ⟨[], by rw [(h.fin hdone).1, List.append_nil]⟩
    · exact (h.pos (by simpa using hdone)).prefix
  obtain ⟨l, hl⟩ := this
  refine ⟨l.map (fun q => (q.name, q.value, q.never)), ?_⟩
  rw [← List.map_append, ← hl, List.map_map]
  rfl

/-- C17.  An outstanding section whose required insertions the decoder has received can be read to its end, at any time, whatever
part of it has been read before. -/
theorem C17_outstanding_sections_are_decodable (H B : Nat) (hH : H ≤ QInt.INT_MAX) (ops : List PairOp) (ha : Pair.Admissible H (Pair.init H H B) ops)
    (p : Pair) (hr : (Pair.init H H B).run ops = .ok p) (k : Nat) (f : Fly) (hk : p.flies[k]? = some f) (hnd : f.done = false)
    (ho : f.sec.ricnt = 0 ∨ f.sec ∈ p.sys.secs) (hric : f.sec.ricnt ≤ p.dec.ctx.next) (hov : p.dec.dbufOverflow = false) :
    ∃ p' f', p.step (.readSec k f.rem.length) = .ok p' ∧ p'.flies[k]? = some f' ∧ f'.sec = f.sec ∧ f'.done = true ∧
      f'.got.map (fun q => (q.name, q.value, q.never)) = f.sec.nvs.map (fun nv => (nv.name, nv.value, nv.never)) := by
  have h := pair_reach hH (Nat.le_refl _) ha hr
  have hadm : p.admits H (.readSec k f.rem.length) := by
    intro f' hf' _
    rw [hk] at hf'; cases hf'
    exact ⟨ho, by omega, hov, by rw [h.dhard]⟩
  obtain ⟨p', f', h1, h2, h3, h4⟩ := readSec_done h k f.rem.length hadm hk hnd (Nat.le_refl _) hric
  refine ⟨p', f', h1, h2, h3, h4, ?_⟩
  obtain ⟨p'', q1, q2⟩ := pair_readSec h k f.rem.length hadm
  rw [h1] at q1; cases q1
  obtain ⟨E0, m, hf'⟩ := q2.flies f' (List.mem_of_getElem? h2)
  rw [(hf'.fin h4).1, List.map_map, h3]
  rfl

/-! ### C18 -/

/-- C18.  If both limits give the same maximum number of entries `M`, the decoder, having received `next` insertions, recovers
exactly the Required Insert Count `R` written in a field section prefix, as long as `R ≤ next + M` and `next < R + M`. -/
theorem C18_required_insert_count_recovered (H : Nat) (c : Ctx) (hM : c.hardMax / 32 = H / 32) (hH : H ≤ QInt.INT_MAX) (R base : Nat) (bs : Bytes)
    (hp : prefixBytes H R base = some bs) (h1 : R ≤ c.next + H / 32) (h2 : R ≠ 0 → c.next < R + H / 32) (rest : Bytes) :
    ∃ n sh tl, QInt.readInt 8 0 0 (bs ++ rest) = .done n sh tl ∧ reconstructRicnt c n = some R := by
  unfold prefixBytes at hp
  dsimp only at hp
  by_cases h0 : R ≠ 0 ∧ H / 32 = 0
  · rw [if_pos h0] at hp; cases hp
  rw [if_neg h0] at hp
  rw [← Option.some.inj hp, List.append_assoc]
  have hle : (if R = 0 then 0 else R % (2 * (H / 32)) + 1) ≤ QInt.INT_MAX := by
    by_cases hR : R = 0
    · rw [if_pos hR]; omega
    · rw [if_neg hR]
      have := Nat.mod_lt R (y := 2 * (H / 32)) (by omega)
      have : 2 * (H / 32) ≤ H := by omega
      omega
  obtain ⟨sh, hs⟩ := QInt.readInt_put 0 (pfx := 8) (by omega) hle
    (QInt.put (if decide (base < R) = true then 0x80 else 0) (if decide (base < R) = true then R - base - 1 else base - R) 7 ++ rest)
  refine ⟨_, sh, _, hs, ?_⟩
  by_cases hR : R = 0
  · rw [if_pos hR, hR]; rfl
  · rw [if_neg hR, ← hM]
    exact reconstruct_exact hR (by rw [hM]; exact h1) (by rw [hM]; exact h2 hR)

/-! ### Concrete schedules -/

/-- is an operation within the limits? -/
def _root_.Nghttp3.Qpack.Pair.check (H : Nat) (p : Pair) : PairOp → Bool
  | .enc (.encode id nvs) => nvs.all (fun nv => decide (codedLen nv.name ≤ 256) && decide (codedLen nv.value ≤ 65536)) &&
      match p.sys.e.encode id nvs with
      | some o => decide (o.e.ctx.next ≤ QInt.INT_MAX)
      | none => true
  | .enc _ => true
  | .readEnc n => decide (p.dec.uninterrupted + n ≤ 128 * 1024)
  | .readSec k _ =>
    match p.flies[k]? with
    | none => true
    | some f => f.done || ((f.sec.ricnt == 0 || decide (f.sec ∈ p.sys.secs)) && decide (f.sec.ricnt ≤ p.dec.ctx.next + H / 32) && !p.dec.dbufOverflow &&
        decide (p.dec.ctx.hardMax / 32 = H / 32))
  | .flush => true
  | .cancel _ => !p.dec.dbufOverflow

/-- run a schedule, checking the limits: the final state -/
def _root_.Nghttp3.Qpack.Pair.checked (H : Nat) (p : Pair) : List PairOp → Option Pair
  | [] => some p
  | o :: t =>
    if p.check H o then
      match p.step o with
      | .ok p' => p'.checked H t
      | _ => none
    else none

theorem check_admits {H : Nat} {p : Pair} {o : PairOp} (h : p.check H o = true) : p.admits H o := by
  cases o with
  | enc o =>
    cases o with
    | encode id nvs =>
      unfold Pair.check at h
      dsimp only at h
      rw [Bool.and_eq_true] at h
      refine ⟨?_, ?_⟩
      · intro nv hn
        have := List.all_eq_true.1 h.1 nv hn
        simpa [NvFits] using this
      · intro o ho
        have := h.2
        rw [ho] at this
        simpa using this
    | _ => trivial
  | readEnc n => simpa [Pair.check, Pair.admits] using h
  | readSec k n =>
    intro f hf hd
    unfold Pair.check at h
    dsimp only at h
    rw [hf] at h
    dsimp only at h
    rw [hd] at h
    simp only [Bool.false_or, Bool.and_eq_true, Bool.or_eq_true, decide_eq_true_eq, beq_iff_eq, Bool.not_eq_true'] at h
    exact ⟨h.1.1.1, h.1.1.2, h.1.2, h.2⟩
  | flush => trivial
  | cancel id => simpa [Pair.check, Pair.admits] using h

theorem checked_admissible {H : Nat} {p q : Pair} {ops : List PairOp} (h : p.checked H ops = some q) : Pair.Admissible H p ops ∧ p.run ops = .ok q := by
  induction ops generalizing p with
  | nil => cases h; exact ⟨trivial, rfl⟩
  | cons o t ih =>
    unfold Pair.checked at h
    by_cases hc : p.check H o = true
    · rw [if_pos hc] at h
      unfold Pair.Admissible Pair.run
      rcases hs : p.step o with _ | _ | _ | p' <;> rw [hs] at h
      · cases h
      · cases h
      · cases h
      · obtain ⟨h1, h2⟩ := ih h
        exact ⟨⟨check_admits hc, fun p'' hp => (by cases hp; exact h1)⟩, h2⟩
    · rw [if_neg hc] at h; cases h

/-- two sections, one of them blocked when its prefix arrives, with the encoder stream and the sections cut into pieces; then the
table wraps around and the sections are acknowledged -/
def schedule : List PairOp :=
  [.enc (.setCap 100), .enc (.setMaxBlocked 2), .enc (.encode 0 [nvA, nvB]), .readSec 0 1, .readSec 0 2, .readEnc 3, .readEnc 7,
    .enc (.encode 4 [nvB, nvC, nvA]), .readEnc 1000, .readSec 1 100, .readSec 0 100, .flush, .enc (.instr .ack 0), .enc (.instr .ack 4),
    .enc (.encode 8 [nvC, { nvA with value := [7] }]), .readSec 2 3, .readEnc 1000, .readSec 2 1, .readSec 2 1000]

set_option maxRecDepth 100000 in
/-- the schedule meets the hypotheses of the theorems, all three sections were read and the encoder's table has evicted entries -/
example : ((Pair.init 100 100 2).checked 100 schedule).any (fun p =>
    p.flies.all (·.done) && p.flies.length == 3 && p.ech.isEmpty && p.sys.e.ctx.ents.length == 2 && p.sys.inserted == 3 &&
    (p.flies.map (·.got.length)) == [2, 3, 2]) = true := by decide +kernel

/-- one field per section, each with a new value, each decoded and acknowledged before the next -/
def oneByOne (n : Nat) : List PairOp :=
  [.enc (.setCap 100), .enc (.setMaxBlocked 2)] ++
  (List.range n).flatMap fun i => [.enc (.encode (4 * i) [{ nvA with value := [UInt8.ofNat i] }]), .readEnc 1000, .readSec i 1000, .enc (.instr .ack (4 * i))]

/-- how a schedule ends -/
def _root_.Nghttp3.Qpack.PRes.isFail : PRes → Bool
  | .fail => true
  | _ => false

set_option maxRecDepth 100000 in
/-- with equal limits, twenty insertions into a table of two entries are no problem -/
example : ((Pair.init 100 100 2).checked 100 (oneByOne 10)).isSome = true := by decide +kernel

set_option maxRecDepth 100000 in
/-- C18, counterexample for different limits.  The encoder was created with a limit of 4096 bytes, the default of nghttp3_settings; the
peer's decoder allows 100 bytes and the encoder keeps to that.  The seventh field section is rejected by the decoder. -/
theorem C18_fails_if_limits_differ : ((Pair.init 4096 100 2).run (oneByOne 7)).isFail = true := by decide +kernel

/-- C18, counterexample for different limits, a limit of the decoder larger than that of the encoder: the decoder takes Required
Insert Count 7 for 1. -/
theorem C18_wrong_if_limits_differ : ∃ bs, prefixBytes 100 7 7 = some bs ∧
    ∃ n sh tl, QInt.readInt 8 0 0 bs = .done n sh tl ∧ reconstructRicnt { hardMax := 4096, maxBlocked := 0, next := 7 } n = some 1 :=
  ⟨[2, 0], by decide, 2, 0, [0], by decide, by decide⟩

/-- ten sections without references (nothing may block), each inserting an entry; then blocking is allowed -/
def runAhead : List PairOp :=
  [.enc (.setCap 100)] ++
  ((List.range 6).map fun i => .enc (.encode (4 * i) [{ nvA with value := [UInt8.ofNat i] }])) ++
  [.enc (.setMaxBlocked 2), .enc (.encode 40 [{ nvA with value := [5] }]), .readSec 6 1000]

set_option maxRecDepth 100000 in
/-- C17, C18: without the condition `R ≤ next + M` decoding fails even with equal limits.  The encoder evicts entries the decoder is
not known to have received (which RFC 9204 section 2.1.1 forbids), so Required Insert Count can run ahead of the decoder by more
than the maximum number of entries. -/
theorem C18_fails_if_encoder_runs_ahead : ((Pair.init 100 100 2).run runAhead).isFail = true := by decide +kernel

end Props
end Nghttp3
