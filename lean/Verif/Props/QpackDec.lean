import Verif.Lemmas.QpackChunk
import Verif.Spec.QpackSys
/-! Property theorems C13, C20, C21: the QPACK decoder on arbitrary bytes. -/
namespace Nghttp3
namespace Qpack

/-! ### C20, C13: arbitrary bytes -/

structure SysOk (hard : Nat) (st : DSys) : Prop where
  ctx : CtxOk st.d.ctx
  hardEq : st.d.ctx.hardMax = hard
  dec : st.d.ctx.bad = true ∨ DecWF st.d
  str : ∀ id, SWF (st.sc id) ∧ Idle (st.sc id)

end Qpack

namespace Props
open Qpack

theorem sys_step {hard : Nat} {st : DSys} (h : SysOk hard st) (o : DOp) : ∃ st', st.step o = some st' ∧ SysOk hard st' := by
  cases o with
  | enc bs =>
    unfold DSys.step
    dsimp only
    rcases readEncoder_safe h.dec bs with ⟨d', h1, h2, h3⟩ | ⟨d', e, h1, h2, h3, h4⟩
    · rw [h1]; exact ⟨_, rfl, h2.ctx, h3.trans h.hardEq, Or.inr h2, h.str⟩
    · rw [h1]; exact ⟨_, rfl, h2 h.ctx, h3.trans h.hardEq, h4, h.str⟩
  | req id bs fin =>
    unfold DSys.step
    have hs := readRequest_safe h.ctx (st.sc id) (h.str id).1 (h.str id).2 bs fin
    have hset : ∀ d s, d.ctx = st.d.ctx → (st.d.ctx.bad = true ∨ DecWF d) → SWF s ∧ Idle s → SysOk hard (st.set id d s) := by
      intro d s h1 h2 h3
      refine ⟨?_, ?_, ?_, ?_⟩
      · show CtxOk d.ctx; rw [h1]; exact h.ctx
      · show d.ctx.hardMax = hard; rw [h1]; exact h.hardEq
      · show d.ctx.bad = true ∨ DecWF d; rw [h1]; exact h2
      · intro i
        show SWF (if i = id then s else st.sc i) ∧ Idle (if i = id then s else st.sc i)
        split_ifs
        · exact h3
        · exact h.str i
    rcases hr : st.d.readRequest (st.sc id) bs fin with _ | ⟨d', e⟩ | ⟨d', s'⟩ | ⟨d', s'⟩ | ⟨d', s', nv, rest⟩ | ⟨d', s', rest⟩ <;> rw [hr] at hs <;> dsimp only at hs ⊢ <;> rw [hr] <;> dsimp only
    · rcases hs with ⟨hb, rfl⟩ | rfl
      · exact ⟨_, rfl, h.ctx, h.hardEq, h.dec, h.str⟩
      · exact ⟨_, rfl, h.ctx.bad true, h.hardEq, Or.inl rfl, h.str⟩
    · obtain ⟨rfl, h2⟩ := hs; exact ⟨_, rfl, hset _ _ rfl h.dec h2⟩
    · obtain ⟨⟨h1, h2, h3, h4⟩, h5⟩ := hs
      exact ⟨_, rfl, hset _ _ h1 (h.dec.imp_right fun h => h.same h1 h2 h3 h4) h5⟩
    · obtain ⟨rfl, h2, h3, _⟩ := hs; exact ⟨_, rfl, hset _ _ rfl h.dec ⟨h2, h3⟩⟩
    · obtain ⟨rfl, h2, h3, _⟩ := hs; exact ⟨_, rfl, hset _ _ rfl h.dec ⟨h2, h3⟩⟩
  | new id =>
    refine ⟨_, rfl, h.ctx, h.hardEq, h.dec, fun i => ?_⟩
    show SWF (if i = id then SCtx.init id else st.sc i) ∧ Idle (if i = id then SCtx.init id else st.sc i)
    split_ifs
    · exact ⟨SWF.init id, fun h => by cases h⟩
    · exact h.str i
  | cancel id =>
    unfold DSys.step Dec.cancelStream
    split_ifs
    · exact ⟨_, rfl, h⟩
    · exact ⟨_, rfl, h.ctx, h.hardEq, h.dec.imp_right fun h => h.same rfl rfl rfl rfl, h.str⟩
  | write =>
    unfold DSys.step Dec.writeDecoder
    split_ifs
    · exact ⟨_, rfl, h.ctx, h.hardEq, h.dec.imp_right fun h => h.same rfl rfl rfl rfl, h.str⟩
    · exact ⟨_, rfl, h.ctx, h.hardEq, h.dec.imp_right fun h => h.same rfl rfl rfl rfl, h.str⟩
  | conc n => exact ⟨_, rfl, h.ctx, h.hardEq, h.dec.imp_right fun h => h.same rfl rfl rfl rfl, h.str⟩

theorem sys_run {hard : Nat} {st : DSys} (h : SysOk hard st) (ops : List DOp) :
    ∃ st', st.run ops = some st' ∧ SysOk hard st' := by
  induction ops generalizing st with
  | nil => exact ⟨st, rfl, h⟩
  | cons o t ih =>
    obtain ⟨st1, h1, h2⟩ := sys_step h o
    obtain ⟨st2, h3, h4⟩ := ih h2
    exact ⟨st2, by simp [DSys.run, h1, h3], h4⟩

theorem sys_init (hard blocked : Nat) : SysOk hard (DSys.init hard blocked) :=
  ⟨CtxOk.init _ _, rfl, Or.inr (DecWF.init _ _), fun i => ⟨SWF.init i, fun h => by cases h⟩⟩


/-! ### C20 -/

/-- Whatever bytes arrive on the encoder stream and on request streams, in whatever pieces and order, no
assertion of the decoder fails and no table slot or buffer position that does not exist is touched; every call
returns. -/
theorem C20_decoder_never_crashes (hard blocked : Nat) (ops : List DOp) : ∃ st, (DSys.init hard blocked).run ops = some st := by
  obtain ⟨st, h, _⟩ := sys_run (sys_init hard blocked) ops
  exact ⟨st, h⟩

/-- every call of nghttp3_qpack_decoder_read_request in a reachable state ends in an error, a request for more
input, a finished section, an emitted field line with no more input left than was given, or a stream that really
waits for insertions the decoder has not seen -/
theorem C20_request_outcomes (hard blocked : Nat) (ops : List DOp) (st : DSys) (id : Nat) (bs : Bytes) (fin : Bool)
    (hr : (DSys.init hard blocked).run ops = some st) :
    match st.d.readRequest (st.sc id) bs fin with
    | .crash => False
    | .emit _ _ _ rest => rest.length ≤ bs.length
    | .blocked d s _ => d.ctx.next < s.ricnt
    | _ => True := by
  obtain ⟨st', h, ok⟩ := sys_run (sys_init hard blocked) ops
  rw [hr] at h; cases h
  have hs := readRequest_safe ok.ctx (st.sc id) (ok.str id).1 (ok.str id).2 bs fin
  revert hs
  rcases st.d.readRequest (st.sc id) bs fin with _ | ⟨d', e⟩ | ⟨d', s'⟩ | ⟨d', s'⟩ | ⟨d', s', nv, rest⟩ | ⟨d', s', rest⟩ <;> intro hs
  · exact hs
  · trivial
  · trivial
  · trivial
  · exact hs.2.2.2
  · dsimp only at hs ⊢; rw [hs.1]; exact hs.2.2.2

/-! ### C13 -/

/-- size of a dynamic table entry, RFC 9204 section 3.2.1 -/
def rfcSize (name value : Bytes) : Nat := name.length + value.length + 32

theorem spaces_eq (l : List Ent) : spaces l = (l.map fun e => rfcSize e.name e.value).sum := by
  induction l with
  | nil => rfl
  | cons e t ih => simp [ih, Ent.space, tableSpace, rfcSize]; omega

/-- In every reachable state the table occupies the sum of its entries' sizes, at most the capacity in force, at
most the advertised limit. -/
theorem C13_table_within_capacity (hard blocked : Nat) (ops : List DOp) (st : DSys)
    (hr : (DSys.init hard blocked).run ops = some st) :
    st.d.ctx.size = (st.d.ctx.ents.map fun e => rfcSize e.name e.value).sum ∧
    (st.d.ctx.ents.map fun e => rfcSize e.name e.value).sum ≤ st.d.ctx.maxCap ∧ st.d.ctx.maxCap ≤ hard := by
  obtain ⟨st', h, ok⟩ := sys_run (sys_init hard blocked) ops
  rw [hr] at h; cases h
  rw [← spaces_eq, ← ok.ctx.size]
  exact ⟨rfl, ok.ctx.cap, ok.hardEq ▸ ok.ctx.hard⟩

/-- In every reachable state an insertion that fits in the capacity succeeds, puts the new entry in front, keeps the
newest `n` entries unchanged and drops the rest, where `n` is the largest number for which the result fits; an
insertion that does not fit is refused. -/
theorem C13_insert_evicts_oldest_only (hard blocked : Nat) (ops : List DOp) (st : DSys) (name value : Bytes) (token : Option Nat)
    (hr : (DSys.init hard blocked).run ops = some st) :
    (st.d.ctx.maxCap < rfcSize name value → st.d.ctx.addChecked name value token = some none) ∧
    (rfcSize name value ≤ st.d.ctx.maxCap → ∃ c' e n, st.d.ctx.addChecked name value token = some (some c') ∧
      e.name = name ∧ e.value = value ∧ e.absidx = st.d.ctx.next ∧ c'.next = st.d.ctx.next + 1 ∧
      c'.ents = e :: st.d.ctx.ents.take n ∧ n ≤ st.d.ctx.ents.length ∧
      (c'.ents.map fun e => rfcSize e.name e.value).sum ≤ st.d.ctx.maxCap ∧
      ∀ m, n < m → m ≤ st.d.ctx.ents.length →
        st.d.ctx.maxCap < ((e :: st.d.ctx.ents.take m).map fun e => rfcSize e.name e.value).sum) := by
  obtain ⟨st', h, ok⟩ := sys_run (sys_init hard blocked) ops
  rw [hr] at h; cases h
  have hsz : tableSpace name.length value.length = rfcSize name value := by unfold tableSpace rfcSize; omega
  constructor
  · intro hlt
    unfold Ctx.addChecked; rw [hsz, if_pos hlt]
  · intro hle
    obtain ⟨n, hn, ha, h1, h2⟩ := Ctx.add_spec ok.ctx.toCtxB name value token 0 (by omega)
    refine ⟨st.d.ctx.pushed n name value token 0, ⟨name, value, token, st.d.ctx.sum, st.d.ctx.next, 0⟩, n, ?_, rfl, rfl, rfl, ?_, rfl, hn, ?_, ?_⟩
    · unfold Ctx.addChecked; rw [hsz, if_neg (by omega), ha]; rfl
    · rfl
    · rw [← spaces_eq]
      simp only [Ctx.pushed, spaces_cons, Ent.space]; omega
    · intro m hm hl
      rw [← spaces_eq]
      have := h2 m hm hl
      simp only [spaces_cons, Ent.space]; omega

/-- Lowering (or raising) the capacity drops only oldest entries and only as many as needed; a capacity above the
limit is refused. -/
theorem C13_set_capacity_evicts_oldest_only (hard blocked : Nat) (ops : List DOp) (st : DSys) (cap : Nat)
    (hr : (DSys.init hard blocked).run ops = some st) :
    (hard < cap → st.d.ctx.setCap cap = some none) ∧
    (cap ≤ hard → ∃ c' n, st.d.ctx.setCap cap = some (some c') ∧ c'.maxCap = cap ∧ c'.next = st.d.ctx.next ∧
      c'.ents = st.d.ctx.ents.take n ∧ n ≤ st.d.ctx.ents.length ∧
      (c'.ents.map fun e => rfcSize e.name e.value).sum ≤ cap ∧
      ∀ m, n < m → m ≤ st.d.ctx.ents.length → cap < ((st.d.ctx.ents.take m).map fun e => rfcSize e.name e.value).sum) := by
  obtain ⟨st', h, ok⟩ := sys_run (sys_init hard blocked) ops
  rw [hr] at h; cases h
  constructor
  · intro hlt
    unfold Ctx.setCap; rw [ok.hardEq, if_pos hlt]
  · intro hle
    obtain ⟨n, hn, ha, h1, h2⟩ := ok.ctx.setCap cap (by rw [ok.hardEq]; exact hle)
    refine ⟨_, n, ha, rfl, rfl, rfl, hn, ?_, ?_⟩
    · rw [← spaces_eq]; exact h1
    · intro m hm hl
      rw [← spaces_eq]; exact h2 m hm hl

/-! ### C21 -/

/-- the encoder stream delivered in pieces, one call of nghttp3_qpack_decoder_read_encoder per piece, stopping at the
first error -/
def feedEnc (d : Dec) : List Bytes → EOut
  | [] => .ok d
  | c :: t =>
    match d.readEncoder c with
    | .ok d' => feedEnc d' t
    | o => o

/-- what can be observed of an encoder-stream call: the error and the table, or the whole decoder -/
inductive EncObs where
  | crash
  | error (e : Err) (table : Ctx)
  | ok (d : Dec)
deriving DecidableEq

def encObs : EOut → EncObs
  | .crash => .crash
  | .fail d e => .error e d.ctx
  | .ok d => .ok d

theorem encObs_view (o : EOut) : encObs o = match o.view with
    | .crash => .crash
    | .fail (e, c) => .error e c
    | .stop _ _ => .crash
    | .ok d => .ok d := by cases o <;> rfl

theorem feedEnc_wf {d : Dec} (hd : DecWF d) (hbad : d.ctx.bad = false) (chunks : List Bytes)
    (hlim : d.uninterrupted + chunks.flatten.length ≤ 128 * 1024) :
    encObs (feedEnc d chunks) = encObs (d.readEncoder chunks.flatten) := by
  induction chunks generalizing d with
  | nil =>
    show encObs (.ok d) = encObs (d.readEncoder [])
    unfold Dec.readEncoder
    rw [hbad]; rfl
  | cons c t ih =>
    show encObs (match d.readEncoder c with | .ok d' => feedEnc d' t | o => o) = encObs (d.readEncoder (c ++ t.flatten))
    by_cases hc : c = []
    · subst hc
      have : d.readEncoder [] = .ok d := by unfold Dec.readEncoder; rw [hbad]; rfl
      rw [this]
      exact ih hd hbad hlim
    · have hl : d.uninterrupted + (c.length + t.flatten.length) ≤ 128 * 1024 := by simpa using hlim
      have h1 : d.readEncoder c = esLoop (esFuel c) (d.withU (d.uninterrupted + c.length)) c false := by
        unfold Dec.readEncoder
        rw [hbad, if_neg (by simp), if_neg hc]
        dsimp only
        rw [if_neg (by omega)]; rfl
      have h2 : d.readEncoder (c ++ t.flatten) =
          esLoop (esFuel (c ++ t.flatten)) (d.withU (d.uninterrupted + (c.length + t.flatten.length))) (c ++ t.flatten) false := by
        unfold Dec.readEncoder
        rw [hbad, if_neg (by simp), if_neg (by simp [hc])]
        dsimp only
        rw [List.length_append, if_neg (by omega)]; rfl
      rw [h1, h2, encObs_view (esLoop _ _ (c ++ _) _), esLoop_append (show DecWF (d.withU _) from hd.withU _), esLoop_withU _ d, esLoop_withU _ d]
      have hbo := esLoop_bad (esFuel c) d c false
      have huo := esLoop_u (esFuel c) d c false
      rcases h : esLoop (esFuel c) d c false with _ | ⟨d', e⟩ | d'
      · rfl
      · rfl
      · rw [h] at hbo huo
        dsimp only at hbo huo
        have hd' : DecWF d' := by
          rcases esLoop_safe hd c with ⟨d'', h1, h2⟩ | ⟨d'', e, h1⟩
          · rw [h] at h1; cases h1; exact h2
          · rw [h] at h1; cases h1
        dsimp only [EOut.withU]
        rw [ih (d := d'.withU (d.uninterrupted + c.length)) (hd'.withU _) (by show d'.ctx.bad = false; rw [hbo, hbad])
          (by show d.uninterrupted + c.length + t.flatten.length ≤ _; omega)]
        unfold Dec.readEncoder
        rw [if_neg (by show ¬ d'.ctx.bad = true; rw [hbo, hbad]; simp)]
        by_cases ht : t.flatten = []
        · rw [if_pos ht, if_pos ht, ht]; rfl
        · rw [if_neg ht, if_neg ht]
          dsimp only
          rw [if_neg (by show ¬ 128 * 1024 < d.uninterrupted + c.length + t.flatten.length; omega), encObs_view]
          have : ({ d'.withU (d.uninterrupted + c.length) with
              uninterrupted := (d'.withU (d.uninterrupted + c.length)).uninterrupted + t.flatten.length } : Dec) =
              d'.withU (d.uninterrupted + (c.length + t.flatten.length)) := by
            show d'.withU (d.uninterrupted + c.length + t.flatten.length) = _
            rw [Nat.add_assoc]
          rw [this]

/-- Up to the limit on bytes without progress (128 KiB), the table, the decoder state and the error do not depend on
how the encoder stream is cut. -/
theorem C21_encoder_stream_chunking (hard blocked : Nat) (ops : List DOp) (st : DSys) (chunks : List Bytes)
    (hr : (DSys.init hard blocked).run ops = some st) (hne : chunks ≠ [])
    (hlim : st.d.uninterrupted + chunks.flatten.length ≤ 128 * 1024) :
    encObs (feedEnc st.d chunks) = encObs (st.d.readEncoder chunks.flatten) := by
  obtain ⟨st', h, ok⟩ := sys_run (sys_init hard blocked) ops
  rw [hr] at h; cases h
  by_cases hb : st.d.ctx.bad = true
  · have hx : ∀ x, st.d.readEncoder x = .fail st.d .fatal := fun x => by unfold Dec.readEncoder; rw [if_pos hb]
    cases chunks with
    | nil => exact absurd rfl hne
    | cons c t => unfold feedEnc; rw [hx, hx]
  · exact feedEnc_wf (ok.dec.resolve_left hb) (by simpa using hb) chunks hlim

/-- Beyond that limit the stream is refused whole and in pieces. -/
theorem C21_encoder_stream_over_limit (hard blocked : Nat) (ops : List DOp) (st : DSys) (chunks : List Bytes)
    (hr : (DSys.init hard blocked).run ops = some st)
    (hlim : 128 * 1024 < st.d.uninterrupted + chunks.flatten.length) (hne : chunks.flatten ≠ []) :
    (∃ d e, feedEnc st.d chunks = .fail d e) ∧ ∃ d e, st.d.readEncoder chunks.flatten = .fail d e := by
  obtain ⟨st', h, ok⟩ := sys_run (sys_init hard blocked) ops
  rw [hr] at h; cases h
  have hd := ok.dec
  clear ok hr
  generalize st.d = d at hd hlim
  constructor
  · induction chunks generalizing d with
    | nil => exact absurd rfl hne
    | cons c t ih =>
      unfold feedEnc
      rcases readEncoder_safe hd c with ⟨d', h1, h2, h3⟩ | ⟨d', e, h1, _⟩
      · rw [h1]
        dsimp only
        have hu : d'.uninterrupted = d.uninterrupted + c.length ∧ (c ≠ [] → d'.uninterrupted ≤ 128 * 1024) := by
          unfold Dec.readEncoder at h1
          dsimp only at h1
          split_ifs at h1 with hb hc hl
          · cases h1; subst hc; simp
          · have hu := esLoop_u (esFuel c) { d with uninterrupted := d.uninterrupted + c.length } c false
            rw [h1] at hu
            dsimp only at hu hl
            exact ⟨hu, fun _ => by omega⟩
        simp only [List.flatten_cons, List.length_append] at hlim
        refine ih ?_ d' (Or.inr h2) (by omega)
        intro ht
        by_cases hc : c = []
        · apply hne; simp [hc, ht]
        · rw [ht] at hlim
          have := hu.2 hc
          simp at hlim
          omega
      · rw [h1]; exact ⟨_, _, rfl⟩
  · unfold Dec.readEncoder
    dsimp only
    split_ifs with hb
    · exact ⟨_, _, rfl⟩
    · exact ⟨_, _, rfl⟩

/-- a field section delivered in pieces: the pieces before the last are fed without the end-of-section mark; when the
stream blocks the remaining bytes are buffered; the field lines handed out are collected. -/
def feedSec (d : Dec) (s : SCtx) : List Bytes → List QNv × ROut
  | [] => ([], .crash)
  | [c] => d.readSection s c true
  | c :: c' :: t =>
    match d.readSection s c false with
    | (nvs, .more d' s') => let (m, o) := feedSec d' s' (c' :: t); (nvs ++ m, o)
    | (nvs, .blocked d' s' rest) => (nvs, .blocked d' s' (rest ++ (c' :: t).flatten))
    | o => o

theorem secOut_pre (d : Dec) (fin : Bool) (a : List QNv) (o : Machine.Out (SCtx × List QNv) RStop) (ho : o ≠ .crash)
    (hf : ∀ s acc, o ≠ .fail (.blocked s acc)) (hs : ∀ e acc r, o ≠ .stop (.fail e acc) r) :
    secOut d fin (preOut a o) = (a ++ (secOut d fin o).1, (secOut d fin o).2) := by
  rcases o with _ | ⟨_ | _⟩ | ⟨_ | _, r⟩ | ⟨s, acc⟩
  · exact absurd rfl ho
  · rfl
  · exact absurd rfl (hf _ _)
  · exact absurd rfl (hs _ _ _)
  · rfl
  · rfl

theorem rsRun_shape {c : Ctx} (f : Nat) (p : SCtx × List QNv) (x : Bytes) (b : Bool) :
    (∀ s acc, Machine.loop (rsM c) f p x b ≠ .fail (.blocked s acc)) ∧
    (∀ e acc r, Machine.loop (rsM c) f p x b ≠ .stop (.fail e acc) r) := by
  induction f generalizing p x b with
  | zero => exact ⟨by simp [Machine.loop], by simp [Machine.loop]⟩
  | succ f ih =>
    unfold Machine.loop
    split_ifs
    · exact ⟨by simp, by simp⟩
    · unfold rsM
      rcases rsStep c p.1 x with _ | e | ⟨s', rest, b'⟩ | ⟨s', rest⟩ | ⟨s', nv, rest⟩ | ⟨s', rest⟩
      · exact ⟨by simp [view_crash], by simp [view_crash]⟩
      · exact ⟨by simp [view_fail], by simp [view_fail]⟩
      · exact ih _ _ _
      · exact ⟨by simp [view_part], by simp [view_part]⟩
      · exact ih _ _ _
      · exact ⟨by simp [RRes.view], by simp [RRes.view]⟩

theorem feedSec_ok {d : Dec} (hc : CtxOk d.ctx) (hbad : d.ctx.bad = false) (s : SCtx) (hw : SWF s) (hi : Idle s)
    (chunks : List Bytes) (hne : chunks ≠ []) : feedSec d s chunks = d.readSection s chunks.flatten true := by
  have g := rsM_good hc
  induction chunks generalizing s with
  | nil => exact absurd rfl hne
  | cons c t ih =>
    cases t with
    | nil => show d.readSection s c true = d.readSection s (c ++ []) true; rw [List.append_nil]
    | cons c' t =>
      have hfl : (c :: c' :: t).flatten = c ++ (c' :: t).flatten := by simp
      rw [hfl]
      unfold feedSec
      rw [readSection_run hc hbad s c false hw hi, readSection_run hc hbad s _ true hw hi,
        show rsRun d.ctx (s, []) (c ++ (c' :: t).flatten) false = _ from Machine.run_append g (s, []) c _ false hw (by simp)]
      have hsafe := Machine.loop_safe g (8 * c.length + s.state.rank + 1) (s, []) c false hw (by simp) (by simp)
      have hidle := rsRun_idle (c := d.ctx) (8 * c.length + s.state.rank + 1) (s, []) c false (Or.inl hi)
      have hshape := rsRun_shape (c := d.ctx) (8 * c.length + s.state.rank + 1) (s, []) c false
      change rsRun d.ctx (s, []) c false ≠ _ ∧ ∀ s', rsRun d.ctx (s, []) c false = _ → _ at hsafe
      change ∀ p', rsRun d.ctx (s, []) c false = _ → _ at hidle
      change (∀ s' acc, rsRun d.ctx (s, []) c false ≠ _) ∧ (∀ e acc r, rsRun d.ctx (s, []) c false ≠ _) at hshape
      rw [show Machine.run (rsM d.ctx) (fun p => p.1.state.rank) (s, []) c false = rsRun d.ctx (s, []) c false from rfl]
      rcases hx : rsRun d.ctx (s, []) c false with _ | ⟨_ | _⟩ | ⟨_ | _, r⟩ | ⟨s', acc⟩
      · exact absurd hx hsafe.1
      · rfl
      · exact absurd hx (hshape.1 _ _)
      · exact absurd hx (hshape.2 _ _ _)
      · rfl
      · have hw' : SWF s' := hsafe.2 _ hx
        have hi' : Idle s' := hidle _ hx
        have : secOut d false (.ok (s', acc)) = (acc, .more d s') := rfl
        rw [this]
        dsimp only
        rw [ih s' hw' hi' (by simp), readSection_run hc hbad s' _ true hw' hi']
        by_cases hy : (c' :: t).flatten = []
        · rw [if_pos hy, hy]
          have : rsRun d.ctx (s', []) [] false = .ok (s', []) := by
            rw [rsRun, Machine.run_eq g hw' (by simp)]; simp
          rw [this]
          simp [secOut]
        · rw [if_neg hy]
          have hsafe' := Machine.loop_safe g (8 * (c' :: t).flatten.length + s'.state.rank + 1) (s', [])
            (c' :: t).flatten false hw' (by simp) (by simp)
          have hshape' := rsRun_shape (c := d.ctx) (8 * (c' :: t).flatten.length + s'.state.rank + 1) (s', []) (c' :: t).flatten false
          have := rsRun_pre d.ctx acc s' (c' :: t).flatten false
          unfold rsRun at this
          rw [this]
          exact (secOut_pre d true acc (rsRun d.ctx (s', []) (c' :: t).flatten false) hsafe'.1 hshape'.1 hshape'.2).symm

/-- However a field section (or what remains of it) is cut into pieces, the field lines emitted, the error, the
blockage and the resulting decoder are those of the uncut section, in every reachable state of the decoder. -/
theorem C21_field_section_chunking (hard blocked : Nat) (ops : List DOp) (st : DSys) (id : Nat) (chunks : List Bytes)
    (hr : (DSys.init hard blocked).run ops = some st) (hne : chunks ≠ []) :
    feedSec st.d (st.sc id) chunks = st.d.readSection (st.sc id) chunks.flatten true := by
  obtain ⟨st', h, ok⟩ := sys_run (sys_init hard blocked) ops
  rw [hr] at h; cases h
  by_cases hb : st.d.ctx.bad = true
  · have hx : ∀ x fin, st.d.readSection (st.sc id) x fin = ([], .fail st.d .fatal) := by
      intro x fin
      unfold Dec.readSection secLoop Dec.readRequest
      rw [if_pos hb]
    match chunks, hne with
    | [c], _ => unfold feedSec; rw [hx, hx]
    | c :: c' :: t, _ => unfold feedSec; rw [hx, hx]
  · exact feedSec_ok ok.ctx (by simpa using hb) _ (ok.str id).1 (ok.str id).2 chunks hne

/-! ### concrete cases -/

/-- capacity 220, insert `:authority: ab` with static name, `custom: v` literally (not Huffman coded), duplicate -/
def exEnc : Bytes := [0x3f, 0xbd, 0x01, 0xc0, 0x02, 0x61, 0x62, 0x46, 0x63, 0x75, 0x73, 0x74, 0x6f, 0x6d, 0x01, 0x76, 0x00]

/-- a reachable state with three entries, in which stream 4 waits for a fourth insertion -/
def exOps : List DOp := [.enc (exEnc.take 9), .enc (exEnc.drop 9), .new 4, .req 4 [0x05, 0x00] false]

example : (match (DSys.init 4096 100).run exOps with
    | some st => st.d.ctx.ents.length == 3 && st.d.ctx.size == 122 && st.d.ctx.maxCap == 220 && (st.sc 4).state == .blocked
    | none => false) = true := by decide +kernel

/-- a section with an indexed, a post-base and a literal line read in a table of three entries -/
example : (((DSys.init 4096 100).run [.enc exEnc]).map fun st =>
    (feedSec st.d (SCtx.init 8) [[0x04], [0x81, 0x80, 0x10, 0x23, 0x61], [0x62, 0x63, 0x01, 0x64]]).1.map QNv.value) =
    some [[0x61, 0x62], [0x76], [0x64]] := by decide +kernel

end Props
end Nghttp3
