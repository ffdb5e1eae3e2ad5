import Verif.Lemmas.QpackWireSec
import Verif.Props.QpackDec
/-! C53: what the bytes of a peer mean to the QPACK decoder, against RFC 9204 (`Spec/QpackWire.lean`). -/
namespace Nghttp3
namespace Qpack
open Rfc9204 (Instr Table AreInstrs)

/-- the bytes of the encoder stream that the decoder accepts in a call: all of them, unless it returns an error -/
def DSys.took (st : DSys) : DOp → Bytes
  | .enc bs => match st.d.readEncoder bs with | .ok _ => bs | _ => []
  | _ => []

/-- the bytes of the encoder stream that the decoder has accepted -/
def DSys.fed : DSys → List DOp → Bytes
  | _, [] => []
  | st, o :: t => st.took o ++ match st.step o with | none => [] | some st' => st'.fed t

/-- same table and same position on the encoder stream -/
def Core (d e : Dec) : Prop := d.ctx = e.ctx ∧ d.state = e.state ∧ d.op = e.op ∧ d.rs = e.rs

theorem core_eq {d e : Dec} (h : Core d e) : d.withOut e = e := by
  obtain ⟨h1, h2, h3, h4⟩ := h
  cases d; cases e; simp_all [Dec.withOut]

theorem esRun_core {d e d' : Dec} (h : Core d e) {x : Bytes} {b : Bool} (hr : esRun d x b = .ok d') : ∃ e', esRun e x b = .ok e' ∧ Core d' e' := by
  have := esRun_withOut e hr
  rw [core_eq h] at this
  exact ⟨_, this, rfl, rfl, rfl, rfl⟩

theorem esRun_core_fail {d e : Dec} (h : Core d e) {x : Bytes} {b : Bool} {o : Err × Ctx} (hr : esRun d x b = .fail o) : esRun e x b = .fail o := by
  rw [← core_eq h]
  generalize e = d0
  clear h
  unfold esRun Machine.run at hr ⊢
  have hrk : (fun d : Dec => d.state.rank) (d.withOut d0) = (fun d : Dec => d.state.rank) d := rfl
  rw [hrk]
  clear hrk
  generalize (8 * x.length + (fun d : Dec => d.state.rank) d + 1) = f at hr ⊢
  induction f generalizing d x b with
  | zero => cases hr
  | succ f ih =>
    unfold Machine.loop at hr ⊢
    by_cases h0 : x = [] ∧ b = false
    · rw [if_pos h0] at hr; cases hr
    · rw [if_neg h0] at hr ⊢
      rw [show esM (d.withOut d0) x = ((esStep d x).withOut d0).view by unfold esM; rw [esStep_withOut]]
      rw [show esM d x = (esStep d x).view from rfl] at hr
      rcases he : esStep d x with _ | ⟨d1, e⟩ | ⟨d1, rest, b'⟩ | ⟨d1, rest⟩ <;> rw [he] at hr
      · cases hr
      · cases hr; rfl
      · exact ih hr
      · cases hr

/-- the call in terms of the machine -/
theorem readEncoder_view {d : Dec} (hw : DecWF d) (hb : d.ctx.bad = false) {x : Bytes} (hx : x ≠ []) (hu : d.uninterrupted + x.length ≤ 128 * 1024) :
    (d.readEncoder x).view = esRun { d with uninterrupted := d.uninterrupted + x.length } x false := by
  unfold Dec.readEncoder
  rw [hb, if_neg (by simp), if_neg hx]
  dsimp only
  rw [if_neg (by omega), esLoop_view]
  have hr := esRank_le { d with uninterrupted := d.uninterrupted + x.length }
  exact Machine.loop_run esM_good (hw.withU _) (by simp) (by unfold esFuel; omega)

/-- the decoder has read `fed` -/
structure Follows (hard blocked : Nat) (fed : Bytes) (st : DSys) : Prop where
  sys : SysOk hard st
  pos : st.d.ctx.bad = false → ∃ d0, esRun (Dec.init hard blocked) fed false = .ok d0 ∧ Core st.d d0

theorem follows_core {hard blocked : Nat} {fed : Bytes} {st st' : DSys} (h : Follows hard blocked fed st) (hs : SysOk hard st')
    (hc : st'.d.ctx.bad = false → Core st'.d st.d) : Follows hard blocked fed st' := by
  refine ⟨hs, fun hb => ?_⟩
  have hc := hc hb
  obtain ⟨d0, h1, h2⟩ := h.pos (by rw [← hc.1]; exact hb)
  exact ⟨d0, h1, hc.1.trans h2.1, hc.2.1.trans h2.2.1, hc.2.2.1.trans h2.2.2.1, hc.2.2.2.trans h2.2.2.2⟩

end Qpack

namespace Props
open Qpack
open Rfc9204 (Instr Table AreInstrs Line AreLines)

theorem follows_step {hard blocked : Nat} {fed : Bytes} {st st' : DSys} (h : Follows hard blocked fed st) (o : DOp) (hs : st.step o = some st') :
    Follows hard blocked (fed ++ st.took o) st' := by
  unfold DSys.took
  obtain ⟨st2, g1, g2⟩ := sys_step h.sys o
  rw [hs] at g1; cases g1
  cases o with
  | enc bs =>
    dsimp only
    unfold DSys.step at hs
    dsimp only at hs
    by_cases hb : st.d.ctx.bad = true
    · have hre : st.d.readEncoder bs = .fail st.d .fatal := by unfold Dec.readEncoder; rw [if_pos hb]
      rw [hre] at hs ⊢
      cases hs
      simp only [List.append_nil]
      exact h
    have hb : st.d.ctx.bad = false := by simpa using hb
    have hw : DecWF st.d := h.sys.dec.resolve_left (by simp [hb])
    by_cases hx : bs = []
    · have hre : st.d.readEncoder bs = .ok st.d := by unfold Dec.readEncoder; rw [hb, hx]; rfl
      rw [hre] at hs ⊢
      cases hs
      subst hx
      simp only [List.append_nil]
      exact h
    by_cases hu : st.d.uninterrupted + bs.length ≤ 128 * 1024
    · have hv := readEncoder_view hw hb hx hu
      obtain ⟨d0, k1, k2⟩ := h.pos hb
      rcases hre : st.d.readEncoder bs with _ | ⟨d', e⟩ | d' <;> rw [hre] at hs hv <;> dsimp only at hs ⊢
      · cases hs
      · cases hs
        refine ⟨g2, fun hbad => ?_⟩
        exfalso
        have he : st.d.readEncoder bs = esLoop (esFuel bs) { st.d with uninterrupted := st.d.uninterrupted + bs.length } bs false := by
          unfold Dec.readEncoder
          rw [hb, if_neg (by simp), if_neg hx]
          dsimp only
          rw [if_neg (by omega)]
        rw [he] at hre
        have := (esLoop_fail_ok _ _ _ _ (hw.withU _) (by simp) d' e hre).2
        rw [this] at hbad; cases hbad
      · cases hs
        refine ⟨g2, fun hbad => ?_⟩
        obtain ⟨e', q1, q2⟩ := esRun_core (d := { st.d with uninterrupted := st.d.uninterrupted + bs.length }) (e := d0) ⟨k2.1, k2.2.1, k2.2.2.1, k2.2.2.2⟩ hv.symm
        exact ⟨e', esRun_then (DecWF.init _ _) k1 q1, q2⟩
    · have hre : st.d.readEncoder bs = .fail { st.d with uninterrupted := st.d.uninterrupted + bs.length } .encoderStream := by
        unfold Dec.readEncoder
        rw [hb, if_neg (by simp), if_neg hx]
        dsimp only
        rw [if_pos (by omega)]
      rw [hre] at hs ⊢
      cases hs
      simp only [List.append_nil]
      exact follows_core h g2 fun _ => ⟨rfl, rfl, rfl, rfl⟩
  | req id bs fin =>
    simp only [List.append_nil]
    refine follows_core h g2 fun hbad => ?_
    unfold DSys.step at hs
    have hsafe := readRequest_safe h.sys.ctx (st.sc id) (h.sys.str id).1 (h.sys.str id).2 bs fin
    rcases hr : st.d.readRequest (st.sc id) bs fin with _ | ⟨d', e⟩ | ⟨d', s'⟩ | ⟨d', s'⟩ | ⟨d', s', nv, rest⟩ | ⟨d', s', rest⟩ <;> rw [hr] at hsafe <;>
      dsimp only at hs hsafe <;> rw [hr] at hs <;> dsimp only at hs
    · cases hs
      rcases hsafe with ⟨hb, rfl⟩ | rfl
      · exact ⟨rfl, rfl, rfl, rfl⟩
      · cases hbad
    · cases hs; obtain ⟨rfl, _⟩ := hsafe; exact ⟨rfl, rfl, rfl, rfl⟩
    · cases hs; exact hsafe.1
    · cases hs; obtain ⟨rfl, _⟩ := hsafe; exact ⟨rfl, rfl, rfl, rfl⟩
    · cases hs; obtain ⟨rfl, _⟩ := hsafe; exact ⟨rfl, rfl, rfl, rfl⟩
  | new id => simp only [List.append_nil]; cases hs; exact follows_core h g2 fun _ => ⟨rfl, rfl, rfl, rfl⟩
  | cancel id =>
    simp only [List.append_nil]
    unfold DSys.step Dec.cancelStream at hs
    refine follows_core h g2 fun _ => ?_
    dsimp only at hs
    split_ifs at hs <;> cases hs <;> exact ⟨rfl, rfl, rfl, rfl⟩
  | write =>
    simp only [List.append_nil]
    unfold DSys.step Dec.writeDecoder at hs
    refine follows_core h g2 fun _ => ?_
    dsimp only at hs
    split_ifs at hs <;> cases hs <;> exact ⟨rfl, rfl, rfl, rfl⟩
  | conc n => simp only [List.append_nil]; cases hs; exact follows_core h g2 fun _ => ⟨rfl, rfl, rfl, rfl⟩

theorem follows_run {hard blocked : Nat} (ops : List DOp) : ∀ {fed : Bytes} {st st' : DSys}, Follows hard blocked fed st → st.run ops = some st' →
    Follows hard blocked (fed ++ st.fed ops) st' := by
  induction ops with
  | nil => intro fed st st' h hr; cases hr; simpa [DSys.fed] using h
  | cons o t ih =>
    intro fed st st' h hr
    rw [DSys.run] at hr
    rcases hs : st.step o with _ | st1 <;> rw [hs] at hr
    · cases hr
    · simp only [Option.bind_some] at hr
      have := ih (follows_step h o hs) hr
      rw [DSys.fed, hs]
      rw [List.append_assoc] at this
      exact this

theorem follows_init (hard blocked : Nat) : Follows hard blocked [] (DSys.init hard blocked) := by
  refine ⟨sys_init hard blocked, fun _ => ⟨_, ?_, rfl, rfl, rfl, rfl⟩⟩
  rw [esRun, Machine.run_eq esM_good (DecWF.init _ _) (by simp), if_pos ⟨rfl, rfl⟩]; rfl

theorem follows {hard blocked : Nat} {ops : List DOp} {st : DSys} (hr : (DSys.init hard blocked).run ops = some st) :
    Follows hard blocked ((DSys.init hard blocked).fed ops) st := by
  have := follows_run ops (follows_init hard blocked) hr
  simpa using this

/-! ### C53: the encoder stream -/

/-- Whatever a peer sends, as long as the decoder has not failed its dynamic table is the result of the complete instructions among the
bytes it accepted from the encoder stream, starting from the empty table, as RFC 9204 defines their effect, with the limit the decoder
announced; the remaining bytes begin with no complete instruction. -/
theorem C53_table_is_what_the_instructions_say (hard blocked : Nat) (ops : List DOp) (st : DSys)
    (hr : (DSys.init hard blocked).run ops = some st) (hb : st.d.ctx.bad = false) :
    ∃ is bytes rest, (DSys.init hard blocked).fed ops = bytes ++ rest ∧ AreInstrs is bytes ∧
      (∀ i enc r, rest = enc ++ r → ¬ Instr.Is i enc) ∧ Table.applyAll hard {} is = some st.d.ctx.table := by
  obtain ⟨d0, h1, h2⟩ := (follows hr).pos hb
  obtain ⟨is, y, rest, k1, k2, k3, k4⟩ := es_parse _ _ (Nat.le_refl _) (DecWF.init hard blocked) rfl
  obtain ⟨k5, _⟩ := k4 d0 h1
  exact ⟨is, y, rest, k1, k2, k3, by rw [h2.1]; exact k5⟩

/-- Valid instructions are accepted: bytes that complete what was accepted before to a sequence of instructions, all of them valid, are
accepted, and the table is then what the instructions say.  (A peer may send at most 128 KiB before the next complete field section.) -/
theorem C53_valid_instructions_accepted (hard blocked : Nat) (ops : List DOp) (st : DSys) (x : Bytes) (is : List Instr) (t : Table)
    (hr : (DSys.init hard blocked).run ops = some st) (hb : st.d.ctx.bad = false)
    (hi : AreInstrs is ((DSys.init hard blocked).fed ops ++ x)) (ht : Table.applyAll hard {} is = some t)
    (hu : st.d.uninterrupted + x.length ≤ 128 * 1024) :
    ∃ d, st.d.readEncoder x = .ok d ∧ d.ctx.table = t := by
  have hf := follows hr
  obtain ⟨d0, h1, h2⟩ := hf.pos hb
  have hw : DecWF st.d := hf.sys.dec.resolve_left (by simp [hb])
  have ha := es_all hi (DecWF.init hard blocked) rfl []
  rw [show (Dec.init hard blocked).ctx.table = {} from rfl, show (Dec.init hard blocked).ctx.hardMax = hard from rfl, ht, List.append_nil] at ha
  obtain ⟨d', k1, k2, _, k4, _⟩ := ha
  rw [esRun, Machine.run_append' esM_good _ _ _ _ (DecWF.init hard blocked) (by simp), show Machine.run esM _ _ _ _ = _ from h1] at k1
  dsimp only at k1
  have hn : esRun d' [] false = .ok d' := by rw [esRun, Machine.run_eq esM_good k2 (by simp), if_pos ⟨rfl, rfl⟩]
  rw [hn] at k1
  by_cases hx : x = []
  · subst hx
    have hd0 : DecWF d0 := (esRun_ctx (DecWF.init hard blocked) (by simp) h1).2.2.2.1
    rw [Machine.run_eq esM_good hd0 (by simp), if_pos ⟨rfl, rfl⟩] at k1
    cases k1
    refine ⟨st.d, by unfold Dec.readEncoder; rw [hb]; rfl, by rw [h2.1]; exact k4⟩
  · have hv := readEncoder_view hw hb hx hu
    obtain ⟨e, q1, q2⟩ := esRun_core (d := d0) (e := { st.d with uninterrupted := st.d.uninterrupted + x.length })
      ⟨h2.1.symm, h2.2.1.symm, h2.2.2.1.symm, h2.2.2.2.symm⟩ k1
    rw [q1] at hv
    rcases hre : st.d.readEncoder x with _ | ⟨d2, e2⟩ | d2 <;> rw [hre] at hv <;> cases hv
    exact ⟨_, rfl, by rw [← q2.1]; exact k4⟩

/-- Invalid instructions are refused: if what was accepted and the new bytes begin with a sequence of complete instructions that RFC 9204
does not allow, the call returns NGHTTP3_ERR_QPACK_ENCODER_STREAM_ERROR, and the decoder refuses everything afterwards. -/
theorem C53_invalid_instructions_refused (hard blocked : Nat) (ops : List DOp) (st : DSys) (x bytes rest : Bytes) (is : List Instr)
    (hr : (DSys.init hard blocked).run ops = some st) (hb : st.d.ctx.bad = false)
    (he : (DSys.init hard blocked).fed ops ++ x = bytes ++ rest) (hi : AreInstrs is bytes) (ht : Table.applyAll hard {} is = none) :
    ∃ d, st.d.readEncoder x = .fail d .encoderStream ∧ (d.ctx.bad = true ∨ 128 * 1024 < st.d.uninterrupted + x.length) := by
  have hf := follows hr
  obtain ⟨d0, h1, h2⟩ := hf.pos hb
  have hw : DecWF st.d := hf.sys.dec.resolve_left (by simp [hb])
  have ha := es_all hi (DecWF.init hard blocked) rfl rest
  rw [show (Dec.init hard blocked).ctx.table = {} from rfl, show (Dec.init hard blocked).ctx.hardMax = hard from rfl, ht, ← he] at ha
  obtain ⟨c', k1⟩ := ha
  rw [esRun, Machine.run_append' esM_good _ _ _ _ (DecWF.init hard blocked) (by simp), show Machine.run esM _ _ _ _ = _ from h1] at k1
  dsimp only at k1
  by_cases hx : x = []
  · subst hx
    have hd0 : DecWF d0 := (esRun_ctx (DecWF.init hard blocked) (by simp) h1).2.2.2.1
    rw [Machine.run_eq esM_good hd0 (by simp), if_pos ⟨rfl, rfl⟩] at k1
    cases k1
  by_cases hu : st.d.uninterrupted + x.length ≤ 128 * 1024
  · have hv := readEncoder_view hw hb hx hu
    have q1 := esRun_core_fail (d := d0) (e := { st.d with uninterrupted := st.d.uninterrupted + x.length })
      ⟨h2.1.symm, h2.2.1.symm, h2.2.2.1.symm, h2.2.2.2.symm⟩ k1
    rw [q1] at hv
    have he : st.d.readEncoder x = esLoop (esFuel x) { st.d with uninterrupted := st.d.uninterrupted + x.length } x false := by
      unfold Dec.readEncoder
      rw [hb, if_neg (by simp), if_neg hx]
      dsimp only
      rw [if_neg (by omega)]
    rcases hre : st.d.readEncoder x with _ | ⟨d2, e2⟩ | d2 <;> rw [hre] at hv <;> cases hv
    rw [he] at hre
    exact ⟨_, rfl, Or.inl (esLoop_fail_ok _ _ _ _ (hw.withU _) (by simp) d2 _ hre).2⟩
  · refine ⟨{ st.d with uninterrupted := st.d.uninterrupted + x.length }, ?_, Or.inr (by omega)⟩
    unfold Dec.readEncoder
    rw [hb, if_neg (by simp), if_neg hx]
    dsimp only
    rw [if_pos (by omega)]

/-- At most 128 KiB of encoder stream are accepted between two complete field sections. -/
theorem C53_encoder_stream_limit (hard blocked : Nat) (ops : List DOp) (st : DSys) (x : Bytes)
    (_ : (DSys.init hard blocked).run ops = some st) (hb : st.d.ctx.bad = false) (hx : x ≠ [])
    (hu : 128 * 1024 < st.d.uninterrupted + x.length) : ∃ d, st.d.readEncoder x = .fail d .encoderStream := by
  refine ⟨{ st.d with uninterrupted := st.d.uninterrupted + x.length }, ?_⟩
  unfold Dec.readEncoder
  rw [hb, if_neg (by simp), if_neg hx]
  dsimp only
  rw [if_pos (by omega)]

/-! ### C53: field sections -/

theorem almostOk_lines (d : Dec) {id v base : Nat} {s : SCtx} (h : AtLines id v base s) :
    (∃ d', almostOk d s true = .final d' s ∧ d'.ctx = d.ctx) ∨ (v ≠ 0 ∧ d.dbufOverflow = true ∧ ∃ d', almostOk d s true = .fail d' .fatal) := by
  unfold almostOk
  rw [if_pos rfl, if_neg (by simp [h.state]), h.ricnt]
  by_cases hv : v = 0
  · left; rw [if_neg (by simp [hv])]; exact ⟨_, rfl, rfl⟩
  · rw [if_pos hv]
    unfold Dec.writeSectionAck
    by_cases ho : d.dbufOverflow = true
    · right; rw [if_pos ho]; exact ⟨hv, ho, _, rfl⟩
    · left; rw [if_neg ho]; exact ⟨_, rfl, rfl⟩

/-- what is reported for the field lines of a section -/
def LinesReport (d : Dec) (v : Nat) (o : List Rfc9204.Field × Bool) (r : List QNv × ROut) : Prop :=
  r.1 = o.1.map toNv ∧
  (o.2 = false → ∃ d', r.2 = .fail d' .decompression) ∧
  (o.2 = true → (∃ d' s, r.2 = .final d' s ∧ d'.ctx.table = d.ctx.table) ∨ (v ≠ 0 ∧ d.dbufOverflow = true ∧ ∃ d', r.2 = .fail d' .fatal))

theorem lines_report {d : Dec} (hc : CtxOk d.ctx) {id v base : Nat} {s : SCtx} (h : AtLines id v base s) {ls : List Line} {x : Bytes} (hl : AreLines ls x) :
    LinesReport d v (Rfc9204.fields d.ctx.table v base ls) (secOut d true (rsRun d.ctx (s, []) x false)) := by
  have := rs_lines hc hl h.wf h.state [] []
  rw [List.append_nil, h.ricnt, h.base] at this
  generalize Rfc9204.fields d.ctx.table v base ls = o at this ⊢
  rcases this with ⟨k1, k2⟩ | ⟨k1, s', k2, k3⟩
  · rw [k2]
    exact ⟨by simp [secOut], fun _ => ⟨_, rfl⟩, fun h => by rw [k1] at h; cases h⟩
  · rw [k3, run_nil hc k2.wf]
    refine ⟨by simp [secOut], fun hf => absurd (k1.symm.trans hf) (by simp), fun _ => ?_⟩
    show (∃ d' s, almostOk d s' true = .final d' s ∧ _) ∨ (_ ∧ _ ∧ ∃ d', almostOk d s' true = .fail d' .fatal)
    rcases almostOk_lines d (id := id) (v := v) (base := base) (s := s') ⟨k2.state, k2.ricnt.trans h.ricnt, k2.base.trans h.base, k2.id.trans h.id, k2.wf⟩ with ⟨d', g1, g2⟩ | g
    · left; exact ⟨d', s', g1, by rw [g2]⟩
    · exact Or.inr g

theorem secRun {hard blocked : Nat} {ops : List DOp} {st : DSys} (hr : (DSys.init hard blocked).run ops = some st) (hb : st.d.ctx.bad = false) (id : Nat) (x : Bytes) (fin : Bool) :
    CtxOk st.d.ctx ∧ st.d.ctx.hardMax = hard ∧ st.d.readSection (SCtx.init id) x fin = secOut st.d fin (rsRun st.d.ctx (SCtx.init id, []) x false) := by
  have h := (follows hr).sys
  exact ⟨h.ctx, h.hardEq, readSection_run h.ctx hb _ _ _ (SWF.init id) (fun h => by cases h)⟩

/-- A new field section that consists of a prefix and field lines is decoded as RFC 9204, sections 4.5 and 2.2.1 say, from the table the
decoder then has: a Required Insert Count that does not exist or a negative Base is NGHTTP3_ERR_QPACK_DECOMPRESSION_FAILED; a section that needs
insertions the decoder has not seen is reported as blocked, before any field; otherwise the field lines are reported in their order, up to the
first one with an invalid reference, which is NGHTTP3_ERR_QPACK_DECOMPRESSION_FAILED; if there is none the section is final (or the
acknowledgement does not fit into the buffer for the decoder stream: NGHTTP3_ERR_QPACK_FATAL). -/
theorem C53_section_means_what_it_says (hard blocked : Nat) (ops : List DOp) (st : DSys) (id : Nat) (pre body : Bytes) (e : Nat) (sign : Bool) (delta : Nat) (ls : List Line)
    (hr : (DSys.init hard blocked).run ops = some st) (hb : st.d.ctx.bad = false)
    (hp : Rfc9204.IsPrefix e sign delta pre) (hl : AreLines ls body) :
    ((∀ v, ¬ Rfc9204.IsRequired (hard / 32) st.d.ctx.table.inserted e v) → ∃ d, st.d.readSection (SCtx.init id) (pre ++ body) true = ([], .fail d .decompression)) ∧
    ∀ v, Rfc9204.IsRequired (hard / 32) st.d.ctx.table.inserted e v →
      (Rfc9204.baseOf v sign delta = none → ∃ d, st.d.readSection (SCtx.init id) (pre ++ body) true = ([], .fail d .decompression)) ∧
      ∀ base, Rfc9204.baseOf v sign delta = some base →
        (st.d.ctx.table.inserted < v → ∃ s, st.d.readSection (SCtx.init id) (pre ++ body) true = ([], .blocked st.d s body)) ∧
        (v ≤ st.d.ctx.table.inserted →
          LinesReport st.d v (Rfc9204.fields st.d.ctx.table v base ls) (st.d.readSection (SCtx.init id) (pre ++ body) true)) := by
  obtain ⟨hc, hh, hrun⟩ := secRun hr hb id (pre ++ body) true
  rw [hrun]
  have hpre := rs_prefix hc id [] (pre ++ body)
  rw [(rdPrefix_iff (pre ++ body) e sign delta body).2 ⟨pre, rfl, hp⟩] at hpre
  dsimp only at hpre
  have hiff := reconstruct_iff st.d.ctx e
  rw [hh] at hiff
  constructor
  · intro hn
    rcases hq : reconstructRicnt st.d.ctx e with _ | v <;> rw [hq] at hpre
    · dsimp only at hpre; rw [hpre]; exact ⟨_, rfl⟩
    · exact absurd ((hiff v).1 hq) (hn v)
  · intro v hv
    rw [(hiff v).2 hv] at hpre
    dsimp only at hpre
    constructor
    · intro hn; rw [hn] at hpre; dsimp only at hpre; rw [hpre]; exact ⟨_, rfl⟩
    · intro base hbase
      rw [hbase] at hpre
      dsimp only at hpre
      constructor
      · intro hlt
        rw [if_pos (show st.d.ctx.next < v from hlt)] at hpre
        obtain ⟨s', _, h2⟩ := hpre
        rw [h2]; exact ⟨s', rfl⟩
      · intro hle
        have hle : v ≤ st.d.ctx.next := hle
        rw [if_neg (by omega)] at hpre
        obtain ⟨s', h1, h2⟩ := hpre
        rw [h2]
        exact lines_report hc h1 hl

/-- Nothing else is accepted: if a new section is reported as final, its bytes are a prefix and field lines, all of them valid in the table the
decoder has, and the fields reported are theirs. -/
theorem C53_only_valid_sections_are_final (hard blocked : Nat) (ops : List DOp) (st : DSys) (id : Nat) (x : Bytes) (nvs : List QNv) (d : Dec) (s : SCtx)
    (hr : (DSys.init hard blocked).run ops = some st) (hb : st.d.ctx.bad = false)
    (hx : st.d.readSection (SCtx.init id) x true = (nvs, .final d s)) :
    ∃ pre body e sign delta ls v base fs, x = pre ++ body ∧ Rfc9204.IsPrefix e sign delta pre ∧ AreLines ls body ∧
      Rfc9204.IsRequired (hard / 32) st.d.ctx.table.inserted e v ∧ Rfc9204.baseOf v sign delta = some base ∧ v ≤ st.d.ctx.table.inserted ∧
      Rfc9204.fields st.d.ctx.table v base ls = (fs, true) ∧ nvs = fs.map toNv := by
  obtain ⟨hc, hh, hrun⟩ := secRun hr hb id x true
  rw [hrun] at hx
  have hpre := rs_prefix hc id [] x
  have hiff := reconstruct_iff st.d.ctx
  rw [hh] at hiff
  have hnf : ∀ s2 acc, s2.state ≠ .opcode → secOut st.d true (.ok (s2, acc)) ≠ (nvs, .final d s) := by
    intro s2 acc h2 h
    simp only [secOut, almostOk, ne_eq, h2, not_false_eq_true, if_pos, Prod.mk.injEq] at h
    exact absurd h.2 (by simp)
  rcases hq : rdPrefix x with _ | ⟨e, sg, dl, body⟩ <;> rw [hq] at hpre <;> dsimp only at hpre
  · rcases hpre with ⟨er, h⟩ | ⟨s', h1, h2⟩
    · rw [h] at hx; simp [secOut] at hx
    · rw [h1] at hx; exact absurd hx (hnf _ _ h2)
  obtain ⟨enc, k1, k2⟩ := (rdPrefix_iff x e sg dl body).1 hq
  rcases hv : reconstructRicnt st.d.ctx e with _ | v <;> rw [hv] at hpre <;> dsimp only at hpre
  · rw [hpre] at hx; simp [secOut] at hx
  rcases hbs : Rfc9204.baseOf v sg dl with _ | base <;> rw [hbs] at hpre <;> dsimp only at hpre
  · rw [hpre] at hx; simp [secOut] at hx
  by_cases hlt : st.d.ctx.next < v
  · rw [if_pos hlt] at hpre
    obtain ⟨s', _, h2⟩ := hpre
    rw [h2] at hx; simp [secOut] at hx
  rw [if_neg hlt] at hpre
  obtain ⟨s', h1, h2⟩ := hpre
  rw [h2] at hx
  rcases hrr : rsRun st.d.ctx (s', []) body false with _ | o | ⟨o, r⟩ | ⟨s2, acc⟩ <;> rw [hrr] at hx
  · simp [secOut] at hx
  · rcases o with ⟨er, a⟩ | ⟨_, _⟩ <;> simp [secOut] at hx
  · rcases o with ⟨er, a⟩ | ⟨_, _⟩ <;> simp [secOut] at hx
  by_cases hst : s2.state = .opcode
  · obtain ⟨ls, z1, z2, z3, _⟩ := rs_parse hc _ body (Nat.le_refl _) h1.wf h1.state [] s2 acc hrr hst
    rw [h1.ricnt, h1.base] at z2 z3
    refine ⟨enc, body, e, sg, dl, ls, v, base, (Rfc9204.fields st.d.ctx.table v base ls).1, k1, k2, z1, (hiff e v).1 hv, hbs, by show v ≤ st.d.ctx.next; omega, ?_, ?_⟩
    · rw [← z2]
    · have : nvs = acc := by simp [secOut] at hx; exact hx.1.symm
      rw [this, z3]; rfl
  · exact absurd hx (hnf _ _ hst)

/-- A section that was blocked is decoded, once the insertions have arrived, with its own Required Insert Count and Base, and the table of that
later moment; until then it stays blocked. -/
theorem C53_blocked_section_resumes (hard blocked : Nat) (ops ops' : List DOp) (st st' : DSys) (id : Nat) (pre body : Bytes) (e : Nat) (sign : Bool) (delta : Nat)
    (ls : List Line) (v base : Nat) (d : Dec) (s : SCtx)
    (hr : (DSys.init hard blocked).run ops = some st) (hb : st.d.ctx.bad = false)
    (hp : Rfc9204.IsPrefix e sign delta pre) (hl : AreLines ls body) (hne : body ≠ [])
    (hv : Rfc9204.IsRequired (hard / 32) st.d.ctx.table.inserted e v) (hbase : Rfc9204.baseOf v sign delta = some base)
    (hblk : st.d.readSection (SCtx.init id) (pre ++ body) true = ([], .blocked d s body))
    (hr' : (DSys.init hard blocked).run ops' = some st') (hb' : st'.d.ctx.bad = false) :
    (st'.d.ctx.table.inserted < v → st'.d.readSection s body true = ([], .blocked st'.d s body)) ∧
    (v ≤ st'.d.ctx.table.inserted → LinesReport st'.d v (Rfc9204.fields st'.d.ctx.table v base ls) (st'.d.readSection s body true)) := by
  obtain ⟨hc, hh, hrun⟩ := secRun hr hb id (pre ++ body) true
  rw [hrun] at hblk
  have hpre := rs_prefix hc id [] (pre ++ body)
  rw [(rdPrefix_iff (pre ++ body) e sign delta body).2 ⟨pre, rfl, hp⟩] at hpre
  dsimp only at hpre
  have hiff := reconstruct_iff st.d.ctx e
  rw [hh] at hiff
  rw [(hiff v).2 hv] at hpre
  dsimp only at hpre
  rw [hbase] at hpre
  dsimp only at hpre
  have hw : Waits id v base s := by
    by_cases hlt : st.d.ctx.next < v
    · rw [if_pos hlt] at hpre
      obtain ⟨s', h1, h2⟩ := hpre
      rw [h2] at hblk
      simp only [secOut, Prod.mk.injEq, ROut.blocked.injEq] at hblk
      rw [← hblk.2.2.1]; exact h1
    · rw [if_neg hlt] at hpre
      obtain ⟨s', h1, h2⟩ := hpre
      rw [h2] at hblk
      rcases rs_lines hc hl h1.wf h1.state [] [] with ⟨_, k2⟩ | ⟨_, s2, k2, k3⟩
      · rw [List.append_nil] at k2; rw [k2] at hblk; simp [secOut] at hblk
      · rw [List.append_nil] at k3; rw [k3, run_nil hc k2.wf] at hblk
        simp only [secOut, Prod.mk.injEq] at hblk
        rcases almostOk_lines st.d (id := s2.streamId) (v := s2.ricnt) (base := s2.base) (s := s2) ⟨k2.state, rfl, rfl, rfl, k2.wf⟩ with ⟨d', g1, g2⟩ | ⟨_, _, d', g1⟩ <;>
          rw [g1] at hblk <;> exact absurd hblk.2 (by simp)
  have hs' := (follows hr').sys
  have hrun' := readSection_run hs'.ctx hb' s body true (by unfold SWF; rw [hw.state]; trivial) (fun h => by rw [hw.state] at h; cases h)
  have hres := rs_resume hs'.ctx hw [] body hne
  rw [hrun']
  constructor
  · intro hlt
    rw [if_pos (show st'.d.ctx.next < v from hlt)] at hres
    rw [hres]; rfl
  · intro hle
    have hle : v ≤ st'.d.ctx.next := hle
    rw [if_neg (by omega)] at hres
    obtain ⟨s2, h1, h2⟩ := hres
    rw [h2]
    exact lines_report hs'.ctx h1 hl

/-! ### The example of RFC 9204, Appendix B.2 -/

/-- Set Dynamic Table Capacity 220, Insert With Name Reference 0 `www.example.com`, Insert With Name Reference 1 `/sample/path` -/
def b2Enc : Qpack.Bytes := [0x3f, 0xbd, 0x01, 0xc0, 0x0f, 0x77, 0x77, 0x77, 0x2e, 0x65, 0x78, 0x61, 0x6d, 0x70, 0x6c, 0x65, 0x2e, 0x63, 0x6f, 0x6d,
  0xc1, 0x0c, 0x2f, 0x73, 0x61, 0x6d, 0x70, 0x6c, 0x65, 0x2f, 0x70, 0x61, 0x74, 0x68]

def wwwExample : Qpack.Bytes := [0x77, 0x77, 0x77, 0x2e, 0x65, 0x78, 0x61, 0x6d, 0x70, 0x6c, 0x65, 0x2e, 0x63, 0x6f, 0x6d]
def samplePath : Qpack.Bytes := [0x2f, 0x73, 0x61, 0x6d, 0x70, 0x6c, 0x65, 0x2f, 0x70, 0x61, 0x74, 0x68]

def b2Instrs : List Instr := [.setCapacity 220, .insertStaticName 0 wwwExample, .insertStaticName 1 samplePath]

/-- the prefix 03 81 and the lines 10, 11 -/
def b2Lines : List Line := [.postBase 0, .postBase 1]

theorem b2_one {p top n : Nat} {b : UInt8} (h1 : b.toNat / 2 ^ p = top) (h2 : b.toNat % 2 ^ p < 2 ^ p - 1) (h3 : b.toNat % 2 ^ p = n) (h4 : n ≤ 2 ^ 62 - 1) :
    Rfc9204.IntAs p top [b] n := ⟨⟨_, _, rfl, h1⟩, Or.inl ⟨rfl, h2, h3.symm⟩, h4, by simp⟩

/-- the bytes are those instructions, the instructions are valid with a limit of 220, and give the table the RFC shows: hypotheses of
`C53_valid_instructions_accepted` -/
theorem b2_instrs : AreInstrs b2Instrs b2Enc := by
  refine ⟨[0x3f, 0xbd, 0x01], _, rfl, ⟨⟨_, _, rfl, by decide⟩, Or.inr ⟨by decide, ⟨by decide, by show (1 : UInt8).toNat < 128; decide⟩, by decide⟩, by decide, by decide⟩, ?_⟩
  refine ⟨[0xc0, 0x0f, 0x77, 0x77, 0x77, 0x2e, 0x65, 0x78, 0x61, 0x6d, 0x70, 0x6c, 0x65, 0x2e, 0x63, 0x6f, 0x6d], _, rfl, ?_, ?_⟩
  · exact ⟨[0xc0], _, rfl, (b2_one (by decide) (by decide) (by decide) (by decide)), [0x0f], wwwExample, rfl, by decide,
      Or.inl ⟨(b2_one (by decide) (by decide) (by decide) (by decide)), rfl⟩⟩
  refine ⟨[0xc1, 0x0c, 0x2f, 0x73, 0x61, 0x6d, 0x70, 0x6c, 0x65, 0x2f, 0x70, 0x61, 0x74, 0x68], [], rfl, ?_, rfl⟩
  exact ⟨[0xc1], _, rfl, (b2_one (by decide) (by decide) (by decide) (by decide)), [0x0c], samplePath, rfl, by decide,
    Or.inl ⟨(b2_one (by decide) (by decide) (by decide) (by decide)), rfl⟩⟩

example : (Table.applyAll 220 {} b2Instrs).map (fun t => (t.cap, t.inserted, t.entries)) =
    some (220, 2, [([0x3a, 0x70, 0x61, 0x74, 0x68], samplePath), ([0x3a, 0x61, 0x75, 0x74, 0x68, 0x6f, 0x72, 0x69, 0x74, 0x79], wwwExample)]) := by decide +kernel

/-- in pieces, with a request stream in between -/
def b2Ops : List DOp := [.enc (b2Enc.take 7), .req 4 [0x03] false, .enc ((b2Enc.drop 7).take 20)]

example : ((DSys.init 220 1).run b2Ops).map (fun st => (st.d.ctx.bad, (DSys.init 220 1).fed b2Ops ++ b2Enc.drop 27 == b2Enc, decide (st.d.uninterrupted ≤ 1000))) =
    some (false, true, true) := by decide +kernel

/-- with an announced limit of 219 the first instruction is invalid: hypotheses of `C53_invalid_instructions_refused` -/
example : Table.applyAll 219 {} b2Instrs = none := by rfl

/-- the section of Appendix B.2: hypotheses of `C53_section_means_what_it_says`, blocked before the insertions and decoded after them -/
example : Rfc9204.IsPrefix 3 true 1 [0x03, 0x81] ∧ AreLines b2Lines [0x10, 0x11] ∧ Rfc9204.baseOf 2 true 1 = some 0 ∧
    Rfc9204.IsRequired (220 / 32) 0 3 2 ∧ Rfc9204.IsRequired (220 / 32) 2 3 2 := by
  refine ⟨⟨[0x03], [0x81], rfl, (b2_one (by decide) (by decide) (by decide) (by decide)), (b2_one (by decide) (by decide) (by decide) (by decide))⟩, ?_, rfl,
    Or.inr (by decide), Or.inr (by decide)⟩
  exact ⟨[0x10], [0x11], rfl, (b2_one (by decide) (by decide) (by decide) (by decide)), [0x11], [], rfl, (b2_one (by decide) (by decide) (by decide) (by decide)), rfl⟩

example : (((Dec.init 220 1).readSection (SCtx.init 4) [0x03, 0x81, 0x10, 0x11] true).1, match ((Dec.init 220 1).readSection (SCtx.init 4) [0x03, 0x81, 0x10, 0x11] true).2 with
    | .blocked _ _ rest => rest | _ => []) = ([], [0x10, 0x11]) := by decide +kernel

example : ((DSys.init 220 1).run [.enc b2Enc]).map (fun st => match st.d.readSection (SCtx.init 4) [0x03, 0x81, 0x10, 0x11] true with
    | (nvs, .final _ _) => nvs.map fun nv => (nv.name, nv.value) | _ => []) =
    some [([0x3a, 0x61, 0x75, 0x74, 0x68, 0x6f, 0x72, 0x69, 0x74, 0x79], wwwExample), ([0x3a, 0x70, 0x61, 0x74, 0x68], samplePath)] := by decide +kernel

end Props
end Nghttp3
