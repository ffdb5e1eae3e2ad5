import Verif.Lemmas.BidiKeep
import Verif.Lemmas.NetRun
import Verif.Spec.Life
/-! What the callbacks of a request stream say about the message that has been received so far. -/
namespace Nghttp3
namespace Bidi
open Http Qpack

variable {c : Cfg} {m0 : Msg} {r : Bool}

abbrev frames (c : Cfg) (m0 : Msg) (frs : List Frm) : List Cb × MRes := onFrames c.pp (c.server && c.ext) m0 frs

/-- given up because of GOAWAY -/
def Refused (ev : List Ev) : Prop := loud ev = [.stopSending 0x010b, .resetStream 0x010b]

/-- given up because a header section is malformed -/
def Malformed (c : Cfg) (m0 : Msg) (ev : List Ev) : Prop :=
  ∃ b, loud ev = b ++ [.stopSending 0x010e, .resetStream 0x010e] ∧ Plain b ∧ ∃ frs, frames c m0 frs = (cbs b, .malformedHeader)

/-- the state of the stream fits its callbacks `ev` -/
inductive Prog (c : Cfg) (m0 : Msg) (s : Str) (ev : List Ev) : Bool → Prop
  | frame (frs : List Frm) (hr : s.rst = .frameType ∨ s.rst = .frameLen ∨ s.rst = .ignFrame) (hp : Plain ev) (h : frames c m0 frs = (cbs ev, .ok ⟨s.h, s.http⟩)) : Prog c m0 s ev false
  | data (frs : List Frm) (ps : List Nat) (m : Msg) (a b : List Cb) (hr : s.rst = .data) (hp : Plain ev) (h : frames c m0 frs = (a, .ok m))
      (ht : transit m.h m.s .dataBegin = .ok s.h) (hd : onData m.s ps = (b, some s.http)) (he : cbs ev = a ++ b) : Prog c m0 s ev false
  | headers (frs : List Frm) (fs out : List Field) (m : Msg) (a : List Cb) (hr : s.rst = .headers) (hp : Plain ev) (h : frames c m0 frs = (a, .ok m))
      (ht : transit m.h m.s .headersBegin = .ok s.h)
      (hd : runFields c.pp (isRequest s.h) (isTrailers s.h) (c.server && c.ext) m.s fs = (out, some s.http))
      (he : cbs ev = a ++ (if isTrailers s.h then .beginTrailers else .beginHeaders) :: out.map (if isTrailers s.h then .trailer else .header)) : Prog c m0 s ev false
  | refused (hr : s.rst = .ignRest) (h : Refused ev) : Prog c m0 s ev true
  | over (hr : s.rst = .ignRest) (h : Malformed c m0 ev) : Prog c m0 s ev false
  | ended (frs : List Frm) (b : List Ev) (hr : s.rst = .frameType ∨ s.rst = .frameLen ∨ s.rst = .ignFrame) (hh : s.h = .reqEnd ∨ s.h = .respEnd)
      (hl : loud ev = b ++ [.endStream]) (hp : Plain b) (h : onMessage c.pp (c.server && c.ext) m0 frs = (cbs b ++ [.endStream], .ok ⟨s.h, s.http⟩)) : Prog c m0 s ev false

/-! ### lists of callbacks -/

theorem cbs_append (a b : List Ev) : cbs (a ++ b) = cbs a ++ cbs b := List.filterMap_append ..
theorem loud_append (a b : List Ev) : loud (a ++ b) = loud a ++ loud b := List.filter_append ..
theorem Plain.nil : Plain [] := fun _ h => by cases h
theorem Plain.app {a b : List Ev} (h1 : Plain a) (h2 : Plain b) : Plain (a ++ b) := fun e h => (List.mem_append.1 h).elim (h1 e) (h2 e)
theorem Plain.one {e : Ev} (h : e.signal = false) : Plain [e] := fun e' g => by rw [List.mem_singleton.1 g]; exact h
theorem Plain.loud {a : List Ev} (h : Plain a) : Plain (Bidi.loud a) := fun e g => h e (List.mem_filter.1 g).1

theorem cbs_loud (a : List Ev) : cbs (loud a) = cbs a := by
  induction a with
  | nil => rfl
  | cons e t ih =>
    unfold loud cbs at *
    rw [List.filter_cons]
    cases e <;> simp [Ev.loud, Ev.cb, List.filterMap_cons] at ih ⊢ <;> exact ih

/-- deferred_consume and the priority signal change nothing -/
def Quiet (q : List Ev) : Prop := ∀ e ∈ q, e.loud = false

theorem Quiet.loud {q : List Ev} (h : Quiet q) : Bidi.loud q = [] := List.filter_eq_nil_iff.2 fun e g => by rw [h e g]; simp
theorem Quiet.cbs {q : List Ev} (h : Quiet q) : Bidi.cbs q = [] := by rw [← cbs_loud, h.loud]; rfl
theorem Quiet.plain {q : List Ev} (h : Quiet q) : Plain q := fun e g => by have := h e g; cases e <;> first | rfl | (cases this)

theorem deferred_quiet (n : Nat) : Quiet (deferred n) := by
  unfold deferred
  split_ifs
  · intro e h; cases h
  · intro e h; rw [List.mem_singleton.1 h]; rfl

theorem Prog.quiet {s : Str} {ev q : List Ev} (h : Prog c m0 s ev r) (hq : Quiet q) : Prog c m0 s (ev ++ q) r := by
  have h1 : cbs (ev ++ q) = cbs ev := by rw [cbs_append, hq.cbs, List.append_nil]
  have h2 : loud (ev ++ q) = loud ev := by rw [loud_append, hq.loud, List.append_nil]
  cases h with
  | frame frs hr hp h => exact .frame frs hr (hp.app hq.plain) (by rw [h1]; exact h)
  | data frs ps m a b hr hp h ht hd he => exact .data frs ps m a b hr (hp.app hq.plain) h ht hd (by rw [h1]; exact he)
  | headers frs fs out m a hr hp h ht hd he => exact .headers frs fs out m a hr (hp.app hq.plain) h ht hd (by rw [h1]; exact he)
  | refused hr h => exact .refused hr (by unfold Refused; rw [h2]; exact h)
  | over hr h => exact .over hr (by unfold Malformed; rw [h2]; exact h)
  | ended frs b hr hh hl hp h => exact .ended frs b hr hh (by rw [h2]; exact hl) hp h

/-- only these fields count -/
theorem Prog.same {s s' : Str} {ev : List Ev} (h : Prog c m0 s ev r) (h1 : s'.rst = s.rst) (h2 : s'.h = s.h) (h3 : s'.http = s.http) : Prog c m0 s' ev r := by
  cases h with
  | frame frs hr hp h => exact .frame frs (by rw [h1]; exact hr) hp (by rw [h2, h3]; exact h)
  | data frs ps m a b hr hp h ht hd he => exact .data frs ps m a b (h1.trans hr) hp h (by rw [h2]; exact ht) (by rw [h3]; exact hd) he
  | headers frs fs out m a hr hp h ht hd he =>
    exact .headers frs fs out m a (h1.trans hr) hp h (by rw [h2]; exact ht) (by rw [h2, h3]; exact hd) (by rw [h2]; exact he)
  | refused hr h => exact .refused (h1.trans hr) h
  | over hr h => exact .over (h1.trans hr) h
  | ended frs b hr hh hl hp h => exact .ended frs b (by rw [h1]; exact hr) (by rw [h2]; exact hh) hl hp (by rw [h2, h3]; exact h)

/-! ### frames -/

theorem frames_snoc {frs : List Frm} {a : List Cb} {m : Msg} (h : frames c m0 frs = (a, .ok m)) (f : Frm) :
    frames c m0 (frs ++ [f]) = (a ++ (onFrame c.pp (c.server && c.ext) m f).1, (onFrame c.pp (c.server && c.ext) m f).2) := by
  unfold frames at *
  rw [Net.onFrames_append, h]
  dsimp only
  rw [onFrames]
  rcases onFrame c.pp (c.server && c.ext) m f with ⟨cb, _ | _ | _ | _ | m'⟩ <;> dsimp only
  rw [onFrames, List.append_nil]

theorem onData_snoc {s s' s'' : State} {ps : List Nat} {b : List Cb} {n : Nat} (h : onData s ps = (b, some s')) (h' : onDataChunk s' n = some s'') :
    onData s (ps ++ [n]) = (b ++ [.data n], some s'') := by
  induction ps generalizing s b with
  | nil =>
    cases h
    rw [List.nil_append, onData, h']
    rfl
  | cons p t ih =>
    rw [onData] at h
    rw [List.cons_append, onData]
    generalize onDataChunk s p = o at h ⊢
    rcases o with _ | s1 <;> dsimp only at h ⊢
    · cases h
    obtain ⟨h1, h2⟩ := Prod.mk.inj h
    have := ih (s := s1) (b := (onData s1 t).1) (by rw [← h2])
    rw [this, ← h1]
    rfl

theorem frame_data {m : Msg} {h h' : Hs} {s : State} {ps : List Nat} {b : List Cb} (ht : transit m.h m.s .dataBegin = .ok h) (hd : onData m.s ps = (b, some s))
    (he : transit h s .dataEnd = .ok h') : onFrame c.pp (c.server && c.ext) m (.data ps) = (b, .ok ⟨h', s⟩) := by
  rw [onFrame, ht]
  dsimp only [Tr.bind]
  rw [hd]
  dsimp only
  rw [he]
  dsimp only [Tr.bind]
  rw [List.append_nil]

theorem frame_sec {m : Msg} {h h' : Hs} {s s' : State} {fs out : List Field} (ht : transit m.h m.s .headersBegin = .ok h)
    (hd : runFields c.pp (isRequest h) (isTrailers h) (c.server && c.ext) m.s fs = (out, some s)) (hs : endSection h s = some s') (he : transit h s' .headersEnd = .ok h') :
    onFrame c.pp (c.server && c.ext) m (.headers (some fs)) =
      ((if isTrailers h then .beginTrailers else .beginHeaders) :: out.map (if isTrailers h then .trailer else .header) ++ [if isTrailers h then .endTrailers else .endHeaders], .ok ⟨h', s'⟩) := by
  rw [onFrame, ht]
  dsimp only [Tr.bind]
  rw [hd]
  dsimp only [Option.bind]
  rw [hs]
  dsimp only
  rw [he]

theorem frame_bad {m : Msg} {h : Hs} {s : Option State} {fs out : List Field} (ht : transit m.h m.s .headersBegin = .ok h)
    (hd : runFields c.pp (isRequest h) (isTrailers h) (c.server && c.ext) m.s fs = (out, s)) (hs : s.bind (endSection h) = none) :
    onFrame c.pp (c.server && c.ext) m (.headers (some fs)) =
      ((if isTrailers h then .beginTrailers else .beginHeaders) :: out.map (if isTrailers h then .trailer else .header), .malformedHeader) := by
  rw [onFrame, ht]
  dsimp only [Tr.bind]
  rw [hd]
  dsimp only
  rw [hs]

/-! ### one pass -/

def BProg (c : Cfg) (m0 : Msg) (r : Bool) (ev0 : List Ev) : BRes → Prop
  | .crash => True
  | .fail _ => True
  | .cont s' _ _ _ ev _ => Prog c m0 s' (ev0 ++ ev) r
  | .ret s' _ ev _ => Prog c m0 s' (ev0 ++ ev) r
  | .blocked s' _ _ ev _ => Prog c m0 s' (ev0 ++ ev) r

theorem end_none {e : Hev} {h : Hs} (hh : h = .reqEnd ∨ h = .respEnd) (http : State) : transit h http e = .unexpected := by
  rcases hh with rfl | rfl <;> rfl

theorem end_to {h h' : Hs} {http : State} (ht : transit h http .msgEnd = .ok h') : h' = .reqEnd ∨ h' = .respEnd := by
  unfold transit trEnd at ht
  cases h <;> simp at ht <;> first | (cases ht; done) | (obtain ⟨_, rfl⟩ := ht; simp; done) | (split_ifs at ht; cases ht; simp)

theorem frameHead_prog {s : Str} {ev : List Ev} (hr : s.rst = .frameLen) (h : Prog c m0 s ev r) (d : Dec) (rest : Bytes) (n : Nat) : BProg c m0 r ev (frameHead s d rest n) := by
  cases h with
  | data frs ps m a b hr' => rw [hr] at hr'; cases hr'
  | headers frs fs out m a hr' => rw [hr] at hr'; cases hr'
  | over hr' => rw [hr] at hr'; cases hr'
  | refused hr' => rw [hr] at hr'; cases hr'
  | ended frs b hr hh hl hp h =>
    unfold frameHead transitOr
    rw [end_none hh, end_none hh]
    split_ifs
    · trivial
    · trivial
    · trivial
    · show Prog _ _ _ _ _
      rw [List.append_nil]
      exact .ended frs b (.inr (.inr rfl)) hh hl hp h
  | frame frs hr' hp h =>
    unfold frameHead transitOr
    by_cases h1 : s.ftype = FRAME_DATA
    · rw [if_pos h1]
      rcases ht : transit s.h s.http .dataBegin with _ | _ | _ | h' <;> dsimp only
      all_goals first | trivial | skip
      by_cases h0 : s.left = 0
      · rw [if_pos h0]
        unfold endFrame
        dsimp only
        rcases ht' : transit h' s.http .dataEnd with _ | _ | _ | h2 <;> dsimp only
        all_goals first | trivial | skip
        show Prog _ _ _ _ _
        rw [List.append_nil]
        refine .frame (frs ++ [.data []]) (.inl rfl) hp ?_
        rw [frames_snoc h, frame_data (m := ⟨s.h, s.http⟩) ht rfl ht', List.append_nil]
        rfl
      · rw [if_neg h0]
        show Prog _ _ _ _ _
        rw [List.append_nil]
        exact .data frs [] ⟨s.h, s.http⟩ (cbs ev) [] rfl hp h ht rfl (by rw [List.append_nil])
    · rw [if_neg h1]
      by_cases h2 : s.ftype = FRAME_HEADERS
      · rw [if_pos h2]
        rcases ht : transit s.h s.http .headersBegin with _ | _ | _ | h' <;> dsimp only
        all_goals first | trivial | skip
        by_cases h0 : s.left = 0
        · rw [if_pos h0]
          by_cases he : emptyHeadersAllowed h' = true
          · rw [if_pos he]
            unfold endFrame
            dsimp only
            rcases ht' : transit h' s.http .headersEnd with _ | _ | _ | h2 <;> dsimp only
            all_goals first | trivial | skip
            show Prog _ _ _ _ _
            rw [List.append_nil]
            refine .frame (frs ++ [.headers none]) (.inl rfl) hp ?_
            rw [frames_snoc h, onFrame]
            dsimp only
            rw [ht]
            dsimp only [Tr.bind]
            rw [if_pos he, ht', List.append_nil]
            rfl
          · rw [if_neg he]; trivial
        · rw [if_neg h0]
          have key : ∀ e : Ev, e.signal = false → e.cb = some (if isTrailers h' then Cb.beginTrailers else Cb.beginHeaders) →
              Prog c m0 { s with h := h', rst := .headers } (ev ++ [e]) false := by
            intro e he1 he2
            refine .headers frs [] [] ⟨s.h, s.http⟩ (cbs ev) rfl (hp.app (.one he1)) h ht rfl ?_
            rw [cbs_append]
            unfold cbs
            rw [List.filterMap_cons, he2]
            rfl
          cases h' <;> first | trivial | exact key _ rfl rfl
      · rw [if_neg h2]
        split_ifs
        · trivial
        · show Prog _ _ _ _ _
          rw [List.append_nil]
          exact .frame frs (.inr (.inr rfl)) hp h

/-- a section is being decoded -/
structure Sec (c : Cfg) (h : Hs) (s0 : State) (a : List Cb) (ev : List Ev) (http : State) : Prop where
  plain : Plain ev
  ex : ∃ fs out, runFields c.pp (isRequest h) (isTrailers h) (c.server && c.ext) s0 fs = (out, some http) ∧
    cbs ev = a ++ out.map (if isTrailers h then .trailer else .header)

/-- a field of the section is malformed -/
def Bad (c : Cfg) (h : Hs) (s0 : State) (a : List Cb) (ev : List Ev) : Prop :=
  Plain ev ∧ ∃ fs out, runFields c.pp (isRequest h) (isTrailers h) (c.server && c.ext) s0 fs = (out, none) ∧
    cbs ev = a ++ out.map (if isTrailers h then .trailer else .header)

def DSec (c : Cfg) (h : Hs) (s0 : State) (a : List Cb) (ev : List Ev) : DRes → Prop
  | .crash => True
  | .fail _ => True
  | .malformed _ => Bad c h s0 a ev
  | .more _ _ http => Sec c h s0 a ev http
  | .done _ _ http => Sec c h s0 a ev http
  | .blocked _ _ http _ => Sec c h s0 a ev http

theorem fieldEv_cb (h : Hs) (nv : QNv) : cbs [fieldEv h nv] = [(if isTrailers h then Cb.trailer else Cb.header) (QNv.field nv)] ∧ (fieldEv h nv).signal = false := by
  unfold fieldEv
  cases isTrailers h <;> exact ⟨rfl, rfl⟩

theorem decLoop_sec {h : Hs} {s0 : State} {a : List Cb} {ev0 : List Ev} (fin : Bool) (f : Nat) (d : Dec) (s : SCtx) (http : State) (src : Bytes) (acc : List Ev)
    (hc : CtxOk d.ctx) (hs : Sec c h s0 a (ev0 ++ acc) http) :
    DSec c h s0 a (ev0 ++ (decLoop c h f d s http src fin acc).1) (decLoop c h f d s http src fin acc).2 := by
  induction f generalizing d s http src acc with
  | zero => trivial
  | succ f ih =>
    unfold decLoop
    have h1 := readRequest_id d hc fin s src
    have h2 := readRequest_same d s src fin
    rcases hr : d.readRequest s src fin with _ | ⟨d', e⟩ | ⟨d', s'⟩ | ⟨d', s'⟩ | ⟨d', s', nv, rest⟩ | ⟨d', s', rest⟩ <;> rw [hr] at h1 h2 <;> dsimp only at h1 h2 ⊢
    all_goals first | trivial | exact hs | skip
    split_ifs
    · exact hs
    · obtain ⟨p1, fs, out, p2, p3⟩ := hs
      have hn : onHeader c.pp http (QNv.field nv) (lookupToken (QNv.field nv).name) (isRequest h) (isTrailers h) (c.server && c.ext) = fieldRes c h http nv := by
        unfold fieldRes
        rw [h1.2]; rfl
      have hrun : runFields c.pp (isRequest h) (isTrailers h) (c.server && c.ext) s0 (fs ++ [QNv.field nv]) =
          (out ++ (runFields c.pp (isRequest h) (isTrailers h) (c.server && c.ext) http [QNv.field nv]).1, (runFields c.pp (isRequest h) (isTrailers h) (c.server && c.ext) http [QNv.field nv]).2) := by
        rw [Net.runFields_append, p2]
      rw [runFields, hn] at hrun
      have hc' : CtxOk d'.ctx := by rw [h2.1]; exact hc
      generalize fieldRes c h http nv = o at hrun ⊢
      rcases o with _ | http' | http' <;> dsimp only [runFields] at hrun ⊢
      · rw [List.append_nil] at hrun
        exact ⟨p1, _, _, hrun, p3⟩
      · rw [List.append_nil] at hrun
        exact ih d' s' http' rest acc hc' ⟨p1, _, _, hrun, p3⟩
      · refine ih d' s' http' rest (acc ++ [fieldEv h nv]) hc' ⟨?_, _, _, hrun, ?_⟩
        · rw [← List.append_assoc]; exact p1.app (.one (fieldEv_cb h nv).2)
        · rw [← List.append_assoc, cbs_append, p3, (fieldEv_cb h nv).1, List.map_append, List.append_assoc]; rfl

theorem onHeaders_sec {h : Hs} {s0 : State} {a : List Cb} {ev0 : List Ev} (d : Dec) (s : SCtx) (http : State) (src : Bytes) (fin : Bool)
    (hc : CtxOk d.ctx) (hs : Sec c h s0 a ev0 http) :
    DSec c h s0 a (ev0 ++ (onHeaders c h d s http src fin).1) (onHeaders c h d s http src fin).2 := by
  have hs' : Sec c h s0 a (ev0 ++ []) http := by rw [List.append_nil]; exact hs
  unfold onHeaders
  split_ifs
  · exact hs'
  · exact decLoop_sec fin _ d s http src [] hc hs'

theorem loud_plain_signals (ev : List Ev) : loud (ev ++ [.stopSending 0x010e, .resetStream 0x010e]) = loud ev ++ [.stopSending 0x010e, .resetStream 0x010e] := by
  rw [loud_append]; rfl

theorem headerError_prog {s : Str} {frs : List Frm} {m : Msg} {a : List Cb} {ev0 ev : List Ev} (d : Dec) (rest : Bytes) (n : Nat) (hf : frames c m0 frs = (a, .ok m)) {fs : List Field} {l : List Cb}
    (hp : Plain (ev0 ++ ev)) (h : onFrame c.pp (c.server && c.ext) m (.headers (some fs)) = (l, .malformedHeader)) (he : cbs (ev0 ++ ev) = a ++ l) :
    BProg c m0 false ev0 (headerError s d rest ev n) := by
  unfold headerError
  show Prog _ _ _ _ _
  refine .over rfl ⟨loud (ev0 ++ ev), ?_, hp.loud, frs ++ [.headers (some fs)], ?_⟩
  · rw [← List.append_assoc, loud_plain_signals]
  · rw [frames_snoc hf, h, cbs_loud, he]

theorem sectionEnd_prog {s : Str} {frs : List Frm} {m : Msg} {a : List Cb} {ev0 ev : List Ev} (last : Bool) (d : Dec) (rest : Bytes) (n : Nat) (hf : frames c m0 frs = (a, .ok m))
    (ht : transit m.h m.s .headersBegin = .ok s.h)
    (hs : Sec c s.h m.s (a ++ [if isTrailers s.h then .beginTrailers else .beginHeaders]) (ev0 ++ ev) s.http) : BProg c m0 false ev0 (sectionEnd c last s d rest ev n) := by
  obtain ⟨hp, fs, out, h1, h2⟩ := hs
  rw [List.append_assoc, List.singleton_append] at h2
  unfold sectionEnd
  rcases he : endSection s.h s.http with _ | http <;> dsimp only
  · exact headerError_prog d rest n hf hp (frame_bad ht h1 (by exact he)) h2
  · have key : ∀ l : List Ev, Plain l → cbs l = [if isTrailers s.h then Cb.endTrailers else .endHeaders] →
        BProg c m0 false ev0 (endFrame { s with http := http } d .headersEnd rest (ev ++ l) n) := by
      intro l hl hl'
      unfold endFrame
      dsimp only
      rcases ht' : transit s.h http .headersEnd with _ | _ | _ | h' <;> dsimp only
      all_goals first | trivial | skip
      refine .frame (frs ++ [.headers (some fs)]) (.inl rfl) (by rw [← List.append_assoc]; exact hp.app hl) ?_
      rw [frames_snoc hf, frame_sec ht h1 he ht', ← List.append_assoc ev0, cbs_append, h2, hl', List.append_assoc]
      rfl
    have hpri : ∀ (b : Bool) (p : Pri), Quiet (if b then [Ev.priority p] else []) := by
      intro b p e h
      split_ifs at h
      · rw [List.mem_singleton.1 h]; rfl
      · cases h
    cases hh : s.h with
    | reqHeadersBegin =>
      rw [hh] at key
      dsimp only
      rw [List.append_assoc]
      refine key _ ((hpri _ _).plain.app (.one rfl)) ?_
      rw [cbs_append, (hpri _ _).cbs]
      rfl
    | respHeadersBegin => rw [hh] at key; exact key _ (.one rfl) rfl
    | reqTrailersBegin => rw [hh] at key; exact key _ (.one rfl) rfl
    | respTrailersBegin => rw [hh] at key; exact key _ (.one rfl) rfl
    | _ => trivial

theorem step_prog (room fin : Bool) {s : Str} {d : Dec} {ev : List Ev} (hi : Inv s d) (h : Prog c m0 s ev r) (x : Bytes) : BProg c m0 r ev (step c room fin s d x) := by
  unfold step
  cases hr : s.rst with
  | frameType =>
    dsimp only
    have hs : ∀ (s' : Str), (s'.rst = .frameType ∨ s'.rst = .frameLen) → s'.h = s.h → s'.http = s.http → Prog c m0 s' (ev ++ []) r := by
      intro s' h1 h2 h3
      rw [List.append_nil]
      cases h with
      | frame frs hr hp h => exact .frame frs (h1.imp_right .inl) hp (by rw [h2, h3]; exact h)
      | data frs ps m a b hr' => rw [hr] at hr'; cases hr'
      | headers frs fs out m a hr' => rw [hr] at hr'; cases hr'
      | over hr' => rw [hr] at hr'; cases hr'
      | refused hr' => rw [hr] at hr'; cases hr'
      | ended frs b hr hh hl hp h => exact .ended frs b (h1.imp_right .inl) (by rw [h2]; exact hh) hl hp (by rw [h2, h3]; exact h)
    rcases rd s.rv x fin with _ | _ | rv | ⟨v, k⟩
    · trivial
    · trivial
    · exact hs _ (.inl rfl) rfl rfl
    · exact hs _ (.inr rfl) rfl rfl
  | frameLen =>
    dsimp only
    rcases rd s.rv x fin with _ | _ | rv | ⟨v, k⟩
    · trivial
    · trivial
    · show Prog _ _ _ _ _
      rw [List.append_nil]
      exact h.same hr.symm rfl rfl
    · exact frameHead_prog rfl (h.same (s' := { s with rst := .frameLen, rv := {}, left := v }) hr.symm rfl rfl) d _ _
  | data =>
    cases h with
    | frame frs hr' => rw [hr] at hr'; rcases hr' with g | g | g <;> cases g
    | ended frs b hr' => rw [hr] at hr'; rcases hr' with g | g | g <;> cases g
    | headers frs fs out m a hr' => rw [hr] at hr'; cases hr'
    | over hr' => rw [hr] at hr'; cases hr'
    | refused hr' => rw [hr] at hr'; cases hr'
    | data frs ps m a b _ hp h ht hd he =>
      show BProg c m0 false ev (dataStep s d x)
      unfold dataStep
      dsimp only
      rcases h1 : onDataChunk s.http (x.take s.left).length with _ | http <;> dsimp only
      · trivial
      have h2 := onData_snoc hd h1
      have h3 : cbs (ev ++ [.data (x.take s.left)]) = a ++ (b ++ [.data (x.take s.left).length]) := by
        rw [cbs_append, he, List.append_assoc]; rfl
      split_ifs
      · exact .data frs _ m a _ hr (hp.app (.one rfl)) h ht h2 h3
      · unfold endFrame
        dsimp only
        rcases ht' : transit s.h http .dataEnd with _ | _ | _ | h' <;> dsimp only
        all_goals first | trivial | skip
        refine .frame (frs ++ [.data (ps ++ [(x.take s.left).length])]) (.inl rfl) (hp.app (.one rfl)) ?_
        rw [frames_snoc h, frame_data ht h2 ht', h3]
        rfl
  | headers =>
    cases h with
    | frame frs hr' => rw [hr] at hr'; rcases hr' with g | g | g <;> cases g
    | ended frs b hr' => rw [hr] at hr'; rcases hr' with g | g | g <;> cases g
    | data frs ps m a b hr' => rw [hr] at hr'; cases hr'
    | over hr' => rw [hr] at hr'; cases hr'
    | refused hr' => rw [hr] at hr'; cases hr'
    | headers frs fs out m a _ hp h ht hd he =>
      show BProg c m0 false ev (headersStep c room fin s d x)
      unfold headersStep
      dsimp only
      have hs : Sec c s.h m.s (a ++ [if isTrailers s.h then .beginTrailers else .beginHeaders]) ev s.http :=
        ⟨hp, fs, out, hd, by rw [he, List.append_assoc]; rfl⟩
      have hsec := onHeaders_sec d s.sc s.http (x.take s.left) (decide ((x.take s.left).length = s.left)) hi.ctx hs
      have back : ∀ (s' : Str) (ev' : List Ev), s'.rst = .headers → s'.h = s.h → Sec c s.h m.s (a ++ [if isTrailers s.h then .beginTrailers else .beginHeaders]) (ev ++ ev') s'.http →
          Prog c m0 s' (ev ++ ev') false := by
        rintro s' ev' g1 g2 ⟨g3, fs', out', g4, g5⟩
        refine .headers frs fs' out' m a g1 g3 h (by rw [g2]; exact ht) (by rw [g2]; exact g4) ?_
        rw [g5, g2, List.append_assoc]
        rfl
      generalize onHeaders c s.h d s.sc s.http (x.take s.left) (decide ((x.take s.left).length = s.left)) = r at hsec ⊢
      obtain ⟨ev', r⟩ := r
      cases r with
      | crash => trivial
      | fail e => trivial
      | malformed d' =>
        obtain ⟨g1, fs', out', g2, g3⟩ := hsec
        dsimp only at g3
        rw [List.append_assoc, List.singleton_append] at g3
        exact headerError_prog d' x 0 h g1 (frame_bad ht g2 rfl) g3
      | blocked d' sc http rest =>
        dsimp only at hsec ⊢
        split_ifs
        · exact back _ _ hr rfl hsec
        · trivial
      | more d' sc http =>
        dsimp only at hsec ⊢
        split_ifs
        · exact back _ _ hr rfl hsec
        · exact sectionEnd_prog _ _ _ _ h ht hsec
      | done d' sc http =>
        dsimp only at hsec ⊢
        split_ifs
        · exact back _ _ hr rfl hsec
        · exact sectionEnd_prog _ _ _ _ h ht hsec
  | ignFrame =>
    dsimp only
    have hs : ∀ (s' : Str), (s'.rst = .frameType ∨ s'.rst = .frameLen ∨ s'.rst = .ignFrame) → s'.h = s.h → s'.http = s.http → Prog c m0 s' (ev ++ []) r := by
      intro s' h1 h2 h3
      rw [List.append_nil]
      cases h with
      | frame frs hr hp h => exact .frame frs h1 hp (by rw [h2, h3]; exact h)
      | data frs ps m a b hr' => rw [hr] at hr'; cases hr'
      | headers frs fs out m a hr' => rw [hr] at hr'; cases hr'
      | over hr' => rw [hr] at hr'; cases hr'
      | refused hr' => rw [hr] at hr'; cases hr'
      | ended frs b hr hh hl hp h => exact .ended frs b h1 (by rw [h2]; exact hh) hl hp (by rw [h2, h3]; exact h)
    split_ifs
    · exact hs _ (.inr (.inr rfl)) rfl rfl
    · exact hs _ (.inl rfl) rfl rfl
  | ignRest =>
    show Prog _ _ _ _ _
    rw [List.append_nil]
    exact h

/-! ### calls -/

def OProg (c : Cfg) (m0 : Msg) (r : Bool) (ev0 : List Ev) : Out → Prop
  | .ok s' _ ev _ _ => Prog c m0 s' (ev0 ++ ev) r
  | _ => True

theorem almostDone_prog (fin : Bool) {s : Str} {ev0 ev : List Ev} (h : Prog c m0 s (ev0 ++ ev) r) (d : Dec) (n : Nat) : OProg c m0 r ev0 (almostDone fin s d ev n) := by
  unfold almostDone
  cases fin
  · exact h
  simp only [if_true]
  cases hr : s.rst with
  | frameType =>
    dsimp only
    split_ifs
    · trivial
    rcases ht : transit s.h s.http .msgEnd with _ | _ | _ | h' <;> dsimp only
    all_goals first | trivial | skip
    cases h with
    | data frs ps m a b hr' => rw [hr] at hr'; cases hr'
    | headers frs fs out m a hr' => rw [hr] at hr'; cases hr'
    | over hr' => rw [hr] at hr'; cases hr'
    | refused hr' => rw [hr] at hr'; cases hr'
    | ended frs b hr hh hl hp h => rw [end_none hh] at ht; cases ht
    | frame frs _ hp h =>
      refine .ended frs (loud (ev0 ++ ev)) (.inl rfl) ?_ (by rw [← List.append_assoc, loud_append]; rfl) hp.loud ?_
      · show h' = _ ∨ h' = _
        exact end_to ht
      · unfold onMessage
        rw [show onFrames c.pp (c.server && c.ext) m0 frs = _ from h]
        dsimp only
        unfold onEnd
        dsimp only
        rw [ht, cbs_loud]
        rfl
  | ignRest => exact h
  | _ => trivial

theorem loop_prog (room fin : Bool) (f : Nat) (s : Str) (d : Dec) (x : Bytes) (b : Bool) (ev0 ev : List Ev) (n : Nat) (hi : Inv s d)
    (hb : b = true → s.rst = .ignFrame ∨ s.rst = .ignRest) (h : Prog c m0 s (ev0 ++ ev) r) : OProg c m0 r ev0 (loop c room fin f s d x b ev n) := by
  induction f generalizing s d x b ev n with
  | zero => trivial
  | succ f ih =>
    unfold loop
    by_cases h0 : x = [] ∧ b = false
    · rw [if_pos h0]; exact almostDone_prog fin h d n
    rw [if_neg h0]
    have hx : x ≠ [] ∨ s.rst = .ignFrame ∨ s.rst = .ignRest := by
      by_cases hx : x = []
      · right; apply hb; cases b <;> simp_all
      · left; exact hx
    have hacc := step_acc c room fin s d x hi hx
    have hp := step_prog room fin hi h x
    generalize step c room fin s d x = r at hacc hp ⊢
    cases r with
    | crash => trivial
    | fail e => trivial
    | cont s' d' rest b' ev' n' => exact ih s' d' rest b' (ev ++ ev') (n + n') hacc.1 hacc.2.1 (by rw [← List.append_assoc]; exact hp)
    | ret s' d' ev' n' => exact almostDone_prog fin (by rw [← List.append_assoc]; exact hp) d' _
    | blocked s' d' rest ev' n' =>
      show Prog _ _ _ _ _
      rw [← List.append_assoc]
      refine Prog.same hp ?_ ?_ ?_ <;> unfold justBlocked <;> split_ifs <;> rfl

theorem readBidi_prog (room fin : Bool) (s : Str) (d : Dec) (x : Bytes) (ev : List Ev) (hi : Inv s d) (h : Prog c m0 s ev r) : OProg c m0 r ev (readBidi c room fin s d x) := by
  have h' : Prog c m0 s (ev ++ []) r := by rw [List.append_nil]; exact h
  unfold readBidi
  split_ifs
  · exact h'
  · exact h'
  · exact h'.same rfl rfl rfl
  · exact loop_prog room fin _ s d x false ev [] 0 hi (by simp) h'

theorem readStream_prog (room fin : Bool) (s : Str) (d : Dec) (x : Bytes) (ev : List Ev) (hi : Inv s d) (h : Prog c m0 s ev r) : OProg c m0 r ev (readStream c room fin s d x) := by
  unfold readStream
  split_ifs
  · show Prog _ _ _ _ _; rw [List.append_nil]; exact h
  · exact readBidi_prog room fin _ d x ev (inv_of hi rfl rfl rfl rfl rfl) (h.same rfl rfl rfl)
  · exact readBidi_prog room fin s d x ev hi h

theorem procLoop_prog (room : Bool) (f : Nat) (s : Str) (d : Dec) (ev0 ev : List Ev) (hi : Inv s d) (hb : s.blocked = false) (h : Prog c m0 s (ev0 ++ ev) r) :
    OProg c m0 r ev0 (procLoop c room f s d ev) := by
  induction f generalizing s d ev with
  | zero => trivial
  | succ f ih =>
    unfold procLoop
    rcases hin : s.inq with _ | ⟨b, t⟩ <;> dsimp only
    · exact h
    have hp := readBidi_prog room (decide (t = []) && s.eof) s d b.data (ev0 ++ ev) hi h
    have hinv : match readBidi c room (decide (t = []) && s.eof) s d b.data with
        | .ok s' d' _ _ _ => Inv s' d'
        | _ => True := by
      unfold readBidi
      split_ifs with g1 g2 g3
      · exact hi
      · exact hi
      · exact inv_of hi rfl rfl rfl rfl rfl
      · have := loop_acc c room (decide (t = []) && s.eof) (fuel b.data) s d b.data false [] 0 hi (by simp) hb
        generalize loop c room (decide (t = []) && s.eof) (fuel b.data) s d b.data false [] 0 = o at this ⊢
        cases o with
        | crash => trivial
        | fail e => trivial
        | ok s1 d1 ev1 n rest => exact this.1
    generalize readBidi c room (decide (t = []) && s.eof) s d b.data = r at hp hinv ⊢
    cases r with
    | crash => trivial
    | fail e => trivial
    | ok s' d' ev' n rest =>
      have hp' : Prog c m0 { s' with inq := if rest = [] then t else { b with data := rest } :: t } (ev0 ++ (ev ++ ev' ++ deferred n)) r := by
        have := Prog.quiet (show Prog c m0 s' (ev0 ++ ev ++ ev') r from hp) (deferred_quiet n)
        simp only [List.append_assoc] at this ⊢
        exact this.same rfl rfl rfl
      dsimp only
      by_cases g : s'.blocked = true
      · rw [if_pos g]; exact hp'
      · rw [if_neg g]
        exact ih _ d' _ (inv_of (show Inv s' d' from hinv) rfl rfl rfl rfl rfl) (by simpa using g) hp'

end Bidi
end Nghttp3
