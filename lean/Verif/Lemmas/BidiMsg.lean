import Verif.Lemmas.BidiExec
import Verif.Lemmas.BidiTok
/-! A request stream frame by frame. -/
namespace Nghttp3
namespace Bidi
open Http Qpack

/-- between two frames -/
def _root_.Nghttp3.Bidi.Str.at (s : Str) (m : Msg) : Str := { s with rst := .frameType, rv := {}, ftype := 0, left := 0, h := m.h, http := m.s }

/-- the frame header -/
theorem run_head (c : Cfg) (room : Bool) {s : Str} {d : Dec} {o : List Obs} {k : Nat} {ty len : Nat} {a b : Bytes} (y : Bytes) (hi : Inv s d)
    (hr : s.rst = .frameType) (hrv : s.rv = {}) (ha : Spec.IsVarint ty a) (hb : Spec.IsVarint len b) :
    bRun c room ⟨s, d, o, k⟩ (a ++ b ++ y) =
      match frameHead { s with rst := .frameLen, rv := {}, ftype := ty, left := len } d y b.length with
      | .fail e => .fail (.err e)
      | .cont s' d' rest bz ev n => Machine.run (mStep c room) rank ⟨s', d', o ++ obs ev, k + a.length + n⟩ rest bz
      | _ => .crash := by
  have hpa := isVarint_pos ha
  have hpb := isVarint_pos hb
  have h1 : mStep c room ⟨s, d, o, k⟩ (a ++ b ++ y) = .cont ⟨{ s with rst := .frameLen, rv := {}, ftype := ty }, d, o, k + a.length⟩ (b ++ y) false := by
    unfold mStep step
    dsimp only
    rw [hr]
    dsimp only
    rw [hrv, List.append_assoc, rd_varint ha]
    dsimp only [view]
    rw [if_neg (by simp), obs_nil, List.append_nil, List.drop_left]
  obtain ⟨hi1, _, e1⟩ := Machine.run_cont (bidi_good c room) (s := (⟨s, d, o, k⟩ : M)) (b := false) hi (by simp)
    (by rintro ⟨g, _⟩; have := congrArg List.length g; simp only [List.length_append, List.length_nil] at this; omega) h1
  unfold bRun
  rw [e1, Machine.run_eq (bidi_good c room) hi1 (by simp), if_neg (by rintro ⟨g, _⟩; have := congrArg List.length g; simp only [List.length_append, List.length_nil] at this; omega)]
  have h2 : mStep c room ⟨{ s with rst := .frameLen, rv := {}, ftype := ty }, d, o, k + a.length⟩ (b ++ y) =
      view ⟨{ s with rst := .frameLen, rv := {}, ftype := ty }, d, o, k + a.length⟩
        (frameHead { s with rst := .frameLen, rv := {}, ftype := ty, left := len } d y b.length) := by
    unfold mStep step
    dsimp only
    rw [rd_varint hb]
    dsimp only
    rw [List.drop_left]
  rw [h2]
  dsimp only at hi1
  rcases frameHead_cases (s := { s with rst := .frameLen, rv := {}, ftype := ty, left := len }) (d := d) rfl
      ⟨hi1.ctx, hi1.wf, hi1.idle, hi1.rv, hi1.hok, by simp⟩ rfl with ⟨e, he⟩ | ⟨s', bz, ev, he, _, _, hne, _⟩
  · rw [he]; rfl
  · rw [he]
    dsimp only [view]
    rw [if_neg hne]

theorem at_inv {s : Str} {d : Dec} {m : Msg} {m0 : Msg} (hi : Inv (s.at m0) d) (hk : HOk .frameType m.h) : Inv (s.at m) d :=
  ⟨hi.ctx, hi.wf, hi.idle, rvOk_idle, hk, by simp [Str.at]⟩

theorem busy_false (c : Cfg) (room : Bool) {m : M} {x : Bytes} {b : Bool} (hi : Inv m.s m.d) (hb : b = true → vis m = true) (h : x ≠ [] ∨ b = false) :
    Machine.run (mStep c room) rank m x b = bRun c room m x := by
  rcases h with h | h
  · exact Machine.run_busy (bidi_good c room) hi hb (by simp) h
  · rw [h]

/-- the body, byte by byte or at once -/
theorem onData_ones (s : State) (n : Nat) (hn : 0 < n) :
    (onData s (List.replicate n 1)).2 = onDataChunk s n ∧ (∀ s', onDataChunk s n = some s' → (onData s (List.replicate n 1)).1 = List.replicate n (.data 1)) := by
  induction n generalizing s with
  | zero => omega
  | succ n ih =>
    rw [List.replicate_succ, onData]
    rcases h1 : onDataChunk s 1 with _ | s1
    · have : onDataChunk s (n + 1) = none := by
        unfold onDataChunk at h1 ⊢
        dsimp only at h1 ⊢
        split_ifs at h1 with h2
        rw [if_pos]
        simp only [Bool.or_eq_true, Bool.and_eq_true, decide_eq_true_eq] at h2 ⊢
        rcases h2 with h2 | ⟨h2, h3⟩
        · exact Or.inl h2
        · right; refine ⟨h2, ?_⟩; push_cast at h3 ⊢; omega
      rw [this]; exact ⟨rfl, by simp⟩
    · dsimp only
      by_cases h0 : n = 0
      · subst h0; simp [onData, h1, List.replicate]
      · obtain ⟨i1, i2⟩ := ih s1 (by omega)
        have : onDataChunk s (n + 1) = onDataChunk s1 n := by rw [onDataChunk_add h1, Nat.add_comm]
        rw [this, i1]
        refine ⟨rfl, fun s' hs => ?_⟩
        rw [i2 s' hs, List.replicate_succ]

theorem map_ones (b : Bytes) : (b.map fun _ => 1) = List.replicate b.length 1 := by induction b with
  | nil => rfl
  | cons x t ih => rw [List.map_cons, ih, List.length_cons, List.replicate_succ]

theorem byte_cb (b : Bytes) : (b.map Obs.byte).filterMap Obs.cb = List.replicate b.length (.data 1) ∧ (b.map Obs.byte).filterMap Obs.body = b ∧
    (b.map Obs.byte).filterMap Obs.signal = [] := by
  induction b with
  | nil => exact ⟨rfl, rfl, rfl⟩
  | cons x t ih =>
    obtain ⟨i1, i2, i3⟩ := ih
    refine ⟨?_, ?_, ?_⟩
    · rw [List.map_cons, List.filterMap_cons, List.length_cons, List.replicate_succ, ← i1]; rfl
    · conv_rhs => rw [← i2]
      rw [List.map_cons, List.filterMap_cons]; rfl
    · rw [List.map_cons, List.filterMap_cons, ← i3]; rfl

/-- what a frame does to a stream: `o'` the observations, `n` the consumed bytes -/
def FrameRes (c : Cfg) (room : Bool) (s : Str) (o : List Obs) (k : Nat) (body y : Bytes) (r : Machine.Out M Stop) : List Cb × WOut → Prop
  | (cb, .open d' m') => ∃ o' n, r = bRun c room ⟨s.at m', d', o ++ o', k + n⟩ y ∧ Inv (s.at m') d' ∧ o'.filterMap Obs.cb = cb ∧ o'.filterMap Obs.body = body ∧ o'.filterMap Obs.signal = []
  | (_, .fail e) => r = .fail (.err e)
  | (cb, .reset) => ∃ s' d' o' n, r = .ok ⟨s', d', o ++ o', n⟩ ∧ s'.rst = .ignRest ∧ s'.httpErr = true ∧ o'.filterMap Obs.cb = cb ∧ o'.filterMap Obs.body = [] ∧
      o'.filterMap Obs.signal = [.stopSending 0x010e, .resetStream 0x010e]
  | (cb, .blocked) => if room then ∃ s' d' o' n rest, r = .stop (.blocked ⟨s', d', o ++ o', n⟩) rest ∧ s'.blocked = true ∧ o'.filterMap Obs.cb = cb ∧ o'.filterMap Obs.body = [] ∧
      o'.filterMap Obs.signal = [] else r = .fail (.err Err.QPACK_DECOMPRESSION_FAILED)
  | (_, .crash) => False

/-- DATA -/
theorem run_data (c : Cfg) (room : Bool) {s : Str} {d : Dec} {m : Msg} {o : List Obs} {k : Nat} {b bs : Bytes} (y : Bytes) (hi : Inv (s.at m) d)
    (hf : Spec.IsFrame 0 b bs) : FrameRes c room s o k b y (bRun c room ⟨s.at m, d, o, k⟩ (bs ++ y)) (wFrame c d m (.data b)) := by
  obtain ⟨t, l, ht, hl, rfl⟩ := hf
  rw [show t ++ l ++ b ++ y = t ++ l ++ (b ++ y) by simp, run_head c room (b ++ y) hi rfl rfl ht hl]
  have hk : HOk .frameType m.h := hi.hok
  obtain ⟨b1, b2, _, _⟩ := transit_begin (Or.inl rfl) hk m.s
  unfold frameHead wFrame onFrame
  dsimp only [Str.at]
  rw [if_pos (show 0 = FRAME_DATA from rfl)]
  unfold transitOr
  dsimp only
  have hc := b1 .dataBegin (Or.inl rfl)
  rcases hb : transit m.h m.s .dataBegin with _ | _ | _ | h
  · exact absurd hb hc
  · rfl
  · rfl
  dsimp only [Tr.bind]
  obtain ⟨h', he, hk'⟩ := transit_data (b2 h hb) m.s
  by_cases hb0 : b.length = 0
  · have hbn : b = [] := List.length_eq_zero_iff.1 hb0
    subst hbn
    rw [if_pos (show ([] : Bytes).length = 0 from rfl)]
    unfold endFrame
    dsimp only
    rw [he]
    rw [show onData m.s (([] : Bytes).map fun _ => 1) = ([], some m.s) from rfl]
    dsimp only
    rw [he]
    dsimp only [Tr.bind, FrameRes]
    refine ⟨[], t.length + l.length, ?_, at_inv hi hk', rfl, rfl, rfl⟩
    rw [List.nil_append, obs_nil, Nat.add_assoc]; rfl
  · rw [if_neg hb0]
    dsimp only
    have hi1 : Inv { s with rst := .data, rv := {}, ftype := 0, left := b.length, h := h, http := m.s } d :=
      ⟨hi.ctx, hi.wf, hi.idle, rvOk_idle, b2 h hb, fun _ => by dsimp only; omega⟩
    have hbn : b ≠ [] := fun g => hb0 (by rw [g]; rfl)
    rw [Machine.run_eq (bidi_good c room) (by exact hi1) (by simp), if_neg (by simp [hbn])]
    have hm : ∀ o n, mStep c room ⟨{ s with rst := .data, rv := {}, ftype := 0, left := b.length, h := h, http := m.s }, d, o, n⟩ (b ++ y) =
        view ⟨{ s with rst := .data, rv := {}, ftype := 0, left := b.length, h := h, http := m.s }, d, o, n⟩
          (match onDataChunk m.s b.length with
          | none => .fail Err.MALFORMED_HTTP_MESSAGING
          | some http => endFrame { s with rst := .data, rv := {}, ftype := 0, left := 0, h := h, http := http } d .dataEnd y [.data b] 0) := by
      intro o n
      unfold mStep step dataStep
      dsimp only
      rw [List.take_left]
      rcases onDataChunk m.s b.length with _ | s1
      · rfl
      · dsimp only
        rw [Nat.sub_self, if_neg (by simp), List.drop_left]
    rw [hm, map_ones]
    obtain ⟨g1, g2⟩ := onData_ones m.s b.length (by omega)
    rcases hd : onDataChunk m.s b.length with _ | s1
    · rw [hd] at g1
      rcases ho : onData m.s (List.replicate b.length 1) with ⟨cb, _ | s2⟩ <;> rw [ho] at g1 <;> first | cases g1 | skip
      rfl
    · rw [hd] at g1
      have g2 := g2 s1 hd
      rcases ho : onData m.s (List.replicate b.length 1) with ⟨cb, _ | s2⟩ <;> rw [ho] at g1 g2 <;> cases g1
      dsimp only at g2 ⊢
      obtain ⟨h', he, hk'⟩ := transit_data (b2 h hb) s1
      unfold endFrame
      dsimp only
      rw [he]
      dsimp only [Tr.bind, FrameRes, view]
      rw [if_neg (by simp [Str.reset]), obs_nil, List.append_nil]
      refine ⟨b.map .byte, t.length + l.length, ?_, at_inv hi hk', ?_, (byte_cb b).2.1, (byte_cb b).2.2⟩
      · have : obs [.data b] = b.map .byte := by simp [obs, Ev.obs]
        rw [this, List.append_nil, Nat.add_zero, Nat.add_assoc]; rfl
      · rw [(byte_cb b).1, g2]

theorem unexpected_iff (ty : Nat) : unexpectedType ty = true ↔ ty ∈ refused := by
  unfold unexpectedType refused
  simp only [FRAME_PUSH_PROMISE, FRAME_CANCEL_PUSH, FRAME_SETTINGS, FRAME_GOAWAY, FRAME_MAX_PUSH_ID, FRAME_PRIORITY_UPDATE,
    FRAME_PRIORITY_UPDATE_PUSH_ID, H2_FRAME_PRIORITY, H2_FRAME_PING, H2_FRAME_WINDOW_UPDATE, H2_FRAME_CONTINUATION, List.mem_cons,
    List.not_mem_nil, or_false]
  exact decide_eq_true_iff

/-- frames of other types -/
theorem run_other (c : Cfg) (room : Bool) {s : Str} {d : Dec} {m : Msg} {o : List Obs} {k ty : Nat} {b bs : Bytes} (y : Bytes) (hi : Inv (s.at m) d)
    (h0 : ty ≠ 0) (h1 : ty ≠ 1)
    (hf : Spec.IsFrame ty b bs) : FrameRes c room s o k [] y (bRun c room ⟨s.at m, d, o, k⟩ (bs ++ y)) (wFrame c d m (.other ty b)) := by
  obtain ⟨t, l, ht, hl, rfl⟩ := hf
  rw [show t ++ l ++ b ++ y = t ++ l ++ (b ++ y) by simp, run_head c room (b ++ y) hi rfl rfl ht hl]
  unfold frameHead wFrame
  dsimp only [Str.at]
  rw [if_neg (show ¬ ty = FRAME_DATA from h0), if_neg (show ¬ ty = FRAME_HEADERS from h1)]
  by_cases hu : unexpectedType ty = true
  · rw [if_pos hu, if_pos ((unexpected_iff ty).1 hu)]; rfl
  · rw [if_neg hu, if_neg fun g => hu ((unexpected_iff ty).2 g)]
    dsimp only
    have hi1 : Inv { s with rst := .ignFrame, rv := {}, ftype := ty, left := b.length, h := m.h, http := m.s } d :=
      ⟨hi.ctx, hi.wf, hi.idle, rvOk_idle, hi.hok, fun g => by cases g⟩
    rw [Machine.run_eq (bidi_good c room) (by exact hi1) (fun _ => rfl), if_neg (by simp)]
    have hm : ∀ o n, mStep c room ⟨{ s with rst := .ignFrame, rv := {}, ftype := ty, left := b.length, h := m.h, http := m.s }, d, o, n⟩ (b ++ y) =
        .cont ⟨s.at m, d, o, n + b.length⟩ y false := by
      intro o n
      unfold mStep step
      dsimp only
      rw [List.take_left, Nat.sub_self, if_neg (by simp), List.drop_left]
      dsimp only [view]
      rw [if_neg (by simp [Str.reset]), obs_nil, List.append_nil]
      rfl
    rw [hm]
    dsimp only [FrameRes]
    refine ⟨[], t.length + l.length + b.length, ?_, hi, rfl, rfl, rfl⟩
    rw [obs_nil, List.append_nil, Nat.add_assoc, Nat.add_assoc, Nat.add_assoc]

theorem run_empty (c : Cfg) (room : Bool) {s : Str} {d : Dec} {m : Msg} {o : List Obs} {k : Nat} {bs : Bytes} (y : Bytes) (hi : Inv (s.at m) d)
    (hf : Spec.IsFrame 1 [] bs) : FrameRes c room s o k [] y (bRun c room ⟨s.at m, d, o, k⟩ (bs ++ y)) (wFrame c d m (.headers [])) := by
  obtain ⟨t, l, ht, hl, rfl⟩ := hf
  rw [show t ++ l ++ [] ++ y = t ++ l ++ y by simp, run_head c room y hi rfl rfl ht hl]
  have hk : HOk .frameType m.h := hi.hok
  obtain ⟨b1, _, b2, _⟩ := transit_begin (Or.inl rfl) hk m.s
  unfold frameHead wFrame onFrame
  dsimp only [Str.at]
  rw [if_neg (show ¬ 1 = FRAME_DATA by decide), if_pos (show 1 = FRAME_HEADERS from rfl)]
  unfold transitOr
  dsimp only
  have hc := b1 .headersBegin (Or.inr (Or.inl rfl))
  rcases hb : transit m.h m.s .headersBegin with _ | _ | _ | h
  · exact absurd hb hc
  · rfl
  · rfl
  dsimp only [Tr.bind]
  rw [if_pos (show ([] : Bytes).length = 0 from rfl)]
  by_cases hem : emptyHeadersAllowed h = true
  · rw [if_pos hem, if_pos hem]
    obtain ⟨h', he, hk'⟩ := transit_headers (b2 h hb) m.s
    unfold endFrame
    dsimp only
    rw [he]
    dsimp only [FrameRes]
    refine ⟨[], t.length + l.length, ?_, at_inv hi hk', rfl, rfl, rfl⟩
    rw [obs_nil, Nat.add_assoc]; rfl
  · rw [if_neg hem, if_neg hem]; rfl

/-- the state at the start of a field section -/
def _root_.Nghttp3.Bidi.Str.inSec (s : Str) (m : Msg) (h : Hs) (left : Nat) : Str :=
  { s with rst := .headers, rv := {}, ftype := 1, left := left, h := h, http := m.s }

def beginOb (h : Hs) : Obs := if isTrailers h then .beginTrailers else .beginHeaders

theorem run_secHead (c : Cfg) (room : Bool) {s : Str} {d : Dec} {m : Msg} {o : List Obs} {k len : Nat} {t l : Bytes} (y : Bytes) (hi : Inv (s.at m) d)
    (ht : Spec.IsVarint 1 t) (hl : Spec.IsVarint len l) (h0 : len ≠ 0) :
    bRun c room ⟨s.at m, d, o, k⟩ (t ++ l ++ y) =
      match transit m.h m.s .headersBegin with
      | .crash => .crash
      | .unexpected => .fail (.err Err.H3_FRAME_UNEXPECTED)
      | .malformed => .fail (.err Err.MALFORMED_HTTP_MESSAGING)
      | .ok h => bRun c room ⟨s.inSec m h len, d, o ++ [beginOb h], k + t.length + l.length⟩ y := by
  rw [run_head c room y hi rfl rfl ht hl]
  have hk : HOk .frameType m.h := hi.hok
  obtain ⟨b1, _, b2, _⟩ := transit_begin (Or.inl rfl) hk m.s
  unfold frameHead
  dsimp only [Str.at]
  rw [if_neg (show ¬ 1 = FRAME_DATA by decide), if_pos (show 1 = FRAME_HEADERS from rfl)]
  unfold transitOr
  dsimp only
  have hc := b1 .headersBegin (Or.inr (Or.inl rfl))
  rcases hb : transit m.h m.s .headersBegin with _ | _ | _ | h
  · exact absurd hb hc
  · rfl
  · rfl
  dsimp only
  rw [if_neg h0]
  rcases b2 h hb with rfl | rfl | rfl | rfl <;> rfl

theorem inSec_inv {s : Str} {d : Dec} {m : Msg} {h : Hs} (hi : Inv (s.at m) d) (hk : HOk .headers h) (n : Nat) : Inv (s.inSec m h n) d :=
  ⟨hi.ctx, hi.wf, hi.idle, rvOk_idle, hk, fun g => by cases g⟩

/-- the end of a section -/
theorem sectionEnd_eq (c : Cfg) {s : Str} {d : Dec} {m : Msg} {h : Hs} (hk : HOk .headers h) (sc : SCtx) (http : State) (rest : Bytes) (ev : List Ev) (n : Nat) :
    sectionEnd c false { s.inSec m h 0 with sc := sc, http := http } d rest ev n =
      match endSection h http with
      | none => headerError { s.inSec m h 0 with sc := sc, http := http } d rest ev n
      | some http' =>
        match transit h http' .headersEnd with
        | .ok h' => .cont ({ s with sc := sc }.at ⟨h', http'⟩) d rest false (ev ++ (if h = .reqHeadersBegin ∧ (c.server && http'.priority && !s.priFixed) then [.priority http'.pri] else []) ++
            [if isTrailers h then .endTrailers false else .endHeaders false]) n
        | _ => .crash := by
  unfold sectionEnd
  dsimp only [Str.inSec]
  rcases hE : endSection h http with _ | http'
  · rfl
  dsimp only
  rcases hk with rfl | rfl | rfl | rfl <;> dsimp only [endFrame, transit, isTrailers] <;> simp [Str.reset, Str.at]

theorem begin_cb (h : Hs) : [beginOb h].filterMap Obs.cb = [if isTrailers h then Cb.beginTrailers else Cb.beginHeaders] ∧
    [beginOb h].filterMap Obs.body = [] ∧ [beginOb h].filterMap Obs.signal = [] := by
  unfold beginOb; cases isTrailers h <;> exact ⟨rfl, rfl, rfl⟩

/-- the observations at the end of a section -/
theorem end_cb (c : Cfg) (s : Str) (h : Hs) (http : State) :
    let o := obs ((if h = .reqHeadersBegin ∧ (c.server && http.priority && !s.priFixed) = true then [Ev.priority http.pri] else []) ++
            [if isTrailers h then Ev.endTrailers false else Ev.endHeaders false])
    o.filterMap Obs.cb = [if isTrailers h then Cb.endTrailers else Cb.endHeaders] ∧ o.filterMap Obs.body = [] ∧ o.filterMap Obs.signal = [] := by
  dsimp only
  rw [obs_append]
  simp only [List.filterMap_append]
  by_cases h1 : h = .reqHeadersBegin ∧ (c.server && http.priority && !s.priFixed) = true
  · rw [if_pos h1]; cases isTrailers h <;> exact ⟨rfl, rfl, rfl⟩
  · rw [if_neg h1]; cases isTrailers h <;> exact ⟨rfl, rfl, rfl⟩

/-- with the end of the section known, the decoder never asks for more -/
theorem readSection_notMore {d : Dec} (hc : CtxOk d.ctx) (s : SCtx) (x : Qpack.Bytes) (hw : SWF s) (hi : Idle s) (d' : Dec) (s' : SCtx) :
    (d.readSection s x true).2 ≠ .more d' s' := by
  by_cases hb : d.ctx.bad = true
  · unfold Dec.readSection secLoop Dec.readRequest
    rw [if_pos hb]; simp
  · rw [readSection_run hc (by simpa using hb) s x true hw hi]
    rcases rsRun d.ctx (s, []) x false with _ | ⟨_ | _⟩ | ⟨⟨_ | _⟩, _⟩ | ⟨s1, acc⟩ <;> dsimp only [secOut] <;> try simp
    unfold almostOk
    split_ifs
    · simp
    · rcases d.writeSectionAck s1 with _ | d'' <;> simp
    · simp
    · simp at *

/-- a whole field section -/
theorem mStep_sec (c : Cfg) (room : Bool) {s : Str} {d : Dec} {m : Msg} {h : Hs} (o : List Obs) (n : Nat) {sec : Bytes} (y : Bytes) (hi : Inv (s.at m) d) (h0 : sec ≠ []) :
    mStep c room ⟨s.inSec m h sec.length, d, o, n⟩ (sec ++ y) = view ⟨s.inSec m h sec.length, d, o, n⟩
      (match post c h d m.s (d.readSection s.sc sec true) with
      | (_, .crash) => .crash
      | (_, .fail e) => .fail e
      | (ev, .malformed d') => headerError (s.inSec m h sec.length) d' (sec ++ y) ev 0
      | (ev, .blocked d' sc http rest) =>
        if room then
          .blocked { s.inSec m h (sec.length - (sec.length - rest.length)) with sc := sc, http := http, blocked := true } d'
            (rest ++ y) ev (sec.length - rest.length)
        else .fail Err.QPACK_DECOMPRESSION_FAILED
      | (ev, .more d' sc http) | (ev, .done d' sc http) =>
        sectionEnd c false { s.inSec m h 0 with sc := sc, http := http } d' y ev sec.length) := by
  have h1 := onHeaders_post c h hi.ctx true s.sc m.s sec hi.wf hi.idle (by simp)
  unfold mStep step
  dsimp only [Str.inSec]
  unfold headersStep
  dsimp only
  rw [List.take_left, decide_eq_true rfl]
  rw [h1, List.drop_left]
  congr 1
  rcases post c h d m.s (d.readSection s.sc sec true) with ⟨ev, _ | _ | _ | _ | _ | _⟩ <;> dsimp only
  · rw [if_neg (by omega), Nat.sub_self]; rfl
  · rw [if_neg (by omega), Nat.sub_self]; rfl

theorem run_headers (c : Cfg) (room : Bool) {s : Str} {d : Dec} {m : Msg} {o : List Obs} {k : Nat} {sec bs : Bytes} (y : Bytes) (hi : Inv (s.at m) d)
    (hsc : s.sc = SCtx.init c.id) (h0 : sec ≠ [])
    (hf : Spec.IsFrame 1 sec bs) : FrameRes c room s o k [] y (bRun c room ⟨s.at m, d, o, k⟩ (bs ++ y)) (wHeaders c d m sec) := by
  obtain ⟨t, l, ht, hl, rfl⟩ := hf
  have hlen : sec.length ≠ 0 := fun g => h0 (List.length_eq_zero_iff.1 g)
  rw [show t ++ l ++ sec ++ y = t ++ l ++ (sec ++ y) by simp, run_secHead c room (sec ++ y) hi ht hl hlen]
  have hk : HOk .frameType m.h := hi.hok
  obtain ⟨b1, _, b2, _⟩ := transit_begin (Or.inl rfl) hk m.s
  have hsafe := secLoop_safe hi.ctx true (sec.length + 1) s.sc sec [] hi.wf hi.idle (by omega)
  have hmore := readSection_notMore hi.ctx s.sc sec hi.wf hi.idle
  obtain ⟨htok, hid⟩ := readSection_id hi.ctx true s.sc sec hi.wf hi.idle
  change match (d.readSection s.sc sec true).2 with
    | .crash => False
    | .fail _ _ => True
    | .more d' s' => d' = d ∧ SWF s' ∧ Idle s' 
    | .final d' _ => d'.ctx = d.ctx ∧ true = true
    | .emit _ _ _ _ => False
    | .blocked d' s' rest => d' = d ∧ SWF s' ∧ Idle s' ∧ d.ctx.next < s'.ricnt ∧ rest.length ≤ sec.length ∧ s'.state = .blocked at hsafe
  unfold wHeaders
  rw [hsc] at hsafe hmore htok hid
  have hc := b1 .headersBegin (Or.inr (Or.inl rfl))
  rcases hb : transit m.h m.s .headersBegin with _ | _ | _ | h
  · exact absurd hb hc
  · rcases hs : d.readSection (SCtx.init c.id) sec true with ⟨nvs, _ | _ | _ | _ | _ | _⟩ <;> dsimp only [onFrame] <;> (try rw [hb]) <;> rfl
  · rcases hs : d.readSection (SCtx.init c.id) sec true with ⟨nvs, _ | _ | _ | _ | _ | _⟩ <;> dsimp only [onFrame] <;> (try rw [hb]) <;> rfl
  dsimp only
  have hkh := b2 h hb
  unfold bRun
  rw [Machine.run_eq (bidi_good c room) (by exact inSec_inv hi hkh _) (by simp), if_neg (by simp [h0]), mStep_sec c room _ _ y hi h0, hsc]
  rcases hs : d.readSection (SCtx.init c.id) sec true with ⟨nvs, ro⟩
  rw [hs] at hsafe hmore htok hid
  dsimp only at hsafe hmore htok hid
  obtain ⟨f1, f2, f3, f4⟩ := fields_run c h m.s nvs htok
  obtain ⟨g1, g2, g3⟩ := begin_cb h
  unfold post
  dsimp only
  have hcb : ∀ r : List Cb, (if isTrailers h then Cb.beginTrailers else Cb.beginHeaders) :: r = [if isTrailers h then Cb.beginTrailers else Cb.beginHeaders] ++ r := fun _ => rfl
  rcases hq : fields c h m.s nvs with ⟨ev, _ | http⟩ <;> rw [hq] at f1 f2 f3 f4 <;> dsimp only at f1 f2 f3 f4 ⊢
  · have herr : FrameRes c room s o k [] y
        (match view ⟨s.inSec m h sec.length, d, o ++ [beginOb h], k + t.length + l.length⟩ (headerError (s.inSec m h sec.length) d (sec ++ y) ev 0) with
        | .crash => .crash
        | .fail o => .fail o
        | .stop o rest => .stop o rest
        | .cont s' rest b => Machine.run (mStep c room) rank s' rest b
        | .ret s' => .ok s')
        ((if isTrailers h then Cb.beginTrailers else Cb.beginHeaders) :: (runFields c.pp (isRequest h) (isTrailers h) (c.server && c.ext) m.s (nvs.map QNv.field)).1.map
          (if isTrailers h then Cb.trailer else Cb.header), .reset) := by
      unfold headerError
      dsimp only [view]
      rw [if_pos rfl]
      dsimp only [FrameRes]
      refine ⟨_, _, [beginOb h] ++ obs (ev ++ [.stopSending 0x010e, .resetStream 0x010e]), _, by rw [← List.append_assoc], by rw [norm_rst], ?_, ?_, ?_, ?_⟩
      · unfold Str.norm; rw [if_pos rfl]
      · rw [obs_append]; simp only [List.filterMap_append]; rw [g1, f2, hcb]
        simp [obs, Ev.obs, Obs.cb]
      · rw [obs_append]; simp only [List.filterMap_append]; rw [g2, f3]; rfl
      · rw [obs_append]; simp only [List.filterMap_append]; rw [g3, f4]; rfl
    rcases ro with _ | ⟨d', e⟩ | ⟨d', s'⟩ | ⟨d', s'⟩ | ⟨d', s', nv, rest⟩ | ⟨d', s', rest⟩
    · exact hsafe.elim
    · dsimp only; rw [if_pos f1.symm]; exact herr
    · exact absurd rfl (hmore d' s')
    · dsimp only [onFrame]
      rw [hb]
      dsimp only [Tr.bind]
      rw [← f1]
      exact herr
    · exact hsafe.elim
    · dsimp only; rw [if_pos f1.symm]; exact herr
  · have fne : ¬ (runFields c.pp (isRequest h) (isTrailers h) (c.server && c.ext) m.s (nvs.map QNv.field)).2 = none := by rw [← f1]; simp
    rcases ro with _ | ⟨d', e⟩ | ⟨d', s'⟩ | ⟨d', s'⟩ | ⟨d', s', nv, rest⟩ | ⟨d', s', rest⟩
    · exact hsafe.elim
    · dsimp only [mkRes]; rw [if_neg fne]; rfl
    · exact absurd rfl (hmore d' s')
    · dsimp only [onFrame, mkRes]
      rw [hb]
      dsimp only [Tr.bind]
      rw [← f1, sectionEnd_eq c hkh]
      dsimp only [Option.bind]
      rcases hE : endSection h http with _ | http'
      · dsimp only [headerError, view]
        rw [if_pos rfl]
        dsimp only [FrameRes, WOut.of]
        refine ⟨_, _, [beginOb h] ++ obs (ev ++ [.stopSending 0x010e, .resetStream 0x010e]), _, by rw [← List.append_assoc], by rw [norm_rst], ?_, ?_, ?_, ?_⟩
        · unfold Str.norm; rw [if_pos rfl]
        · rw [obs_append]; simp only [List.filterMap_append]; rw [g1, f2, hcb]
          simp [obs, Ev.obs, Obs.cb]
        · rw [obs_append]; simp only [List.filterMap_append]; rw [g2, f3]; rfl
        · rw [obs_append]; simp only [List.filterMap_append]; rw [g3, f4]; rfl
      · dsimp only
        obtain ⟨h', he, hk'⟩ := transit_headers hkh http'
        rw [he]
        dsimp only [view]
        rw [if_neg (by simp [Str.at])]
        dsimp only [FrameRes, WOut.of]
        obtain ⟨e1, e2, e3⟩ := end_cb c s h http'
        have hs' : ({ s with sc := SCtx.init s'.streamId } : Str) = s := by
          have : s'.streamId = c.id := hid
          rw [this, ← hsc]
        refine ⟨[beginOb h] ++ (obs ev ++ obs ((if h = .reqHeadersBegin ∧ (c.server && http'.priority && !s.priFixed) = true then [Ev.priority http'.pri] else []) ++
            [if isTrailers h then Ev.endTrailers false else Ev.endHeaders false])), t.length + l.length + sec.length, ?_, ?_, ?_, ?_, ?_⟩
        · rw [hs', List.append_assoc ev, obs_append ev]
          rw [List.append_assoc, Nat.add_assoc, Nat.add_assoc, Nat.add_assoc]
        · have := at_inv (m := ⟨h', http'⟩) hi hk'
          exact ⟨by rw [hsafe.1]; exact this.ctx, this.wf, this.idle, this.rv, this.hok, this.left⟩
        · simp only [List.filterMap_append]; rw [g1, f2, e1]; simp
        · simp only [List.filterMap_append]; rw [g2, f3, e2]; rfl
        · simp only [List.filterMap_append]; rw [g3, f4, e3]; rfl
    · exact hsafe.elim
    · dsimp only [mkRes]; rw [if_neg fne]
      cases room with
      | false => rfl
      | true =>
        rw [if_pos rfl]
        dsimp only [view, FrameRes]
        rw [if_pos rfl]
        refine ⟨_, _, [beginOb h] ++ obs ev, _, _, by rw [← List.append_assoc], rfl, ?_, ?_, ?_⟩
        · simp only [List.filterMap_append]; rw [g1, f2]; rfl
        · simp only [List.filterMap_append]; rw [g2, f3]; rfl
        · simp only [List.filterMap_append]; rw [g3, f4]; rfl

end Bidi
end Nghttp3
