import Verif.Lemmas.BidiSec
import Verif.Lemmas.Rd
import Verif.Spec.Bidi
/-! nghttp3_conn_read_bidi as a machine that reads bytes. -/
namespace Nghttp3
namespace Bidi
open Http Qpack

theorem obs_append (a b : List Ev) : obs (a ++ b) = obs a ++ obs b := by simp [obs]
theorem obs_nil : obs [] = [] := rfl

/-- the state of the message fits the state of the frame reader -/
def HOk (rst : Rst) (h : Hs) : Prop :=
  match rst with
  | .frameType | .frameLen | .ignFrame =>
    h = .reqInitial ∨ h = .reqHeadersEnd ∨ h = .reqDataEnd ∨ h = .reqTrailersEnd ∨ h = .reqEnd ∨
    h = .respInitial ∨ h = .respHeadersEnd ∨ h = .respDataEnd ∨ h = .respTrailersEnd ∨ h = .respEnd
  | .data => h = .reqDataBegin ∨ h = .respDataBegin
  | .headers => h = .reqHeadersBegin ∨ h = .reqTrailersBegin ∨ h = .respHeadersBegin ∨ h = .respTrailersBegin
  | .ignRest => True

/-- states between passes -/
structure Inv (s : Str) (d : Dec) : Prop where
  ctx : CtxOk d.ctx
  wf : SWF s.sc
  idle : Idle s.sc
  rv : RvOk s.rv
  hok : HOk s.rst s.h
  left : s.rst = .data → 0 < s.left

structure M where
  s : Str
  d : Dec
  ev : List Obs
  n : Nat

inductive Stop where
  | err (e : Int)
  | blocked (m : M)

/-- once the rest of the stream is ignored, most of the state is never used again -/
def _root_.Nghttp3.Bidi.Str.norm (s : Str) : Str :=
  if s.rst = .ignRest then { s with rv := {}, ftype := 0, left := 0, h := .reqInitial, http := {}, sc := SCtx.init 0 } else s

/-- one pass, with the observations and consumed bytes collected; when the rest of the stream is to be ignored, that happens in the same
pass -/
def view (m : M) : BRes → Machine.Res M Stop
  | .crash => .crash
  | .fail e => .fail (.err e)
  | .cont s d rest b ev n =>
    if s.rst = .ignRest then .ret ⟨s.norm, d, m.ev ++ obs ev, m.n + n + rest.length⟩
    else .cont ⟨s, d, m.ev ++ obs ev, m.n + n⟩ rest b
  | .ret s d ev n => .ret ⟨s, d, m.ev ++ obs ev, m.n + n⟩
  | .blocked s d rest ev n => .stop (.blocked ⟨s, d, m.ev ++ obs ev, m.n + n⟩) rest

def mStep (c : Cfg) (room : Bool) (m : M) (x : Bytes) : Machine.Res M Stop := view m (step c room false m.s m.d x)

def vis (m : M) : Bool := decide (m.s.rst = .ignFrame ∨ m.s.rst = .ignRest)
def rank (m : M) : Nat := if m.s.rst = .ignFrame ∨ m.s.rst = .headers then 1 else 0

/-- transitions out of the states between frames -/
theorem transit_begin {rst : Rst} {h : Hs} (hr : rst = .frameType ∨ rst = .frameLen ∨ rst = .ignFrame) (hk : HOk rst h) (http : State) :
    (∀ e, e = .dataBegin ∨ e = .headersBegin ∨ e = .msgEnd → transit h http e ≠ .crash) ∧
    (∀ h', transit h http .dataBegin = .ok h' → HOk .data h') ∧
    (∀ h', transit h http .headersBegin = .ok h' → HOk .headers h') ∧
    (∀ h', transit h http .msgEnd = .ok h' → HOk .frameType h') := by
  have hk' : HOk .frameType h := by rcases hr with rfl | rfl | rfl <;> exact hk
  unfold HOk at hk'
  rcases hk' with rfl | rfl | rfl | rfl | rfl | rfl | rfl | rfl | rfl | rfl <;>
    refine ⟨?_, ?_, ?_, ?_⟩ <;> simp only [transit, trEnd, HOk] <;>
    first
      | (rintro e (rfl | rfl | rfl) <;> (try split_ifs) <;> simp_all; done)
      | (intro h' hh; (try split_ifs at hh) <;> first | (cases hh; simp; done) | (simp at hh; done))

theorem transit_data {h : Hs} (hk : HOk .data h) (http : State) : ∃ h', transit h http .dataEnd = .ok h' ∧ HOk .frameType h' := by
  rcases hk with rfl | rfl
  · exact ⟨_, rfl, by simp [HOk]⟩
  · exact ⟨_, rfl, by simp [HOk]⟩

theorem transit_headers {h : Hs} (hk : HOk .headers h) (http : State) : ∃ h', transit h http .headersEnd = .ok h' ∧ HOk .frameType h' := by
  rcases hk with rfl | rfl | rfl | rfl
  · exact ⟨_, rfl, by simp [HOk]⟩
  · exact ⟨_, rfl, by simp [HOk]⟩
  · exact ⟨_, rfl, by simp [HOk]⟩
  · exact ⟨_, rfl, by simp [HOk]⟩

/-- the fields that decide what is read next, besides the frame reader and the QPACK context -/
def SameFlags (s s' : Str) : Prop :=
  s'.inq = s.inq ∧ s'.shutRd = s.shutRd ∧ s'.eof = s.eof ∧ s'.closed = s.closed ∧ s'.gone = s.gone ∧ s'.priFixed = s.priFixed

theorem SameFlags.rfl {s : Str} : SameFlags s s := ⟨_root_.rfl, _root_.rfl, _root_.rfl, _root_.rfl, _root_.rfl, _root_.rfl⟩

theorem transitOr_ok {s : Str} {e : Hev} {h' : Hs} (h : transit s.h s.http e = .ok h') (k : Str → BRes) :
    transitOr s e k = k { s with h := h' } := by unfold transitOr; rw [h]

/-- the header of a frame is complete -/
theorem frameHead_cases {s : Str} {d : Dec} (hr : s.rst = .frameLen) (hi : Inv s d) (hrv : s.rv = {}) :
    (∃ e, ∀ rest n, frameHead s d rest n = .fail e) ∨
    (∃ s' b ev, (∀ rest n, frameHead s d rest n = .cont s' d rest b ev n) ∧ Inv s' d ∧ (b = true → s'.rst = .ignFrame) ∧ s'.rst ≠ .ignRest ∧
      SameFlags s s' ∧ s'.blocked = s.blocked ∧ s'.sc = s.sc ∧ dataLen ev = 0 ∧ deferredLen ev = 0) := by
  have hk := hi.hok
  have ht := transit_begin (Or.inr (Or.inl hr)) hk s.http
  have hend : ∀ (s1 : Str) (e : Hev) (h' : Hs), transit s1.h s1.http e = .ok h' → HOk .frameType h' → s1.sc = s.sc → SameFlags s s1 →
      s1.blocked = s.blocked →
      ∃ s' b ev, (∀ rest n, endFrame s1 d e rest [] n = .cont s' d rest b ev n) ∧ Inv s' d ∧ (b = true → s'.rst = .ignFrame) ∧ s'.rst ≠ .ignRest ∧
      SameFlags s s' ∧ s'.blocked = s.blocked ∧ s'.sc = s.sc ∧ dataLen ev = 0 ∧ deferredLen ev = 0 := by
    intro s1 e h' h1 h2 h3 h4 h5
    refine ⟨{ s1 with h := h' }.reset, false, [], ?_, ?_, by simp, by simp [Str.reset], h4, h5, h3, rfl, rfl⟩
    · intro rest n; unfold endFrame; rw [h1]
    · refine ⟨hi.ctx, ?_, ?_, rvOk_idle, h2, by simp [Str.reset]⟩
      · show SWF s1.sc; rw [h3]; exact hi.wf
      · show Idle s1.sc; rw [h3]; exact hi.idle
  by_cases h1 : s.ftype = FRAME_DATA
  · rcases hx : transit s.h s.http .dataBegin with _ | _ | _ | h'
    · exact absurd hx (ht.1 _ (Or.inl rfl))
    · left; exact ⟨Err.H3_FRAME_UNEXPECTED, fun rest n => by unfold frameHead transitOr; rw [if_pos h1, hx]⟩
    · left; exact ⟨Err.MALFORMED_HTTP_MESSAGING, fun rest n => by unfold frameHead transitOr; rw [if_pos h1, hx]⟩
    · right
      have hk' := ht.2.1 h' hx
      by_cases h0 : s.left = 0
      · obtain ⟨h2, h3, h4⟩ := transit_data hk' s.http
        obtain ⟨s', b, ev, e1, e2⟩ := hend { s with h := h' } .dataEnd h2 h3 h4 rfl .rfl rfl
        exact ⟨s', b, ev, fun rest n => by rw [← e1]; unfold frameHead transitOr; rw [if_pos h1, hx]; dsimp only; rw [if_pos h0], e2⟩
      · refine ⟨{ s with h := h', rst := .data }, false, [], fun rest n => ?_, ⟨hi.ctx, hi.wf, hi.idle, hi.rv, hk', fun _ => ?_⟩, by simp, by simp,
          .rfl, rfl, rfl, rfl, rfl⟩
        · unfold frameHead transitOr; rw [if_pos h1, hx]; dsimp only; rw [if_neg h0]
        · exact Nat.pos_of_ne_zero h0
  by_cases h2 : s.ftype = FRAME_HEADERS
  · rcases hx : transit s.h s.http .headersBegin with _ | _ | _ | h'
    · exact absurd hx (ht.1 _ (Or.inr (Or.inl rfl)))
    · left; exact ⟨Err.H3_FRAME_UNEXPECTED, fun rest n => by unfold frameHead transitOr; rw [if_neg h1, if_pos h2, hx]⟩
    · left; exact ⟨Err.MALFORMED_HTTP_MESSAGING, fun rest n => by unfold frameHead transitOr; rw [if_neg h1, if_pos h2, hx]⟩
    · have hk' := ht.2.2.1 h' hx
      by_cases h0 : s.left = 0
      · by_cases he : emptyHeadersAllowed h' = true
        · right
          obtain ⟨h5, h3, h4⟩ := transit_headers hk' s.http
          obtain ⟨s', b, ev, e1, e2⟩ := hend { s with h := h' } .headersEnd h5 h3 h4 rfl .rfl rfl
          exact ⟨s', b, ev, fun rest n => by
            rw [← e1]; unfold frameHead transitOr; rw [if_neg h1, if_pos h2, hx]; dsimp only; rw [if_pos h0, if_pos he], e2⟩
        · left
          exact ⟨Err.MALFORMED_HTTP_MESSAGING, fun rest n => by
            unfold frameHead transitOr; rw [if_neg h1, if_pos h2, hx]; dsimp only; rw [if_pos h0, if_neg he]⟩
      · right
        have hinv : Inv { s with h := h', rst := .headers } d := ⟨hi.ctx, hi.wf, hi.idle, hi.rv, hk', by simp⟩
        have hf : ∀ rest n, frameHead s d rest n = match h' with
            | .reqHeadersBegin | .respHeadersBegin => .cont { s with h := h', rst := .headers } d rest false [.beginHeaders] n
            | .reqTrailersBegin | .respTrailersBegin => .cont { s with h := h', rst := .headers } d rest false [.beginTrailers] n
            | _ => .crash := by
          intro rest n
          unfold frameHead
          rw [if_neg h1, if_pos h2, transitOr_ok hx]
          dsimp only
          rw [if_neg h0]
          cases h' <;> rfl
        rcases hk' with rfl | rfl | rfl | rfl
        · exact ⟨_, false, [.beginHeaders], hf, hinv, by simp, by simp, .rfl, rfl, rfl, rfl, rfl⟩
        · exact ⟨_, false, [.beginTrailers], hf, hinv, by simp, by simp, .rfl, rfl, rfl, rfl, rfl⟩
        · exact ⟨_, false, [.beginHeaders], hf, hinv, by simp, by simp, .rfl, rfl, rfl, rfl, rfl⟩
        · exact ⟨_, false, [.beginTrailers], hf, hinv, by simp, by simp, .rfl, rfl, rfl, rfl, rfl⟩
  by_cases h3 : unexpectedType s.ftype = true
  · left; exact ⟨_, fun rest n => by unfold frameHead; rw [if_neg h1, if_neg h2, if_pos h3]⟩
  · right
    refine ⟨{ s with rst := .ignFrame }, true, [], fun rest n => by unfold frameHead; rw [if_neg h1, if_neg h2, if_neg h3],
      ⟨hi.ctx, hi.wf, hi.idle, hi.rv, ?_, by simp⟩, by simp, by simp, .rfl, rfl, rfl, rfl, rfl⟩
    rw [hr] at hk
    exact hk

theorem dataLen_append (a b : List Ev) : dataLen (a ++ b) = dataLen a + dataLen b := by simp [dataLen]
theorem deferredLen_append (a b : List Ev) : deferredLen (a ++ b) = deferredLen a + deferredLen b := by simp [deferredLen]

/-- a section is complete -/
theorem sectionEnd_cases (c : Cfg) {s : Str} {d : Dec} (hi : Inv s d) (hr : s.rst = .headers) :
    ∃ s' b, ∃ ev' : Bool → List Ev, (∀ last rest ev n, sectionEnd c last s d rest ev n = .cont s' d rest b (ev ++ ev' last) n) ∧
      (∀ l, obs (ev' l) = obs (ev' false)) ∧ Inv s' d ∧ (b = true → s'.rst = .ignRest) ∧ (s'.rst = .ignRest ∨ s'.rst = .frameType) ∧
      SameFlags s s' ∧ s'.blocked = s.blocked ∧ (∀ l, dataLen (ev' l) = 0 ∧ deferredLen (ev' l) = 0) := by
  have hk := hi.hok
  rw [hr] at hk
  rcases he : endSection s.h s.http with _ | http
  · refine ⟨{ s with httpErr := true, rst := .ignRest }, true, fun _ => [.stopSending 0x010e, .resetStream 0x010e], ?_, fun _ => rfl,
      ⟨hi.ctx, hi.wf, hi.idle, hi.rv, trivial, by simp⟩, by simp, Or.inl rfl, .rfl, rfl, fun _ => ⟨rfl, rfl⟩⟩
    intro last rest ev n
    unfold sectionEnd
    rw [he]; rfl
  · obtain ⟨h', ht, hk'⟩ := transit_headers hk http
    have hend : ∀ rest ev n, endFrame { s with http := http } d .headersEnd rest ev n =
        .cont { s with http := http, h := h' }.reset d rest false ev n := by
      intro rest ev n; unfold endFrame; dsimp only; rw [ht]
    have hinv : Inv { s with http := http, h := h' }.reset d := ⟨hi.ctx, hi.wf, hi.idle, rvOk_idle, hk', by simp [Str.reset]⟩
    have key : ∀ ev' : Bool → List Ev, (∀ last rest ev n, sectionEnd c last s d rest ev n =
          endFrame { s with http := http } d .headersEnd rest (ev ++ ev' last) n) → (∀ l, obs (ev' l) = obs (ev' false)) →
        (∀ l, dataLen (ev' l) = 0 ∧ deferredLen (ev' l) = 0) → ∃ s' b, ∃ ev' : Bool → List Ev,
      (∀ last rest ev n, sectionEnd c last s d rest ev n = .cont s' d rest b (ev ++ ev' last) n) ∧
      (∀ l, obs (ev' l) = obs (ev' false)) ∧ Inv s' d ∧ (b = true → s'.rst = .ignRest) ∧ (s'.rst = .ignRest ∨ s'.rst = .frameType) ∧
      SameFlags s s' ∧ s'.blocked = s.blocked ∧ (∀ l, dataLen (ev' l) = 0 ∧ deferredLen (ev' l) = 0) := by
      intro ev' h1 h2 h3
      exact ⟨_, false, ev', fun last rest ev n => by rw [h1, hend], h2, hinv, by simp, Or.inr rfl, .rfl, rfl, h3⟩
    rcases hk with hh | hh | hh | hh
    · refine key (fun last => (if c.server && http.priority && !s.priFixed then [.priority http.pri] else []) ++ [.endHeaders last]) ?_ ?_ ?_
      · intro last rest ev n
        unfold sectionEnd
        rw [he]
        simp only [hh]
        rw [← List.append_assoc]
      · intro l; rw [obs_append, obs_append]; rfl
      · intro l; rw [dataLen_append, deferredLen_append]; split_ifs <;> exact ⟨rfl, rfl⟩
    · refine key (fun last => [.endTrailers last]) ?_ (fun _ => rfl) (fun _ => ⟨rfl, rfl⟩)
      intro last rest ev n; unfold sectionEnd; rw [he]; simp only [hh]
    · refine key (fun last => [.endHeaders last]) ?_ (fun _ => rfl) (fun _ => ⟨rfl, rfl⟩)
      intro last rest ev n; unfold sectionEnd; rw [he]; simp only [hh]
    · refine key (fun last => [.endTrailers last]) ?_ (fun _ => rfl) (fun _ => ⟨rfl, rfl⟩)
      intro last rest ev n; unfold sectionEnd; rw [he]; simp only [hh]

theorem onDataChunk_add {s s' : State} {a : Nat} (h : onDataChunk s a = some s') (b : Nat) : onDataChunk s' b = onDataChunk s (a + b) := by
  unfold onDataChunk at h ⊢
  dsimp only at h ⊢
  split_ifs at h with h1
  cases h
  have e : s.recvContentLength + (a : Int) + (b : Int) = s.recvContentLength + ((a + b : Nat) : Int) := by push_cast; ring
  dsimp only
  rw [e]

theorem onDataChunk_none {s : State} {a : Nat} (h : onDataChunk s a = none) (b : Nat) : onDataChunk s (a + b) = none := by
  unfold onDataChunk at h ⊢
  dsimp only at h ⊢
  split_ifs at h with h1
  rw [if_pos]
  simp only [Bool.or_eq_true, Bool.and_eq_true, bne_iff_ne, ne_eq, decide_eq_true_eq] at h1 ⊢
  rcases h1 with h1 | ⟨h1, h2⟩
  · exact Or.inl h1
  · refine Or.inr ⟨h1, ?_⟩
    push_cast
    omega

theorem obs_data (x : Bytes) : obs [.data x] = x.map .byte := by simp [obs, Ev.obs]

/-- one pass in the DATA state -/
theorem data_good (c : Cfg) (room : Bool) (m : M) (x : Bytes) (hi : Inv m.s m.d) (hr : m.s.rst = .data) (hx : x ≠ []) :
    match mStep c room m x with
    | .crash => False
    | .fail o => ∀ y, mStep c room m (x ++ y) = .fail o
    | .stop o rest => ∀ y, mStep c room m (x ++ y) = .stop o (rest ++ y)
    | .cont m' rest b => Inv m'.s m'.d ∧ (b = true → vis m' = true) ∧ 8 * rest.length + rank m' < 8 * x.length + rank m ∧
        ∀ y, mStep c room m (x ++ y) = .cont m' (rest ++ y) b
    | .ret m' => Inv m'.s m'.d ∧ ∀ y, y ≠ [] → mStep c room m (x ++ y) = mStep c room m' y := by
  obtain ⟨s, d, ev, n⟩ := m
  dsimp only at hi hr
  have hl := hi.left hr
  have hst : ∀ (s : Str) z ev n, s.rst = .data → mStep c room ⟨s, d, ev, n⟩ z = view ⟨s, d, ev, n⟩ (dataStep s d z) := by
    intro s z ev n h; unfold mStep step; dsimp only; rw [h]
  have hxl := List.length_pos_iff.2 hx
  rw [hst s x ev n hr]
  unfold dataStep
  dsimp only
  rcases hd : onDataChunk s.http (x.take s.left).length with _ | http'
  · dsimp only [view]
    intro y
    rw [hst s _ ev n hr]
    unfold dataStep
    dsimp only
    have : ((x ++ y).take s.left).length = (x.take s.left).length + (y.take (s.left - x.length)).length := by
      rw [List.take_append, List.length_append]
    rw [this, onDataChunk_none hd]
    rfl
  · dsimp only
    by_cases h0 : s.left - (x.take s.left).length ≠ 0
    · rw [if_pos h0]
      dsimp only [view]
      have hle : (x.take s.left).length = x.length := by
        rw [List.length_take] at h0 ⊢; omega
      have hxt : x.take s.left = x := List.take_of_length_le (by rw [List.length_take] at hle; omega)
      rw [hxt] at hd h0 ⊢
      refine ⟨⟨hi.ctx, hi.wf, hi.idle, hi.rv, by have := hi.hok; rw [hr] at this; rw [hr]; exact this, fun _ => by dsimp only; omega⟩, fun y hy => ?_⟩
      rw [hst s _ ev n hr, hst _ y _ _ (by exact hr)]
      unfold dataStep
      dsimp only
      have e1 : (x ++ y).take s.left = x ++ y.take (s.left - x.length) := by rw [List.take_append, hxt]
      rw [e1, List.length_append, ← onDataChunk_add hd]
      rcases hd2 : onDataChunk http' (y.take (s.left - x.length)).length with _ | http2
      · rfl
      · dsimp only
        have e2 : s.left - (x.length + (y.take (s.left - x.length)).length) = s.left - x.length - (y.take (s.left - x.length)).length := by omega
        rw [e2]
        by_cases h1 : s.left - x.length - (y.take (s.left - x.length)).length ≠ 0
        · rw [if_pos h1, if_pos h1]
          dsimp only [view]
          rw [obs_data, obs_data, obs_data, List.map_append, List.append_assoc]
        · rw [if_neg h1, if_neg h1]
          unfold endFrame
          dsimp only
          rw [List.drop_append]
          have : x.drop (x.length + (y.take (s.left - x.length)).length) = [] := List.drop_eq_nil_iff.2 (by omega)
          rw [this, Nat.add_sub_cancel_left]
          split
          · dsimp only [view]
            rw [if_neg (by simp [Str.reset]), if_neg (by simp [Str.reset]), obs_data, obs_data, obs_data, List.map_append, List.append_assoc,
              List.nil_append]
          · rfl
    · rw [if_neg h0]
      have hk := hi.hok
      rw [hr] at hk
      obtain ⟨h', ht, hk'⟩ := transit_data hk http'
      have hle : s.left ≤ x.length := by rw [List.length_take] at h0; omega
      have hlen : (x.take s.left).length = s.left := by rw [List.length_take]; omega
      unfold endFrame
      dsimp only
      rw [ht]
      dsimp only [view]
      rw [if_neg (by simp [Str.reset])]
      refine ⟨⟨hi.ctx, hi.wf, hi.idle, rvOk_idle, hk', by simp [Str.reset]⟩, by simp, ?_, fun y => ?_⟩
      · rw [List.length_drop, hlen]
        unfold rank
        split_ifs <;> omega
      · rw [hst s _ ev n hr]
        unfold dataStep
        dsimp only
        rw [List.take_append_of_le_length hle, hd]
        dsimp only
        rw [if_neg h0]
        unfold endFrame
        dsimp only
        rw [ht]
        dsimp only [view]
        rw [if_neg (by simp [Str.reset]), List.drop_append_of_le_length (by rw [hlen]; exact hle)]

/-- what `Machine.Good` asks of one pass -/
def StepGood (c : Cfg) (room : Bool) (m : M) (x : Bytes) : Prop :=
  match mStep c room m x with
  | .crash => False
  | .fail o => ∀ y, mStep c room m (x ++ y) = .fail o
  | .stop o rest => ∀ y, mStep c room m (x ++ y) = .stop o (rest ++ y)
  | .cont m' rest b => Inv m'.s m'.d ∧ (b = true → vis m' = true) ∧ 8 * rest.length + rank m' < 8 * x.length + rank m ∧
      ∀ y, mStep c room m (x ++ y) = .cont m' (rest ++ y) b
  | .ret m' => Inv m'.s m'.d ∧ ∀ y, y ≠ [] → mStep c room m (x ++ y) = mStep c room m' y

theorem norm_inv {s : Str} {d : Dec} (hc : CtxOk d.ctx) (h : s.rst = .ignRest) : Inv s.norm d := by
  unfold Str.norm
  rw [if_pos h]
  exact ⟨hc, SWF.init 0, (fun g => by cases g), rvOk_idle, by show HOk s.rst _; rw [h]; trivial, fun g => by dsimp only at g; rw [h] at g; cases g⟩

theorem norm_rst (s : Str) : s.norm.rst = s.rst := by
  unfold Str.norm; split_ifs <;> rfl

/-- one pass in the HEADERS state -/
theorem headers_good (c : Cfg) (room : Bool) (m : M) (x : Bytes) (hi : Inv m.s m.d) (hr : m.s.rst = .headers) (hx : x ≠ []) :
    StepGood c room m x := by
  obtain ⟨s, d, ev, n⟩ := m
  dsimp only at hi hr
  have hst : ∀ (s : Str) d z ev n, s.rst = .headers → mStep c room ⟨s, d, ev, n⟩ z = view ⟨s, d, ev, n⟩ (headersStep c room false s d z) := by
    intro s d z ev n h; unfold mStep step; dsimp only; rw [h]
  have hrank : ∀ ev n, rank ⟨s, d, ev, n⟩ = 1 := by intro ev n; unfold rank; dsimp only; rw [hr]; rfl
  have herr : ∀ ev' n' d' z, view ⟨s, d, ev, n⟩ (headerError s d' z ev' n') =
      .ret ⟨{ s with httpErr := true, rst := .ignRest }.norm, d', ev ++ obs (ev' ++ [.stopSending 0x010e, .resetStream 0x010e]), n + n' + z.length⟩ := by
    intro ev' n' d' z
    unfold headerError
    dsimp only [view]
    rw [if_pos rfl]
  -- a pass in the state IGN_REST
  have hign : ∀ (s' : Str) d' ev' n' z, s'.rst = .ignRest → mStep c room ⟨s', d', ev', n'⟩ z = .ret ⟨s', d', ev', n' + z.length⟩ := by
    intro s' d' ev' n' z h
    unfold mStep step
    dsimp only
    rw [h]
    dsimp only [view]
    rw [obs_nil, List.append_nil]
  unfold StepGood
  by_cases hle : s.left ≤ x.length
  · have hlen : (x.take s.left).length = s.left := by rw [List.length_take]; omega
    have hxy : ∀ y, (x ++ y).take s.left = x.take s.left := fun y => List.take_append_of_le_length hle
    have hdr : ∀ y : Bytes, (x ++ y).drop s.left = x.drop s.left ++ y := fun y => List.drop_append_of_le_length hle
    have hsafe := onHeaders_safe c s.h hi.ctx true s.sc s.http (x.take s.left) hi.wf hi.idle
    have hsec : ∀ (d' : Dec) (sc : SCtx) http ev', (d'.ctx = d.ctx ∧ SWF sc ∧ Idle sc) → 
        (∀ z : Bytes, z.take s.left = x.take s.left → headersStep c room false s d z = if s.left - (z.take s.left).length ≠ 0 then .ret { s with sc := sc, http := http, left := s.left - (z.take s.left).length } d' ev' (z.take s.left).length
           else sectionEnd c (false && decide (z.drop (z.take s.left).length = [])) { s with sc := sc, http := http, left := s.left - (z.take s.left).length } d' (z.drop (z.take s.left).length) ev' (z.take s.left).length) →
        StepGood c room ⟨s, d, ev, n⟩ x := by
      intro d' sc http ev' hsc hh
      have hinv : Inv { s with sc := sc, http := http, left := s.left - s.left } d' :=
        ⟨by rw [hsc.1]; exact hi.ctx, hsc.2.1, hsc.2.2, hi.rv, hi.hok, fun g => by dsimp only at g; rw [hr] at g; cases g⟩
      obtain ⟨s', b, ev2, h1, h2, h3, h4, h5, h6, h7, h8⟩ := sectionEnd_cases c hinv (by exact hr)
      have hx1 : ∀ y, headersStep c room false s d (x ++ y) = .cont s' d' (x.drop s.left ++ y) b (ev' ++ ev2 false) s.left := by
        intro y
        rw [hh (x ++ y) (hxy y), hxy, hlen, if_neg (by omega), hdr, h1, Bool.false_and]
      have hx0 : headersStep c room false s d x = .cont s' d' (x.drop s.left) b (ev' ++ ev2 false) s.left := by
        have := hx1 []; rw [List.append_nil, List.append_nil] at this; exact this
      unfold StepGood
      rw [hst _ _ _ _ _ hr, hx0]
      dsimp only [view]
      by_cases hig : s'.rst = .ignRest
      · rw [if_pos hig]
        refine ⟨norm_inv h3.ctx hig, fun y hy => ?_⟩
        rw [hst _ _ _ _ _ hr, hx1, hign _ _ _ _ _ (by rw [norm_rst]; exact hig)]
        dsimp only [view]
        rw [if_pos hig, List.length_append, ← Nat.add_assoc]
      · rw [if_neg hig]
        refine ⟨h3, fun hb => absurd (h4 hb) hig, ?_, fun y => ?_⟩
        · rw [hrank, List.length_drop]
          have : s'.rst = .frameType := by rcases h5 with h5 | h5; exacts [absurd h5 hig, h5]
          unfold rank
          dsimp only
          rw [this]
          simp
          omega
        · rw [hst _ _ _ _ _ hr, hx1]
          dsimp only [view]
          rw [if_neg hig]
    rcases ho : onHeaders c s.h d s.sc s.http (x.take s.left) true with ⟨ev', o⟩
    have hstep : ∀ y, onHeaders c s.h d s.sc s.http ((x ++ y).take s.left) (decide (((x ++ y).take s.left).length = s.left)) = (ev', o) := by
      intro y; rw [hxy, hlen, decide_eq_true rfl]; exact ho
    have hstep0 : onHeaders c s.h d s.sc s.http (x.take s.left) (decide ((x.take s.left).length = s.left)) = (ev', o) := by
      rw [hlen, decide_eq_true rfl]; exact ho
    rw [ho] at hsafe
    have hany : ∀ z : Bytes, z.take s.left = x.take s.left → onHeaders c s.h d s.sc s.http (z.take s.left) (decide ((z.take s.left).length = s.left)) = (ev', o) := by
      intro z h; rw [h]; exact hstep0
    rcases o with _ | e | d' | ⟨d', sc, http⟩ | ⟨d', sc, http⟩ | ⟨d', sc, http, rest⟩ <;> dsimp only at hsafe
    · rw [hst _ _ _ _ _ hr]; unfold headersStep; dsimp only; rw [hstep0]
      dsimp only [view]; intro y
      rw [hst _ _ _ _ _ hr]; unfold headersStep; dsimp only; rw [hstep y]; rfl
    · subst hsafe
      rw [hst _ _ _ _ _ hr]; unfold headersStep; dsimp only; rw [hstep0]
      dsimp only; rw [herr]
      refine ⟨norm_inv (s := { s with httpErr := true, rst := .ignRest }) hi.ctx rfl, fun y hy => ?_⟩
      rw [hst _ _ _ _ _ hr, hign _ _ _ _ _ (by rw [norm_rst])]; unfold headersStep; dsimp only; rw [hstep y]; dsimp only; rw [herr]
      rw [List.length_append]
      congr 2
      omega
    · refine hsec d' sc http ev' ⟨by rw [hsafe.1], hsafe.2⟩ fun z hz => ?_
      unfold headersStep; dsimp only; rw [hany z hz]
    · refine hsec d' sc http ev' ⟨hsafe.1, hsafe.2.1, hsafe.2.2.1⟩ fun z hz => ?_
      unfold headersStep; dsimp only; rw [hany z hz]
    · rw [hst _ _ _ _ _ hr]; unfold headersStep; dsimp only; rw [hstep0]
      dsimp only
      cases room with
      | false =>
        dsimp only [view, Bool.false_eq_true, if_false]
        intro y
        rw [hst _ _ _ _ _ hr]; unfold headersStep; dsimp only; rw [hstep y]; rfl
      | true =>
        simp only [if_true]
        dsimp only [view]
        intro y
        rw [hst _ _ _ _ _ hr]; unfold headersStep; dsimp only; rw [hstep y]; simp only [if_true]; dsimp only [view]
        rw [hxy, hlen, hdr, List.append_assoc]
  · have hlt : x.length < s.left := by omega
    have hxt : x.take s.left = x := List.take_of_length_le (by omega)
    have hdr0 : x.drop x.length = [] := List.drop_length
    have hxy : ∀ y : Bytes, (x ++ y).take s.left = x ++ y.take (s.left - x.length) := by
      intro y; rw [List.take_append, hxt]
    have hdr : ∀ y : Bytes, (x ++ y).drop (x ++ y.take (s.left - x.length)).length = y.drop (y.take (s.left - x.length)).length := by
      intro y; rw [List.length_append, List.drop_append, List.drop_eq_nil_iff.2 (by omega), List.nil_append, Nat.add_sub_cancel_left]
    have hfin : decide (x.length = s.left) = false := by simp; omega
    have hsafe := onHeaders_safe c s.h hi.ctx false s.sc s.http x hi.wf hi.idle
    have happ := fun y fin => onHeaders_append c s.h hi.ctx s.sc s.http hi.wf hi.idle x y fin hx
    rcases ho : onHeaders c s.h d s.sc s.http x false with ⟨ev', o⟩
    rw [ho] at hsafe happ
    have hstep0 : onHeaders c s.h d s.sc s.http (x.take s.left) (decide ((x.take s.left).length = s.left)) = (ev', o) := by
      rw [hxt, hfin]; exact ho
    rw [hst _ _ _ _ _ hr]
    unfold headersStep
    dsimp only
    rw [hstep0]
    rcases o with _ | e | d' | ⟨d', sc, http⟩ | ⟨d', sc, http⟩ | ⟨d', sc, http, rest⟩ <;> dsimp only at hsafe happ ⊢
    · dsimp only [view]; intro y
      rw [hst _ _ _ _ _ hr]; unfold headersStep; dsimp only
      rw [hxy]
      obtain ⟨ev2, h2⟩ := happ (y.take (s.left - x.length)) (decide ((x ++ y.take (s.left - x.length)).length = s.left))
      rw [h2]; rfl
    · subst hsafe
      rw [herr]
      refine ⟨norm_inv (s := { s with httpErr := true, rst := .ignRest }) hi.ctx rfl, fun y hy => ?_⟩
      rw [hst _ _ _ _ _ hr, hign _ _ _ _ _ (by rw [norm_rst])]; unfold headersStep; dsimp only
      rw [hxy, happ]; dsimp only; rw [herr, List.length_append]
      congr 2
      omega
    · obtain ⟨rfl, hw', hi'⟩ := hsafe
      rw [hxt, if_pos (by omega)]
      dsimp only [view]
      refine ⟨⟨hi.ctx, hw', hi', hi.rv, hi.hok, fun g => by dsimp only at g; rw [hr] at g; cases g⟩, fun y hy => ?_⟩
      rw [hst _ _ _ _ _ hr, hst _ _ _ _ _ (by exact hr)]
      unfold headersStep
      dsimp only
      rw [hxy, happ]
      have hf2 : decide ((x ++ y.take (s.left - x.length)).length = s.left) = decide ((y.take (s.left - x.length)).length = s.left - x.length) := by
        rw [List.length_append]; simp only [decide_eq_decide]; omega
      rw [hf2]
      have hl2 : s.left - (x ++ y.take (s.left - x.length)).length = s.left - x.length - (y.take (s.left - x.length)).length := by
        rw [List.length_append]; omega
      rcases ho2 : onHeaders c s.h d' sc http (y.take (s.left - x.length)) (decide ((y.take (s.left - x.length)).length = s.left - x.length)) with ⟨ev2, o2⟩
      have hsafe2 := onHeaders_safe c s.h hi.ctx (decide ((y.take (s.left - x.length)).length = s.left - x.length)) sc http (y.take (s.left - x.length)) hw' hi'
      rw [ho2] at hsafe2
      have hfinish : ∀ (d2 : Dec) (sc2 : SCtx) http2, (d2.ctx = d'.ctx ∧ SWF sc2 ∧ Idle sc2) →
          view ⟨s, d', ev, n⟩ (if s.left - x.length - (y.take (s.left - x.length)).length ≠ 0 then
              .ret { s with sc := sc2, http := http2, left := s.left - x.length - (y.take (s.left - x.length)).length } d2 (ev' ++ ev2) (x ++ y.take (s.left - x.length)).length
            else sectionEnd c false { s with sc := sc2, http := http2, left := s.left - x.length - (y.take (s.left - x.length)).length } d2
              (y.drop (y.take (s.left - x.length)).length) (ev' ++ ev2) (x ++ y.take (s.left - x.length)).length) =
          view ⟨{ s with sc := sc, http := http, left := s.left - x.length }, d', ev ++ obs ev', n + x.length⟩
            (if s.left - x.length - (y.take (s.left - x.length)).length ≠ 0 then
              .ret { s with sc := sc2, http := http2, left := s.left - x.length - (y.take (s.left - x.length)).length } d2 ev2 (y.take (s.left - x.length)).length
            else sectionEnd c false { s with sc := sc2, http := http2, left := s.left - x.length - (y.take (s.left - x.length)).length } d2
              (y.drop (y.take (s.left - x.length)).length) ev2 (y.take (s.left - x.length)).length) := by
        intro d2 sc2 http2 h2
        by_cases h0 : s.left - x.length - (y.take (s.left - x.length)).length ≠ 0
        · rw [if_pos h0, if_pos h0]
          dsimp only [view]
          rw [obs_append, List.append_assoc, List.length_append, ← Nat.add_assoc]
        · rw [if_neg h0, if_neg h0]
          obtain ⟨s', b, ev3, h1, _⟩ := sectionEnd_cases c (d := d2)
            (s := { s with sc := sc2, http := http2, left := s.left - x.length - (y.take (s.left - x.length)).length })
            ⟨by rw [h2.1]; exact hi.ctx, h2.2.1, h2.2.2, hi.rv, hi.hok, fun g => by dsimp only at g; rw [hr] at g; cases g⟩ (by exact hr)
          rw [h1, h1]
          dsimp only [view]
          simp only [obs_append, List.append_assoc, List.length_append, Nat.add_assoc]
      rcases o2 with _ | e | d2 | ⟨d2, sc2, http2⟩ | ⟨d2, sc2, http2⟩ | ⟨d2, sc2, http2, rest⟩ <;> dsimp only at hsafe2 ⊢
      · rfl
      · rw [herr]
        unfold headerError
        dsimp only [view]
        rw [if_pos rfl, List.append_assoc, obs_append, List.append_assoc, List.length_append]
        congr 2
        omega
      · rw [hdr, hl2, Bool.false_and]
        exact hfinish d2 sc2 http2 ⟨by rw [hsafe2.1], hsafe2.2⟩
      · rw [hdr, hl2, Bool.false_and]
        exact hfinish d2 sc2 http2 ⟨hsafe2.1, hsafe2.2.1, hsafe2.2.2.1⟩
      · cases room with
        | false => rfl
        | true =>
          simp only [if_true]
          dsimp only [view]
          have e1 : (x ++ y.take (s.left - x.length)).length - rest.length = x.length + ((y.take (s.left - x.length)).length - rest.length) := by
            rw [List.length_append]; omega
          rw [hdr, e1, obs_append, List.append_assoc, ← Nat.add_assoc, Nat.sub_sub]
    · obtain ⟨_, _, _, hbad⟩ := hsafe; cases hbad
    · obtain ⟨rfl, hw', hi', _, hrl, _⟩ := hsafe
      cases room with
      | false =>
        simp only [Bool.false_eq_true, if_false]
        dsimp only [view]; intro y
        rw [hst _ _ _ _ _ hr]; unfold headersStep; dsimp only
        rw [hxy, happ]; rfl
      | true =>
        simp only [if_true]
        dsimp only [view]; intro y
        rw [hst _ _ _ _ _ hr]; unfold headersStep; dsimp only
        rw [hxy, happ]; simp only [if_true]; dsimp only [view]
        have e1 : (x ++ y.take (s.left - x.length)).length - (rest ++ y.take (s.left - x.length)).length = x.length - rest.length := by
          rw [List.length_append, List.length_append]; omega
        rw [e1, hdr, hxt, hdr0, List.append_nil, List.append_assoc]
        congr 2
        rw [List.length_take]
        rcases Nat.le_total (s.left - x.length) y.length with h | h
        · rw [Nat.min_eq_left h, List.take_append_drop]
        · rw [Nat.min_eq_right h, List.drop_length, List.append_nil, List.take_of_length_le h]

end Bidi
end Nghttp3
