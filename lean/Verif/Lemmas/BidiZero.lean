import Verif.Lemmas.QpackZero
import Verif.Lemmas.BidiFrames
/-! A request stream whose field sections do not refer to the dynamic table: what happens does not depend on the decoder. -/
namespace Nghttp3
namespace Bidi
open Http Qpack

/-- the same, but for the fields of the request -/
structure SameCfg (c0 c : Cfg) : Prop where
  server : c.server = c0.server
  ext : c.ext = c0.ext
  pp : c.pp = c0.pp

/-- without the priority signal -/
def Ev.noPri : Ev → Bool
  | .priority _ => false
  | _ => true

def SameEv (a b : List Ev) : Prop := a.filter Ev.noPri = b.filter Ev.noPri

theorem SameEv.refl (a : List Ev) : SameEv a a := rfl
theorem SameEv.append {a b a' b' : List Ev} (h : SameEv a b) (h' : SameEv a' b') : SameEv (a ++ a') (b ++ b') := by
  unfold SameEv at *; rw [List.filter_append, List.filter_append, h, h']

theorem fieldRes_same {c0 c : Cfg} (hc : SameCfg c0 c) (h : Hs) (http : State) (nv : QNv) : fieldRes c h http nv = fieldRes c0 h http nv := by
  unfold fieldRes; rw [hc.server, hc.ext, hc.pp]

/-- the outcome with the decoder that has no dynamic table; the outcome with another decoder -/
def DRes.Like : List Ev × DRes → List Ev × DRes → Prop
  | (ev, .malformed d), o => Blank d ∧ ((∃ ev' e, o = (ev', .fail e)) ∨ ∃ d', o = (ev, .malformed d'))
  | (ev, .more d s http), o => Blank d ∧ Zero s ∧ ((∃ ev' e, o = (ev', .fail e)) ∨ ∃ d', o = (ev, .more d' s http))
  | (ev, .done d s http), o => Blank d ∧ Zero s ∧ ((∃ ev' e, o = (ev', .fail e)) ∨ ∃ d', o = (ev, .done d' s http))
  | (_, .blocked _ _ _ _), _ => False
  | _, _ => True

theorem DRes.Like.failed {a : List Ev × DRes} {b : List Ev × DRes} (h : DRes.Like a b) (ev : List Ev) (e : Int) : DRes.Like a (ev, .fail e) := by
  rcases a with ⟨ev0, _ | _ | _ | _ | _ | _⟩
  · trivial
  · trivial
  · exact ⟨h.1, Or.inl ⟨_, _, rfl⟩⟩
  · exact ⟨h.1, h.2.1, Or.inl ⟨_, _, rfl⟩⟩
  · exact ⟨h.1, h.2.1, Or.inl ⟨_, _, rfl⟩⟩
  · exact h

theorem decLoop_like {c0 c : Cfg} (hc : SameCfg c0 c) (h : Hs) (f : Nat) (d0 d : Dec) (s : SCtx) (http : State) (src : Bytes) (fin : Bool) (acc : List Ev)
    (hb : Blank d0) (hz : Zero s) : DRes.Like (decLoop c0 h f d0 s http src fin acc) (decLoop c h f d s http src fin acc) := by
  induction f generalizing d0 d s http src acc with
  | zero => trivial
  | succ f ih =>
    have hr := readRequest_like d0 d s src fin hb hz
    unfold decLoop
    rcases h0 : d0.readRequest s src fin with _ | ⟨d1, e⟩ | ⟨d1, s1⟩ | ⟨d1, s1⟩ | ⟨d1, s1, nv, rest⟩ | ⟨d1, s1, rest⟩ <;> rw [h0] at hr
    · trivial
    · trivial
    · obtain ⟨g1, g2, ⟨d2, e, g⟩ | ⟨d2, g⟩⟩ := hr <;> rw [g]
      · exact ⟨g1, g2, Or.inl ⟨_, _, rfl⟩⟩
      · exact ⟨g1, g2, Or.inr ⟨_, rfl⟩⟩
    · obtain ⟨g1, g2, ⟨d2, e, g⟩ | ⟨d2, g⟩⟩ := hr <;> rw [g]
      · exact ⟨g1, .init _, Or.inl ⟨_, _, rfl⟩⟩
      · exact ⟨g1, .init _, Or.inr ⟨_, rfl⟩⟩
    · obtain ⟨g1, g2, g⟩ := hr
      dsimp only
      have key : ∀ d2, DRes.Like
          (if rest.length = src.length then (acc, .more d1 s1 http) else
            match fieldRes c0 h http nv with
            | .malformed => (acc, .malformed d1)
            | .remove http' => decLoop c0 h f d1 s1 http' rest fin acc
            | .ok http' => decLoop c0 h f d1 s1 http' rest fin (acc ++ [fieldEv h nv]))
          (if rest.length = src.length then (acc, .more d2 s1 http) else
            match fieldRes c h http nv with
            | .malformed => (acc, .malformed d2)
            | .remove http' => decLoop c h f d2 s1 http' rest fin acc
            | .ok http' => decLoop c h f d2 s1 http' rest fin (acc ++ [fieldEv h nv])) := by
        intro d2
        by_cases hl : rest.length = src.length
        · rw [if_pos hl, if_pos hl]; exact ⟨g1, g2, Or.inr ⟨_, rfl⟩⟩
        rw [if_neg hl, if_neg hl, fieldRes_same hc]
        rcases fieldRes c0 h http nv with _ | http' | http' <;> dsimp only
        · exact ⟨g1, Or.inr ⟨_, rfl⟩⟩
        all_goals exact ih _ _ _ _ _ _ g1 g2
      rcases g with ⟨d2, e, g⟩ | ⟨d2, g⟩ <;> rw [g]
      · exact (key d1).failed acc (qerr e)
      · exact key d2
    · exact hr

theorem onHeaders_like {c0 c : Cfg} (hc : SameCfg c0 c) (h : Hs) (d0 d : Dec) (s : SCtx) (http : State) (src : Bytes) (fin : Bool) (hb : Blank d0) (hz : Zero s) :
    DRes.Like (onHeaders c0 h d0 s http src fin) (onHeaders c h d s http src fin) := by
  unfold onHeaders
  by_cases h0 : src = [] ∧ fin = false
  · rw [if_pos h0, if_pos h0]; exact ⟨hb, hz, Or.inr ⟨_, rfl⟩⟩
  · rw [if_neg h0, if_neg h0]; exact decLoop_like hc h _ d0 d s http src fin [] hb hz

/-- the same pass, with another decoder and another priority flag -/
def BRes.Like (b : Bool) : BRes → BRes → Prop
  | .cont s d rest busy ev n, o => Blank d ∧ Zero s.sc ∧ ((∃ e, o = .fail e) ∨ ∃ d' ev', SameEv ev' ev ∧ o = .cont { s with priFixed := b } d' rest busy ev' n)
  | .ret s d ev n, o => Blank d ∧ Zero s.sc ∧ ((∃ e, o = .fail e) ∨ ∃ d' ev', SameEv ev' ev ∧ o = .ret { s with priFixed := b } d' ev' n)
  | .blocked _ _ _ _ _, _ => False
  | _, _ => True

variable {b : Bool}

theorem BRes.Like.failed {x y : BRes} (h : BRes.Like b x y) (e : Int) : BRes.Like b x (.fail e) := by
  rcases x with _ | _ | _ | _ | _
  · trivial
  · trivial
  · exact ⟨h.1, h.2.1, Or.inl ⟨_, rfl⟩⟩
  · exact ⟨h.1, h.2.1, Or.inl ⟨_, rfl⟩⟩
  · exact h

theorem endFrame_like (s : Str) (d0 d : Dec) (e : Hev) (rest : Bytes) {ev ev' : List Ev} (he : SameEv ev' ev) (n : Nat) (hb : Blank d0) (hz : Zero s.sc) :
    BRes.Like b (endFrame s d0 e rest ev n) (endFrame { s with priFixed := b } d e rest ev' n) := by
  unfold endFrame
  dsimp only
  rcases transit s.h s.http e with _ | _ | _ | h'
  · trivial
  · trivial
  · trivial
  · exact ⟨hb, hz, Or.inr ⟨_, _, he, rfl⟩⟩

theorem transitOr_like (s : Str) (e : Hev) (k0 k : Str → BRes) (hk : ∀ h, BRes.Like b (k0 { s with h := h }) (k { { s with priFixed := b } with h := h })) :
    BRes.Like b (transitOr s e k0) (transitOr { s with priFixed := b } e k) := by
  unfold transitOr
  dsimp only
  rcases transit s.h s.http e with _ | _ | _ | h'
  · trivial
  · trivial
  · trivial
  · exact hk h'

theorem frameHead_like (s : Str) (d0 d : Dec) (rest : Bytes) (n : Nat) (hb : Blank d0) (hz : Zero s.sc) :
    BRes.Like b (frameHead s d0 rest n) (frameHead { s with priFixed := b } d rest n) := by
  unfold frameHead
  dsimp only
  by_cases h1 : s.ftype = FRAME_DATA
  · rw [if_pos h1, if_pos h1]
    refine transitOr_like s _ _ _ fun h => ?_
    dsimp only
    by_cases hl : s.left = 0
    · rw [if_pos hl, if_pos hl]; exact endFrame_like { s with h := h } d0 d _ _ (.refl _) _ hb hz
    · rw [if_neg hl, if_neg hl]; exact ⟨hb, hz, Or.inr ⟨_, _, .refl _, rfl⟩⟩
  rw [if_neg h1, if_neg h1]
  by_cases h2 : s.ftype = FRAME_HEADERS
  · rw [if_pos h2, if_pos h2]
    refine transitOr_like s _ _ _ fun h => ?_
    dsimp only
    by_cases hl : s.left = 0
    · rw [if_pos hl, if_pos hl]
      by_cases he : emptyHeadersAllowed h = true
      · rw [if_pos he, if_pos he]; exact endFrame_like { s with h := h } d0 d _ _ (.refl _) _ hb hz
      · rw [if_neg he, if_neg he]; trivial
    · rw [if_neg hl, if_neg hl]
      cases h <;> first | trivial | exact ⟨hb, hz, Or.inr ⟨_, _, .refl _, rfl⟩⟩
  rw [if_neg h2, if_neg h2]
  by_cases h3 : unexpectedType s.ftype = true
  · rw [if_pos h3, if_pos h3]; trivial
  · rw [if_neg h3, if_neg h3]; exact ⟨hb, hz, Or.inr ⟨_, _, .refl _, rfl⟩⟩

theorem dataStep_like (s : Str) (d0 d : Dec) (src : Bytes) (hb : Blank d0) (hz : Zero s.sc) :
    BRes.Like b (dataStep s d0 src) (dataStep { s with priFixed := b } d src) := by
  unfold dataStep
  dsimp only
  rcases onDataChunk s.http (src.take s.left).length with _ | http <;> dsimp only
  · trivial
  split_ifs
  · exact ⟨hb, hz, Or.inr ⟨_, _, .refl _, rfl⟩⟩
  · exact endFrame_like { s with http := http, left := s.left - (src.take s.left).length } d0 d _ _ (.refl _) _ hb hz

theorem headerError_like (s : Str) (d0 d : Dec) (rest : Bytes) (ev : List Ev) (n : Nat) (hb : Blank d0) (hz : Zero s.sc) :
    BRes.Like b (headerError s d0 rest ev n) (headerError { s with priFixed := b } d rest ev n) :=
  ⟨hb, hz, Or.inr ⟨_, _, .refl _, rfl⟩⟩

theorem sectionEnd_like {c0 c : Cfg} (hc : SameCfg c0 c) (last : Bool) (s : Str) (d0 d : Dec) (rest : Bytes) (ev : List Ev) (n : Nat) (hb : Blank d0) (hz : Zero s.sc) :
    BRes.Like b (sectionEnd c0 last s d0 rest ev n) (sectionEnd c last { s with priFixed := b } d rest ev n) := by
  unfold sectionEnd
  dsimp only
  rcases endSection s.h s.http with _ | http <;> dsimp only
  · exact headerError_like s d0 d _ _ _ hb hz
  have hp : ∀ (q q' : Bool) (x : List Ev), SameEv (ev ++ (if q then [Ev.priority http.pri] else []) ++ x) (ev ++ (if q' then [Ev.priority http.pri] else []) ++ x) := by
    intro q q' x
    refine (SameEv.append (.append (.refl _) ?_) (.refl _))
    cases q <;> cases q' <;> rfl
  rw [hc.server]
  cases s.h <;> dsimp only
  all_goals first | trivial | exact endFrame_like { s with http := http, h := _ } d0 d _ _ (.refl _) _ hb hz | exact endFrame_like { s with http := http, h := _ } d0 d _ _ (hp _ _ _) _ hb hz

theorem headersStep_like {c0 c : Cfg} (hc : SameCfg c0 c) (room0 room fin : Bool) (s : Str) (d0 d : Dec) (src : Bytes) (hb : Blank d0) (hz : Zero s.sc) :
    BRes.Like b (headersStep c0 room0 fin s d0 src) (headersStep c room fin { s with priFixed := b } d src) := by
  unfold headersStep
  dsimp only
  have hl := onHeaders_like hc s.h d0 d s.sc s.http (src.take s.left) (decide ((src.take s.left).length = s.left)) hb hz
  have key : ∀ d1 sc http ev, Blank d1 → Qpack.Zero sc → ∀ d2, BRes.Like b
      (if s.left - (src.take s.left).length ≠ 0 then .ret { s with sc := sc, http := http, left := s.left - (src.take s.left).length } d1 ev (src.take s.left).length
        else sectionEnd c0 (fin && decide (src.drop (src.take s.left).length = [])) { s with sc := sc, http := http, left := s.left - (src.take s.left).length } d1
          (src.drop (src.take s.left).length) ev (src.take s.left).length)
      (if s.left - (src.take s.left).length ≠ 0 then .ret { s with sc := sc, http := http, left := s.left - (src.take s.left).length, priFixed := b } d2 ev (src.take s.left).length
        else sectionEnd c (fin && decide (src.drop (src.take s.left).length = [])) { s with sc := sc, http := http, left := s.left - (src.take s.left).length, priFixed := b } d2
          (src.drop (src.take s.left).length) ev (src.take s.left).length) := by
    intro d1 sc http ev k1 k2 d2
    by_cases h0 : s.left - (src.take s.left).length ≠ 0
    · rw [if_pos h0, if_pos h0]; exact ⟨k1, k2, Or.inr ⟨_, _, .refl _, rfl⟩⟩
    · rw [if_neg h0, if_neg h0]
      exact sectionEnd_like hc _ { s with sc := sc, http := http, left := s.left - (src.take s.left).length } d1 d2 _ _ _ k1 k2
  rcases h0 : onHeaders c0 s.h d0 s.sc s.http (src.take s.left) (decide ((src.take s.left).length = s.left)) with
    ⟨ev, _ | e | d1 | ⟨d1, sc, http⟩ | ⟨d1, sc, http⟩ | ⟨d1, sc, http, rest⟩⟩ <;> rw [h0] at hl
  · trivial
  · trivial
  · obtain ⟨g1, ⟨ev', e, g⟩ | ⟨d2, g⟩⟩ := hl <;> rw [g]
    · exact ⟨g1, hz, Or.inl ⟨_, rfl⟩⟩
    · exact headerError_like s d1 d2 _ _ _ g1 hz
  · obtain ⟨g1, g2, ⟨ev', e, g⟩ | ⟨d2, g⟩⟩ := hl <;> rw [g]
    · exact (key d1 sc http ev g1 g2 d).failed _
    · exact key d1 sc http ev g1 g2 d2
  · obtain ⟨g1, g2, ⟨ev', e, g⟩ | ⟨d2, g⟩⟩ := hl <;> rw [g]
    · exact (key d1 sc http ev g1 g2 d).failed _
    · exact key d1 sc http ev g1 g2 d2
  · exact (show False from hl).elim

theorem step_like {c0 c : Cfg} (hc : SameCfg c0 c) (room0 room fin : Bool) (s : Str) (d0 d : Dec) (src : Bytes) (hb : Blank d0) (hz : Zero s.sc) :
    BRes.Like b (step c0 room0 fin s d0 src) (step c room fin { s with priFixed := b } d src) := by
  obtain ⟨rst, rv, ftype, left, h, http, sc, inq, blocked, shutRd, eof, httpErr, closed, priFixed, gone⟩ := s
  unfold step
  cases rst <;> dsimp only
  · rcases rd rv src fin with _ | _ | rv | ⟨v, n⟩
    · trivial
    · trivial
    · exact ⟨hb, hz, Or.inr ⟨_, _, .refl _, rfl⟩⟩
    · exact ⟨hb, hz, Or.inr ⟨_, _, .refl _, rfl⟩⟩
  · rcases rd rv src fin with _ | _ | rv | ⟨v, n⟩
    · trivial
    · trivial
    · exact ⟨hb, hz, Or.inr ⟨_, _, .refl _, rfl⟩⟩
    · exact frameHead_like ⟨.frameLen, {}, ftype, v, h, http, sc, inq, blocked, shutRd, eof, httpErr, closed, priFixed, gone⟩ d0 d (src.drop n) n hb hz
  · exact dataStep_like ⟨.data, rv, ftype, left, h, http, sc, inq, blocked, shutRd, eof, httpErr, closed, priFixed, gone⟩ d0 d src hb hz
  · exact headersStep_like hc room0 room fin ⟨.headers, rv, ftype, left, h, http, sc, inq, blocked, shutRd, eof, httpErr, closed, priFixed, gone⟩ d0 d src hb hz
  · split_ifs
    · exact ⟨hb, hz, Or.inr ⟨_, _, .refl _, rfl⟩⟩
    · exact ⟨hb, hz, Or.inr ⟨_, _, .refl _, rfl⟩⟩
  · exact ⟨hb, hz, Or.inr ⟨_, _, .refl _, rfl⟩⟩

/-! ### runs -/

/-- without the priority signal -/
def Obs.noPri : Obs → Bool
  | .priority _ => false
  | _ => true

def SameObs (a b : List Obs) : Prop := a.filter Obs.noPri = b.filter Obs.noPri

theorem SameObs.append {a b a' b' : List Obs} (h : SameObs a b) (h' : SameObs a' b') : SameObs (a ++ a') (b ++ b') := by
  unfold SameObs at *; rw [List.filter_append, List.filter_append, h, h']

theorem obs_noPri (ev : List Ev) : (obs ev).filter Obs.noPri = obs (ev.filter Ev.noPri) := by
  induction ev with
  | nil => rfl
  | cons e t ih =>
    rw [show obs (e :: t) = e.obs ++ obs t from rfl, List.filter_append, ih, List.filter_cons]
    have hd : ∀ bs : Bytes, (bs.map Obs.byte).filter Obs.noPri = bs.map Obs.byte := by
      intro bs; induction bs with
      | nil => rfl
      | cons x t ih => rw [List.map_cons, List.filter_cons, if_pos (by rfl), ih]
    cases e with
    | data bs => show (bs.map Obs.byte).filter _ ++ _ = _; rw [hd]; rfl
    | _ => rfl

theorem SameEv.obs {a b : List Ev} (h : SameEv a b) : SameObs (obs a) (Bidi.obs b) := by
  unfold SameObs; rw [obs_noPri, obs_noPri, h]

theorem SameObs.view {a b : List Obs} (h : SameObs a b) :
    a.filterMap Obs.cb = b.filterMap Obs.cb ∧ a.filterMap Obs.body = b.filterMap Obs.body ∧ a.filterMap Obs.signal = b.filterMap Obs.signal := by
  have key : ∀ {β : Type} (f : Obs → Option β), (∀ p, f (.priority p) = none) → ∀ l : List Obs, (l.filter Obs.noPri).filterMap f = l.filterMap f := by
    intro β f hf l
    induction l with
    | nil => rfl
    | cons x t ih =>
      rw [List.filter_cons]
      cases x with
      | priority p => rw [if_neg (by simp [Obs.noPri]), ih, List.filterMap_cons, hf]
      | _ => rw [if_pos (by rfl), List.filterMap_cons, List.filterMap_cons, ih]
  unfold SameObs at h
  exact ⟨by rw [← key Obs.cb (fun _ => rfl) a, h, key Obs.cb (fun _ => rfl)], by rw [← key Obs.body (fun _ => rfl) a, h, key Obs.body (fun _ => rfl)],
    by rw [← key Obs.signal (fun _ => rfl) a, h, key Obs.signal (fun _ => rfl)]⟩

/-- the same state, with another decoder -/
structure Twin (b : Bool) (m m' : M) : Prop where
  s : m'.s = { m.s with priFixed := b }
  blank : Blank m.d
  zero : Zero m.s.sc
  ev : SameObs m'.ev m.ev
  n : m'.n = m.n

def OutLike (b : Bool) : Machine.Out M Stop → Machine.Out M Stop → Prop
  | .ok m, o => (Blank m.d ∧ Zero m.s.sc) ∧ ((∃ e, o = .fail (.err e)) ∨ ∃ m', o = .ok m' ∧ Twin b m m')
  | .stop _ _, _ => False
  | _, _ => True

theorem OutLike.failed {x y : Machine.Out M Stop} (h : OutLike b x y) (e : Int) : OutLike b x (.fail (.err e)) := by
  rcases x with _ | _ | _ | _
  · trivial
  · trivial
  · exact h
  · exact ⟨h.1, Or.inl ⟨_, rfl⟩⟩

theorem norm_pri (s : Str) (b : Bool) : ({ s with priFixed := b } : Str).norm = { s.norm with priFixed := b } := by
  unfold Str.norm
  by_cases h : s.rst = .ignRest
  · rw [if_pos (by exact h), if_pos h]
  · rw [if_neg (by exact h), if_neg h]

theorem norm_zero {s : Str} (h : Zero s.sc) : Zero s.norm.sc := by
  unfold Str.norm
  split_ifs
  · exact .init 0
  · exact h

def ResLike (b : Bool) : Machine.Res M Stop → Machine.Res M Stop → Prop
  | .cont m rest bz, o => (Blank m.d ∧ Zero m.s.sc) ∧ ((∃ e, o = .fail (.err e)) ∨ ∃ m', o = .cont m' rest bz ∧ Twin b m m')
  | .ret m, o => (Blank m.d ∧ Zero m.s.sc) ∧ ((∃ e, o = .fail (.err e)) ∨ ∃ m', o = .ret m' ∧ Twin b m m')
  | .stop _ _, _ => False
  | _, _ => True

theorem mStep_like {c0 c : Cfg} (hc : SameCfg c0 c) (room0 room : Bool) (m m' : M) (x : Bytes) (h : Twin b m m') :
    ResLike b (mStep c0 room0 m x) (mStep c room m' x) := by
  have hs := step_like (b := b) hc room0 room false m.s m.d m'.d x h.blank h.zero
  rw [← h.s] at hs
  unfold mStep
  rcases h1 : step c0 room0 false m.s m.d x with _ | e | ⟨s1, d1, rest, b1, ev1, n1⟩ | ⟨s1, d1, ev1, n1⟩ | ⟨s1, d1, rest, ev1, n1⟩ <;> rw [h1] at hs
  · trivial
  · trivial
  · obtain ⟨g1, g2, g⟩ := hs
    dsimp only [view]
    by_cases hr : s1.rst = .ignRest
    · rw [if_pos hr]
      refine ⟨⟨g1, norm_zero g2⟩, ?_⟩
      rcases g with ⟨e, g⟩ | ⟨d2, ev2, g, g'⟩
      · rw [g]; exact Or.inl ⟨_, rfl⟩
      · rw [g']
        dsimp only
        rw [if_pos hr]
        exact Or.inr ⟨_, rfl, norm_pri s1 b, g1, norm_zero g2, h.ev.append g.obs, by dsimp only; rw [h.n]⟩
    · rw [if_neg hr]
      refine ⟨⟨g1, g2⟩, ?_⟩
      rcases g with ⟨e, g⟩ | ⟨d2, ev2, g, g'⟩
      · rw [g]; exact Or.inl ⟨_, rfl⟩
      · rw [g']
        dsimp only
        rw [if_neg hr]
        exact Or.inr ⟨_, rfl, rfl, g1, g2, h.ev.append g.obs, by dsimp only; rw [h.n]⟩
  · obtain ⟨g1, g2, ⟨e, g⟩ | ⟨d2, ev2, g, g'⟩⟩ := hs
    · rw [g]; exact ⟨⟨g1, g2⟩, Or.inl ⟨_, rfl⟩⟩
    · rw [g']; exact ⟨⟨g1, g2⟩, Or.inr ⟨_, rfl, rfl, g1, g2, h.ev.append g.obs, by dsimp only; rw [h.n]⟩⟩
  · exact (show False from hs).elim

theorem loop_like {c0 c : Cfg} (hc : SameCfg c0 c) (room0 room : Bool) (f : Nat) (m m' : M) (x : Bytes) (busy : Bool) (h : Twin b m m') :
    OutLike b (Machine.loop (mStep c0 room0) f m x busy) (Machine.loop (mStep c room) f m' x busy) := by
  induction f generalizing m m' x busy with
  | zero => trivial
  | succ f ih =>
    unfold Machine.loop
    by_cases h0 : x = [] ∧ busy = false
    · rw [if_pos h0, if_pos h0]; exact ⟨⟨h.blank, h.zero⟩, Or.inr ⟨m', rfl, h⟩⟩
    rw [if_neg h0, if_neg h0]
    have hs := mStep_like hc room0 room m m' x h
    rcases h1 : mStep c0 room0 m x with _ | e | ⟨o, rest⟩ | ⟨m1, rest, b1⟩ | m1 <;> rw [h1] at hs
    · trivial
    · trivial
    · exact (show False from hs).elim
    · obtain ⟨g1, ⟨e, g⟩ | ⟨m2, g, ht⟩⟩ := hs <;> rw [g]
      · exact (ih m1 ⟨{ m1.s with priFixed := b }, m1.d, m1.ev, m1.n⟩ rest b1 ⟨rfl, g1.1, g1.2, rfl, rfl⟩).failed e
      · exact ih m1 m2 rest b1 ht
    · obtain ⟨g1, ⟨e, g⟩ | ⟨m2, g, ht⟩⟩ := hs <;> rw [g]
      · exact ⟨g1, Or.inl ⟨_, rfl⟩⟩
      · exact ⟨g1, Or.inr ⟨_, rfl, ht⟩⟩

theorem run_like {c0 c : Cfg} (hc : SameCfg c0 c) (room0 room : Bool) (m m' : M) (x : Bytes) (h : Twin b m m') :
    OutLike b (bRun c0 room0 m x) (bRun c room m' x) := by
  unfold bRun Machine.run
  have : rank m' = rank m := by unfold rank; rw [h.s]
  rw [this]
  exact loop_like hc room0 room _ m m' x false h

theorem aDone_like {fin : Bool} {m m' : M} (h : Twin b m m') {s1 : Str} {d1 : Dec} {o : List Obs} {n : Nat} {r : Bytes} (e : aDone fin m = .ok s1 d1 o n r) :
    Blank d1 ∧ Zero s1.sc ∧ ∃ d2 o2, SameObs o2 o ∧ aDone fin m' = .ok { s1 with priFixed := b } d2 o2 n r := by
  unfold aDone at e ⊢
  rw [h.s, h.n]
  dsimp only
  cases fin
  · rw [if_neg (by simp)] at e ⊢
    cases e
    exact ⟨h.blank, norm_zero h.zero, _, _, h.ev, by rw [norm_pri]⟩
  rw [if_pos rfl] at e ⊢
  rcases hr : m.s.rst with _ | _ | _ | _ | _ | _ <;> rw [hr] at e <;> dsimp only at e ⊢ <;> try (cases e; done)
  · by_cases h0 : m.s.rv.left ≠ 0
    · rw [if_pos h0] at e; cases e
    rw [if_neg h0] at e ⊢
    rcases ht : transit m.s.h m.s.http .msgEnd with _ | _ | _ | h' <;> rw [ht] at e <;> dsimp only at e ⊢ <;> try (cases e; done)
    cases e
    refine ⟨h.blank, norm_zero (s := { m.s with h := h' }) h.zero, m'.d, _, h.ev.append rfl, ?_⟩
    rw [← norm_pri, hr]
  · cases e
    refine ⟨h.blank, norm_zero h.zero, m'.d, _, h.ev, ?_⟩
    rw [← norm_pri, hr]

/-- a call, with the decoder that has no dynamic table and with another one -/
theorem aBidi_like {c0 c : Cfg} (hc : SameCfg c0 c) (room0 room fin : Bool) (s : Str) (d0 d : Dec) (x : Bytes) (hb : Blank d0) (hz : Zero s.sc)
    {s1 : Str} {d1 : Dec} {o : List Obs} {n : Nat} {r : Bytes} (h : aBidi c0 room0 fin s d0 x = .ok s1 d1 o n r) :
    Blank d1 ∧ Zero s1.sc ∧ ((∃ e, aBidi c room fin { s with priFixed := b } d x = .fail e) ∨
      ∃ d2 o2, SameObs o2 o ∧ aBidi c room fin { s with priFixed := b } d x = .ok { s1 with priFixed := b } d2 o2 n r) := by
  have hl := run_like (b := b) hc room0 room ⟨s, d0, [], 0⟩ ⟨{ s with priFixed := b }, d, [], 0⟩ x ⟨rfl, hb, hz, rfl, rfl⟩
  unfold aBidi at h ⊢
  rcases h1 : bRun c0 room0 ⟨s, d0, [], 0⟩ x with _ | (e | _) | ⟨q, rest⟩ | m <;> rw [h1] at hl h
  · cases h
  · cases h
  · cases h
  · exact hl.elim
  dsimp only [aFinish] at h
  obtain ⟨hbz, hl⟩ := hl
  rcases hl with ⟨e, he⟩ | ⟨m', he, ht⟩
  · obtain ⟨k1, k2, _⟩ := aDone_like (m' := ⟨{ m.s with priFixed := b }, m.d, m.ev, m.n⟩) ⟨rfl, hbz.1, hbz.2, rfl, rfl⟩ h
    rw [he]
    exact ⟨k1, k2, Or.inl ⟨_, rfl⟩⟩
  · obtain ⟨k1, k2, k3⟩ := aDone_like ht h
    rw [he]
    exact ⟨k1, k2, Or.inr k3⟩

end Bidi
end Nghttp3
