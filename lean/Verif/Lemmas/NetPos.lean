import Verif.Lemmas.NetRun
/-! A piece of a request stream whose bytes come from an encoder of this library. -/
namespace Nghttp3
namespace Net
open Http Qpack Bidi

/-- where the stream is after some bytes, `y` still to come: ready, or waiting for the encoder stream -/
def Next (c : Cfg) (e : Bool) (mend : Msg) (l' : Loop) (s1 : Str) (y : Bidi.Bytes) (cbs' : List Cb) (body' : Bidi.Bytes) : Prop :=
  Pos c e mend (undone c.id l'.p.flies) s1 y cbs' body' ∨
  ∃ s0 rest, s1 = { s0 with blocked := true, inq := pack rest } ∧ Pos c e mend (undone c.id l'.p.flies) s0 (rest ++ y) cbs' body' ∧
    ∃ f t, undone c.id l'.p.flies = f :: t ∧ f.s.state = .blocked ∧ f.s.ricnt = f.sec.ricnt ∧ l'.p.dec.ctx.next < f.sec.ricnt ∧ s0.sc = f.s

def Goal (c : Cfg) (e : Bool) (mend : Msg) (room : Bool) (H : Nat) (l : Loop) (s : Str) (x y : Bidi.Bytes) (cbs : List Cb) (body : Bidi.Bytes) : Prop :=
  ∃ l' s1 o k cbs' body', aBidi c room false s l.p.dec x = .ok s1 l'.p.dec o k [] ∧ LoopOk H l' ∧ Eff c.id l l' ∧
    cbs = o.filterMap Obs.cb ++ cbs' ∧ body = o.filterMap Obs.body ++ body' ∧ o.filterMap Obs.signal = [] ∧ Next c e mend l' s1 y cbs' body'

theorem shift_ok {r : ARes} {s : Str} {d : Dec} {a b : List Obs} {i j : Nat} (h : r.shift a i = .ok s d (a ++ b) j []) : ∃ k, r = .ok s d b k [] := by
  rcases r with _ | _ | ⟨s', d', o', n', r'⟩ <;> dsimp only [ARes.shift] at h
  · cases h
  · cases h
  · simp only [ARes.ok.injEq, List.append_cancel_left_eq] at h
    obtain ⟨rfl, rfl, rfl, _, rfl⟩ := h
    exact ⟨n', rfl⟩

/-- the run goes on from another state -/
theorem Goal.cons {c : Cfg} {e : Bool} {mend : Msg} {room : Bool} {H : Nat} {l l1 : Loop} {s s' : Str} {x x' y : Bidi.Bytes} {cbs cbs1 : List Cb} {body body1 : Bidi.Bytes} {k0 k1 : Nat} {o1 : List Obs}
    (hi : Inv s l.p.dec) (hb : s.blocked = false) (hi' : Inv s' l1.p.dec) (hb' : s'.blocked = false)
    (hr : bRun c room ⟨s, l.p.dec, [], k0⟩ x = bRun c room ⟨s', l1.p.dec, o1, k1⟩ x') (he : Eff c.id l l1)
    (hcb : cbs = o1.filterMap Obs.cb ++ cbs1) (hbd : body = o1.filterMap Obs.body ++ body1) (hsg : o1.filterMap Obs.signal = [])
    (h : Goal c e mend room H l1 s' x' y cbs1 body1) : Goal c e mend room H l s x y cbs body := by
  obtain ⟨l', s1, o, k, cbs', body', g1, g2, g3, g4, g5, g6, g7⟩ := h
  have h1 := aFinish_shift false c room s l.p.dec [] k0 x hi hb
  have h2 := aFinish_shift false c room s' l1.p.dec o1 k1 x' hi' hb'
  rw [hr, h2, g1] at h1
  obtain ⟨k2, h3⟩ := shift_ok (r := aBidi c room false s l.p.dec x) (a := []) (b := o1 ++ o) (i := k0) (j := k1 + k) h1.symm
  refine ⟨l', s1, o1 ++ o, k2, cbs', body', h3, g2, he.trans g3, ?_, ?_, ?_, g7⟩
  · rw [List.filterMap_append, List.append_assoc, ← g4, hcb]
  · rw [List.filterMap_append, List.append_assoc, ← g5, hbd]
  · rw [List.filterMap_append, hsg, g6]; rfl

/-- the input is used up -/
theorem Goal.fin {c : Cfg} {e : Bool} {mend : Msg} {room : Bool} {H : Nat} {l l1 : Loop} {s s' : Str} {x y : Bidi.Bytes} {cbs cbs1 : List Cb} {body body1 : Bidi.Bytes} {k0 k1 : Nat} {o1 : List Obs}
    (hi : Inv s l.p.dec) (hb : s.blocked = false) (hl : LoopOk H l1)
    (hr : bRun c room ⟨s, l.p.dec, [], k0⟩ x = .ok ⟨s', l1.p.dec, o1, k1⟩) (he : Eff c.id l l1)
    (hcb : cbs = o1.filterMap Obs.cb ++ cbs1) (hbd : body = o1.filterMap Obs.body ++ body1) (hsg : o1.filterMap Obs.signal = [])
    (h : Pos c e mend (undone c.id l1.p.flies) s' y cbs1 body1) : Goal c e mend room H l s x y cbs body := by
  have h1 := aFinish_shift false c room s l.p.dec [] k0 x hi hb
  rw [hr, aFinish_false_ok] at h1
  dsimp only at h1
  rw [norm_of_ne h.flags.2.2.2.2.2] at h1
  obtain ⟨k2, h3⟩ := shift_ok (r := aBidi c room false s l.p.dec x) (a := []) (b := o1) (i := k0) (j := k1) h1.symm
  exact ⟨l1, s', o1, k2, cbs1, body1, h3, hl, he, hcb, hbd, hsg, Or.inl h⟩

theorem Pos.inv {c : Cfg} {e : Bool} {mend : Msg} {s : Str} {U : Bidi.Bytes} {cbs : List Cb} {body : Bidi.Bytes} {H : Nat} {l : Loop} (hl : LoopOk H l)
    (h : Pos c e mend (undone c.id l.p.flies) s U cbs body) : Inv s l.p.dec := by
  have hc := hl.pair.wf.ctx
  generalize hu : undone c.id l.p.flies = und at h
  cases h with
  | hdr ha hr hp => exact ha.inv (base_inv c e hc hr.hk)
  | @dat b => exact ⟨hc, SWF.init _, (fun g => by cases g), rvOk_idle, ‹HOk .data _›, fun _ => List.length_pos_iff.2 ‹_›⟩
  | @sec f =>
    obtain ⟨k, k1, k2, k3, k4, k5⟩ := head_idx hu
    obtain ⟨E0, m, hfo⟩ := hl.pair.flies f (List.mem_of_getElem? k1)
    obtain ⟨w1, w2⟩ := (hfo.pos k3).wf
    exact ⟨hc, w1, w2, rvOk_idle, ‹HOk .headers _›, fun g => by cases g⟩

/-- a piece of a section -/
theorem mStep_sec2 (c : Cfg) (room : Bool) {s : Str} {d : Dec} {m : Msg} {h : Hs} (o : List Obs) (n : Nat) {x : Bidi.Bytes} {left : Nat} (hi : Inv (s.inSec m h left) d) (hx : x ≠ []) (h0 : left ≠ 0) :
    mStep c room ⟨s.inSec m h left, d, o, n⟩ x = view ⟨s.inSec m h left, d, o, n⟩
      (match post c h d m.s (d.readSection s.sc (x.take left) (decide (left ≤ x.length))) with
      | (_, .crash) => .crash
      | (_, .fail e) => .fail e
      | (ev, .malformed d') => headerError (s.inSec m h left) d' x ev 0
      | (ev, .blocked d' sc http rest) =>
        if room then
          .blocked { s.inSec m h (left - ((x.take left).length - rest.length)) with sc := sc, http := http, blocked := true } d'
            (rest ++ x.drop left) ev ((x.take left).length - rest.length)
        else .fail Err.QPACK_DECOMPRESSION_FAILED
      | (ev, .more d' sc http) | (ev, .done d' sc http) =>
        if x.length < left then .ret { s.inSec m h (left - x.length) with sc := sc, http := http } d' ev x.length
        else sectionEnd c false { s.inSec m h 0 with sc := sc, http := http } d' (x.drop left) ev left) := by
  have hne : x.take left ≠ [] := by
    intro g
    have := congrArg List.length g
    rw [List.length_take, List.length_nil] at this
    have := List.length_pos_iff.2 hx
    omega
  have h1 := onHeaders_post c h hi.ctx (decide (left ≤ x.length)) s.sc m.s (x.take left) hi.wf hi.idle (by simp [hne])
  have hd : decide ((x.take left).length = left) = decide (left ≤ x.length) := by
    rw [List.length_take]; congr 1; apply propext; constructor <;> intro <;> omega
  have hdrop : x.drop (x.take left).length = x.drop left := by
    rw [List.length_take]
    by_cases hle : left ≤ x.length
    · rw [Nat.min_eq_left hle]
    · rw [Nat.min_eq_right (by omega), List.drop_eq_nil_of_le (Nat.le_refl _), List.drop_eq_nil_of_le (by omega)]
  unfold mStep step
  dsimp only [Str.inSec]
  unfold headersStep
  dsimp only
  rw [hd, h1, hdrop]
  congr 1
  rcases post c h d m.s (d.readSection s.sc (x.take left) (decide (left ≤ x.length))) with ⟨ev, _ | _ | _ | _ | _ | _⟩ <;> dsimp only
  all_goals
    rw [List.length_take]
    by_cases hlt : x.length < left
    · rw [if_pos hlt, if_pos (by omega), Nat.min_eq_right (by omega)]
    · rw [if_neg hlt, if_neg (by omega), Nat.min_eq_left (by omega), Nat.sub_self]
      try rfl

theorem toQ_field (nvs : List Nv) : (nvs.map Nv.toQNv).map QNv.field = nvs.map field := by
  rw [List.map_map]; rfl

theorem Rest.uncons {c : Cfg} {m : Msg} {g : PF} {R : List PF} {und : List Fly} {U : Bidi.Bytes} {cbs : List Cb} {body : Bidi.Bytes} {mend : Msg}
    (h : Rest c m (g :: R) und U cbs body mend) : ∃ cb m' cbs' , onFrame c.pp (c.server && c.ext) m g.frm = (cb, .ok m') ∧ cbs = cb ++ cbs' ∧
      (HOk .frameType m'.h → Rest c m' R (R.filterMap PF.fly) (R.flatMap PF.bytes) cbs' (R.flatMap PF.body) mend) := by
  have hr := h.run
  rw [List.map_cons, onFrames] at hr
  rcases hq : onFrame c.pp (c.server && c.ext) m g.frm with ⟨cb, _ | _ | _ | _ | m'⟩ <;> rw [hq] at hr <;> dsimp only at hr
  all_goals first | cases (congrArg Prod.snd hr) | skip
  rcases hq2 : onFrames c.pp (c.server && c.ext) m' (R.map PF.frm) with ⟨cb', r'⟩
  rw [hq2] at hr
  dsimp only at hr
  cases hr
  refine ⟨cb, m', cb', rfl, rfl, fun hk => ⟨?_, fun f hf => h.ok f (by simp [hf]), hk, rfl, rfl, hq2, rfl⟩⟩
  intro f hf
  apply h.fresh
  rw [h.und, List.filterMap_cons]
  cases g.fly <;> simp [hf]

/-- the part of the data of a frame -/
theorem run_dat (c : Cfg) (room : Bool) {B : Str} {d : Dec} {h : Hs} {http http' : State} {h' : Hs} {b x2 : Bidi.Bytes} {o : List Obs} {k : Nat}
    (hi : Inv { B with rst := .data, rv := {}, ftype := 0, left := b.length, h := h, http := http } d) (hb : b ≠ [])
    (hd : onDataChunk http b.length = some http') (ht : transit h http' .dataEnd = .ok h') :
    bRun c room ⟨{ B with rst := .data, rv := {}, ftype := 0, left := b.length, h := h, http := http }, d, o, k⟩ (b ++ x2) =
      bRun c room ⟨B.at ⟨h', http'⟩, d, o ++ b.map .byte, k⟩ x2 := by
  have hm : mStep c room ⟨{ B with rst := .data, rv := {}, ftype := 0, left := b.length, h := h, http := http }, d, o, k⟩ (b ++ x2) =
      .cont ⟨B.at ⟨h', http'⟩, d, o ++ b.map .byte, k⟩ x2 false := by
    unfold mStep step dataStep
    dsimp only
    rw [List.take_left, hd]
    dsimp only
    rw [Nat.sub_self, if_neg (by simp), List.drop_left]
    unfold endFrame
    dsimp only
    rw [ht]
    dsimp only [view]
    rw [if_neg (by simp [Str.reset])]
    have : obs [.data b] = b.map .byte := by simp [obs, Ev.obs]
    rw [this]; rfl
  unfold bRun
  rw [Machine.run_eq (bidi_good c room) (by exact hi) (by simp), if_neg (by simp [hb]), hm]

/-- … not all of it -/
theorem run_dat_part (c : Cfg) (room : Bool) {B : Str} {d : Dec} {h : Hs} {http http1 : State} {x : Bidi.Bytes} {o : List Obs} {k left : Nat}
    (hi : Inv { B with rst := .data, rv := {}, ftype := 0, left := left, h := h, http := http } d) (hx : x ≠ []) (hlt : x.length < left)
    (hd : onDataChunk http x.length = some http1) :
    bRun c room ⟨{ B with rst := .data, rv := {}, ftype := 0, left := left, h := h, http := http }, d, o, k⟩ x =
      .ok ⟨{ B with rst := .data, rv := {}, ftype := 0, left := left - x.length, h := h, http := http1 }, d, o ++ x.map .byte, k⟩ := by
  have hm : mStep c room ⟨{ B with rst := .data, rv := {}, ftype := 0, left := left, h := h, http := http }, d, o, k⟩ x =
      .ret ⟨{ B with rst := .data, rv := {}, ftype := 0, left := left - x.length, h := h, http := http1 }, d, o ++ x.map .byte, k⟩ := by
    unfold mStep step dataStep
    dsimp only
    rw [List.take_of_length_le (Nat.le_of_lt hlt), hd]
    dsimp only
    rw [if_pos (by omega)]
    dsimp only [view]
    have : obs [.data x] = x.map .byte := by simp [obs, Ev.obs]
    rw [this]; rfl
  unfold bRun
  rw [Machine.run_eq (bidi_good c room) (by exact hi) (by simp), if_neg (by simp [hx]), hm]

/-- splitting a chunk of data -/
theorem onDataChunk_split {s s' : State} {a b : Nat} (h : onDataChunk s (a + b) = some s') : ∃ s1, onDataChunk s a = some s1 ∧ onDataChunk s1 b = some s' := by
  rcases h1 : onDataChunk s a with _ | s1
  · exfalso
    unfold onDataChunk at h h1
    dsimp only at h h1
    split_ifs at h1 with h2
    split_ifs at h with h3
    apply h3
    simp only [Bool.or_eq_true, Bool.and_eq_true, decide_eq_true_eq] at h2 ⊢
    rcases h2 with h2 | ⟨h2, h4⟩
    · exact Or.inl h2
    · right; refine ⟨h2, ?_⟩; push_cast; omega
  · exact ⟨s1, rfl, by rw [onDataChunk_add h1, h]⟩

/-- there is room for the acknowledgements -/
theorem not_over {l : Loop} {p : Nat → Bool} (h : bud p l ≤ lim l) : l.p.dec.dbufOverflow = false := by
  unfold Dec.dbufOverflow
  unfold bud lim at h
  simp only [decide_eq_false_iff_not]
  omega

/-- the first frame to come: its header is complete -/
theorem pos_head (c : Cfg) (e : Bool) (mend : Msg) (room : Bool) {H : Nat} {l : Loop} (hl : LoopOk H l) {m : Msg} {g : PF} {R : List PF} {U : Bidi.Bytes} {cbs : List Cb} {body : Bidi.Bytes}
    (hr : Rest c m (g :: R) (undone c.id l.p.flies) (g.hd ++ U) cbs body mend) (z : Bidi.Bytes) :
    ∃ s' o1 k1 cbs1, bRun c room ⟨(base c e).at m, l.p.dec, [], 0⟩ (g.hd ++ z) = bRun c room ⟨s', l.p.dec, o1, k1⟩ z ∧
      cbs = o1.filterMap Obs.cb ++ cbs1 ∧ o1.filterMap Obs.body = [] ∧ o1.filterMap Obs.signal = [] ∧ Pos c e mend (undone c.id l.p.flies) s' U cbs1 body := by
  have hi := base_inv c e hl.pair.wf.ctx hr.hk
  obtain ⟨v1, v2, v3⟩ := PF.varints (hr.ok g (by simp))
  obtain ⟨cb, m', cbs', h1, h2, h3⟩ := hr.uncons
  have hU : U = g.payload ++ R.flatMap PF.bytes := by
    have := hr.bytes
    rw [List.flatMap_cons, PF.bytes_eq, List.append_assoc] at this
    exact List.append_cancel_left this
  obtain ⟨b1, b2, b3, _⟩ := transit_begin (Or.inl rfl) hr.hk m.s
  rw [v3]
  cases g with
  | dat b =>
    rw [run_head c room z hi rfl rfl v1 v2]
    dsimp only [PF.frm, PF.payload, PF.ty] at h1 hU v1 v2 ⊢
    unfold onFrame at h1
    unfold frameHead transitOr
    dsimp only [Str.at]
    rw [if_pos (show 0 = FRAME_DATA from rfl)]
    rcases hb : transit m.h m.s .dataBegin with _ | _ | _ | h <;> rw [hb] at h1 <;> dsimp only [Tr.bind] at h1
    · cases (congrArg Prod.snd h1)
    · cases (congrArg Prod.snd h1)
    · cases (congrArg Prod.snd h1)
    dsimp only
    have hkd := b2 h hb
    rw [map_ones] at h1
    have hund : undone c.id l.p.flies = R.filterMap PF.fly := hr.und
    by_cases hb0 : b = []
    · subst hb0
      obtain ⟨h', he, hk'⟩ := transit_data hkd m.s
      simp only [List.length_nil, List.replicate_zero, onData, he] at h1
      cases h1
      unfold endFrame
      dsimp only
      rw [if_pos (show ([] : Bidi.Bytes).length = 0 from rfl), he]
      dsimp only
      refine ⟨(base c e).at ⟨h', m.s⟩, [], _, cbs', rfl, h2, rfl, rfl, ?_⟩
      rw [hund]
      have := h3 hk'
      refine .hdr (p := []) (HdrAt.nil _) (R := R) ?_ (fun f _ _ => f.hd_pos)
      rw [hU, hr.body]
      exact this
    · have hpos : 0 < b.length := List.length_pos_iff.2 hb0
      obtain ⟨g1, g2⟩ := onData_ones m.s b.length hpos
      rcases hd : onDataChunk m.s b.length with _ | http'
      · rw [hd] at g1
        rcases ho : onData m.s (List.replicate b.length 1) with ⟨cb0, _ | s2⟩ <;> rw [ho] at g1 h1 <;> first | cases g1 | skip
        cases (congrArg Prod.snd h1)
      · rw [hd] at g1
        have g2 := g2 http' hd
        rcases ho : onData m.s (List.replicate b.length 1) with ⟨cb0, _ | s2⟩ <;> rw [ho] at g1 g2 h1 <;> cases g1
        dsimp only at g2 h1
        obtain ⟨h', he, hk'⟩ := transit_data hkd http'
        rw [he] at h1
        dsimp only [Tr.bind] at h1
        rw [List.append_nil] at h1
        cases h1
        rw [if_neg (by omega)]
        dsimp only
        refine ⟨_, [], _, cbs, rfl, rfl, rfl, rfl, ?_⟩
        rw [hund, hU, hr.body, h2, g2]
        exact .dat hb0 hkd hd he (h3 hk')
  | sec f =>
    dsimp only [PF.frm, PF.payload, PF.ty] at h1 hU v1 v2 ⊢
    have hund : undone c.id l.p.flies = f :: R.filterMap PF.fly := hr.und
    have hfr := hr.fresh f (by rw [hund]; simp)
    rw [run_secHead c room z hi v1 v2 (fun g => hfr.rem (List.length_eq_zero_iff.1 g))]
    unfold onFrame at h1
    dsimp only at h1
    rcases hb : transit m.h m.s .headersBegin with _ | _ | _ | h <;> rw [hb] at h1 <;> dsimp only [Tr.bind] at h1
    · cases (congrArg Prod.snd h1)
    · cases (congrArg Prod.snd h1)
    · cases (congrArg Prod.snd h1)
    dsimp only
    have hkh := b3 h hb
    rcases hf : (runFields c.pp (isRequest h) (isTrailers h) (c.server && c.ext) m.s (f.sec.nvs.map field)).2.bind (endSection h) with _ | http' <;> rw [hf] at h1 <;> dsimp only at h1
    · cases (congrArg Prod.snd h1)
    obtain ⟨h', he, hk'⟩ := transit_headers hkh http'
    rw [he] at h1
    dsimp only [Tr.bind] at h1
    cases h1
    obtain ⟨g1, g2, g3⟩ := begin_cb h
    refine ⟨_, [beginOb h], _, (runFields c.pp (isRequest h) (isTrailers h) (c.server && c.ext) m.s ((f.sec.nvs.map Nv.toQNv).map QNv.field)).1.map (if isTrailers h then Cb.trailer else Cb.header) ++
          (if isTrailers h then Cb.endTrailers else Cb.endHeaders) :: cbs', rfl, ?_, g2, g3, ?_⟩
    · rw [h2, g1, toQ_field]; simp
    · rw [hund, hU, hr.body]
      have := Pos.sec (e := e) (f := f) (nvs := f.sec.nvs.map Nv.toQNv) (by rw [hfr.s]; rfl) hfr.rem hkh (by rw [hfr.got]; rfl) (by rw [toQ_field]; exact hf) he (h3 hk')
      have hs : ({ base c e with rst := .headers, rv := {}, ftype := 1, left := f.rem.length, h := h, http := m.s, sc := f.s } : Str) = (base c e).inSec m h f.rem.length := by
        rw [hfr.s]; rfl
      rw [hs] at this
      exact this

/-- one call with the next bytes `x` of a stream -/
theorem pos_run (c : Cfg) (e : Bool) (mend : Msg) (room : Bool) {H : Nat} (p : Nat → Bool) (hp : p c.id = true) (n : Nat) {l : Loop} (hl : LoopOk H l) (hg : c.id ∉ l.gone)
    (hwin : ∀ g ∈ undone c.id l.p.flies, g.sec.ricnt ≤ l.p.dec.ctx.next + H / 32) (hbud : bud p l ≤ lim l)
    (hroom : ∀ g ∈ undone c.id l.p.flies, l.p.dec.ctx.next < g.sec.ricnt → room = true) {s : Str} {x y : Bidi.Bytes} {cbs : List Cb} {body : Bidi.Bytes}
    (h : Pos c e mend (undone c.id l.p.flies) s (x ++ y) cbs body) (hn : x.length ≤ n) : Goal c e mend room H l s x y cbs body := by
  induction n generalizing l s x cbs body with
  | zero =>
    have hx : x = [] := List.length_eq_zero_iff.1 (by omega)
    subst hx
    exact Goal.fin (k0 := 0) (h.inv hl) h.flags.1 hl (bRun_nil _ _ _) (Eff.refl _ _) rfl rfl rfl h
  | succ n ih =>
    by_cases hx : x = []
    · subst hx
      exact Goal.fin (k0 := 0) (h.inv hl) h.flags.1 hl (bRun_nil _ _ _) (Eff.refl _ _) rfl rfl rfl h
    have hinv := h.inv hl
    have hblk := h.flags.1
    have step : ∀ {l1 : Loop}, LoopOk H l1 → Eff c.id l l1 → ∀ {s' : Str} {x2 : Bidi.Bytes} {cbs1 : List Cb} {body1 : Bidi.Bytes}, Pos c e mend (undone c.id l1.p.flies) s' (x2 ++ y) cbs1 body1 →
        x2.length ≤ n → Goal c e mend room H l1 s' x2 y cbs1 body1 := by
      intro l1 hl1 he s' x2 cbs1 body1 hP hx2
      refine ih hl1 (by rw [he.gone]; exact hg) ?_ ?_ ?_ hP hx2
      · intro g hg
        obtain ⟨g0, a1, a2⟩ := he.sub g hg
        rw [← a2, he.ctx]; exact hwin g0 a1
      · have := he.bud p hp
        unfold lim at hbud ⊢
        rw [he.conc]; omega
      · intro g hg h0
        obtain ⟨g0, a1, a2⟩ := he.sub g hg
        rw [← a2, he.ctx] at h0
        exact hroom g0 a1 h0
    generalize hu : undone c.id l.p.flies = und at h
    generalize hU : x ++ y = U at h
    cases h with
    | @hdr m R q s und U cbs body ha hr hp' =>
      subst hU
      subst hu
      have hi0 := base_inv c e hl.pair.wf.ctx hr.hk
      rcases R with _ | ⟨g, R⟩
      · exact absurd (List.append_eq_nil_iff.1 (List.append_eq_nil_iff.1 hr.bytes).2).1 hx
      have hbytes := hr.bytes
      rw [List.flatMap_cons, PF.bytes_eq, List.append_assoc] at hbytes
      have hrun := ha.run c room hi0 [] 0
      by_cases hlen : (q ++ x).length < g.hd.length
      · obtain ⟨q2, hq2⟩ : ∃ q2, q ++ x ++ q2 = g.hd := by
          rw [← List.append_assoc] at hbytes
          rcases List.append_eq_append_iff.1 hbytes with ⟨a, a1, a2⟩ | ⟨a, a1, a2⟩
          · exact ⟨a, a1.symm⟩
          · have := congrArg List.length a1; simp only [List.length_append] at this hlen; omega
        have hq0 : q2 ≠ [] := by
          rintro rfl
          have := congrArg List.length hq2; rw [List.append_nil] at this; omega
        obtain ⟨v1, v2, v3⟩ := PF.varints (hr.ok g (by simp))
        obtain ⟨s2, hs2⟩ := HdrAt.make (B := base c e) m v1 v2 (hq2.trans v3) hq0
        have hrun2 := hs2.run c room hi0 [] 0
        rw [show bRun c room ⟨(base c e).at m, l.p.dec, [], 0⟩ (q ++ x) = _ from Machine.run_append' (bidi_good c room) _ q x false hi0 (by simp)] at hrun2
        have hrun' : Machine.run (mStep c room) rank ⟨(base c e).at m, l.p.dec, [], 0⟩ q false = _ := hrun
        rw [hrun'] at hrun2
        refine Goal.fin (o1 := []) (k0 := 0 + q.length) hinv hblk hl hrun2 (Eff.refl _ _) rfl rfl rfl ?_
        refine .hdr hs2 (R := g :: R) ?_ ?_
        · rw [List.append_assoc]; exact hr
        · intro f R' hR
          rw [← (List.cons.inj hR).1]; exact hlen
      · obtain ⟨x1, x2, hx12, hq⟩ : ∃ x1 x2, x = x1 ++ x2 ∧ q ++ x1 = g.hd := by
          rw [← List.append_assoc] at hbytes
          rcases List.append_eq_append_iff.1 hbytes with ⟨a, a1, a2⟩ | ⟨a, a1, a2⟩
          · have ha0 : a = [] := by
              have := congrArg List.length a1
              rw [List.length_append] at this
              exact List.length_eq_zero_iff.1 (by omega)
            rw [ha0, List.append_nil] at a1
            exact ⟨x, [], by simp, a1.symm⟩
          · have hql := hp' g R rfl
            rcases List.append_eq_append_iff.1 a1 with ⟨b, b1, b2⟩ | ⟨b, b1, b2⟩
            · exact ⟨b, a, b2, b1.symm⟩
            · have := congrArg List.length b1
              rw [List.length_append] at this; omega
        subst hx12
        have hx1 : 0 < x1.length := by
          have := hp' g R rfl
          rw [← hq, List.length_append] at this; omega
        have hr' : Rest c m (g :: R) (undone c.id l.p.flies) (g.hd ++ (x2 ++ y)) cbs body mend := by
          rw [← hq]; simpa using hr
        obtain ⟨s', o1, k1, cbs1, r1, r2, r3, r4, r5⟩ := pos_head c e mend room hl hr' x2
        have hrun2 : bRun c room ⟨s, l.p.dec, [], 0 + q.length⟩ (x1 ++ x2) = bRun c room ⟨(base c e).at m, l.p.dec, [], 0⟩ (g.hd ++ x2) := by
          rw [← hq, List.append_assoc]
          rw [show bRun c room ⟨(base c e).at m, l.p.dec, [], 0⟩ (q ++ (x1 ++ x2)) = _ from Machine.run_append' (bidi_good c room) _ q (x1 ++ x2) false hi0 (by simp)]
          have hrun' : Machine.run (mStep c room) rank ⟨(base c e).at m, l.p.dec, [], 0⟩ q false = _ := hrun
          rw [hrun']
        refine Goal.cons (k0 := 0 + q.length) hinv hblk (r5.inv hl) r5.flags.1 (hrun2.trans r1) (Eff.refl _ _) r2 (by rw [r3]; rfl) r4 ?_
        exact step hl (Eff.refl _ _) r5 (by rw [List.length_append] at hn; omega)
    | @dat b h http http' h' R und U cbs body hb hk hd ht hr =>
      subst hu
      by_cases hle : b.length ≤ x.length
      · obtain ⟨x2, rfl, rfl⟩ : ∃ x2, x = b ++ x2 ∧ U = x2 ++ y := by
          rcases List.append_eq_append_iff.1 hU with ⟨a, a1, a2⟩ | ⟨a, a1, a2⟩
          · have : a = [] := by
              have := congrArg List.length a1
              rw [List.length_append] at this
              exact List.length_eq_zero_iff.1 (by omega)
            subst this
            exact ⟨[], by simpa using a1.symm, by simpa using a2.symm⟩
          · exact ⟨a, a1, a2⟩
        obtain ⟨c1, c2, c3⟩ := byte_cb b
        have hpb := List.length_pos_iff.2 hb
        have hP : Pos c e mend (undone c.id l.p.flies) ((base c e).at ⟨h', http'⟩) (x2 ++ y) cbs body :=
          .hdr (p := []) (HdrAt.nil _) hr (fun f _ _ => f.hd_pos)
        refine Goal.cons (k0 := 0) hinv hblk (hP.inv hl) hP.flags.1 (run_dat c room hinv hb hd ht) (Eff.refl _ _) ?_ ?_ ?_ (step hl (Eff.refl _ _) hP ?_)
        · rw [List.nil_append, c1]
        · rw [List.nil_append, c2]
        · rw [List.nil_append, c3]
        · rw [List.length_append] at hn; omega
      · obtain ⟨b2, rfl, rfl⟩ : ∃ b2, b = x ++ b2 ∧ y = b2 ++ U := by
          rcases List.append_eq_append_iff.1 hU with ⟨a, a1, a2⟩ | ⟨a, a1, a2⟩
          · exact ⟨a, a1, a2⟩
          · have := congrArg List.length a1
            rw [List.length_append] at this; omega
        have hb2 : b2 ≠ [] := by rintro rfl; rw [List.append_nil] at hle; omega
        obtain ⟨c1, c2, c3⟩ := byte_cb x
        have hd0 := hd
        rw [List.length_append] at hd0
        obtain ⟨http1, d1, d2⟩ := onDataChunk_split hd0
        have hP : Pos c e mend (undone c.id l.p.flies) { base c e with rst := .data, rv := {}, ftype := 0, left := b2.length, h := h, http := http1 } (b2 ++ U) (List.replicate b2.length (.data 1) ++ cbs) (b2 ++ body) :=
          .dat hb2 hk d2 ht hr
        refine Goal.fin (k0 := 0) hinv hblk hl (run_dat_part c room hinv hx (by omega) d1) (Eff.refl _ _) ?_ ?_ ?_ ?_ (cbs1 := List.replicate b2.length (.data 1) ++ cbs) (body1 := b2 ++ body)
        · rw [List.nil_append, c1, List.length_append, List.replicate_add, List.append_assoc]
        · rw [List.nil_append, c2, List.append_assoc]
        · rw [List.nil_append, c3]
        · rw [List.length_append, Nat.add_sub_cancel_left]; exact hP
    | @sec f nvs h http http' h' R und U cbs body hid hrem hk hnv hf ht hr =>
      obtain ⟨l', nvs1, ro, r1, r2, r3, ⟨r, r4⟩, r5⟩ := sec_step hl hu hg hid (hwin f (by rw [hu]; simp)) (not_over hbud) x.length
      have hlen0 : f.rem.length ≠ 0 := fun g => hrem (List.length_eq_zero_iff.1 g)
      have hxt : x.take f.rem.length = f.rem.take x.length := by
        have h1 : (x ++ y).take (min x.length f.rem.length) = (f.rem ++ U).take (min x.length f.rem.length) := by rw [hU]
        rw [List.take_append_of_le_length (by omega), List.take_append_of_le_length (by omega)] at h1
        by_cases hle : x.length ≤ f.rem.length
        · rw [Nat.min_eq_left hle] at h1
          rw [List.take_of_length_le hle, ← h1, List.take_of_length_le (Nat.le_refl _)]
        · rw [Nat.min_eq_right (by omega)] at h1
          rw [h1, List.take_of_length_le (by omega), List.take_of_length_le (by omega)]
      have hrest : ∃ r0, nvs = nvs1 ++ r ∧ r0 = r := by
        refine ⟨r, ?_, rfl⟩
        rw [← hnv, List.append_assoc] at r4
        exact (List.append_cancel_left r4).symm
      obtain ⟨_, hnr, _⟩ := hrest
      have hstate : ({ base c e with rst := .headers, rv := {}, ftype := 1, left := f.rem.length, h := h, http := http, sc := f.s } : Str) =
        ({ base c e with sc := f.s } : Str).inSec ⟨h, http⟩ h f.rem.length := rfl
      rw [hstate] at hinv hblk ⊢
      have hms := mStep_sec2 c room [] 0 (x := x) hinv hx hlen0
      have hdec : decide (f.rem.length ≤ x.length) = decide (f.rem.length ≤ x.length) := rfl
      dsimp only at hms
      rw [hxt, r1] at hms
      obtain ⟨htok, _⟩ := readSection_id hl.pair.wf.ctx (decide (f.rem.length ≤ x.length)) f.s (f.rem.take x.length) hinv.wf hinv.idle
      rw [r1] at htok
      dsimp only at htok
      obtain ⟨f1, f2, f3, f4⟩ := fields_run c h http nvs1 htok
      rw [hnr, List.map_append, runFields_append] at hf
      rw [hnr, List.map_append, runFields_append]
      unfold post at hms
      dsimp only at hms
      have hbr : bRun c room ⟨({ base c e with sc := f.s } : Str).inSec ⟨h, http⟩ h f.rem.length, l.p.dec, [], 0⟩ x =
        match mStep c room ⟨({ base c e with sc := f.s } : Str).inSec ⟨h, http⟩ h f.rem.length, l.p.dec, [], 0⟩ x with
        | .crash => .crash
        | .fail o => .fail o
        | .stop o rest => .stop o rest
        | .cont s' rest b => Machine.run (mStep c room) rank s' rest b
        | .ret s' => .ok s' := by
        unfold bRun
        rw [Machine.run_eq (bidi_good c room) (by exact hinv) (by simp), if_neg (by simp [hx])]
        rcases mStep c room ⟨({ base c e with sc := f.s } : Str).inSec ⟨h, http⟩ h f.rem.length, l.p.dec, [], 0⟩ x with _ | _ | _ | _ | _ <;> rfl
      rw [hms] at hbr
      rcases hq : fields c h http nvs1 with ⟨ev, _ | http1⟩ <;> rw [hq] at f1 f2 f3 f4 hbr <;> dsimp only at f1 f2 f3 f4 hbr
      · exfalso
        rcases hrf : runFields c.pp (isRequest h) (isTrailers h) (c.server && c.ext) http (nvs1.map QNv.field) with ⟨fs, _ | s'⟩ <;> rw [hrf] at hf f1
        · cases hf
        · cases f1
      rcases hrf : runFields c.pp (isRequest h) (isTrailers h) (c.server && c.ext) http (nvs1.map QNv.field) with ⟨fs, _ | s'⟩ <;> rw [hrf] at hf f1 f2 <;> cases f1
      dsimp only at hf f2 ⊢
      rcases ro with _ | ⟨d', er⟩ | ⟨d', s'⟩ | ⟨d', s'⟩ | ⟨d', s', nv, rest⟩ | ⟨d', s', rest⟩ <;> dsimp only [SecRes] at r5
      · -- more
        obtain ⟨rfl, q1, q2⟩ := r5
        dsimp only [mkRes] at hbr
        rw [if_pos q1] at hbr
        dsimp only [view] at hbr
        have hxl : x = f.rem.take x.length := by rw [← hxt, List.take_of_length_le (by omega)]
        have hy : y = f.rem.drop x.length ++ U := by
          have := hU
          conv at this => rhs; rw [← List.take_append_drop x.length f.rem, ← hxl, List.append_assoc]
          exact List.append_cancel_left this
        refine Goal.fin (k0 := 0) hinv hblk r2 hbr r3 ?_ ?_ ?_ (cbs1 := (runFields c.pp (isRequest h) (isTrailers h) (c.server && c.ext) http1 (r.map QNv.field)).1.map (if isTrailers h then Cb.trailer else Cb.header) ++
          (if isTrailers h then Cb.endTrailers else Cb.endHeaders) :: cbs) (body1 := body) ?_
        · rw [List.nil_append, f2, List.map_append, List.append_assoc]
        · rw [List.nil_append, f3]; rfl
        · rw [List.nil_append, f4]
        · rw [q2, hy]
          have hsid : s'.streamId = c.id := by
            have := (readSection_id hl.pair.wf.ctx (decide (f.rem.length ≤ x.length)) f.s (f.rem.take x.length) hinv.wf hinv.idle).2
            rw [r1] at this
            exact this.trans hid
          have := Pos.sec (e := e) (f := { f with rem := f.rem.drop x.length, s := s', got := f.got ++ nvs1 }) (nvs := r) hsid
            (by intro g; have := congrArg List.length g; rw [List.length_drop, List.length_nil] at this; omega) hk r4 hf ht hr
          dsimp only at this
          rw [List.length_drop] at this
          exact this
      · -- the end of the section
        obtain ⟨rfl, q1, q2, q3, q4⟩ := r5
        have hr0 : r = [] := by
          rw [q3] at r4
          exact List.append_right_eq_self.1 r4
        subst hr0
        dsimp only [mkRes] at hbr
        rw [if_neg (by omega), sectionEnd_eq c hk] at hbr
        have hE : endSection h http1 = some http' := hf
        rw [hE] at hbr
        dsimp only at hbr
        rw [ht] at hbr
        dsimp only [view] at hbr
        rw [if_neg (by simp [Str.at])] at hbr
        obtain ⟨x2, rfl, rfl⟩ : ∃ x2, x = f.rem ++ x2 ∧ U = x2 ++ y := by
          rcases List.append_eq_append_iff.1 hU with ⟨a, a1, a2⟩ | ⟨a, a1, a2⟩
          · have : a = [] := by
              have := congrArg List.length a1
              rw [List.length_append] at this
              exact List.length_eq_zero_iff.1 (by omega)
            subst this
            exact ⟨[], by simpa using a1.symm, by simpa using a2.symm⟩
          · exact ⟨a, a1, a2⟩
        rw [List.drop_left, q2] at hbr
        have hP : Pos c e mend (undone c.id l'.p.flies) ((base c e).at ⟨h', http'⟩) (x2 ++ y) cbs body := by
          rw [q4]; exact .hdr (p := []) (HdrAt.nil _) hr (fun f _ _ => f.hd_pos)
        obtain ⟨e1, e2, e3⟩ := end_cb c { base c e with sc := f.s } h http'
        rw [List.append_assoc ev, obs_append ev, List.nil_append] at hbr
        refine Goal.cons (k0 := 0) hinv hblk (hP.inv r2) hP.flags.1 hbr r3 ?_ ?_ ?_ (step r2 r3 hP ?_)
        · rw [List.filterMap_append, f2, e1]
          simp [runFields]
        · rw [List.filterMap_append, f3, e2]; rfl
        · rw [List.filterMap_append, f4, e3]; rfl
        · rw [List.length_append] at hn
          omega
      · -- blocked
        obtain ⟨rfl, rfl, q2, q3, q4, q5, q6, q7⟩ := r5
        have hro := hroom f (by rw [hu]; simp) q5
        dsimp only [mkRes] at hbr
        rw [hro, if_pos rfl] at hbr
        dsimp only [view] at hbr
        have hev : ev = [] := by
          have : fields c h http ([] : List QNv) = ([], some http) := rfl
          rw [this] at hq
          exact (Prod.mk.inj hq).1.symm
        subst hev
        have hsid : s'.streamId = c.id := by
          have := (readSection_id hl.pair.wf.ctx (decide (f.rem.length ≤ x.length)) f.s (f.rem.take x.length) hinv.wf hinv.idle).2
          rw [r1] at this
          exact this.trans hid
        have hP := Pos.sec (e := e) (f := { f with rem := rest ++ f.rem.drop x.length, s := s', got := f.got ++ [] }) (nvs := r) hsid q2 hk r4 hf ht hr
        dsimp only at hP
        have hlen : (rest ++ f.rem.drop x.length).length = f.rem.length - ((f.rem.take x.length).length - rest.length) := by
          simp only [List.length_append, List.length_drop, List.length_take] at q6 ⊢
          omega
        have hby : rest ++ x.drop f.rem.length ++ y = rest ++ f.rem.drop x.length ++ U := by
          rw [List.append_assoc, List.append_assoc]
          congr 1
          have h1 : (x ++ y).drop (min x.length f.rem.length) = (f.rem ++ U).drop (min x.length f.rem.length) := by rw [hU]
          rw [List.drop_append_of_le_length (by omega), List.drop_append_of_le_length (by omega)] at h1
          by_cases hle : x.length ≤ f.rem.length
          · rw [Nat.min_eq_left hle, List.drop_eq_nil_of_le (Nat.le_refl _)] at h1
            rw [List.drop_eq_nil_of_le hle, h1]
          · rw [Nat.min_eq_right (by omega), List.drop_eq_nil_of_le (Nat.le_refl _)] at h1
            rw [h1, List.drop_eq_nil_of_le (as := f.rem) (by omega)]
        rw [hlen, ← hby] at hP
        rw [← q7] at hP
        have hA : aBidi c room false (({ base c e with sc := f.s } : Str).inSec ⟨h, http⟩ h f.rem.length) l.p.dec x =
            .ok { ({ base c e with rst := .headers, rv := {}, ftype := 1, left := f.rem.length - ((f.rem.take x.length).length - rest.length), h := h, http := http1, sc := s' } : Str) with
              blocked := true, inq := pack (rest ++ x.drop f.rem.length) } l'.p.dec [] (0 + ((f.rem.take x.length).length - rest.length)) [] := by
          unfold aBidi
          rw [hro, hbr]
          unfold aFinish
          dsimp only
          rw [norm_of_ne (by simp [Str.inSec])]
          rfl
        refine ⟨l', _, [], _, _, _, hA, r2, r3, ?_, ?_, rfl, Or.inr ⟨_, rest ++ x.drop f.rem.length, rfl, hP, _, _, q7, q3, q4, by rw [r3.ctx]; exact q5, rfl⟩⟩
        · have : fs = [] := by
            have : runFields c.pp (isRequest h) (isTrailers h) (c.server && c.ext) http (([] : List QNv).map QNv.field) = ([], some http) := rfl
            rw [this] at hrf
            exact (Prod.mk.inj hrf).1.symm
          rw [this]; rfl
        · rfl

end Net
end Nghttp3
