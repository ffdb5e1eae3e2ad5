import Verif.Lemmas.NetPos
import Mathlib.Data.List.Perm.Subperm
import Mathlib.Data.List.Dedup
/-! Two endpoints of this library: the state of a request stream. -/
namespace Nghttp3
namespace Net
open Http Qpack Bidi

/-- the end of the stream may come with the bytes -/
theorem run_fin (c : Cfg) (e : Bool) (mend : Msg) (room fin : Bool) {H : Nat} (p : Nat → Bool) (hp : p c.id = true) {l : Loop} (hl : LoopOk H l) (hg : c.id ∉ l.gone)
    (hwin : ∀ g ∈ undone c.id l.p.flies, g.sec.ricnt ≤ l.p.dec.ctx.next + H / 32) (hbud : bud p l ≤ lim l)
    (hroom : ∀ g ∈ undone c.id l.p.flies, l.p.dec.ctx.next < g.sec.ricnt → room = true) {s : Str} {x y : Bidi.Bytes} {cbs : List Cb} {body : Bidi.Bytes}
    (h : Pos c e mend (undone c.id l.p.flies) s (x ++ y) cbs body) (hf : fin = true → y = [] ∧ ∃ h', transit mend.h mend.s .msgEnd = .ok h') :
    ∃ l' s1 o k, aBidi c room fin s l.p.dec x = .ok s1 l'.p.dec o k [] ∧ LoopOk H l' ∧ Eff c.id l l' ∧ o.filterMap Obs.signal = [] ∧
      ((∃ cbs' body', cbs = o.filterMap Obs.cb ++ cbs' ∧ body = o.filterMap Obs.body ++ body' ∧ Next c e mend l' s1 y cbs' body' ∧ (fin = true → s1.blocked = true)) ∨
        (fin = true ∧ o.filterMap Obs.cb = cbs ++ [.endStream] ∧ o.filterMap Obs.body = body ∧ s1.blocked = false ∧ s1.inq = [] ∧ s1.shutRd = false ∧ s1.closed = false ∧
          undone c.id l'.p.flies = [])) := by
  obtain ⟨l', s1, o, k, cbs', body', g1, g2, g3, g4, g5, g6, g7⟩ := pos_run c e mend room p hp x.length hl hg hwin hbud hroom h (Nat.le_refl _)
  cases fin with
  | false => exact ⟨l', s1, o, k, g1, g2, g3, g6, Or.inl ⟨cbs', body', g4, g5, g7, by simp⟩⟩
  | true =>
    obtain ⟨rfl, h', hh⟩ := hf rfl
    have ha := aBidi_append c room true s l.p.dec x [] (h.inv hl) h.flags.1
    rw [List.append_nil, g1] at ha
    dsimp only at ha
    rcases g7 with g7 | ⟨s0, rest, r1, r2, f, t, r3, r4, r5, r6, r7⟩
    · obtain ⟨i1, i2, i3, i4⟩ := g7.idle
      rw [if_neg (by rw [g7.flags.1]; simp)] at ha
      have hd : aBidi c room true s1 l'.p.dec [] = .ok { s1 with h := h' } l'.p.dec [.endStream] 0 [] := by
        unfold aBidi
        rw [bRun_nil]
        dsimp only [aFinish]
        have a1 : s1.rst = .frameType := by rw [i1]; rfl
        have a2 : s1.rv.left = 0 := by rw [i1]; rfl
        have a3 : transit s1.h s1.http .msgEnd = .ok h' := by rw [i1]; exact hh
        unfold aDone
        dsimp only
        rw [if_pos rfl, a1]
        dsimp only
        rw [if_neg (by simp [a2]), a3]
        dsimp only
        rw [norm_of_ne (by simp), ← a1]
        rfl
      rw [hd] at ha
      dsimp only [ARes.shift] at ha
      refine ⟨l', _, _, _, ha, g2, g3, ?_, Or.inr ⟨rfl, ?_, ?_, ?_, ?_, ?_, ?_, i4⟩⟩
      · rw [List.filterMap_append, g6]; rfl
      · rw [List.filterMap_append, g4, i2, List.append_nil]; rfl
      · rw [List.filterMap_append, g5, i3, List.append_nil]
        exact List.append_nil _
      · exact g7.flags.1
      · exact g7.flags.2.2.2.2.1
      · exact g7.flags.2.1
      · exact g7.flags.2.2.2.1
    · have hb : s1.blocked = true := by rw [r1]
      rw [if_pos hb] at ha
      have hs : ({ s1 with inq := pack (buffered s1 ++ []) } : Str) = s1 := by
        rw [List.append_nil, r1]
        have : buffered ({ s0 with blocked := true, inq := pack rest } : Str) = rest := (pack_flat rest).1
        rw [this]
      rw [hs] at ha
      dsimp only [ARes.shift] at ha
      rw [List.append_nil, Nat.add_zero] at ha
      exact ⟨l', s1, o, k, ha, g2, g3, g6, Or.inl ⟨cbs', body', g4, g5, Or.inr ⟨s0, rest, r1, r2, f, t, r3, r4, r5, r6, r7⟩, fun _ => hb⟩⟩

/-! ### the state of a stream -/

/-- the receiver is reading; `N`: how far the encoder stream had been read when the streams waiting for it were looked at -/
def Live (c : Cfg) (l : Loop) (N : Nat) (st : NStr) (all : List Cb) (mend : Msg) : Prop :=
  c.id ∉ l.gone ∧ (st.fin = true → st.wire = [] ∧ st.ended = true ∧ st.s.blocked = true) ∧
  ∃ s0 cbs body, Pos c st.fin mend (undone c.id l.p.flies) s0 (buffered st.s ++ st.wire) cbs body ∧
    st.s.canon = { s0 with inq := pack (buffered st.s), blocked := st.s.blocked } ∧ all = seen st ++ cbs ∧ sent st = seenBody st ++ body ∧
    (st.s.blocked = true → ∃ f t, undone c.id l.p.flies = f :: t ∧ f.s.ricnt = f.sec.ricnt ∧ N < f.sec.ricnt ∧ s0.sc = f.s)

/-- reading was given up -/
def Stopped (c : Cfg) (l : Loop) (st : NStr) : Prop :=
  c.id ∈ l.gone ∧ st.s.shutRd = true ∧ st.s.blocked = false ∧ seen st <+: (rules c st.msg st.ended).1 ∧ seenBody st <+: sent st

/-- everything has been read -/
def Over (c : Cfg) (l : Loop) (st : NStr) (all : List Cb) : Prop :=
  c.id ∉ l.gone ∧ st.fin = true ∧ st.ended = true ∧ st.wire = [] ∧ st.s.blocked = false ∧ st.s.shutRd = false ∧ undone c.id l.p.flies = [] ∧ seen st = all ++ [.endStream] ∧ seenBody st = sent st

structure StrOk (c : Cfg) (l : Loop) (N : Nat) (st : NStr) : Prop where
  sinv : SInv st.s l.p.dec
  closed : st.s.closed = false
  sig : (obs st.ev).filterMap Obs.signal = []
  at_ : ∃ all mend, onFrames c.pp (c.server && c.ext) (Msg.start c) (st.msg.map SFrame.frm) = (all, .ok mend) ∧
    (st.ended = true → ∃ h, transit mend.h mend.s .msgEnd = .ok h) ∧ (Live c l N st all mend ∨ Stopped c l st ∨ Over c l st all)

theorem sinv_ctx {s : Str} {d d' : Dec} (h : SInv s d) (hc : CtxOk d'.ctx) : SInv s d' :=
  ⟨⟨hc, h.inv.wf, h.inv.idle, h.inv.rv, h.inv.hok, h.inv.left⟩, h.buf, h.inq, h.blk⟩

/-- what happens elsewhere -/
theorem StrOk.frame {c : Cfg} {l l' : Loop} {N N' : Nat} {st : NStr} (h : StrOk c l N st) (hc : CtxOk l'.p.dec.ctx) (hu : undone c.id l'.p.flies = undone c.id l.p.flies)
    (hg : c.id ∈ l'.gone ↔ c.id ∈ l.gone) (hN : N' ≤ N) : StrOk c l' N' st := by
  obtain ⟨all, mend, h1, h2, h3⟩ := h.at_
  refine ⟨sinv_ctx h.sinv hc, h.closed, h.sig, all, mend, h1, h2, ?_⟩
  rcases h3 with ⟨k1, k2, s0, cbs, body, k3, k4, k5, k6, k7⟩ | ⟨k1, k2, k3⟩ | ⟨k0, k1, k2, k3, k4, k5, k6, k7⟩
  · refine Or.inl ⟨by rw [hg]; exact k1, k2, s0, cbs, body, by rw [hu]; exact k3, k4, k5, k6, ?_⟩
    intro hb
    obtain ⟨f, t, j1, j2, j3, j4⟩ := k7 hb
    exact ⟨f, t, by rw [hu]; exact j1, j2, by omega, j4⟩
  · exact Or.inr (Or.inl ⟨hg.2 k1, k2, k3⟩)
  · exact Or.inr (Or.inr ⟨by rw [hg]; exact k0, k1, k2, k3, k4, k5, by rw [hu]; exact k6, k7⟩)

/-- a waiting stream waits for the encoder stream -/
theorem StrOk.waits {c : Cfg} {l : Loop} {N : Nat} {st : NStr} (h : StrOk c l N st) (hb : st.s.blocked = true) :
    c.id ∉ l.gone ∧ ∃ f ∈ undone c.id l.p.flies, N < f.sec.ricnt := by
  obtain ⟨all, mend, h1, h2, h3⟩ := h.at_
  rcases h3 with ⟨k1, k2, s0, cbs, body, k3, k4, k5, k6, k7⟩ | ⟨k1, k2, k3, _⟩ | ⟨_, k1, k2, k3, k4, _⟩
  · obtain ⟨f, t, j1, j2, j3, j4⟩ := k7 hb
    exact ⟨k1, f, by rw [j1]; simp, j3⟩
  · rw [hb] at k3; cases k3
  · rw [hb] at k4; cases k4

theorem rules_eq {c : Cfg} {st : NStr} {all : List Cb} {mend : Msg} (h : onFrames c.pp (c.server && c.ext) (Msg.start c) (st.msg.map SFrame.frm) = (all, .ok mend))
    (he : st.ended = true → ∃ h, transit mend.h mend.s .msgEnd = .ok h) : (rules c st.msg st.ended).1 = if st.ended then all ++ [.endStream] else all := by
  unfold rules
  cases hq : st.ended
  · rw [if_neg (by simp), if_neg (by simp), h]
  · obtain ⟨h', hh⟩ := he hq
    rw [if_pos rfl, if_pos rfl]
    unfold onMessage onEnd
    rw [h]
    dsimp only
    rw [hh]; rfl

theorem StrOk.shows {c : Cfg} {l : Loop} {N : Nat} {st : NStr} (h : StrOk c l N st) : seen st <+: (rules c st.msg st.ended).1 ∧ seenBody st <+: sent st := by
  obtain ⟨all, mend, h1, h2, h3⟩ := h.at_
  have hr := rules_eq h1 h2
  rcases h3 with ⟨k1, k2, s0, cbs, body, k3, k4, k5, k6, k7⟩ | ⟨k1, k2, k3, k4⟩ | ⟨_, k1, k2, k3, k4, k5, k6, k7, k8⟩
  · rw [hr, k5, k6]
    refine ⟨?_, List.prefix_append _ _⟩
    cases st.ended
    · rw [if_neg (by simp)]; exact List.prefix_append _ _
    · rw [if_pos rfl, List.append_assoc]; exact List.prefix_append _ _
  · exact k4
  · rw [hr, k2, if_pos rfl, k7, k8]
    exact ⟨List.prefix_refl _, List.prefix_refl _⟩

/-- a stream on which all has arrived and nothing is missing -/
theorem StrOk.all {c : Cfg} {l : Loop} {N : Nat} {st : NStr} (h : StrOk c l N st) (hw : st.wire = []) (hb : st.s.blocked = false) (hs : st.s.shutRd = false) (he : st.fin = st.ended) :
    seen st = (rules c st.msg st.ended).1 ∧ seenBody st = sent st := by
  obtain ⟨all, mend, h1, h2, h3⟩ := h.at_
  have hr := rules_eq h1 h2
  rcases h3 with ⟨k1, k2, s0, cbs, body, k3, k4, k5, k6, k7⟩ | ⟨k1, k2, k3, k4⟩ | ⟨_, k1, k2, k3, k4, k5, k6, k7, k8⟩
  · have hq : st.s.inq = [] := by
      by_contra hne
      have := h.sinv.inq hne
      rw [hb] at this; cases this
    have hbu : buffered st.s = [] := by unfold buffered; rw [hq]; rfl
    rw [hbu, hw] at k3
    obtain ⟨i1, i2, i3, i4⟩ := k3.idle
    have hf : st.fin = false := by
      by_contra hne
      have := (k2 (by simpa using hne)).2.2
      rw [hb] at this; cases this
    rw [hr, ← he, hf, if_neg (by simp), k5, i2, k6, i3, List.append_nil, List.append_nil]
    exact ⟨rfl, rfl⟩
  · rw [hs] at k2; cases k2
  · rw [hr, k2, if_pos rfl, k7, k8]
    exact ⟨rfl, rfl⟩

theorem seen_append (st : NStr) (ev : List Ev) : (obs (st.ev ++ ev)).filterMap Obs.cb = seen st ++ (obs ev).filterMap Obs.cb := by
  unfold seen; rw [obs_append, List.filterMap_append]
theorem seenBody_append (st : NStr) (ev : List Ev) : (obs (st.ev ++ ev)).filterMap Obs.body = seenBody st ++ (obs ev).filterMap Obs.body := by
  unfold seenBody; rw [obs_append, List.filterMap_append]

theorem buffered_canon (s : Str) : buffered s.canon = buffered s := (canon_flags s).2.2.2.2.2.1

/-- after a call that read bytes -/
theorem StrOk.read {c : Cfg} {l' : Loop} {st st' : NStr} {fin : Bool} {mend : Msg} {s1 : Str} {ev : List Ev} {cbs : List Cb} {body y : Bidi.Bytes} {all : List Cb}
    (hs : SInv st'.s l'.p.dec) (hsig : (obs st.ev).filterMap Obs.signal = []) (hf : onFrames c.pp (c.server && c.ext) (Msg.start c) (st.msg.map SFrame.frm) = (all, .ok mend))
    (hend : st.ended = true → ∃ h, transit mend.h mend.s .msgEnd = .ok h) (hg : c.id ∉ l'.gone) (hall : all = seen st ++ cbs) (hbody : sent st = seenBody st ++ body)
    (hm : st'.msg = st.msg) (he : st'.ended = st.ended) (hw : st'.wire = y) (hfin : st'.fin = fin) (hev : st'.ev = st.ev ++ ev) (hcan : st'.s.canon = s1)
    (hfy : fin = true → y = [] ∧ st.ended = true)
    (hsg : (obs ev).filterMap Obs.signal = [])
    (hout : (∃ cbs' body', cbs = (obs ev).filterMap Obs.cb ++ cbs' ∧ body = (obs ev).filterMap Obs.body ++ body' ∧ Next c fin mend l' s1 y cbs' body' ∧ (fin = true → s1.blocked = true)) ∨
        (fin = true ∧ (obs ev).filterMap Obs.cb = cbs ++ [.endStream] ∧ (obs ev).filterMap Obs.body = body ∧ s1.blocked = false ∧ s1.inq = [] ∧ s1.shutRd = false ∧ s1.closed = false ∧
          undone c.id l'.p.flies = [])) : StrOk c l' l'.p.dec.ctx.next st' := by
  have hcf := canon_flags st'.s
  rw [hcan] at hcf
  have hseen : seen st' = seen st ++ (obs ev).filterMap Obs.cb := by unfold seen; rw [hev, seen_append]; rfl
  have hseenB : seenBody st' = seenBody st ++ (obs ev).filterMap Obs.body := by unfold seenBody; rw [hev, seenBody_append]; rfl
  have hsent : sent st' = sent st := by unfold sent; rw [hm]
  have hsig' : (obs st'.ev).filterMap Obs.signal = [] := by rw [hev, obs_append, List.filterMap_append, hsig, hsg]; rfl
  have hcl : s1.closed = false := by
    rcases hout with ⟨_, _, _, _, hn | ⟨s0, rest, r1, r2, _⟩, _⟩ | ⟨_, _, _, _, _, _, h, _⟩
    · exact hn.flags.2.2.2.1
    · rw [r1]; exact r2.flags.2.2.2.1
    · exact h
  refine ⟨hs, by rw [← hcf.2.2.2.1]; exact hcl, hsig', all, mend, by rw [hm]; exact hf, by rw [he]; exact hend, ?_⟩
  rcases hout with ⟨cbs', body', o1, o2, o3, o4⟩ | ⟨o1, o2, o3, o4, o5, o6, o7, o8⟩
  · refine Or.inl ⟨hg, fun hfi => ⟨by rw [hw]; exact (hfy (by rw [← hfin]; exact hfi)).1, by rw [he]; exact (hfy (by rw [← hfin]; exact hfi)).2,
      by rw [← hcf.1]; exact o4 (by rw [← hfin]; exact hfi)⟩, ?_⟩
    rcases o3 with o3 | ⟨s0, rest, r1, r2, f, t, r3, r4, r5, r6, r7⟩
    · have hfl := o3.flags
      have hb0 : st'.s.blocked = false := by rw [← hcf.1]; exact hfl.1
      have hbu : buffered st'.s = [] := by
        rw [← hcf.2.2.2.2.2.1]; unfold buffered; rw [hfl.2.2.2.2.1]; rfl
      refine ⟨s1, cbs', body', by rw [hbu, hw, hfin]; exact o3, ?_, ?_, ?_, ?_⟩
      · rw [hcan, hbu, hb0]
        obtain ⟨a1, _, _, _, a5, _⟩ := hfl
        unfold pack
        rw [if_pos rfl, ← a5, ← a1]
      · rw [hseen, hall, o1, List.append_assoc]
      · rw [hsent, hseenB, hbody, o2, List.append_assoc]
      · intro hb; rw [hb0] at hb; cases hb
    · have hb1 : st'.s.blocked = true := by rw [← hcf.1, r1]
      have hbu : buffered st'.s = rest := by
        rw [← hcf.2.2.2.2.2.1, r1]; exact (pack_flat rest).1
      refine ⟨s0, cbs', body', by rw [hbu, hw, hfin]; exact r2, ?_, ?_, ?_, ?_⟩
      · rw [hcan, hbu, hb1, r1]
      · rw [hseen, hall, o1, List.append_assoc]
      · rw [hsent, hseenB, hbody, o2, List.append_assoc]
      · intro _
        exact ⟨f, t, r3, r5, r6, r7⟩
  · refine Or.inr (Or.inr ⟨hg, by rw [hfin]; exact o1, by rw [he]; exact (hfy o1).2, by rw [hw]; exact (hfy o1).1, by rw [← hcf.1]; exact o4, by rw [← hcf.2.1]; exact o6, o8, ?_, ?_⟩)
    · rw [hseen, o2, hall, List.append_assoc]
    · rw [hseenB, o3, hsent, hbody]

end Net
end Nghttp3
