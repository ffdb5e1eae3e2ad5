import Verif.Lemmas.NetInv
/-! Two endpoints of this library: calls on a request stream. -/
namespace Nghttp3
namespace Net
open Http Qpack Bidi

/-- the conditions under which stream `c` may be read -/
structure MayRead (c : Cfg) (H : Nat) (l : Loop) (room : Bool) : Prop where
  win : c.id ∉ l.gone → ∀ g ∈ undone c.id l.p.flies, g.sec.ricnt ≤ l.p.dec.ctx.next + H / 32
  bud : c.id ∉ l.gone → ∃ p : Nat → Bool, p c.id = true ∧ Net.bud p l ≤ lim l
  room : c.id ∉ l.gone → ∀ g ∈ undone c.id l.p.flies, l.p.dec.ctx.next < g.sec.ricnt → room = true

theorem canon_rst {s : Str} (h : s.rst ≠ .ignRest) : s.canon.sc = s.sc := by
  unfold Str.canon; rw [norm_of_ne h]

theorem StrOk.unblocked {c : Cfg} {l : Loop} {N N' : Nat} {st : NStr} (h : StrOk c l N st) (hb : st.s.blocked = false) : StrOk c l N' st := by
  obtain ⟨all, mend, h1, h2, h3⟩ := h.at_
  refine ⟨h.sinv, h.closed, h.sig, all, mend, h1, h2, ?_⟩
  rcases h3 with ⟨k1, k2, s0, cbs, body, k3, k4, k5, k6, k7⟩ | h3
  · exact Or.inl ⟨k1, k2, s0, cbs, body, k3, k4, k5, k6, fun g => by rw [hb] at g; cases g⟩
  · exact Or.inr h3

/-- nghttp3_conn_read_stream with the next bytes of a stream -/
theorem recv_str {c : Cfg} {H : Nat} {l : Loop} (hl : LoopOk H l) {room : Bool} {st : NStr} (h : StrOk c l l.p.dec.ctx.next st) (hr : MayRead c H l room) (hnf : st.fin = false) (fin : Bool) {x y : Bidi.Bytes}
    (hxy : st.wire = x ++ y) (hfin : fin = true → y = [] ∧ st.ended = true) :
    ∃ l' s' ev n' rest, readStream c room fin st.s l.p.dec x = .ok s' l'.p.dec ev n' rest ∧ LoopOk H l' ∧ Eff c.id l l' ∧
      StrOk c l' l'.p.dec.ctx.next { st with wire := y, fin := fin, s := s', ev := st.ev ++ ev } := by
  by_cases h0 : x = [] ∧ fin = false
  · refine ⟨l, st.s, [], 0, [], by unfold readStream; rw [if_pos h0], hl, Eff.refl _ _, ?_⟩
    have : ({ st with wire := y, fin := fin, s := st.s, ev := st.ev ++ [] } : NStr) = st := by
      rw [h0.1, List.nil_append] at hxy
      rw [List.append_nil, h0.2, ← hnf, ← hxy]
    rw [this]; exact h
  have hsim := recv_sim c room fin st.s l.p.dec x h.sinv
  have hcf := canon_flags st.s
  obtain ⟨all, mend, h1, h2, h3⟩ := h.at_
  unfold aRecv at hsim
  rw [if_neg h0] at hsim
  dsimp only at hsim
  rcases h3 with ⟨k1, k2, s0, cbs, body, k3, k4, k5, k6, k7⟩ | ⟨k1, k2, k3, k4, k5⟩ | ⟨_, k1, k2, k3, k4, k5, k6, k7, k8⟩
  · -- reading
    have hfl := k3.flags
    have hsh : st.s.canon.shutRd = false := by rw [k4]; exact hfl.2.1
    rw [if_neg (by rw [hsh]; simp)] at hsim
    cases hb : st.s.blocked
    · -- ready
      have hq : st.s.inq = [] := by
        by_contra hne
        have := h.sinv.inq hne
        rw [hb] at this; cases this
      have hbu : buffered st.s = [] := by unfold buffered; rw [hq]; rfl
      have hs0 : st.s.canon = s0 := by
        rw [k4, hbu, hb]
        obtain ⟨a1, _, _, _, a5, _⟩ := hfl
        unfold pack
        rw [if_pos rfl, ← a5, ← a1]
      rw [hbu, List.nil_append, hxy, hnf] at k3
      rw [hs0] at hsim
      rw [if_neg (by rw [hfl.1]; simp)] at hsim
      have he : (s0.eof || fin) = fin := by rw [hfl.2.2.1, hnf]; rfl
      rw [he] at hsim
      obtain ⟨p, hp, hbud⟩ := hr.bud k1
      obtain ⟨l', s1, o, k, r1, r2, r3, r4, r5⟩ := run_fin c fin mend room fin p hp hl k1 (hr.win k1) hbud (hr.room k1) (k3.eof fin)
        (fun hf => ⟨(hfin hf).1, h2 (hfin hf).2⟩)
      rw [r1] at hsim
      obtain ⟨s', ev, n', rest, q1, q2, q3, _, _, q6, _⟩ := hsim
      refine ⟨l', s', ev, n', rest, q1, r2, r3, ?_⟩
      subst q3
      exact StrOk.read (st := st) q6 h.sig h1 h2 (by rw [r3.gone]; exact k1) k5 k6 rfl rfl rfl rfl rfl q2 hfin r4 r5
    · -- waiting
      have hbc : st.s.canon.blocked = true := by rw [hcf.1]; exact hb
      rw [if_pos hbc] at hsim
      obtain ⟨s', ev, n', rest, q1, q2, q3, _, _, q6, _⟩ := hsim
      refine ⟨l, s', ev, n', rest, q1, hl, Eff.refl _ _, ?_⟩
      have hcf' := canon_flags s'
      rw [q2] at hcf'
      have hbu : buffered s' = buffered st.s ++ x := by
        rw [← hcf'.2.2.2.2.2.1]
        refine ((pack_flat _).1).trans ?_
        congr 1
        exact buffered_canon _
      have hbl : s'.blocked = true := by rw [← hcf'.1]; exact hbc
      have hev : obs ev = [] := q3
      refine ⟨q6, by dsimp only; exact hcf'.2.2.2.1.symm.trans (hcf.2.2.2.1.trans h.closed), ?_, all, mend, h1, h2, Or.inl ⟨k1, ?_, ?_⟩⟩
      · dsimp only; rw [obs_append, hev, List.append_nil]; exact h.sig
      · intro hf
        exact ⟨(hfin hf).1, (hfin hf).2, hbl⟩
      · have hP := k3.eof fin
        rw [hxy] at hP
        refine ⟨{ s0 with eof := fin }, cbs, body, ?_, ?_, ?_, ?_, ?_⟩
        · dsimp only; rw [hbu, List.append_assoc]; exact hP
        · dsimp only
          rw [q2, hbu, hbl, k4]
          dsimp only
          rw [hfl.2.2.1, hnf]
          have hc3 : ∀ (e : Bool) , buffered ({ s0 with inq := pack (buffered st.s), blocked := st.s.blocked, eof := e } : Str) = buffered st.s := fun _ => (pack_flat _).1
          have := hc3 (false || fin)
          rw [this, hb]
          rfl
        · unfold seen; dsimp only; rw [obs_append, hev, List.append_nil]; exact k5
        · unfold sent seenBody; dsimp only; rw [obs_append, hev, List.append_nil]; exact k6
        · intro _
          exact k7 hb
  · -- given up
    have hsh : st.s.canon.shutRd = true := by rw [hcf.2.1]; exact k2
    rw [if_pos hsh] at hsim
    obtain ⟨s', ev, n', rest, q1, q2, q3, _, _, q6, _⟩ := hsim
    refine ⟨l, s', ev, n', rest, q1, hl, Eff.refl _ _, ?_⟩
    have hcf' := canon_flags s'
    rw [q2] at hcf'
    have hev : obs ev = [] := q3
    refine ⟨q6, by dsimp only; exact hcf'.2.2.2.1.symm.trans (hcf.2.2.2.1.trans h.closed), ?_, all, mend, h1, h2, Or.inr (Or.inl ⟨k1, ?_, ?_, ?_, ?_⟩)⟩
    · dsimp only; rw [obs_append, hev, List.append_nil]; exact h.sig
    · dsimp only; rw [← hcf'.2.1]; exact hsh
    · dsimp only; rw [← hcf'.1]; exact hcf.1.trans k3
    · unfold seen; dsimp only; rw [obs_append, hev, List.append_nil]; exact k4
    · unfold sent seenBody; dsimp only; rw [obs_append, hev, List.append_nil]; exact k5
  · rw [k1] at hnf; cases hnf

/-- a stream is looked at after the encoder stream was read -/
theorem wake_str {c : Cfg} {H : Nat} {l : Loop} (hl : LoopOk H l) {room : Bool} {N : Nat} {st : NStr} (h : StrOk c l N st) (hr : MayRead c H l room) :
    ∃ l' s' ev n' rest, wake c room st.s l.p.dec = .ok s' l'.p.dec ev n' rest ∧ LoopOk H l' ∧ Eff c.id l l' ∧
      StrOk c l' l'.p.dec.ctx.next { st with s := s', ev := st.ev ++ ev } ∧ (st.s.blocked = false → l' = l) := by
  have hself : ({ st with s := st.s, ev := st.ev ++ [] } : NStr) = st := by rw [List.append_nil]
  cases hb : st.s.blocked
  · refine ⟨l, st.s, [], 0, [], by unfold wake; rw [if_neg (by simp [hb])], hl, Eff.refl _ _, ?_⟩
    rw [hself]; exact ⟨h.unblocked hb, fun _ => rfl⟩
  have hnb : ∀ {l' : Loop}, (true = false → l' = l) := fun h => by cases h
  have hsim := wake_sim c room st.s l.p.dec h.sinv
  have hcf := canon_flags st.s
  have hrst : st.s.rst ≠ .ignRest := by rw [h.sinv.blk hb]; simp
  have hsc := canon_rst hrst
  obtain ⟨all, mend, h1, h2, h3⟩ := h.at_
  rcases h3 with ⟨k1, k2, s0, cbs, body, k3, k4, k5, k6, k7⟩ | ⟨k1, k2, k3, k4⟩ | ⟨_, k1, k2, k3, k4, k5, k6, k7, k8⟩
  swap
  · rw [hb] at k3; cases k3
  swap
  · rw [hb] at k4; cases k4
  obtain ⟨f, t, j1, j2, j3, j4⟩ := k7 hb
  have hric : st.s.sc.ricnt = f.sec.ricnt := by rw [← hsc, k4]; dsimp only; rw [j4, j2]
  by_cases hn : f.sec.ricnt ≤ l.p.dec.ctx.next
  swap
  · refine ⟨l, st.s, [], 0, [], by unfold wake; rw [if_neg (by rw [hric]; exact fun g => hn g.2)], hl, Eff.refl _ _, ?_⟩
    rw [hself]
    exact ⟨⟨h.sinv, h.closed, h.sig, all, mend, h1, h2, Or.inl ⟨k1, k2, s0, cbs, body, k3, k4, k5, k6, fun _ => ⟨f, t, j1, j2, by omega, j4⟩⟩⟩, hnb⟩
  have hfl := k3.flags
  unfold aWake at hsim
  rw [if_pos ⟨hcf.1.trans hb, by rw [hsc, hric]; exact hn⟩] at hsim
  have hA : ({ st.s.canon with blocked := false } : Str) = { s0 with inq := pack (buffered st.s) } := by
    rw [k4]
    dsimp only
    rw [← hfl.1]
  rw [hA] at hsim
  unfold aProc at hsim
  have hbp : buffered ({ s0 with inq := pack (buffered st.s) } : Str) = buffered st.s := (pack_flat _).1
  rw [hbp] at hsim
  by_cases hbu : buffered st.s = []
  · rw [if_pos hbu] at hsim
    dsimp only at hsim
    rw [if_neg (by rw [hfl.2.2.2.1]; simp)] at hsim
    obtain ⟨s', ev, n', rest, q1, q2, q3, _, _, q6, _⟩ := hsim
    have hcf' := canon_flags s'
    rw [q2] at hcf'
    have hev : obs ev = [] := q3
    have hbl : s'.blocked = false := by rw [← hcf'.1]; exact hfl.1
    have hbu' : buffered s' = [] := by rw [← hcf'.2.2.2.2.2.1, hbp, hbu]
    rw [hbu, List.nil_append] at k3
    refine ⟨l, s', ev, n', rest, q1, hl, Eff.refl _ _, ⟨q6, by dsimp only; rw [← hcf'.2.2.2.1]; exact hfl.2.2.2.1, ?_, all, mend, h1, h2, Or.inl ⟨k1, ?_, ?_⟩⟩, hnb⟩
    · dsimp only; rw [obs_append, hev, List.append_nil]; exact h.sig
    · intro hf
      exfalso
      have hw := (k2 hf).1
      rw [hw] at k3
      have := k3.idle.2.2.2
      rw [j1] at this; cases this
    · refine ⟨s0, cbs, body, ?_, ?_, ?_, ?_, ?_⟩
      · dsimp only; rw [hbu', List.nil_append]; exact k3
      · dsimp only
        rw [q2, hbu', hbl, hbu]
        rw [← hfl.1]
      · unfold seen; dsimp only; rw [obs_append, hev, List.append_nil]; exact k5
      · unfold sent seenBody; dsimp only; rw [obs_append, hev, List.append_nil]; exact k6
      · intro g
        dsimp only at g
        rw [hbl] at g; cases g
  · rw [if_neg hbu] at hsim
    dsimp only at hsim
    rw [if_neg (by rw [hfl.2.1]; simp)] at hsim
    have hs0 : ({ s0 with inq := [] } : Str) = s0 := by rw [← hfl.2.2.2.2.1]
    rw [hs0, hfl.2.2.1] at hsim
    obtain ⟨p, hp, hbud⟩ := hr.bud k1
    obtain ⟨l', s1, o, k, r1, r2, r3, r4, r5⟩ := run_fin c st.fin mend room st.fin p hp hl k1 (hr.win k1) hbud (hr.room k1) k3
      (fun hf => ⟨(k2 hf).1, h2 (k2 hf).2.1⟩)
    rw [r1] at hsim
    dsimp only at hsim
    have hcl : s1.closed = false := by
      rcases r5 with ⟨_, _, _, _, hn | ⟨s0, rest, r1, r2, _⟩, _⟩ | ⟨_, _, _, _, _, _, h, _⟩
      · exact hn.flags.2.2.2.1
      · rw [r1]; exact r2.flags.2.2.2.1
      · exact h
    rw [if_neg (by rw [hcl]; simp)] at hsim
    obtain ⟨s', ev, n', rest, q1, q2, q3, _, _, q6, _⟩ := hsim
    refine ⟨l', s', ev, n', rest, q1, r2, r3, ?_, hnb⟩
    subst q3
    exact StrOk.read (st := st) (y := st.wire) (fin := st.fin) q6 h.sig h1 h2 (by rw [r3.gone]; exact k1) k5 k6 rfl rfl rfl rfl rfl q2 (fun hf => ⟨(k2 hf).1, (k2 hf).2.1⟩) r4 r5

theorem onFrames_snoc {pp : Pri → List UInt8 → Option Pri} {ext : Bool} {m : Msg} {a : List Frm} {f : Frm} {all : List Cb} {mend : Msg} (h : onFrames pp ext m a = (all, .ok mend)) :
    onFrames pp ext m (a ++ [f]) = (all ++ (onFrame pp ext mend f).1, (onFrame pp ext mend f).2) := by
  rw [onFrames_append, h]
  dsimp only
  rw [onFrames]
  rcases onFrame pp ext mend f with ⟨cb, _ | _ | _ | _ | m'⟩ <;> dsimp only [onFrames]
  rw [List.append_nil]

/-- the sender sends a frame -/
theorem send_str {c : Cfg} {l l' : Loop} {N : Nat} {st : NStr} (h : StrOk c l N st) (hne : st.ended = false) {m : SFrame} {g : PF} (hg : g.Ok) (hf : ∀ f, g.fly = some f → Fresh c.id f)
    (hm : g.frm = m.frm) (hbd : g.body = m.body) (hv : Valid c (st.msg ++ [m]) false) (hd : l'.p.dec = l.p.dec) (hgo : l'.gone = l.gone)
    (hu : undone c.id l'.p.flies = undone c.id l.p.flies ++ g.fly.toList) :
    StrOk c l' N { st with msg := st.msg ++ [m], wire := st.wire ++ g.bytes } := by
  obtain ⟨all, mend, h1, h2, h3⟩ := h.at_
  obtain ⟨m', hm'⟩ := hv
  unfold rules at hm'
  rw [if_neg (by simp), List.map_append, List.map_cons, List.map_nil, onFrames_snoc h1] at hm'
  dsimp only at hm'
  rcases hq : onFrame c.pp (c.server && c.ext) mend m.frm with ⟨cb, r⟩
  rw [hq] at hm'
  dsimp only at hm'
  subst hm'
  have hsnoc : onFrames c.pp (c.server && c.ext) (Msg.start c) ((st.msg ++ [m]).map SFrame.frm) = (all ++ cb, .ok m') := by
    rw [List.map_append, List.map_cons, List.map_nil, onFrames_snoc h1, hq]
  have hsent : (st.msg ++ [m]).flatMap SFrame.body = sent st ++ m.body := by unfold sent; simp
  refine ⟨by rw [hd]; exact h.sinv, h.closed, h.sig, all ++ cb, m', hsnoc, ?_, ?_⟩
  · intro he
    dsimp only at he
    rw [hne] at he; cases he
  rcases h3 with ⟨k1, k2, s0, cbs, body, k3, k4, k5, k6, k7⟩ | ⟨k1, k2, k3, k4, k5⟩ | ⟨_, k1, k2, k3, k4, k5, k6, k7, k8⟩
  · refine Or.inl ⟨by rw [hgo]; exact k1, ?_, s0, cbs ++ cb, body ++ m.body, ?_, k4, ?_, ?_, ?_⟩
    · intro hfi
      have := (k2 hfi).2.1
      rw [hne] at this; cases this
    · have := k3.append hg hf (cb := cb) (mend' := m') (by rw [hm]; exact hq)
      dsimp only
      rw [hu, ← hbd, ← List.append_assoc]
      exact this
    · rw [k5, List.append_assoc]; rfl
    · unfold sent
      dsimp only
      rw [hsent, k6, List.append_assoc]; rfl
    · intro hb
      obtain ⟨f, t, j1, j2, j3, j4⟩ := k7 hb
      exact ⟨f, t ++ g.fly.toList, by rw [hu, j1]; rfl, j2, j3, j4⟩
  · refine Or.inr (Or.inl ⟨by rw [hgo]; exact k1, k2, k3, ?_, ?_⟩)
    · have e1 : (rules c st.msg st.ended).1 = all := by rw [rules_eq h1 h2, hne]; rfl
      have e2 : (rules c (st.msg ++ [m]) st.ended).1 = all ++ cb := by
        unfold rules
        rw [hne, if_neg (by simp), hsnoc]
      rw [e1] at k4
      dsimp only
      rw [e2]
      exact k4.trans (List.prefix_append _ _)
    · unfold sent
      dsimp only
      rw [hsent]
      exact k5.trans (List.prefix_append _ _)
  · rw [hne] at k2; cases k2

/-- the sender ends the message -/
theorem end_str {c : Cfg} {l : Loop} {N : Nat} {st : NStr} (h : StrOk c l N st) (hne : st.ended = false) (hv : Valid c st.msg true) : StrOk c l N { st with ended := true } := by
  obtain ⟨all, mend, h1, h2, h3⟩ := h.at_
  obtain ⟨m', hm'⟩ := hv
  have he : ∃ h, transit mend.h mend.s .msgEnd = .ok h := by
    unfold rules onMessage onEnd at hm'
    rw [if_pos rfl, h1] at hm'
    dsimp only at hm'
    generalize transit mend.h mend.s .msgEnd = q at hm' ⊢
    rcases q with _ | _ | _ | h'
    · cases hm'
    · cases hm'
    · cases hm'
    · exact ⟨h', rfl⟩
  refine ⟨h.sinv, h.closed, h.sig, all, mend, h1, fun _ => he, ?_⟩
  rcases h3 with ⟨k1, k2, k3⟩ | ⟨k1, k2, k3, k4, k5⟩ | ⟨_, k1, k2, k3, k4, k5, k6, k7, k8⟩
  · refine Or.inl ⟨k1, ?_, k3⟩
    intro hfi
    have := (k2 hfi).2.1
    rw [hne] at this; cases this
  · refine Or.inr (Or.inl ⟨k1, k2, k3, ?_, k5⟩)
    have e1 : (rules c st.msg st.ended).1 = all := by rw [rules_eq h1 h2, hne]; rfl
    rw [e1] at k4
    have := rules_eq (st := { st with ended := true }) h1 (fun _ => he)
    dsimp only at this ⊢
    rw [this]
    exact k4.trans (List.prefix_append _ _)
  · rw [hne] at k2; cases k2

/-- reading is given up -/
theorem stop_str {c : Cfg} {l l' : Loop} {N : Nat} {st : NStr} (h : StrOk c l N st) (hb : st.s.blocked = false) (hc : CtxOk l'.p.dec.ctx) (hg : c.id ∈ l'.gone) :
    StrOk c l' N { st with s := { st.s with shutRd := true }, ev := st.ev ++ [] } := by
  obtain ⟨h4, h5⟩ := h.shows
  obtain ⟨all, mend, h1, h2, h3⟩ := h.at_
  have hs := sinv_ctx h.sinv hc
  refine ⟨⟨⟨hs.inv.ctx, hs.inv.wf, hs.inv.idle, hs.inv.rv, hs.inv.hok, hs.inv.left⟩, hs.buf, hs.inq, hs.blk⟩, h.closed, by dsimp only; rw [List.append_nil]; exact h.sig, all, mend, h1, h2, Or.inr (Or.inl ⟨hg, rfl, hb, ?_, ?_⟩)⟩
  · unfold seen; dsimp only; rw [List.append_nil]; exact h4
  · unfold seenBody; dsimp only; rw [List.append_nil]; exact h5

end Net
end Nghttp3
