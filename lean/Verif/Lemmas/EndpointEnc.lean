import Verif.Lemmas.EndpointTable
import Verif.Lemmas.EncTrack
import Verif.Lemmas.ConnSent2
/-! The QPACK encoder in histories of a whole connection: it has the history that the peer's decoder stream and SETTINGS dictate. -/
namespace Nghttp3
namespace Endpoint
open Outq (R Ans)
open Conn (OpOk IsUni Ty Typ)
open Qpack (Enc Trk DsInstr toOp instrs caps blocks made asMade NoShortcut Unfinished)
open Qpack (ESys EncOp)

variable {P : Par} {server : Bool} {st : Settings} {G : Bool × Settings}

theorem made_append {s s' : ESys} {a : List EncOp} (h : s.run a = .ok s') (b : List EncOp) : made s (a ++ b) = made s a ++ made s' b := by
  induction a generalizing s with
  | nil => cases h; rfl
  | cons x t ih =>
    rw [ESys.run] at h
    rw [List.cons_append, made, made]
    cases hx : s.step x <;> rw [hx] at h <;> dsimp only at h ⊢
    · cases h
    · cases h
    · rw [ih h, List.append_assoc]

theorem made_none {s : ESys} {b : List EncOp} (h : ∀ o ∈ b, ∀ id nvs, o ≠ .encode id nvs) : made s b = [] := by
  induction b generalizing s with
  | nil => rfl
  | cons x t ih =>
    rw [made]
    have h1 : Qpack.madeBy s x = [] := by
      cases x <;> first | rfl | exact absurd rfl (h _ (List.mem_cons_self ..) _ _)
    rw [h1, List.nil_append]
    cases s.step x <;> first | rfl | exact ih fun o ho => h o (List.mem_cons_of_mem _ ho)

/-- the limits of blocked streams that SETTINGS of the peer lead to -/
def lims (r : Settings) : List Nat := if r.qpackBlockedStreams = 0 then [] else [min 100 r.qpackBlockedStreams]
/-- the capacities that SETTINGS of the peer lead to -/
def sizes (r : Settings) : List Nat := if r.qpackMaxDtableCapacity = 0 then [] else [r.qpackMaxDtableCapacity]

/-- the encoder `e` has a history with the decoder instructions `is`, the beginning of another, `p`, the settings `r` and the sections `ss` -/
structure Run (hm : Nat) (is : List (Qpack.DOpc × Nat)) (p : Bytes) (ops : List EncOp) (s : ESys) (r : Settings) (ss : List (Sent.Made Fld)) (e : Enc) : Prop where
  run : (ESys.init hm).run ops = .ok s
  trk : Trk s p e
  cut : NoShortcut ops
  ins : instrs ops = is
  blk : blocks ops = lims r
  cap : caps ops = sizes r
  sec : (Qpack.made (ESys.init hm) ops).map Qpack.asMade = ss

def Dict (hm : Nat) (is : List (Qpack.DOpc × Nat)) (p : Bytes) (r : Settings) (ss : List (Sent.Made Fld)) (e : Enc) : Prop := ∃ ops s, Run hm is p ops s r ss e

theorem Dict.init (hm : Nat) : Dict hm [] [] {} [] (Enc.init hm) :=
  ⟨[], ESys.init hm, rfl, ⟨Qpack.esys_init hm, Props.dswf_init hm, rfl, fun _ => rfl, fun h => by cases h⟩, (by simp [NoShortcut]), rfl, rfl, rfl, rfl⟩

theorem Dict.encode {hm : Nat} {is : List (Qpack.DOpc × Nat)} {p : Bytes} {r : Settings} {ss : List (Sent.Made Fld)} {e e' : Enc} {f : Fld} {p' r' eb : Bytes}
    (hd : Dict hm is p r ss e) (he : Endpoint.encode e f = some (e', p', r', eb)) : Dict hm is p r (ss ++ [⟨f, p', r', eb⟩]) e' := by
  obtain ⟨ops, s, h⟩ := hd
  unfold Endpoint.encode at he
  rcases ho : e.encode f.1 f.2 with _ | o <;> rw [ho] at he <;> dsimp only at he
  · cases he
  split_ifs at he
  simp only [Option.some.injEq, Prod.mk.injEq] at he
  obtain ⟨rfl, rfl, rfl, rfl⟩ := he
  obtain ⟨s', h1, h2⟩ := Qpack.encode_trk h.trk ho
  exact ⟨ops ++ [.encode f.1 f.2], s', Net.erun_snoc h.run h1, h2, by have := h.cut; simpa [NoShortcut] using this, by simpa [instrs] using h.ins,
    by simpa [blocks] using h.blk, by simpa [caps] using h.cap, by
      have hm := Qpack.encode_same h.trk.core f.1 f.2
      rw [ho] at hm
      rcases hs : s.e.encode f.1 f.2 with _ | o' <;> rw [hs] at hm
      · cases hm
      injection hm with hm
      rw [made_append h.run, List.map_append, h.sec, made, h1, Qpack.madeBy, hs]
      have e1 : o'.pfx = o.pfx := (congrArg Qpack.EncOut.pfx hm : o'.core.pfx = o.core.pfx)
      have e2 : o'.reps = o.reps := (congrArg Qpack.EncOut.reps hm : o'.core.reps = o.core.reps)
      have e3 : o'.base = o.base := (congrArg Qpack.EncOut.base hm : o'.core.base = o.core.base)
      have e4 : o'.ins = o.ins := (congrArg Qpack.EncOut.ins hm : o'.core.ins = o.core.ins)
      have e5 : asMade (f, o') = ⟨f, o.pfx, o.reps.flatMap (Qpack.Rep.bytes o.base), o.ebuf⟩ := by
        unfold asMade Qpack.EncOut.ebuf
        rw [e1, e2, e3, e4]
      show ss ++ [asMade (f, o')] = _
      rw [e5]⟩

theorem Dict.chain {hm : Nat} {is : List (Qpack.DOpc × Nat)} {p : Bytes} {r : Settings} {ss : List (Sent.Made Fld)} {e e' : Enc} {ms : List (Sent.Made Fld)}
    (hd : Dict hm is p r ss e) (hc : Sent.Chain Endpoint.encode (fun _ _ => False) e ms e') : Dict hm is p r (ss ++ ms) e' := by
  induction hc generalizing ss with
  | nil => rw [List.append_nil]; exact hd
  | @cons e e1 e' m t he _ ih =>
    have := ih (hd.encode he)
    rw [List.append_assoc] at this
    exact this
  | peer hf => exact hf.elim

theorem instrs_toOp (l : List (Bytes × Qpack.DOpc × Nat)) : instrs (l.map toOp) = l.map (·.2) := by
  induction l with
  | nil => rfl
  | cons a t ih =>
    unfold instrs at ih ⊢
    rw [List.map_cons, List.filterMap_cons, List.map_cons, ← ih]
    rfl
theorem blocks_toOp (l : List (Bytes × Qpack.DOpc × Nat)) : blocks (l.map toOp) = [] := by
  induction l with
  | nil => rfl
  | cons a t ih => exact ih
theorem caps_toOp (l : List (Bytes × Qpack.DOpc × Nat)) : caps (l.map toOp) = [] := by
  induction l with
  | nil => rfl
  | cons a t ih => exact ih
theorem cut_toOp (l : List (Bytes × Qpack.DOpc × Nat)) : NoShortcut (l.map toOp) := by
  intro h
  obtain ⟨a, _, g⟩ := List.mem_map.1 h
  cases g

theorem erun_append {s s' s2 : ESys} {a b : List EncOp} (h : s.run a = .ok s') (h2 : s'.run b = .ok s2) : s.run (a ++ b) = .ok s2 := by
  induction a generalizing s with
  | nil => cases h; exact h2
  | cons x t ih =>
    rw [ESys.run] at h
    cases hx : s.step x <;> rw [hx] at h <;> dsimp only at h
    · cases h
    · cases h
    · exact Qpack.run_cons hx (ih h)

/-- bytes of the decoder stream -/
theorem Dict.read {hm : Nat} {is : List (Qpack.DOpc × Nat)} {p : Bytes} {r : Settings} {ss : List (Sent.Made Fld)} {e e' : Enc} (h : Dict hm is p r ss e) {src : Bytes} (he : e.readDecoder src = .ok e') :
    ∃ (l : List (Bytes × Qpack.DOpc × Nat)) (p' : Bytes), (∀ x ∈ l, DsInstr x.1 x.2.1 x.2.2) ∧ p ++ src = l.flatMap (·.1) ++ p' ∧ Dict hm (is ++ l.map (·.2)) p' r ss e' := by
  obtain ⟨ops, s, h⟩ := h
  obtain ⟨l, p', s', h1, h2, h3, h4⟩ := Qpack.readDecoder_trk h.trk he
  refine ⟨l, p', h1, h2, ops ++ l.map toOp, s', erun_append h.run h3, h4, ?_, ?_, ?_, ?_, ?_⟩
  · intro g
    rcases List.mem_append.1 g with g | g
    · exact h.cut g
    · exact cut_toOp l g
  · have := instrs_toOp l
    unfold instrs at this ⊢
    rw [List.filterMap_append, this]
    exact congrArg (· ++ _) h.ins
  · have := blocks_toOp l
    unfold blocks at this ⊢
    rw [List.filterMap_append, this, List.append_nil]; exact h.blk
  · have := caps_toOp l
    unfold caps at this ⊢
    rw [List.filterMap_append, this, List.append_nil]; exact h.cap
  · rw [made_append h.run, made_none (b := l.map toOp), List.append_nil]
    · exact h.sec
    · intro o ho id nvs e
      obtain ⟨a, _, g⟩ := List.mem_map.1 ho
      rw [← g] at e; cases e

theorem Dict.setCap {hm : Nat} {is : List (Qpack.DOpc × Nat)} {p : Bytes} {r : Settings} {ss : List (Sent.Made Fld)} {e : Enc} (h : Dict hm is p r ss e) (h0 : r.qpackMaxDtableCapacity = 0) {v : Nat} (hv : v ≠ 0) :
    Dict hm is p { r with qpackMaxDtableCapacity := v } ss (e.setMaxCap v) := by
  obtain ⟨ops, s, h⟩ := h
  obtain ⟨s', h1, h2⟩ := Qpack.setCap_trk h.trk v
  refine ⟨ops ++ [EncOp.setCap v], s', Net.erun_snoc h.run h1, h2, by have := h.cut; simpa [NoShortcut] using this, by simpa [instrs] using h.ins,
    by have := h.blk; simpa [blocks, lims] using this, ?_, by rw [made_append h.run, made_none (b := [_]) (by simp), List.append_nil]; exact h.sec⟩
  have := h.cap
  unfold sizes at this ⊢
  rw [if_pos h0] at this
  rw [if_neg hv]
  unfold caps at this ⊢
  rw [List.filterMap_append, this]
  rfl

theorem Dict.setBlocked {hm : Nat} {is : List (Qpack.DOpc × Nat)} {p : Bytes} {r : Settings} {ss : List (Sent.Made Fld)} {e : Enc} (h : Dict hm is p r ss e) (h0 : r.qpackBlockedStreams = 0) {v : Nat} (hv : v ≠ 0) :
    Dict hm is p { r with qpackBlockedStreams := v } ss (e.setMaxBlocked (min 100 v)) := by
  obtain ⟨ops, s, h⟩ := h
  obtain ⟨s', h1, h2⟩ := Qpack.setBlocked_trk h.trk (min 100 v)
  refine ⟨ops ++ [.setMaxBlocked (min 100 v)], s', Net.erun_snoc h.run h1, h2, by have := h.cut; simpa [NoShortcut] using this, by simpa [instrs] using h.ins,
    ?_, by have := h.cap; simpa [caps, sizes] using this, by rw [made_append h.run, made_none (b := [_]) (by simp), List.append_nil]; exact h.sec⟩
  have := h.blk
  unfold lims at this ⊢
  rw [if_pos h0] at this
  rw [if_neg hv]
  unfold blocks at this ⊢
  rw [List.filterMap_append, this]
  rfl

theorem Dict.of {hm : Nat} {is : List (Qpack.DOpc × Nat)} {p : Bytes} {r r' : Settings} {ss : List (Sent.Made Fld)} {e : Enc} (h : Dict hm is p r ss e) (h1 : r'.qpackBlockedStreams = r.qpackBlockedStreams)
    (h2 : r'.qpackMaxDtableCapacity = r.qpackMaxDtableCapacity) : Dict hm is p r' ss e := by
  obtain ⟨ops, s, h⟩ := h
  exact ⟨ops, s, h.run, h.trk, h.cut, h.ins, by unfold lims; rw [h1]; exact h.blk, by unfold sizes; rw [h2]; exact h.cap, h.sec⟩

def CtlD (hm : Nat) (is : List (Qpack.DOpc × Nat)) (p : Bytes) (ss : List (Sent.Made Fld)) (k : Control.Conn Ext) : Prop := Dict hm is p k.remote ss k.enc

theorem ctl_stableD (hm : Nat) (is : List (Qpack.DOpc × Nat)) (p : Bytes) (ss : List (Sent.Made Fld)) : Control.StableP (env P) (CtlD hm is p ss) where
  recved _ h := h
  rep _ _ h := h
  entry k i v k' h e := by
    unfold CtlD at h ⊢
    unfold Control.onEntry at e
    split_ifs at e with a b c d f g
    all_goals
      injection e with e
      subst e
    · exact h.of rfl rfl
    · exact h
    · exact h.setCap (by simpa using c) d
    · exact h
    · exact h.setBlocked (by simpa using g) (by assumption)
    · exact h
    · exact h.of rfl rfl
    · exact h.of rfl rfl
    · exact h
  goaway _ _ h := h
  push _ _ h := h
  long _ h := h
  ext _ _ _ _ h _ _ _ _ := h

theorem readControl_dict {ep : Ep} (hi : Control.Inv Control.P8 (ctlStart ep)) (he : (ctlStart ep).elem < 2 ^ 62 ∧ RvB (ctlStart ep).rv) {hm : Nat} {is : List (Qpack.DOpc × Nat)} {p : Bytes}
    {ss : List (Sent.Made Fld)} (hd : Dict hm is p ep.ctl.conn.remote ss ep.c.enc) (src : Bytes) (n : Nat) {ep' : Ep} {r : Conn.Ret} {ev : List Ev}
    (e : readControl P ep src n = .ok ep' r ev) : Dict hm is p ep'.ctl.conn.remote ss ep'.c.enc := by
  have ho := Control.read_prs (ctl_stableD (P := P) hm is p ss) (ctlStart ep) src hi ⟨hd, he⟩
  unfold readControl at e
  change (match Control.read (env P) (ctlStart ep) src with
    | .crash => Res.crash
    | .stop _ _ => Res.crash
    | .fail (e, k) => if k.ext.isNone then Res.crash else Res.fail e
    | .ok s => _) = _ at e
  rcases er : Control.read (env P) (ctlStart ep) src with _ | ⟨z, k⟩ | _ | s <;> rw [er] at ho e <;> dsimp only at e
  · cases e
  · split_ifs at e
  · cases e
  · rcases hx' : s.conn.ext with _ | ⟨c, rx⟩ <;> rw [hx'] at e <;> dsimp only at e
    · cases e
    · cases e
      exact ho.1

theorem typ_qdec (z : Nat) (h : Typ z .qdec) : z = 3 := by
  rcases h with h | ⟨_, h⟩
  · unfold Conn.uniType at h
    split at h <;> first | rfl | cases h
  · cases h

/-- what the histories of the encoder go by -/
structure EncHist (server : Bool) (hm : Nat) (l : Log) (ep : Ep) (fed : Bytes) (is : List (Bytes × Qpack.DOpc × Nat)) (p : Bytes) (ss : List (Sent.Made Fld)) : Prop where
  con : Fed .qdec 3 l ep fed
  ins : ∀ x ∈ is, DsInstr x.1 x.2.1 x.2.2
  eq : fed = is.flatMap (·.1) ++ p
  dict : Dict hm (is.map (·.2)) p ep.ctl.conn.remote ss ep.c.enc

theorem encHist_init (hm : Nat) (hh : st.qpackEncoderMaxDtableCapacity = hm) : EncHist server hm [] (init server st) [] [] [] [] := by
  subst hh
  refine ⟨⟨fun u g => ?_, fun _ => rfl⟩, by simp, rfl, (Dict.init st.qpackEncoderMaxDtableCapacity).of rfl rfl⟩
  obtain ⟨s, g, _⟩ := g; cases g

/-- calls that read -/
theorem encHist_read (hP : ParOk P) (hst : SettingsOk st) {l : Log} {ep ep' : Ep} {o : Call} {r : Conn.Ret} {ev : List Ev} (h1 : Hist P server st l ep) (h2 : Permitted ep o)
    (h3 : Endpoint.step P ep o = .ok ep' r ev) (ho : opOn ep o = none) {hm : Nat} {fed : Bytes} {is : List (Bytes × Qpack.DOpc × Nat)} {p : Bytes} {ss : List (Sent.Made Fld)}
    (h : EncHist server hm l ep fed is p ss) : ∃ fed' is' p', EncHist server hm (l ++ [(o, r, ev)]) ep' fed' is' p' ss := by
  obtain ⟨hf, hi1, hi2, hd⟩ := h
  obtain ⟨chunks, hj⟩ := hist_cj hP hst h1
  have hi := hist_einv hP hst h1
  have hi' := hist_einv hP hst (.step h1 h2 h3)
  obtain ⟨_, ⟨id, src, fin, rfl⟩ | ⟨n, rfl⟩⟩ := opOn_none ho
  · obtain ⟨k1, k2⟩ := h2 id src fin rfl
    cases read_uni hP hi (hist_sync hP hst h1) k1 k2 h3 with
    | other g1 g2 g3 g4 g5 =>
      refine ⟨fed, is, p, fed_other hi.core.c.uni hi'.core.c.uni hj hf g1 g2, hi1, hi2, ?_⟩
      rw [g3.1, g5]; exact hd
    | uni hp g1 g2 g3 g4 g5 g6 g7 =>
      rename_i c1 c2 fin' r2
      rw [server_hist hi] at hp
      obtain ⟨f1, f2⟩ := fed_uni (r := r) (ev := ev) (fin := fin) (by simp) typ_qdec hi.core.c.uni hi'.core.c.uni hj hf hp g1 g2 g3 g4
      have hctl : (∀ x, r2 ≠ .route (some (.control, x))) → ep'.ctl = ep.ctl := by
        intro hx
        rcases g5 with ⟨x, k, _⟩ | ⟨_, k⟩
        · exact absurd k (hx x)
        · exact k.1
      by_cases hx : ∃ x, r2 = .route (some (.qdec, x))
      · obtain ⟨x, rfl⟩ := hx
        obtain ⟨e, w1, w2⟩ := g7.qdec x rfl
        rw [g7.same] at w1
        obtain ⟨l2, p', q1, q2, q3⟩ := hd.read w1
        refine ⟨fed ++ x, is ++ l2, p', f1 x rfl, ?_, ?_, ?_⟩
        · intro y hy
          rcases List.mem_append.1 hy with hy | hy
          · exact hi1 y hy
          · exact q1 y hy
        · rw [hi2, List.append_assoc, q2, List.flatMap_append, List.append_assoc]
        · rw [hctl (by simp), w2, List.map_append]; exact q3
      · have hx : ∀ x, r2 ≠ .route (some (.qdec, x)) := fun x g => hx ⟨x, g⟩
        refine ⟨fed, is, p, f2 hx, hi1, hi2, ?_⟩
        by_cases hc : ∃ x, r2 = .route (some (.control, x))
        · obtain ⟨x, rfl⟩ := hc
          obtain ⟨ep1, n, r1, ev1, w1, w2, w3⟩ := g7.ctl x rfl
          obtain ⟨b1, b2⟩ := ctl_start hi
          refine readControl_dict (ep := ep1) ?_ ?_ ?_ x n w3
          · have h0 := b1
            unfold ctlStart at h0 ⊢
            rw [w1]
            exact ⟨h0.rv, h0.buf, h0.buf8, h0.left, h0.rv0, h0.role⟩
          · have h0 := b2.2
            unfold ctlStart at h0 ⊢
            rw [w1]; exact h0
          · rw [w1, w2, g7.same]; exact hd
        · have hc : ∀ x, r2 ≠ .route (some (.control, x)) := fun x g => hc ⟨x, g⟩
          rw [hctl hc, g7.rest hc hx, g7.same]; exact hd
  · change Res.ok _ _ _ = _ at h3
    cases h3
    exact ⟨fed, is, p, ⟨fun u g => by rw [arrived_snoc]; exact hf.con u g, hf.none⟩, hi1, hi2, hd⟩

/-- other calls -/
theorem encHist_op (hP : ParOk P) (hst : SettingsOk st) {l : Log} {ep ep' : Ep} {o : Call} {r : Conn.Ret} {ev : List Ev} (h1 : Hist P server st l ep) (h2 : Permitted ep o)
    (h3 : Endpoint.step P ep o = .ok ep' r ev) {op : Conn.Op Fld} (ho : opOn ep o = some op) {hm : Nat} {fed : Bytes} {is : List (Bytes × Qpack.DOpc × Nat)} {p : Bytes}
    {ss ss' : List (Sent.Made Fld)} (h : EncHist server hm l ep fed is p ss) (hd : Dict hm (is.map (·.2)) p ep.ctl.conn.remote ss' ep'.c.enc) :
    EncHist server hm (l ++ [(o, r, ev)]) ep' fed is p ss' := by
  obtain ⟨chunks, hj⟩ := hist_cj hP hst h1
  have hi := hist_einv hP hst h1
  have hi' := hist_einv hP hst (.step h1 h2 h3)
  refine ⟨fed_op (by simp) hi.core.c.inv hi.core.c.uni hj h.con ho (permitted_fine ho h2).1 h3, h.ins, h.eq, ?_⟩
  obtain ⟨_, e2⟩ := step_op ho h3
  rw [e2]; exact hd

/-- in any history -/
theorem hist_enc (hP : ParOk P) (hst : SettingsOk st) {l : Log} {ep : Ep} (h : Hist P server st l ep) :
    ∃ (fed : Bytes) (is : List (Bytes × Qpack.DOpc × Nat)) (p : Bytes) (ss : List (Sent.Made Fld)), EncHist server st.qpackEncoderMaxDtableCapacity l ep fed is p ss := by
  induction h with
  | init => exact ⟨[], [], [], [], encHist_init _ rfl⟩
  | @step l ep ep' o r ev h1 h2 h3 ih =>
    obtain ⟨fed, is, p, ss, h⟩ := ih
    rcases ho : opOn ep o with _ | op
    · obtain ⟨fed', is', p', h'⟩ := encHist_read hP hst h1 h2 h3 ho h
      exact ⟨fed', is', p', ss, h'⟩
    · have hk : Conn.Keeps encode (fun e => ∃ ss, Dict st.qpackEncoderMaxDtableCapacity (is.map (·.2)) p ep.ctl.conn.remote ss e) := by
        rintro e f e' p' r' eb ⟨ss, h⟩ he
        exact ⟨_, h.encode he⟩
      obtain ⟨ss', hd⟩ := Conn.step_enc hk ⟨ss, h.dict⟩ (step_op ho h3).1
      exact ⟨fed, is, p, ss', encHist_op hP hst h1 h2 h3 ho h hd⟩

end Endpoint
end Nghttp3
