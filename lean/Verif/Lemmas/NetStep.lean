import Verif.Lemmas.NetSys
/-! Two endpoints of this library: every step. -/
namespace Nghttp3
namespace Net
open Http Qpack Bidi

/-! ### the decoder stream: instructions can be told apart -/

theorem groups_prefix {a b : List UInt8} (ha : Spec.QInt.groupsOk a) (hb : Spec.QInt.groupsOk b) (h : a <+: b) : a = b := by
  induction a generalizing b with
  | nil => exact ha.elim
  | cons x t ih =>
    obtain ⟨r, rfl⟩ := h
    rw [List.cons_append] at hb ⊢
    cases t with
    | nil =>
      cases r with
      | nil => rfl
      | cons y r =>
        have h1 : x.toNat < 128 := ha
        have h2 : 128 ≤ x.toNat := hb.1
        omega
    | cons y t =>
      have := ih (b := (y :: t) ++ r) ha.2 hb.2 ⟨r, rfl⟩
      rw [← this]

theorem encodes_prefix {N n m : Nat} {a b : List UInt8} (ha : Spec.QInt.Encodes N a n) (hb : Spec.QInt.Encodes N b m) (h : a <+: b) : a = b ∧ n = m := by
  cases a with
  | nil => exact ha.elim
  | cons x t =>
    obtain ⟨r, rfl⟩ := h
    rw [List.cons_append] at hb ⊢
    have key : t = t ++ r := by
      rcases ha with ⟨h1, h2, h3⟩ | ⟨h1, h2, h3⟩
      · rcases hb with ⟨g1, g2, g3⟩ | ⟨g1, g2, g3⟩
        · rw [g1, h1]
        · omega
      · rcases hb with ⟨g1, g2, g3⟩ | ⟨g1, g2, g3⟩
        · omega
        · exact groups_prefix h2 g2 ⟨r, rfl⟩
    refine ⟨by rw [← key], ?_⟩
    rw [← key] at hb
    rcases ha with ⟨h1, h2, h3⟩ | ⟨h1, h2, h3⟩ <;> rcases hb with ⟨g1, g2, g3⟩ | ⟨g1, g2, g3⟩
    · rw [h3, g3]
    · omega
    · omega
    · rw [h3, g3]

def dpfx : DOpc → Nat
  | .ack => 7
  | _ => 6

theorem dins_encodes (op : DOpc) (n : Nat) : Spec.QInt.Encodes (dpfx op) (DIns.bytes (op, n)) n := by
  cases op <;> exact QInt.put_encodes _ (by simp [dpfx])

theorem dins_op {op op' : DOpc} {n n' : Nat} {c : UInt8} {t t' : List UInt8} (h : DIns.bytes (op, n) = c :: t) (h' : DIns.bytes (op', n') = c :: t') : op = op' := by
  have key : ∀ (op : DOpc) (n : Nat) (t : List UInt8), DIns.bytes (op, n) = c :: t → c.toNat / 64 = (match op with | .icnt => 0 | .cancel => 1 | .ack => c.toNat / 64) ∧ (op = .ack → c.toNat / 128 = 1) := by
    intro op n t h
    cases op with
    | icnt =>
      obtain ⟨c', t', e1, e2⟩ := QInt.put_cons 0 n (pfx := 6) (by omega)
      have e : c' :: t' = c :: t := e1.symm.trans h
      cases e
      exact ⟨e2, by simp⟩
    | cancel =>
      obtain ⟨c', t', e1, e2⟩ := QInt.put_cons 0x40 n (pfx := 6) (by omega)
      have e : c' :: t' = c :: t := e1.symm.trans h
      cases e
      exact ⟨e2, by simp⟩
    | ack =>
      obtain ⟨c', t', e1, e2⟩ := QInt.put_cons 0x80 n (pfx := 7) (by omega)
      have e : c' :: t' = c :: t := e1.symm.trans h
      cases e
      exact ⟨rfl, fun _ => e2⟩
  have k1 := key op n t h
  have k2 := key op' n' t' h'
  have hc := c.toNat_lt
  cases op <;> cases op' <;> first | rfl | (exfalso; simp only [reduceCtorEq, false_implies, forall_const, and_true] at k1 k2; omega)

theorem dins_ne (i : DIns) : DIns.bytes i ≠ [] := by
  obtain ⟨op, n⟩ := i
  intro h
  have := dins_encodes op n
  rw [h] at this
  exact this

/-- the next instruction is the first one written -/
theorem dins_first {i j : DIns} {rest : List UInt8} (h : DIns.bytes i <+: DIns.bytes j ++ rest) : i = j := by
  obtain ⟨op, n⟩ := i
  obtain ⟨op', n'⟩ := j
  obtain ⟨r, hr⟩ := h
  have hcomp : DIns.bytes (op, n) <+: DIns.bytes (op', n') ∨ DIns.bytes (op', n') <+: DIns.bytes (op, n) := by
    rcases List.append_eq_append_iff.1 hr with ⟨a, a1, a2⟩ | ⟨a, a1, a2⟩
    · exact Or.inl ⟨a, a1.symm⟩
    · exact Or.inr ⟨a, a1.symm⟩
  rcases hb : DIns.bytes (op, n) with _ | ⟨c, t⟩
  · exact absurd hb (dins_ne _)
  rcases hb' : DIns.bytes (op', n') with _ | ⟨c', t'⟩
  · exact absurd hb' (dins_ne _)
  rw [hb, hb', List.cons_append, List.cons_append] at hr
  injection hr with hr1 _
  subst hr1
  have hop := dins_op hb hb'
  subst hop
  rcases hcomp with h | h
  · rw [(encodes_prefix (dins_encodes _ _) (dins_encodes _ _) h).2]
  · rw [(encodes_prefix (dins_encodes _ _) (dins_encodes _ _) h).2]

/-! ### steps -/

theorem section_ne {H r b : Nat} {p : Qpack.Bytes} (h : prefixBytes H r b = some p) : p ≠ [] := by
  unfold prefixBytes at h
  dsimp only at h
  rw [ite_eq_iff] at h
  rcases h with ⟨_, h⟩ | ⟨_, h⟩
  · cases h
  · injection h with h
    rw [← h]
    obtain ⟨c, t, e1, _⟩ := QInt.put_cons 0 (if r = 0 then 0 else r % (2 * (H / 32)) + 1) (pfx := 8) (by omega)
    rw [e1]
    simp

def StepOk (P : Par) (n : Sys) (o : NOp) : Prop := ∃ n' l', n.step P o = .ok n' ∧ Core P l' n' ∧ Strs P l' l'.p.dec.ctx.next n'

theorem step_headers {P : Par} (hP : P.Ok) {l : Loop} {n : Sys} (hc : Core P l n) (hs : Strs P l l.p.dec.ctx.next n) (id : Nat) (nvs : List Nv) (ha : n.admits P (.headers id nvs)) : StepOk P n (.headers id nvs) := by
  obtain ⟨a1, a2, a3, a4, a5⟩ := ha
  rw [hc.sys] at a4
  obtain ⟨o, s', g1, g2, g3, g4, g5, g6⟩ := esys_encode hc.loop.pair.sys id nvs
  obtain ⟨l', k1, k2⟩ := loop_encode hP.H hc.loop id nvs ⟨a3, fun o h => (a4 o h).1⟩
  unfold Loop.step LRes.of Pair.step at k1
  dsimp only at k1
  rw [g1, g3] at k1
  dsimp only at k1
  cases k1
  unfold StepOk Sys.step
  dsimp only
  rw [hc.sys, g1, g3]
  dsimp only
  refine ⟨_, _, rfl, ⟨k2, rfl, hc.dec, by show n.ech ++ _ = _; rw [hc.ech], hc.dch, hc.step_sys g3 (by simp)⟩, ?_⟩
  intro j hj
  show StrOk (P.cfg j) _ _ (if j = id then _ else n.str j)
  by_cases hji : j = id
  · rw [if_pos hji]
    subst hji
    refine send_str (l := l) (g := PF.sec { sec := ⟨j, o.ricnt, o.base, o.reps, nvs⟩, rem := o.section, s := SCtx.init j }) (m := .headers nvs) (hs j hj) a2 (a4 o g1).2 ?_ rfl rfl a5 rfl rfl ?_
    · intro f hf
      cases hf
      refine ⟨by rw [hP.id], rfl, ?_⟩
      show o.section ≠ []
      unfold EncOut.section
      intro h
      exact section_ne g2.pfx (List.append_eq_nil_iff.1 h).1
    · rw [hP.id]
      dsimp only
      rw [undone_append]
      congr 1
      unfold undone
      rw [List.filter_cons, if_pos (by simp)]
      rfl
  · rw [if_neg hji]
    refine (hs j hj).frame hc.loop.pair.wf.ctx ?_ Iff.rfl (Nat.le_refl _)
    rw [hP.id]
    dsimp only
    rw [undone_append]
    have : undone j [({ sec := ⟨id, o.ricnt, o.base, o.reps, nvs⟩, rem := o.section, s := SCtx.init id } : Fly)] = [] := by
      unfold undone
      rw [List.filter_cons, if_neg (by simp [Ne.symm hji])]
      rfl
    rw [this, List.append_nil]

theorem core_set {P : Par} {l : Loop} {n : Sys} (hc : Core P l n) (id : Nat) (st : NStr) : Core P l (n.set id st) := ⟨hc.loop, hc.sys, hc.dec, hc.ech, hc.dch, hc.lim⟩

theorem strs_one {P : Par} {l : Loop} {n : Sys} {N id : Nat} {st : NStr} (hs : Strs P l N n) (h : StrOk (P.cfg id) l N st) : Strs P l N (n.set id st) := by
  intro j hj
  show StrOk (P.cfg j) l N (if j = id then st else n.str j)
  by_cases hji : j = id
  · rw [if_pos hji, hji]; exact h
  · rw [if_neg hji]; exact hs j hj

theorem step_data {P : Par} {l : Loop} {n : Sys} (hc : Core P l n) (hs : Strs P l l.p.dec.ctx.next n) (id : Nat) (b : Bidi.Bytes) (ha : n.admits P (.data id b)) : StepOk P n (.data id b) := by
  obtain ⟨a1, a2, a3, a4⟩ := ha
  refine ⟨_, l, rfl, core_set hc _ _, strs_one hs ?_⟩
  refine send_str (l := l) (g := PF.dat b) (m := .data b) (hs id a1) a2 a3 (by simp [PF.fly]) rfl rfl a4 rfl rfl ?_
  exact (List.append_nil _).symm

theorem step_fin {P : Par} {l : Loop} {n : Sys} (hc : Core P l n) (hs : Strs P l l.p.dec.ctx.next n) (id : Nat) (ha : n.admits P (.fin id)) : StepOk P n (.fin id) := by
  obtain ⟨a1, a2, a3⟩ := ha
  exact ⟨_, l, rfl, core_set hc _ _, strs_one hs (end_str (hs id a1) a2 a3)⟩

theorem step_setCap {P : Par} (hP : P.Ok) {l : Loop} {n : Sys} (hc : Core P l n) (hs : Strs P l l.p.dec.ctx.next n) (k : Nat) : StepOk P n (.setCap k) := by
  obtain ⟨l', k1, k2⟩ := loop_step hP.H hc.loop (.setCap k) trivial
  cases k1
  refine ⟨_, _, rfl, ⟨k2, by show ({ n.sys with e := _ } : ESys) = _; rw [hc.sys], hc.dec, hc.ech, hc.dch, hc.step_sys (o := .setCap k) rfl (by simp)⟩, ?_⟩
  intro j hj
  exact (hs j hj).frame hc.loop.pair.wf.ctx rfl Iff.rfl (Nat.le_refl _)

theorem step_setMaxBlocked {P : Par} (hP : P.Ok) {l : Loop} {n : Sys} (hc : Core P l n) (hs : Strs P l l.p.dec.ctx.next n) (k : Nat) (ha : n.admits P (.setMaxBlocked k)) : StepOk P n (.setMaxBlocked k) := by
  obtain ⟨l', k1, k2⟩ := loop_step hP.H hc.loop (.setMaxBlocked k) trivial
  cases k1
  have ha : k ≤ P.B := ha
  refine ⟨_, _, rfl, ⟨k2, by show ({ n.sys with e := _ } : ESys) = _; rw [hc.sys], hc.dec, hc.ech, hc.dch, hc.step_sys (o := .setMaxBlocked k) rfl (by rintro _ ⟨⟩; exact ha)⟩, ?_⟩
  intro j hj
  exact (hs j hj).frame hc.loop.pair.wf.ctx rfl Iff.rfl (Nat.le_refl _)

theorem step_recv {P : Par} (hP : P.Ok) {l : Loop} {n : Sys} (hc : Core P l n) (hs : Strs P l l.p.dec.ctx.next n) (id k : Nat) (ha : n.admits P (.recv id k)) : StepOk P n (.recv id k) := by
  obtain ⟨a1, a2, a3⟩ := ha
  unfold StepOk Sys.step
  dsimp only
  by_cases hf : (n.str id).fin = true
  · rw [if_pos hf]; exact ⟨n, l, rfl, hc, hs⟩
  rw [if_neg hf]
  have hmay : MayRead (P.cfg id) P.H l (n.room P id) := by
    by_cases hg : id ∈ l.gone
    · refine ⟨?_, ?_, ?_⟩ <;> rw [hP.id] <;> exact fun h => absurd hg h
    · refine may_read hP hc hs (Nat.le_trans (known_le hc.loop) hc.loop.wi) (p := fun j => j == id) (by simp) ?_ ?_
      · have := toAck_le hc.loop (p := fun j => j == id) (by intro j hj; simp only [beq_iff_eq] at hj; rw [hj]; exact hg)
        unfold bud lim
        rw [hc.dec, Sys.outstanding, hc.sys] at a3
        unfold ackLen at this
        omega
      · intro x hx hxi
        rw [← hc.dec]
        exact a2 x (List.mem_filter.2 ⟨by rw [hc.sys]; exact hx, by simp [hxi]⟩)
  obtain ⟨l', s', ev, n', rest, r1, r2, r3, r4⟩ := recv_str hc.loop (hs id a1) hmay (by simpa using hf) ((n.str id).ended && decide ((n.str id).wire.length ≤ k)) (x := (n.str id).wire.take k) (y := (n.str id).wire.drop k)
    (List.take_append_drop _ _).symm (by
      intro h
      simp only [Bool.and_eq_true, decide_eq_true_eq] at h
      exact ⟨List.drop_eq_nil_of_le h.2, h.1⟩)
  rw [hP.id] at r3
  rw [hc.dec, r1]
  dsimp only [Sys.after]
  refine ⟨_, l', rfl, core_eff hc r2 r3 _, ?_⟩
  exact strs_set (d := l'.p.dec) hP hs (by rw [r3.ctx]; exact hc.loop.pair.wf.ctx) r3.oth (fun j _ => by rw [r3.gone]) (by rw [r3.ctx]) r4

theorem step_readEnc {P : Par} (hP : P.Ok) {l : Loop} {n : Sys} (hc : Core P l n) (hs : Strs P l l.p.dec.ctx.next n) (k : Nat) (order : List Nat) (ha : n.admits P (.readEnc k order)) : StepOk P n (.readEnc k order) := by
  obtain ⟨a1, a2, a3, a4⟩ := ha
  rw [hc.dec] at a2 a3 a4
  rw [hc.sys] at a3 a4
  obtain ⟨l1, k1, k2⟩ := loop_step hP.H hc.loop (.readEnc k) a2
  obtain ⟨D, g1, _⟩ := hc.loop.pair.trans
  rw [← List.take_append_drop k l.p.ech] at g1
  have hle : (l.p.ech.take k).length ≤ k := by rw [List.length_take]; omega
  obtain ⟨d', dF', r1, r2, r3, r4, r5, r6, r7, r8, r9, r10, r11, r12, r13⟩ := readEncoder_run hc.loop.pair.wf hc.loop.pair.bad g1 (by omega)
  unfold Loop.step LRes.of Pair.step at k1
  dsimp only at k1
  rw [r1] at k1
  dsimp only at k1
  cases k1
  unfold StepOk Sys.step
  dsimp only
  rw [hc.dec, hc.ech, r1]
  dsimp only
  have hcore : Core P { l with p := { l.p with dec := d', ech := l.p.ech.drop k } } { n with dec := d', ech := l.p.ech.drop k } := ⟨k2, hc.sys, rfl, rfl, hc.dch, hc.lim⟩
  have hstrs : Strs P { l with p := { l.p with dec := d', ech := l.p.ech.drop k } } l.p.dec.ctx.next { n with dec := d', ech := l.p.ech.drop k } :=
    fun j hj => (hs j hj).frame k2.pair.wf.ctx rfl Iff.rfl (Nat.le_refl _)
  have hkn : l.p.sys.known ≤ l.p.dec.ctx.next := Nat.le_trans (known_le hc.loop) hc.loop.wi
  obtain ⟨n', l', w1, w2, w3, w4⟩ := wakeAll_ok hP order hcore hstrs hkn r5.next (fun x hx => Nat.le_trans (a3 x hx) (by dsimp only; exact Nat.add_le_add_right r5.next _))
    (p := fun j => decide (j ∉ l.gone)) (fun j hj => by simpa using hj) (by
      have := toAck_le hc.loop (p := fun j => decide (j ∉ l.gone)) (by intro j hj; simpa using hj)
      have h2 := sum_sublist (List.filter_sublist (p := fun x : Sec => decide (x.id ∉ l.gone)) (l := l.p.sys.secs)) (fun x => ackLen x.id)
      unfold bud lim
      dsimp only
      rw [r11, r13]
      unfold ackLen at this h2
      omega) (fun id hid => (a1 id).1 hid)
  refine ⟨n', l', w1, w2, fun id hid => w4 id hid (Or.inl ((a1 id).2 hid))⟩

theorem step_flush {P : Par} (hP : P.Ok) {l : Loop} {n : Sys} (hc : Core P l n) (hs : Strs P l l.p.dec.ctx.next n) : StepOk P n .flush := by
  obtain ⟨l', k1, k2⟩ := loop_step hP.H hc.loop .flush trivial
  cases k1
  have hctx : l.p.dec.writeDecoder.1.ctx = l.p.dec.ctx := by unfold Dec.writeDecoder; split_ifs <;> rfl
  refine ⟨_, _, rfl, ⟨k2, hc.sys, by show n.dec.writeDecoder.1 = _; rw [hc.dec], hc.ech, ?_, hc.lim⟩, ?_⟩
  · show n.dch ++ n.dec.writeDecoder.2 = _
    dsimp only
    rw [List.flatMap_append, hc.dch, hc.dec]
    congr 1
    unfold Dec.writeDecoder icntDue
    split_ifs
    · dsimp only
      rw [hc.loop.buf, List.flatMap_append]
      simp [DIns.bytes]
    · dsimp only
      rw [hc.loop.buf, List.append_nil]
  · intro j hj
    refine (hs j hj).frame ?_ rfl Iff.rfl ?_
    · exact k2.pair.wf.ctx
    · dsimp only
      rw [hctx]

theorem step_deliver {P : Par} {l : Loop} {n : Sys} (hc : Core P l n) (hs : Strs P l l.p.dec.ctx.next n) (i : DIns) : StepOk P n (.deliver i) := by
  unfold StepOk Sys.step
  dsimp only
  by_cases hi : i.bytes <+: n.dch
  · rw [if_pos hi]
    rw [hc.dch] at hi
    rcases hq : l.q with _ | ⟨j, t⟩
    · rw [hq, List.flatMap_nil, List.prefix_nil] at hi
      exact absurd hi (dins_ne _)
    rw [hq, List.flatMap_cons] at hi
    have hij := dins_first hi
    subst hij
    obtain ⟨l', k1, k2⟩ := loop_deliver hc.loop
    obtain ⟨op, m⟩ := i
    unfold Loop.step at k1
    dsimp only at k1
    rw [hq] at k1
    unfold LRes.of Pair.step at k1
    dsimp only at k1 ⊢
    rw [hc.sys]
    rcases hst : l.p.sys.step (.instr op m) with _ | _ | s' <;> rw [hst] at k1 <;> dsimp only at k1 ⊢
    · cases k1
    · cases k1
    · cases k1
      refine ⟨_, _, rfl, ⟨k2, rfl, hc.dec, hc.ech, ?_, hc.step_sys hst (by simp)⟩, ?_⟩
      · dsimp only
        rw [hc.dch, hq, List.flatMap_cons, List.drop_left]
      · intro j hj
        exact (hs j hj).frame hc.loop.pair.wf.ctx rfl Iff.rfl (Nat.le_refl _)
  · rw [if_neg hi]; exact ⟨n, l, rfl, hc, hs⟩

theorem step_stop {P : Par} (hP : P.Ok) {l : Loop} {n : Sys} (hc : Core P l n) (hs : Strs P l l.p.dec.ctx.next n) (id : Nat) (ha : n.admits P (.stop id)) : StepOk P n (.stop id) := by
  obtain ⟨a1, a2, a3⟩ := ha
  rw [hc.dec] at a3
  unfold StepOk Sys.step shutdownRead
  dsimp only
  cases hr : (n.str id).s.shutRd
  swap
  · rw [if_pos rfl]
    dsimp only [Sys.after]
    refine ⟨_, l, rfl, ⟨hc.loop, hc.sys, hc.dec, hc.ech, hc.dch, hc.lim⟩, ?_⟩
    have := strs_one (st := { n.str id with s := (n.str id).s, ev := (n.str id).ev ++ [] }) (id := id) hs (by
      have : ({ n.str id with s := (n.str id).s, ev := (n.str id).ev ++ [] } : NStr) = n.str id := by rw [List.append_nil]
      rw [this]; exact hs id a1)
    exact this
  · rw [if_neg (by simp)]
    obtain ⟨l', k1, k2⟩ := loop_step hP.H hc.loop (.cancel id) a3
    unfold Loop.step LRes.of Pair.step at k1
    dsimp only at k1
    rw [hP.id, hc.dec]
    rcases hcs : l.p.dec.cancelStream id with _ | d' <;> rw [hcs] at k1 <;> dsimp only at k1
    · cases k1
    cases k1
    dsimp only [Sys.after]
    have hctx : d'.ctx = l.p.dec.ctx := by
      unfold Dec.cancelStream at hcs
      rw [a3, if_neg (by simp)] at hcs
      cases hcs; rfl
    refine ⟨_, _, rfl, ⟨k2, hc.sys, rfl, hc.ech, hc.dch, hc.lim⟩, ?_⟩
    have hcok : CtxOk d'.ctx := by rw [hctx]; exact hc.loop.pair.wf.ctx
    refine strs_set (d := d') hP hs hcok (fun j _ => rfl) (fun j hj => by simp [hj]) (by dsimp only; rw [hctx]) ?_
    have hst := (hs id a1).frame (N' := d'.ctx.next) (l' := l) hc.loop.pair.wf.ctx rfl Iff.rfl (by rw [hctx])
    exact stop_str hst a2 hcok (by rw [hP.id]; simp)

theorem net_step {P : Par} (hP : P.Ok) {l : Loop} {n : Sys} (hc : Core P l n) (hs : Strs P l l.p.dec.ctx.next n) (o : NOp) (ha : n.admits P o) : StepOk P n o := by
  cases o with
  | headers id nvs => exact step_headers hP hc hs id nvs ha
  | data id b => exact step_data hc hs id b ha
  | fin id => exact step_fin hc hs id ha
  | setCap k => exact step_setCap hP hc hs k
  | setMaxBlocked k => exact step_setMaxBlocked hP hc hs k ha
  | recv id k => exact step_recv hP hc hs id k ha
  | readEnc k order => exact step_readEnc hP hc hs k order ha
  | flush => exact step_flush hP hc hs
  | deliver i => exact step_deliver hc hs i
  | stop id => exact step_stop hP hc hs id ha

theorem net_init {P : Par} (hP : P.Ok) : Core P (Loop.init P.H P.B) (init P) ∧ Strs P (Loop.init P.H P.B) (Loop.init P.H P.B).p.dec.ctx.next (init P) := by
  refine ⟨⟨loop_init _ _, rfl, rfl, rfl, rfl, [], rfl, by simp [Props.limits]⟩, ?_⟩
  intro id hid
  have hc : CtxOk (Loop.init P.H P.B).p.dec.ctx := (loop_init P.H P.B).pair.wf.ctx
  have hk : HOk .frameType (Msg.start (P.cfg id)).h := by
    unfold Msg.start; cases (P.cfg id).server <;> simp [HOk]
  have hb : ((base (P.cfg id) false).at (Msg.start (P.cfg id))) = Str.new (P.cfg id) := by
    unfold base Str.at Msg.start Str.new
    cases (P.cfg id).server <;> rfl
  have hi : Inv (Str.new (P.cfg id)) (Loop.init P.H P.B).p.dec := hb ▸ base_inv (P.cfg id) false hc hk
  refine ⟨⟨hi, by simp [init, Str.new, BufOk], by simp [init, Str.new], by simp [init, Str.new]⟩, rfl, rfl, [], Msg.start (P.cfg id), rfl, ?_, Or.inl ⟨by simp [Loop.init], ?_, ?_⟩⟩
  · intro h; cases h
  · intro h; cases h
  · refine ⟨Str.new (P.cfg id), [], [], ?_, rfl, rfl, rfl, ?_⟩
    · exact Pos.hdr (R := []) (p := []) (m := Msg.start (P.cfg id)) (hb ▸ HdrAt.nil _) ⟨by simp [undone, Loop.init, Pair.init], by simp, hk, rfl, rfl, rfl, rfl⟩ (by simp)
    · intro h; cases h

theorem net_run {P : Par} (hP : P.Ok) {l : Loop} {n : Sys} (hc : Core P l n) (hs : Strs P l l.p.dec.ctx.next n) (ops : List NOp) (ha : Admissible P n ops) :
    ∃ n' l', n.run P ops = .ok n' ∧ Core P l' n' ∧ Strs P l' l'.p.dec.ctx.next n' := by
  induction ops generalizing l n with
  | nil => exact ⟨n, l, rfl, hc, hs⟩
  | cons o t ih =>
    obtain ⟨n1, l1, h1, h2, h3⟩ := net_step hP hc hs o ha.1
    obtain ⟨n2, l2, g1, g2, g3⟩ := ih h2 h3 (ha.2 n1 h1)
    exact ⟨n2, l2, by rw [Sys.run, h1]; exact g1, g2, g3⟩

end Net
end Nghttp3
