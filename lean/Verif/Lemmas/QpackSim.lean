import Verif.Lemmas.QpackCodec
import Verif.Lemmas.QpackEncApi
/-! The dynamic tables of an encoder and of a decoder that has read its instructions. -/
namespace Nghttp3
namespace Qpack

/-- name and value of an entry -/
def Ent.nv (x : Ent) : Bytes × Bytes := (x.name, x.value)

theorem spaces_nv {a b : List Ent} (h : a.map Ent.nv = b.map Ent.nv) : spaces a = spaces b := by
  induction a generalizing b with
  | nil => cases b with
    | nil => rfl
    | cons => simp at h
  | cons x t ih =>
    cases b with
    | nil => simp at h
    | cons y u =>
      simp only [List.map_cons, List.cons.injEq, Ent.nv, Prod.mk.injEq] at h
      rw [spaces_cons, spaces_cons, ih h.2]
      simp only [Ent.space, h.1.1, h.1.2]

/-- the decoder's table `D` starts with the entries of the encoder's table `E` -/
structure Sim (E D : Ctx) : Prop where
  next : D.next = E.next
  len : E.ents.length ≤ D.ents.length
  ents : E.ents.map Ent.nv = (D.ents.take E.ents.length).map Ent.nv
  hard : E.hardMax ≤ D.hardMax

theorem Sim.takes {E D : Ctx} (h : Sim E D) {n : Nat} (hn : n ≤ E.ents.length) : (E.ents.take n).map Ent.nv = (D.ents.take n).map Ent.nv := by
  have := congrArg (List.take n) h.ents
  rw [← List.map_take, ← List.map_take, List.take_take, Nat.min_eq_left hn] at this
  exact this

theorem Sim.spaces {E D : Ctx} (h : Sim E D) {n : Nat} (hn : n ≤ E.ents.length) : spaces (E.ents.take n) = Qpack.spaces (D.ents.take n) :=
  spaces_nv (h.takes hn)

theorem Sim.take {E D : Ctx} (h : Sim E D) {n : Nat} (hn : n ≤ E.ents.length) (E' : Ctx) (h1 : E'.ents = E.ents.take n)
    (h2 : E'.next = E.next) (h3 : E'.hardMax = E.hardMax) : Sim E' D := by
  have hl : E'.ents.length = n := by rw [h1, List.length_take]; omega
  refine ⟨by rw [h2, h.next], by rw [hl]; have := h.len; omega, ?_, by rw [h3]; exact h.hard⟩
  rw [hl, h1]; exact h.takes hn

theorem Sim.cfg {E E' D : Ctx} (h : Sim E D) (h1 : E'.ents = E.ents) (h2 : E'.next = E.next) (h3 : E'.hardMax = E.hardMax) : Sim E' D :=
  h.take (n := E.ents.length) (Nat.le_refl _) E' (by rw [h1, List.take_length]) h2 h3

theorem Sim.get {E D : Ctx} (h : Sim E D) (hE : CtxB E) (hD : CtxB D) {a : Nat} {x : Ent} (hg : E.get a = some x) :
    ∃ y, D.get a = some y ∧ y.name = x.name ∧ y.value = x.value ∧ y.token = x.token ∧ E.next - a - 1 < D.ents.length := by
  unfold Ctx.get at hg
  split_ifs at hg with hn
  have hl := (List.getElem?_eq_some_iff.1 hg).1
  have hlt : E.next - a - 1 < D.ents.length := Nat.lt_of_lt_of_le hl h.len
  have he := congrArg (fun l => l[E.next - a - 1]?) h.ents
  simp only [List.getElem?_map, List.getElem?_take, hl, if_true, hg, List.getElem?_eq_getElem hlt, Option.map_some, Option.some.injEq] at he
  simp only [Ent.nv, Prod.mk.injEq] at he
  have hm := List.getElem_mem hlt
  have hx : x ∈ E.ents := List.mem_of_getElem? hg
  refine ⟨_, ?_, he.1.symm, he.2.symm, ?_, hlt⟩
  · unfold Ctx.get
    rw [h.next, if_pos hn, List.getElem?_eq_getElem hlt]
  · rw [hD.tok _ hm, hE.tok _ hx, he.1]

theorem Sim.setCap {E D : Ctx} (h : Sim E D) (hD : CtxOk D) {m : Nat} (hm : m ≤ E.hardMax) (hs : Qpack.spaces E.ents ≤ m) :
    ∃ D', D.setCap m = some (some D') ∧ Sim E D' ∧ D'.maxCap = m ∧ CtxOk D' ∧ D'.bad = D.bad ∧ D'.hardMax = D.hardMax := by
  have hh := h.hard
  obtain ⟨n, hn, hc, hle, hmax⟩ := hD.setCap m (by omega)
  refine ⟨_, hc, ?_, rfl, hD.toCtxB.take n m hle (by omega), rfl, rfl⟩
  have hl : E.ents.length ≤ n := by
    by_contra hlt
    push Not at hlt
    have h1 := hmax E.ents.length hlt h.len
    have h2 := h.spaces (n := E.ents.length) (Nat.le_refl _)
    rw [List.take_length] at h2
    omega
  refine ⟨h.next, by simp only [List.length_take]; have := h.len; omega, ?_, h.hard⟩
  dsimp only
  rw [List.take_take, Nat.min_eq_left hl]
  exact h.ents

theorem Sim.push {E D E' : Ctx} (h : Sim E D) (hE : CtxB E) (hD : CtxOk D) (hcap : D.maxCap = E.maxCap) {name value : Bytes} {token : Option Nat} {hash : Nat}
    (ha : E.add name value token hash = some E') (ht : token = lookupToken name) :
    ∃ D', D.addChecked name value token = some (some D') ∧ Sim E' D' ∧ D'.maxCap = E'.maxCap ∧ CtxOk D' ∧ D'.bad = D.bad ∧ D'.hardMax = D.hardMax := by
  have hs : tableSpace name.length value.length ≤ E.maxCap := by
    unfold Ctx.add at ha
    dsimp only at ha
    split_ifs at ha with hc
    omega
  obtain ⟨n, hn, he, hle, hmax⟩ := Ctx.add_spec hE name value token hash hs
  rw [he] at ha
  cases ha
  obtain ⟨k, hk, hd, hle', hmax'⟩ := Ctx.add_spec hD.toCtxB name value token 0 (by omega)
  refine ⟨D.pushed k name value token 0, ?_, ?_, ?_, hD.toCtxB.pushed hle' ht, rfl, rfl⟩
  · unfold Ctx.addChecked
    rw [if_neg (by omega), hd]; rfl
  · have hnk : n ≤ k := by
      by_contra hlt
      push Not at hlt
      have h1 := hmax' n hlt (by have := h.len; omega)
      have h2 := h.spaces hn
      omega
    refine ⟨?_, ?_, ?_, h.hard⟩
    · simp only [Ctx.pushed, h.next]
    · simp only [Ctx.pushed, List.length_cons, List.length_take]
      have := h.len; omega
    · simp only [Ctx.pushed, List.length_cons, List.length_take, List.map_cons, List.take_succ_cons, Ent.nv]
      have := h.takes hn
      rw [List.take_take, Nat.min_eq_left hn, Nat.min_eq_left hnk]
      rw [show (E.ents.take n).map Ent.nv = _ from this]
  · exact hcap

/-- an insertion of the encoder's means the same to the decoder -/
theorem Sim.insert {E D E' : Ctx} (h : Sim E D) (hE : CtxB E) (hsz : E.size ≤ E.hardMax) (hint : E.hardMax ≤ QInt.INT_MAX) (hD : CtxOk D) (hcap : D.maxCap = E.maxCap) {name value : Bytes} {hash : Nat}
    {i : EIns} (hi : i.inserts E name value) (ha : E.add name value (lookupToken name) hash = some E')
    (hf : codedLen name ≤ 256 ∧ codedLen value ≤ 65536) :
    ∃ D', i.apply D = some (some D') ∧ i.fits D ∧ Sim E' D' ∧ D'.maxCap = E'.maxCap ∧ CtxOk D' ∧ D'.bad = D.bad ∧ D'.hardMax = D.hardMax := by
  obtain ⟨D', h1, h2⟩ := h.push hE hD hcap ha rfl
  have hlen : E.ents.length ≤ QInt.INT_MAX := by
    have := length_le_spaces E.ents
    have := hE.size
    omega
  -- a relative index of the encoder's
  have hrel : ∀ rel x, rel < E.next → E.get (E.next - rel - 1) = some x →
      (∃ y, D.get (D.next - rel - 1) = some y ∧ y.name = x.name ∧ y.value = x.value ∧ y.token = x.token) ∧ rel < D.next ∧ rel < D.ents.length ∧
        rel ≤ QInt.INT_MAX := by
    intro rel x hr hg
    obtain ⟨y, g1, g2, g3, g4, g5⟩ := h.get hE hD.toCtxB hg
    have hl : E.next - (E.next - rel - 1) - 1 < E.ents.length := by
      unfold Ctx.get at hg
      split_ifs at hg
      exact (List.getElem?_eq_some_iff.1 hg).1
    have hn := h.next
    rw [hn]
    exact ⟨⟨y, g1, g2, g3, g4⟩, hr, by omega, by omega⟩
  cases i with
  | setCap n => exact hi.elim
  | insStatic i v =>
    obtain ⟨rfl, v', t, hst⟩ := hi
    obtain ⟨hi99, _⟩ := List.getElem?_eq_some_iff.1 hst
    have h99 : stable.length = 99 := by decide +kernel
    refine ⟨D', ?_, ⟨by omega, hf.2⟩, h2⟩
    obtain ⟨n', v'', t', g1, g2⟩ := stableGet_ok (i := i) (by omega)
    unfold EIns.apply
    dsimp only
    rw [g1]
    unfold stableGet at g1
    rw [hst] at g1
    cases g1
    dsimp only
    rw [← g2]; exact h1
  | insDyn rel v =>
    obtain ⟨rfl, hr, x, hg, hx⟩ := hi
    obtain ⟨⟨y, g1, g2, g3, g4⟩, f1, f2, f3⟩ := hrel rel x hr hg
    refine ⟨D', ?_, ⟨f1, f2, f3, hf.2⟩, h2⟩
    unfold EIns.apply
    dsimp only
    rw [g1]
    dsimp only
    have hm := (hD.toCtxB.get_range g1).2.2.2
    rw [hD.tok _ hm, g2, hx]; exact h1
  | insLit n v =>
    obtain ⟨rfl, rfl⟩ := hi
    exact ⟨D', h1, hf, h2⟩
  | dup rel =>
    obtain ⟨hr, x, hg, hx, hv⟩ := hi
    obtain ⟨⟨y, g1, g2, g3, g4⟩, f1, f2, f3⟩ := hrel rel x hr hg
    refine ⟨D', ?_, ⟨f1, f2, f3⟩, h2⟩
    unfold EIns.apply
    dsimp only
    rw [g1]
    dsimp only
    have hm := (hD.toCtxB.get_range g1).2.2.2
    rw [hD.tok _ hm, g2, hx, g3, hv]; exact h1

/-- the decoder machine over a list of instructions -/
theorem es_instrs {d : Dec} (hw : DecWF d) (hs : d.state = .opcode) {i : EIns} {c1 : Ctx} (hf : i.fits d.ctx) (ha : i.apply d.ctx = some (some c1)) (rest : Bytes) :
    ∃ d1, esRun d (i.bytes ++ rest) false = esRun d1 rest false ∧ esRun d i.bytes false = .ok d1 ∧ d1.ctx = c1 ∧ d1.state = .opcode ∧ DecWF d1 ∧ Dec.SameOut d d1 := by
  obtain ⟨d1, h1, h2, h3, h4, h5⟩ := es_instr hw hs hf ha
  refine ⟨d1, ?_, h1, h2, h3, h4, h5⟩
  rw [esRun, Machine.run_append esM_good d i.bytes rest false hw (by simp), show Machine.run esM (fun d => d.state.rank) d i.bytes false = .ok d1 from h1]
  dsimp only
  split_ifs with hr
  · subst hr
    rw [esRun, Machine.run_eq esM_good h4 (by simp), if_pos ⟨rfl, rfl⟩]
  · rfl

theorem InsRun.first {P : Bytes → Bytes → Prop} {c c' : Ctx} {l : List EIns} (h : InsRun P c l c') (hl : l ≠ []) : c.size ≤ c.maxCap := by
  induction h with
  | nil => exact absurd rfl hl
  | cons _ _ _ _ _ g3 => exact g3

/-- reading the insertions of one field section -/
theorem sim_insRun {P : Bytes → Bytes → Prop} (hP : ∀ n v, P n v → codedLen n ≤ 256 ∧ codedLen v ≤ 65536) {E E' : Ctx} {l : List EIns} (hr : InsRun P E l E') {d : Dec}
    (h : Sim E d.ctx) (hE : CtxB E) (hsz : E.size ≤ E.hardMax) (hint : E.hardMax ≤ QInt.INT_MAX) (hcap : l ≠ [] → d.ctx.maxCap = E.maxCap)
    (hw : DecWF d) (hs : d.state = .opcode) :
    ∃ d', esRun d (l.flatMap EIns.bytes) false = .ok d' ∧ Sim E' d'.ctx ∧ (d.ctx.maxCap = E.maxCap → d'.ctx.maxCap = E'.maxCap) ∧ d'.state = .opcode ∧ DecWF d' ∧ Dec.SameOut d d' ∧
      d'.ctx.hardMax = d.ctx.hardMax ∧ d'.ctx.bad = d.ctx.bad := by
  induction hr generalizing d with
  | nil =>
    refine ⟨d, ?_, h, fun h => h, hs, hw, ⟨rfl, rfl, rfl, rfl⟩, rfl, rfl⟩
    rw [List.flatMap_nil, esRun, Machine.run_eq esM_good hw (by simp), if_pos ⟨rfl, rfl⟩]
  | @cons c c1 c2 i is name value hash h1 h2 h3 h4 h0 h5 ih =>
    obtain ⟨D', g1, g2, g3, g4, g5, g6, g7⟩ := h.insert hE hsz hint hw.ctx (hcap (by simp)) h1 h2 (hP _ _ h0)
    obtain ⟨d1, k1, _, k3, k4, k5, k6⟩ := es_instrs hw hs g2 g1 (is.flatMap EIns.bytes)
    have hh : c1.hardMax = c.hardMax := (add_frame h2).2.1
    subst k3
    obtain ⟨d2, m1, m2, m3, m4, m5, m6, m7, m8⟩ := ih (d := d1) g3 h4.toCtxB (Nat.le_trans h4.cap h4.hard) (by rw [hh]; exact hint) (fun _ => g4) k5 k4
    refine ⟨d2, ?_, m2, fun _ => m3 g4, m4, m5, ?_, by rw [m7, g7], by rw [m8, g6]⟩
    · rw [List.flatMap_cons, k1]; exact m1
    · obtain ⟨a1, a2, a3, a4⟩ := k6
      obtain ⟨b1, b2, b3, b4⟩ := m6
      exact ⟨b1.trans a1, b2.trans a2, b3.trans a3, b4.trans a4⟩

theorem sim_setCap {E : Ctx} {d : Dec} (h : Sim E d.ctx) (hint : E.hardMax ≤ QInt.INT_MAX) (hw : DecWF d) (hs : d.state = .opcode) {m : Nat}
    (hm : m ≤ E.hardMax) (hsp : spaces E.ents ≤ m) (rest : Bytes) :
    ∃ d', esRun d ((EIns.setCap m).bytes ++ rest) false = esRun d' rest false ∧ Sim E d'.ctx ∧ d'.ctx.maxCap = m ∧ d'.state = .opcode ∧ DecWF d' ∧ Dec.SameOut d d' ∧
      d'.ctx.hardMax = d.ctx.hardMax ∧ d'.ctx.bad = d.ctx.bad := by
  obtain ⟨D', g1, g2, g3, g4, g5, g6⟩ := h.setCap hw.ctx hm hsp
  obtain ⟨d1, k1, _, k3, k4, k5, k6⟩ := es_instrs (i := .setCap m) hw hs (show m ≤ _ by omega) g1 rest
  subst k3
  exact ⟨d1, k1, g2, g3, k4, k5, k6, g6, g5⟩

/-- reading the capacity instructions written before a field section -/
theorem sim_upd {e e' : Enc} {upd : List EIns} (hu : UpdPost e e' upd) (hi : EInv e) {d : Dec} (h : Sim e.ctx d.ctx) (hint : e.ctx.hardMax ≤ QInt.INT_MAX)
    (hcap : e.pending = false → d.ctx.maxCap = e.ctx.maxCap) (hw : DecWF d) (hs : d.state = .opcode) (rest : Bytes) :
    ∃ d', esRun d (upd.flatMap EIns.bytes ++ rest) false = esRun d' rest false ∧ Sim e'.ctx d'.ctx ∧
      (e'.pending = false → d'.ctx.maxCap = e'.ctx.maxCap) ∧ (e'.pending = true → e'.ctx.maxCap < e'.ctx.size) ∧ d'.state = .opcode ∧ DecWF d' ∧ Dec.SameOut d d' ∧
      d'.ctx.hardMax = d.ctx.hardMax ∧ d'.ctx.bad = d.ctx.bad := by
  obtain ⟨n, hn, he, hmax, hor⟩ := hu.ents
  have hsim : Sim e'.ctx d.ctx := h.take hn e'.ctx he hu.next hu.hard
  have hsize := hu.inv.ctx.size
  rw [he] at hsize
  rcases hor with ⟨h1, h2, h3, h4, h5, h6⟩ | ⟨h1, h2, h3, h4, h5⟩
  · refine ⟨d, by rw [h1]; rfl, hsim, ?_, ?_, hs, hw, ⟨rfl, rfl, rfl, rfl⟩, rfl, rfl⟩
    · intro hp
      rw [h3] at hp
      rw [h2]; exact hcap hp
    · intro hp
      rw [h3] at hp
      rcases h6 with h6 | h6
      · rw [hp] at h6; cases h6
      · rw [h2, hsize]; exact h6.1
  · have hc := hi.cap
    rw [h1, if_pos rfl] at hc
    have hhard : e'.ctx.hardMax = e.ctx.hardMax := hu.hard
    rw [← he] at h2
    rw [h5]
    have two : ∀ d0 : Dec, Sim e'.ctx d0.ctx → DecWF d0 → d0.state = .opcode → Dec.SameOut d d0 → d0.ctx.hardMax = d.ctx.hardMax → d0.ctx.bad = d.ctx.bad →
        ∃ d', esRun d0 (([EIns.setCap e.lastUpd].flatMap EIns.bytes) ++ rest) false = esRun d' rest false ∧ Sim e'.ctx d'.ctx ∧
        (e'.pending = false → d'.ctx.maxCap = e'.ctx.maxCap) ∧ (e'.pending = true → e'.ctx.maxCap < e'.ctx.size) ∧ d'.state = .opcode ∧ DecWF d' ∧ Dec.SameOut d d' ∧
        d'.ctx.hardMax = d.ctx.hardMax ∧ d'.ctx.bad = d.ctx.bad := by
      intro d0 q1 q2 q3 q4 q5 q6
      obtain ⟨d', p1, p2, p3, p4, p5, p6, p7, p8⟩ := sim_setCap q1 (by omega) q2 q3 (m := e.lastUpd) (by omega) (by omega) rest
      refine ⟨d', by rw [List.flatMap_singleton]; exact p1, p2, (fun _ => by rw [p3, h4]), (fun hp => by rw [h3] at hp; cases hp), p4, p5, ?_, by rw [p7, q5], by rw [p8, q6]⟩
      obtain ⟨a1, a2, a3, a4⟩ := q4
      obtain ⟨b1, b2, b3, b4⟩ := p6
      exact ⟨b1.trans a1, b2.trans a2, b3.trans a3, b4.trans a4⟩
    split_ifs with hlt
    · obtain ⟨d0, p1, p2, p3, p4, p5, p6, p7, p8⟩ := sim_setCap hsim (by omega) hw hs (m := e.ctx.maxCap) (by omega) (by omega) (([EIns.setCap e.lastUpd].flatMap EIns.bytes) ++ rest)
      obtain ⟨d', r1, r2⟩ := two d0 p2 p5 p4 p6 p7 p8
      refine ⟨d', ?_, r2⟩
      rw [List.flatMap_append, List.flatMap_singleton, List.append_assoc, p1]
      exact r1
    · rw [List.nil_append]
      exact two d hsim hw hs ⟨rfl, rfl, rfl, rfl⟩ rfl rfl

/-- fields a decoder can read -/
def NvFits (nv : Nv) : Prop := codedLen nv.name ≤ 256 ∧ codedLen nv.value ≤ 65536

/-- reading everything one call of nghttp3_qpack_encoder_encode writes to the encoder stream -/
theorem sim_encode {e : Enc} {id : Nat} {nvs : List Nv} {o : EncOut} (hp : EncPost e id nvs o) (hi : EInv e) (hfit : ∀ nv ∈ nvs, NvFits nv)
    {d : Dec} (h : Sim e.ctx d.ctx) (hint : e.ctx.hardMax ≤ QInt.INT_MAX) (hcap : e.pending = false → d.ctx.maxCap = e.ctx.maxCap)
    (hw : DecWF d) (hs : d.state = .opcode) :
    ∃ d', esRun d o.ebuf false = .ok d' ∧ Sim o.e.ctx d'.ctx ∧ (o.e.pending = false → d'.ctx.maxCap = o.e.ctx.maxCap) ∧ d'.state = .opcode ∧
      DecWF d' ∧ Dec.SameOut d d' ∧ d'.ctx.hardMax = d.ctx.hardMax ∧ d'.ctx.bad = d.ctx.bad := by
  obtain ⟨e1, upd, ins, hu, hins, hrun, hc1, hc2, _, _⟩ := hp.upd
  obtain ⟨d1, g1, g2, g3, g3', g4, g5, g6, g7, g8⟩ := sim_upd hu hi h hint hcap hw hs (ins.flatMap EIns.bytes)
  have hcapins : ins ≠ [] → d1.ctx.maxCap = e1.ctx.maxCap := by
    intro hne
    cases hpd : e1.pending with
    | false => exact g3 hpd
    | true =>
      have := g3' hpd
      have hsz := hrun.first hne
      omega
  obtain ⟨d2, k1, k2, k3, k4, k5, k6, k7, k8⟩ := sim_insRun (P := AmongNvs nvs)
    (fun n v ⟨nv, hm, hn, hv⟩ => by rw [hn, hv]; exact hfit nv hm) hrun g2 hu.inv.ctx hu.inv.hsz (by rw [hu.hard]; exact hint) hcapins g5 g4
  refine ⟨d2, ?_, k2, ?_, k4, k5, ?_, by rw [k7, g7], by rw [k8, g8]⟩
  · unfold EncOut.ebuf
    rw [hins, List.flatMap_append, g1]; exact k1
  · intro hpd
    rw [hc2] at hpd
    exact k3 (g3 hpd)
  · obtain ⟨a1, a2, a3, a4⟩ := g6
    obtain ⟨b1, b2, b3, b4⟩ := k6
    exact ⟨b1.trans a1, b2.trans a2, b3.trans a3, b4.trans a4⟩

end Qpack
end Nghttp3
