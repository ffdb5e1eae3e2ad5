import Verif.Lemmas.Feedback2
import Verif.Lemmas.EndpointUni
import Verif.Lemmas.EndpointKept
import Verif.Lemmas.NetStep
/-! The decoder of a whole connection: what each call does to it. -/
namespace Nghttp3
namespace Qpack

/-- what reading the encoder stream leaves alone -/
structure Quiet (d d' : Dec) : Prop where
  next : d.ctx.next ≤ d'.ctx.next
  buf : d'.dbuf = d.dbuf
  wr : d'.writtenIcnt = d.writtenIcnt

theorem Quiet.refl (d : Dec) : Quiet d d := ⟨Nat.le_refl _, rfl, rfl⟩

theorem Quiet.trans {a b c : Dec} (h : Quiet a b) (h' : Quiet b c) : Quiet a c := ⟨Nat.le_trans h.next h'.next, h'.buf.trans h.buf, h'.wr.trans h.wr⟩

theorem CtxStep.next {c c' : Ctx} (h : CtxStep c c') : c.next ≤ c'.next := by
  cases h with
  | same => exact Nat.le_refl _
  | cap n _ h =>
    unfold Ctx.setCap at h
    split_ifs at h
    · cases h
    · rcases he : evictOld n 0 c.ents.reverse c.size with _ | ⟨o, s⟩ <;> rw [he] at h
      · cases h
      · cases h; exact Nat.le_refl _
  | add n v t _ h =>
    unfold Ctx.addChecked Ctx.add at h
    dsimp only at h
    split_ifs at h
    · cases h
    · rcases he : evictOld c.maxCap (tableSpace n.length v.length) c.ents.reverse c.size with _ | ⟨o, s⟩ <;> rw [he] at h
      · cases h
      · cases h; exact Nat.le_succ _

/-- the parts of a result that are decoders -/
def ERes.All (Q : Dec → Prop) : ERes → Prop
  | .cont d' _ _ => Q d'
  | .ret d' _ => Q d'
  | _ => True

def SameOuts (d d' : Dec) : Prop := d'.dbuf = d.dbuf ∧ d'.writtenIcnt = d.writtenIcnt

theorem finish_outs {d d1 : Dec} (h : SameOuts d d1) (rest : Bytes) (o : Option (Option Ctx)) : (d1.finish rest o).All (SameOuts d) := by
  rcases o with _ | _ | c
  · trivial
  · trivial
  · exact h

theorem esStep_outs (d : Dec) (x : Bytes) : (esStep d x).All (SameOuts d) := by
  unfold esStep
  cases d.state with
  | opcode =>
    cases x with
    | nil => trivial
    | cons b t =>
      change SameOuts d (esOpcode d b)
      unfold esOpcode; split_ifs <;> exact ⟨rfl, rfl⟩
  | readIndex =>
    dsimp only; unfold esIndex
    rcases QInt.readInt d.rs.pfx d.rs.left d.rs.shift x with _ | _ | ⟨l, s⟩ | ⟨l, s, rest⟩
    · trivial
    · trivial
    · exact ⟨rfl, rfl⟩
    · dsimp only; unfold esIndexDone; dsimp only
      cases d.op with
      | setCap => exact finish_outs ⟨rfl, rfl⟩ _ _
      | duplicate =>
        dsimp only
        rcases rel2abs d.ctx _ with _ | r
        · trivial
        · exact finish_outs ⟨rfl, rfl⟩ _ _
      | insertIndexed =>
        dsimp only
        rcases rel2abs d.ctx _ with _ | r
        · trivial
        · exact ⟨rfl, rfl⟩
      | insert =>
        dsimp only
        rcases rel2abs d.ctx _ with _ | r
        · trivial
        · trivial
  | str ph =>
    dsimp only
    rcases strStep ph d.rs x with _ | _ | _ | ⟨ph', r', rest, b⟩ | ⟨ph', r', rest⟩ | ⟨r', rest⟩
    · trivial
    · trivial
    · trivial
    · exact ⟨rfl, rfl⟩
    · exact ⟨rfl, rfl⟩
    · dsimp only; unfold esValueDone; dsimp only
      cases d.op with
      | insertIndexed => exact finish_outs ⟨rfl, rfl⟩ _ _
      | insert => exact finish_outs ⟨rfl, rfl⟩ _ _
      | setCap => trivial
      | duplicate => trivial

theorem esLoop_quiet (f : Nat) {d d' : Dec} {x : Bytes} {b : Bool} (h : esLoop f d x b = .ok d') : Quiet d d' := by
  induction f generalizing d x b with
  | zero => cases h
  | succ f ih =>
    unfold esLoop at h
    by_cases h0 : x = [] ∧ b = false
    · rw [if_pos h0] at h; cases h; exact .refl _
    rw [if_neg h0] at h
    have h1 := esStep_ctx d x
    have h2 := esStep_outs d x
    rcases hs : esStep d x with _ | ⟨d1, e⟩ | ⟨d1, rest, b'⟩ | ⟨d1, rest⟩ <;> rw [hs] at h h1 h2 <;> dsimp only at h h1
    · cases h
    · cases h
    · exact .trans ⟨h1.next, h2.1, h2.2⟩ (ih h)
    · cases h; exact ⟨by rw [h1], h2.1, h2.2⟩

theorem readEncoder_quiet {d d' : Dec} {x : Bytes} (h : d.readEncoder x = .ok d') : Quiet d d' := by
  unfold Dec.readEncoder at h
  split_ifs at h
  · cases h; exact .refl _
  · dsimp only at h
    split_ifs at h
    have := esLoop_quiet _ h
    exact ⟨this.next, this.buf, this.wr⟩

end Qpack

namespace Endpoint
open Qpack Feedback
open Conn (clientBidi streamUni)

variable {G : Bool × Settings} {P : Par} {server : Bool} {st : Settings}

/-- how often on the stream -/
def cnt (f : Bidi.Ev → Bool) (ev : List Ev) (id : Nat) : Nat := (ev.filter (onStr f id)).length

theorem cnt_append (f : Bidi.Ev → Bool) (a b : List Ev) (id : Nat) : cnt f (a ++ b) id = cnt f a id + cnt f b id := by
  unfold cnt; rw [List.filter_append, List.length_append]

theorem count_snoc (f : Bidi.Ev → Bool) (l : Log) (x : Call × Conn.Ret × List Ev) (id : Nat) : Log.count f (l ++ [x]) id = l.count f id + cnt f x.2.2 id := by
  unfold Log.count cnt
  rw [List.flatMap_append, List.filter_append, List.length_append]
  simp

theorem cnt_map (f : Bidi.Ev → Bool) (ev : List Bidi.Ev) (i id : Nat) : cnt f (ev.map (.str i)) id = if i = id then Bidi.num f ev else 0 := by
  unfold cnt Bidi.num
  induction ev with
  | nil => split_ifs <;> rfl
  | cons e t ih =>
    rw [List.map_cons, List.filter_cons, List.filter_cons]
    have h0 : onStr f id (.str i e) = (i == id && f e) := rfl
    rw [h0]
    by_cases h : i = id
    · subst h
      rw [if_pos rfl] at ih ⊢
      rcases hf : f e
      · simpa using ih
      · simpa using ih
    · rw [if_neg h] at ih ⊢
      have : (i == id) = false := by simpa using h
      rw [this]
      simpa using ih

theorem cnt_ctl (f : Bidi.Ev → Bool) (ev : List Control.Ev) (id : Nat) : cnt f (ev.map .ctl) id = 0 := by
  unfold cnt
  induction ev with
  | nil => rfl
  | cons e t ih =>
    rw [List.map_cons, List.filter_cons]
    exact ih

/-- what is sent for completed sections -/
def ackBytes (done : List (Nat × Nat)) : Bytes := (done.filter fun p => p.2 != 0).flatMap fun p => DIns.bytes (.ack, p.1)

abbrev Rxs := Nat → Bidi.Str

def AllAble (d : Dec) (rx : Rxs) : Prop := ∀ id, Able id d.ctx.next (rx id).sc

/-- sections were completed, and entries inserted -/
structure Fb (d : Dec) (rx : Rxs) (done : List (Nat × Nat)) (ev : List Ev) (d' : Dec) (rx' : Rxs) : Prop where
  next : d.ctx.next ≤ d'.ctx.next
  le : ∀ p ∈ done, p.2 ≤ d'.ctx.next
  buf : d'.dbuf = d.dbuf ++ ackBytes done
  wr : d'.writtenIcnt = done.foldl (fun k p => max k p.2) d.writtenIcnt
  able : AllAble d' rx'
  shut : ∀ id, (rx' id).shutRd = (rx id).shutRd ∨ (rx' id).shutRd = false
  up : ∀ id, (ofStr done id).length ≤ cnt sectionEnds ev id + cnt sectionBad ev id
  dn : ∀ id, cnt sectionEnds ev id ≤ (ofStr done id).length

theorem Fb.trans {a b c : Dec} {r s t : Rxs} {x y : List (Nat × Nat)} {e f : List Ev} (h : Fb a r x e b s) (h' : Fb b s y f c t) : Fb a r (x ++ y) (e ++ f) c t where
  next := Nat.le_trans h.next h'.next
  le p hp := by
    rcases List.mem_append.1 hp with hp | hp
    · exact Nat.le_trans (h.le p hp) h'.next
    · exact h'.le p hp
  buf := by
    rw [h'.buf, h.buf, List.append_assoc]
    unfold ackBytes
    rw [List.filter_append, List.flatMap_append]
  wr := by rw [h'.wr, h.wr, List.foldl_append]
  able := h'.able
  shut id := by
    rcases h'.shut id with g | g
    · rw [g]; exact h.shut id
    · exact .inr g
  up id := by
    have := h.up id; have := h'.up id
    unfold ofStr at *
    rw [List.filter_append, List.length_append, cnt_append, cnt_append]; omega
  dn id := by
    have := h.dn id; have := h'.dn id
    unfold ofStr at *
    rw [List.filter_append, List.length_append, cnt_append]; omega

/-- only insertions, and streams that are new -/
theorem Fb.none {d d' : Dec} {rx rx' : Rxs} {ev : List Ev} (hq : Quiet d d') (ha : AllAble d' rx')
    (hs : ∀ id, (rx' id).shutRd = (rx id).shutRd ∨ (rx' id).shutRd = false) (he : ∀ id, cnt sectionEnds ev id = 0) : Fb d rx [] ev d' rx' where
  next := hq.next
  le p hp := by cases hp
  buf := by rw [hq.buf]; exact (List.append_nil _).symm
  wr := hq.wr
  able := ha
  shut := hs
  up _ := Nat.zero_le _
  dn id := by rw [he]; exact Nat.zero_le _

theorem Fb.same {d : Dec} {rx : Rxs} (ha : AllAble d rx) : Fb d rx [] [] d rx := .none (.refl _) ha (fun _ => .inl rfl) fun _ => rfl

theorem ofStr_map (id i : Nat) (t : List Nat) : (ofStr (t.map fun r => (id, r)) i).length = if id = i then t.length else 0 := by
  unfold ofStr
  induction t with
  | nil => split_ifs <;> rfl
  | cons r t ih =>
    rw [List.map_cons, List.filter_cons]
    dsimp only
    by_cases h : id = i
    · subst h
      rw [if_pos rfl] at ih ⊢
      simp [ih]
    · have : (id == i) = false := by simpa using h
      rw [this]
      simpa [h] using ih

theorem secs_fb {id : Nat} {d d' : Dec} {t : List Nat} (h : Bidi.Secs id d t d') :
    (∀ r ∈ t, r ≤ d.ctx.next) ∧ d'.dbuf = d.dbuf ++ ackBytes (t.map fun r => (id, r)) ∧
      d'.writtenIcnt = (t.map fun r => (id, r)).foldl (fun k p => max k p.2) d.writtenIcnt := by
  induction h with
  | nil => exact ⟨(fun r hr => by cases hr), (List.append_nil _).symm, rfl⟩
  | @cons d e d' r t h1 h2 ih =>
    obtain ⟨i1, i2, i3⟩ := ih
    have hn : e.ctx.next = d.ctx.next := by rw [h1.same.1]
    refine ⟨?_, ?_, ?_⟩
    · intro q hq
      rcases List.mem_cons.1 hq with rfl | hq
      · exact h1.le
      · rw [← hn]; exact i1 q hq
    · rw [i2, h1.buf, List.append_assoc]
      congr 1
      unfold ackBytes
      rw [List.map_cons, List.filter_cons]
      dsimp only
      by_cases h0 : r = 0
      · subst h0; rfl
      · have : (r != 0) = true := by simpa using h0
        rw [if_neg h0, this, if_pos rfl]; rfl
    · rw [i3, h1.wr]; rfl

/-- one stream -/
theorem Fb.heard {id : Nat} {d d' : Dec} {rx : Rxs} {s s' : Bidi.Str} {ev : List Bidi.Ev} (ha : AllAble d rx) (h : Bidi.Heard id s d s' d' ev) (hs : s.shutRd = (rx id).shutRd) :
    ∃ done, Fb d rx done (ev.map (.str id)) d' (PQ.upd rx id s') := by
  obtain ⟨t, h1, h2, h3, h4⟩ := h
  obtain ⟨k1, k2, k3⟩ := secs_fb h1
  have hn : d'.ctx.next = d.ctx.next := by rw [h1.same.1]
  refine ⟨t.map fun r => (id, r), by rw [hn], ?_, k2, k3, ?_, ?_, ?_, ?_⟩
  · intro p hp
    obtain ⟨r, hr, rfl⟩ := List.mem_map.1 hp
    rw [hn]; exact k1 r hr
  · intro i
    by_cases hi : i = id
    · subst hi; rw [PQ.upd_same]; exact h2
    · rw [PQ.upd_ne _ _ hi, hn]; exact ha i
  · intro i
    by_cases hi : i = id
    · subst hi; rw [PQ.upd_same]; exact .inl (h3.trans hs)
    · rw [PQ.upd_ne _ _ hi]; exact .inl rfl
  · intro i
    rw [ofStr_map, cnt_map, cnt_map]
    have := h4.up
    split_ifs <;> omega
  · intro i
    rw [ofStr_map, cnt_map]
    have := h4.dn
    split_ifs <;> omega

theorem readBidi_fb {ep ep' : Ep} {id : Nat} {src : Bytes} {fin : Bool} {r : Conn.Ret} {ev : List Ev} (ha : AllAble ep.dec ep.rx)
    (e : readBidi P ep id src fin = .ok ep' r ev) : ∃ done, Fb ep.dec ep.rx done ev ep'.dec ep'.rx := by
  unfold readBidi at e
  dsimp only at e
  have h1 := Bidi.readStream_hears (cfg P ep.c id) (room ep.c ep.bq) fin (s := { ep.rx id with priFixed := fixedPri ep.c id }) src (ha id)
  generalize Bidi.readStream _ _ _ _ _ _ = o at e h1
  rcases o with _ | _ | ⟨s', d', ev1, n', rest⟩ <;> dsimp only at e
  · cases e
  · cases e
  obtain ⟨ev2, h0, h1⟩ := h1
  rw [List.nil_append] at h0
  subst h0
  have hf := Fb.heard (rx := ep.rx) ha h1 rfl
  rcases e1 : priorities ep.c id ev1 with _ | _ | _ | c1 <;> rw [e1] at e <;> dsimp only [lift] at e
  · cases e
  · cases e
  · cases e
  split_ifs at e
  · rcases e2 : Conn.qpackBlock c1 id with _ | _ | _ | ⟨c2, r2⟩ <;> rw [e2] at e <;> dsimp only at e
    · cases e
    · cases e
    · cases e
    cases e; exact hf
  · cases e; exact hf

theorem release_fb (n : Nat) (f : Nat) {ep ep' : Ep} {r : Conn.Ret} {ev : List Ev} (ha : AllAble ep.dec ep.rx) (e : release P n f ep = .ok ep' r ev) :
    ∃ done, Fb ep.dec ep.rx done ev ep'.dec ep'.rx := by
  induction f generalizing ep ev with
  | zero => cases e
  | succ f ih =>
    unfold release at e
    rcases ht : ep.bq.top with _ | m <;> rw [ht] at e <;> dsimp only at e
    · cases e; exact ⟨_, .same ha⟩
    by_cases hnx : ep.dec.ctx.next < (ep.rx m).sc.ricnt
    · rw [if_pos hnx] at e; cases e; exact ⟨_, .same ha⟩
    rw [if_neg hnx] at e
    rcases hp : ep.bq.pop (ricntLess ep.rx) with _ | bq <;> rw [hp] at e <;> dsimp only at e
    · cases e
    have h1 := Bidi.processBlocked_hears (cfg P ep.c m) (room ep.c bq) (s := { ep.rx m with blocked := false, priFixed := fixedPri ep.c m }) (ha m)
    generalize Bidi.processBlocked _ _ _ _ = o at e h1
    rcases o with _ | _ | ⟨s', d', ev1, n', rest⟩ <;> dsimp only at e
    · cases e
    · cases e
    obtain ⟨ev0, h0, h1⟩ := h1
    rw [List.nil_append] at h0
    subst h0
    obtain ⟨t1, hf⟩ := Fb.heard (rx := ep.rx) ha h1 rfl
    rcases e1 : priorities ep.c m ev1 with _ | _ | _ | c1 <;> rw [e1] at e <;> dsimp only [lift] at e
    · cases e
    · cases e
    · cases e
    rcases e2 : Conn.qpackUnblock c1 m none s'.blocked with _ | _ | _ | ⟨c2, r2⟩ <;> rw [e2] at e <;> dsimp only at e
    · cases e
    · cases e
    · cases e
    generalize ho : release P n f _ = o at e
    rcases o with _ | _ | ⟨ep2, r2, ev2⟩
    · cases e
    · cases e
    dsimp only [Res.after] at e
    injection e with e3 e4 e5
    subst e3 e4 e5
    obtain ⟨t2, hf2⟩ := ih (ep := { ep with c := c2, rx := _, dec := d', bq := _ }) hf.able ho
    exact ⟨t1 ++ t2, hf.trans hf2⟩

theorem readQenc_fb {ep ep' : Ep} {src : Bytes} {n : Nat} {r : Conn.Ret} {ev : List Ev} (ha : AllAble ep.dec ep.rx) (e : readQenc P ep src n = .ok ep' r ev) :
    ∃ done, Fb ep.dec ep.rx done ev ep'.dec ep'.rx := by
  unfold readQenc at e
  rcases e1 : ep.dec.readEncoder src with _ | ⟨d, z⟩ | d <;> rw [e1] at e <;> dsimp only at e
  · cases e
  · cases e
  have hq := readEncoder_quiet e1
  have ha' : AllAble d ep.rx := fun id => (ha id).mono hq.next
  obtain ⟨t, hf⟩ := release_fb (ep := { ep with dec := d }) n _ ha' e
  exact ⟨[] ++ t, (Fb.none (ev := []) hq ha' (fun _ => .inl rfl) fun _ => rfl).trans hf⟩

/-- the reader of the control stream changes the receiving side only by new streams -/
def CtlF (ep : Ep) (k : Control.Conn Ext) : Prop :=
  ∀ c rx, k.ext = some (c, rx) → AllAble ep.dec rx ∧ ∀ id, (rx id).shutRd = (ep.rx id).shutRd ∨ (rx id).shutRd = false

theorem new_sc (c : Bidi.Cfg) : (Bidi.Str.new c).sc = SCtx.init c.id ∧ (Bidi.Str.new c).shutRd = false := ⟨rfl, rfl⟩

theorem able_upd {d : Dec} {rx rx0 : Rxs} {id : Nat} {s : Bidi.Str} (h : AllAble d rx ∧ ∀ i, (rx i).shutRd = (rx0 i).shutRd ∨ (rx i).shutRd = false) (hs : s.sc = SCtx.init id) (hq : s.shutRd = false) :
    AllAble d (PQ.upd rx id s) ∧ ∀ i, (PQ.upd rx id s i).shutRd = (rx0 i).shutRd ∨ (PQ.upd rx id s i).shutRd = false := by
  refine ⟨fun i => ?_, fun i => ?_⟩
  · by_cases hi : i = id
    · subst hi; rw [PQ.upd_same, hs]; exact able_init _ _
    · rw [PQ.upd_ne _ _ hi]; exact h.1 i
  · by_cases hi : i = id
    · subst hi; rw [PQ.upd_same]; exact .inr hq
    · rw [PQ.upd_ne _ _ hi]; exact h.2 i

theorem ctl_stableF (ep : Ep) : Control.StableP (env P) (CtlF ep) where
  recved _ h := h
  rep _ _ h := h
  entry k i v k' h e := by
    have : k'.ext = k.ext := by
      unfold Control.onEntry at e
      split_ifs at e
      all_goals
        injection e with e
        subst e
        rfl
    unfold CtlF
    rw [this]; exact h
  goaway _ _ h := h
  push _ _ h := h
  long _ h := h
  ext k i p y h hsv hi hp e := by
    intro c1 rx1 hy
    have hy : y = some (c1, rx1) := hy
    subst hy
    have e : onPri P k.ext i p = .ok (some (c1, rx1)) := e
    rcases hx : k.ext with _ | ⟨c, rx⟩ <;> rw [hx] at e <;> unfold onPri at e <;> dsimp only at e
    · cases e
    have h0 := h c rx hx
    rcases e1 : Conn.onPriorityUpdate c i p with _ | _ | _ | ⟨c', r⟩
    · rw [e1] at e; cases e
    · rw [e1] at e; cases e
    · rw [e1] at e; cases e
    obtain ⟨z, rfl⟩ := pri_code e1
    rw [e1] at e
    dsimp only at e
    by_cases hz : z ≠ 0
    · rw [if_pos hz] at e; cases e
    rw [if_neg hz] at e
    injection e with e
    injection e with e
    obtain ⟨rfl, rfl⟩ := Prod.mk.inj e
    split_ifs
    · exact able_upd h0 rfl rfl
    · exact h0

theorem readControl_fb {ep : Ep} (h : EInv G ep) (ha : AllAble ep.dec ep.rx) (src : Bytes) (n : Nat) {ep' : Ep} {r : Conn.Ret} {ev : List Ev}
    (e : readControl P ep src n = .ok ep' r ev) : ∃ done, Fb ep.dec ep.rx done ev ep'.dec ep'.rx := by
  obtain ⟨hi, hs⟩ := ctl_start h
  have hs' : Control.SB (CtlF ep) (ctlStart ep) := ⟨fun c rx g => by
    have g : some (ep.c, ep.rx) = some (c, rx) := g
    injection g with g
    obtain ⟨rfl, rfl⟩ := Prod.mk.inj g
    exact ⟨ha, fun _ => .inl rfl⟩, hs.2⟩
  have ho := Control.read_prs (ctl_stableF (P := P) ep) (ctlStart ep) src hi hs'
  unfold readControl at e
  change (match Control.read (env P) (ctlStart ep) src with
    | .crash => Res.crash
    | .stop _ _ => Res.crash
    | .fail (e, k) => if k.ext.isNone then Res.crash else Res.fail e
    | .ok s => _) = _ at e
  rcases er : Control.read (env P) (ctlStart ep) src with _ | ⟨z, k⟩ | _ | s <;> rw [er] at ho e <;> dsimp only at e
  · cases e
  · split_ifs at e
  · cases e
  · rcases hx' : s.conn.ext with _ | ⟨c, rx⟩ <;> rw [hx'] at e <;> dsimp only at e
    · cases e
    · cases e
      obtain ⟨k1, k2⟩ := ho.1 c rx hx'
      exact ⟨[], .none (.refl _) k1 k2 fun id => cnt_ctl _ _ _⟩

theorem readUni_fb {ep : Ep} (h : EInv G ep) (ha : AllAble ep.dec ep.rx) {id : Nat} {src : Bytes} {fin : Bool} (hp : Conn.peerUni ep.c.server id) (h0 : (ep.c.str id).isSome = true)
    {ep' : Ep} {r : Conn.Ret} {ev : List Ev} (e : readUni P ep id src fin = .ok ep' r ev) : ∃ done, Fb ep.dec ep.rx done ev ep'.dec ep'.rx := by
  unfold readUni at e
  have o3 : Conn.Allowed ep.c (.uni id src fin) := ⟨hp, h0⟩
  rcases e2 : Conn.readUni ep.c id src fin with _ | _ | _ | ⟨c2, r1⟩ <;> rw [e2] at e <;> dsimp only [lift] at e
  · cases e
  · cases e
  · cases e
  have e' : Conn.step encode ep.c (.uni id src fin) = .ok (c2, r1) := e2
  have hs := step_sameC h.core.c e'
  have hc := cinv_step h.core.c (o := .uni id src fin) trivial trivial o3 (fun y g => by cases g) e'
  have h3 : EInv G { ep with c := c2 } := einv_keep h hc hs (fun x hx => keep_neutral h.core.c (o := .uni id src fin) trivial trivial e' hx) (.refl _)
  cases r1 with
  | code z =>
    dsimp only at e
    split_ifs at e
    cases e
    exact ⟨_, .same ha⟩
  | vecs v => exact absurd e2 uni_novecs
  | discard m stop =>
    dsimp only at e
    cases e
    exact ⟨[], .none (.refl _) ha (fun _ => .inl rfl) fun i => by
      split_ifs
      · exact (cnt_map sectionEnds [.stopSending 0x0103] id i).trans (by split_ifs <;> rfl)
      · rfl⟩
  | route q =>
    rcases q with _ | ⟨t, y⟩
    · cases e; exact ⟨_, .same ha⟩
    cases t with
    | unknown => cases e
    | push => cases e
    | control => exact readControl_fb h3 ha y _ e
    | qenc => exact readQenc_fb (ep := { ep with c := c2 }) ha e
    | qdec =>
      change readQdec { ep with c := c2 } y _ = _ at e
      unfold readQdec at e
      generalize Qpack.Enc.readDecoder _ _ = o at e
      rcases o with _ | _ | e1 <;> dsimp only at e
      · cases e
      · cases e
      cases e; exact ⟨_, .same ha⟩

theorem read_fb {ep : Ep} (h : EInv G ep) (ha : AllAble ep.dec ep.rx) {id : Nat} {src : Bytes} {fin : Bool} (hid : id < 2 ^ 62) (hown : ¬ Conn.ownUni ep.c.server id)
    {ep' : Ep} {r : Conn.Ret} {ev : List Ev} (e : read P ep id src fin = .ok ep' r ev) : ∃ done, Fb ep.dec ep.rx done ev ep'.dec ep'.rx := by
  rw [read_eq] at e
  rcases e1 : Conn.openStream ep.c id (src.isEmpty && fin) with _ | _ | _ | ⟨c', r1⟩ <;> rw [e1] at e <;> dsimp only [lift] at e
  · cases e
  · cases e
  · cases e
  obtain ⟨z, rfl⟩ := open_code e1
  dsimp only at e
  by_cases hz : z ≠ 0
  · rw [if_pos hz] at e; cases e
  rw [if_neg hz] at e
  obtain rfl : z = 0 := by simpa using hz
  by_cases hno : (c'.str id).isNone = true
  · rw [if_pos hno] at e
    cases e
    exact ⟨_, .same ha⟩
  rw [if_neg hno] at e
  have hsome := isSome_of_not hno
  have h1 : EInv G (opened P ep id c') := opened_einv h hid hown e1 hsome
  have h2 : Fb ep.dec ep.rx [] (openEv ep id) (opened P ep id c').dec (opened P ep id c').rx := by
    have h0 : AllAble ep.dec ep.rx ∧ ∀ i, (ep.rx i).shutRd = (ep.rx i).shutRd ∨ (ep.rx i).shutRd = false := ⟨ha, fun _ => .inl rfl⟩
    have hr : AllAble ep.dec (opened P ep id c').rx ∧ ∀ i, ((opened P ep id c').rx i).shutRd = (ep.rx i).shutRd ∨ ((opened P ep id c').rx i).shutRd = false := by
      unfold opened
      dsimp only
      split_ifs
      · exact able_upd h0 rfl rfl
      · exact able_upd h0 rfl rfl
      · exact h0
    refine .none (.refl _) hr.1 hr.2 fun i => ?_
    unfold openEv
    split_ifs
    · exact (cnt_map sectionEnds [.stopSending 0x010b, .resetStream 0x010b] id i).trans (by split_ifs <;> rfl)
    · rfl
  generalize ho : rest P (opened P ep id c') id src fin = o at e
  rcases o with _ | _ | ⟨ep2, r2, ev2⟩
  · cases e
  · cases e
  dsimp only [Res.after] at e
  injection e with e3 e4 e5
  subst e3 e4 e5
  have key : ∃ done, Fb (opened P ep id c').dec (opened P ep id c').rx done ev2 ep2.dec ep2.rx := by
    unfold rest at ho
    by_cases h3 : (src.isEmpty && !fin) = true
    · rw [if_pos h3] at ho
      cases ho
      exact ⟨_, .same h2.able⟩
    rw [if_neg h3] at ho
    by_cases hu : streamUni id = true
    · rw [if_pos hu] at ho
      exact readUni_fb h1 h2.able (opened_uni hown h e1 hu) hsome ho
    · rw [if_neg hu] at ho
      exact readBidi_fb h2.able ho
  obtain ⟨t, hf⟩ := key
  exact ⟨[] ++ t, h2.trans hf⟩

end Endpoint
end Nghttp3
