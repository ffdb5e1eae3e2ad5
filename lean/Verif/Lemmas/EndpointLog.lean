import Verif.Lemmas.EndpointLife
/-! The log of a connection, as seen from one request stream; conservation of bytes. -/
namespace Nghttp3
namespace Endpoint
open Conn (clientBidi streamUni)
open Qpack (Dec)

variable {P : Par} {K : Bidi.Cfg} {Q Q' : Bool → List Http.Field → Prop} {S S' : Prop}

theorem Move.mono (h : ∀ r q, Q r q → Q' r q) (h' : S → S') {a b : Option Bidi.Str} {g : List (Bytes × Bool)} {e : List Bidi.Ev} {u : Int} (m : Move K Q S a g e u b) : Move K Q' S' a g e u b := by
  cases m with
  | made req k => exact .made req (h _ _ k)
  | refused k => exact .refused (h _ _ k)
  | recv s d b room fin src s' d' _ n rest hs k => exact .recv s d b room fin src s' d' _ n rest hs k
  | woken s d b room s' d' _ n rest hs hg hb hn k => exact .woken s d b room s' d' _ n rest hs hg hb hn k
  | shut s k => exact .shut s (h' k)
  | closed s d s' d' _ n rest hs hg k => exact .closed s d s' d' _ n rest hs hg k

theorem Chain.mono (h : ∀ r q, Q r q → Q' r q) (h' : S → S') {a b : Option Bidi.Str} {g : List (Bytes × Bool)} {e : List Bidi.Ev} {u : Int} (m : Chain K Q S a g e u b) : Chain K Q' S' a g e u b := by
  induction m with
  | refl => exact .refl _
  | step _ m ih => exact .step ih (m.mono h h')

/-- how a stream may have been created in the course of the log `l` -/
def QL (P : Par) (server : Bool) (st : Settings) (l0 l : Log) (x : Nat) (refused : Bool) (req : List Http.Field) : Prop :=
  (server = true ∧ req = [] ∧ ∃ (l1 : Log) (ep1 : Ep), l1 <+: l ∧ Hist P server st (l0 ++ l1) ep1 ∧ refused = Conn.rejects ep1.c x) ∨
    (server = false ∧ refused = false ∧ ∃ nva dr r ev, (Call.submitRequest x nva dr, r, ev) ∈ l ∧ req = nva.map fun nv => ⟨nv.name, nv.value⟩)

theorem cfg_hist {server : Bool} {st : Settings} {ep : Ep} (h : EInv (server, (init server st).c.settings) ep) (x : Nat) : cfg P ep.c x = cfg P (init server st).c x := by
  obtain ⟨_, _, _, _, a1, a2⟩ := h.core.q
  unfold cfg
  rw [a1, a2]
  rfl

theorem server_hist {server : Bool} {st : Settings} {ep : Ep} (h : EInv (server, (init server st).c.settings) ep) : ep.c.server = server := by
  obtain ⟨_, _, _, _, a1, a2⟩ := h.core.q
  exact a1

theorem events_snoc (l : Log) (o : Call) (r : Conn.Ret) (ev : List Ev) (x : Nat) : Log.events (l ++ [(o, r, ev)]) x = l.events x ++ ev.filterMap (Ev.ofStr x) := by
  unfold Log.events
  rw [List.flatMap_append]
  simp

theorem pieces_snoc (l : Log) (o : Call) (r : Conn.Ret) (ev : List Ev) (x : Nat) : Log.pieces (l ++ [(o, r, ev)]) x = l.pieces x ++ o.pieces x := by
  unfold Log.pieces
  rw [List.flatMap_append]
  simp

theorem pieces_received (l : Log) (x : Nat) : ((l.pieces x).map fun p => p.1.length).sum = l.received x := by
  induction l with
  | nil => rfl
  | cons y t ih =>
    have h1 : Log.pieces (y :: t) x = y.1.pieces x ++ Log.pieces t x := rfl
    have h2 : Log.received (y :: t) x = y.1.given x + Log.received t x := rfl
    rw [h1, h2, List.map_append, List.sum_append, ih]
    congr 1
    rcases y with ⟨o, r, ev⟩
    cases o with
    | read i src fin =>
      dsimp only [Call.pieces, Call.given, pieceOf]
      by_cases hi : i = x
      · rw [if_pos hi]
        by_cases he : (src.isEmpty && !fin) = false
        · rw [if_pos ⟨hi, he⟩]; simp
        · rw [if_neg (fun k => he k.2)]
          simp only [Bool.not_eq_false, Bool.and_eq_true, List.isEmpty_iff] at he
          rw [he.1]; rfl
      · rw [if_neg hi, if_neg (fun k => hi k.1)]; rfl
    | _ => rfl

theorem received_snoc (l : Log) (o : Call) (r : Conn.Ret) (ev : List Ev) (x : Nat) : Log.received (l ++ [(o, r, ev)]) x = l.received x + o.given x := by
  unfold Log.received
  rw [List.map_append, List.sum_append]
  simp

theorem returned_snoc (l : Log) (o : Call × Conn.Ret × List Ev) (x : Nat) : ((l ++ [o]).map (returned x)).sum = (l.map (returned x)).sum + returned x o := by
  rw [List.map_append, List.sum_append]
  simp

/-- the end of a history, as seen from a request stream -/
theorem suffix_chain (hP : ParOk P) {server : Bool} {st : Settings} (hst : SettingsOk st) {x : Nat} (hx : clientBidi x = true) {l : Log} (l' : Log) {ep' : Ep}
    (h : Hist P server st (l ++ l') ep') : ∃ ep, Hist P server st l ep ∧
      Chain (cfg P (init server st).c x) (QL P server st l l' x) (∃ r ev, (Call.shutRd x, r, ev) ∈ l') (view ep.c ep.rx x) (l'.pieces x) (l'.events x) (l'.map (returned x)).sum (view ep'.c ep'.rx x) := by
  induction l' using List.reverseRecOn generalizing ep' with
  | nil =>
    rw [List.append_nil] at h
    exact ⟨ep', h, .refl _⟩
  | append_singleton l' y ih =>
    rw [← List.append_assoc] at h
    obtain ⟨ep1, o, r, ev, hy, h1, h2, h3⟩ : ∃ ep1 o r ev, y = (o, r, ev) ∧ Hist P server st (l ++ l') ep1 ∧ Permitted ep1 o ∧ step P ep1 o = .ok ep' r ev := by
      generalize hl : l ++ l' ++ [y] = L at h
      cases h with
      | init => simp at hl
      | step h1 h2 h3 =>
        obtain ⟨rfl, hy⟩ := List.append_inj' hl rfl
        exact ⟨_, _, _, _, List.singleton_inj.1 hy, h1, h2, h3⟩
    subst hy
    obtain ⟨ep, h4, h5⟩ := ih h1
    have he := hist_einv hP hst h1
    have hc := step_chain hP he h2 h3 hx
    rw [cfg_hist he x] at hc
    refine ⟨ep, h4, ?_⟩
    rw [events_snoc, pieces_snoc, returned_snoc]
    refine (h5.mono (fun b q g => ?_) fun ⟨r', ev', g⟩ => ⟨r', ev', List.mem_append_left _ g⟩).trans (hc.mono (fun b q g => ?_) fun g => ⟨r, ev, by rw [g]; simp⟩)
    · rcases g with ⟨g1, g2, l1, ep2, g3, g4⟩ | ⟨g1, g2, nva, dr, r', ev', g3, g4⟩
      · exact .inl ⟨g1, g2, l1, ep2, g3.trans (List.prefix_append _ _), g4⟩
      · exact .inr ⟨g1, g2, nva, dr, r', ev', List.mem_append_left _ g3, g4⟩
    · rcases g with ⟨g1, g2, g3⟩ | ⟨nva, dr, rfl, g2, g3, g4⟩
      · exact .inl ⟨by rw [← server_hist he]; exact g1, g2, l', ep1, List.prefix_append _ _, h1, g3⟩
      · exact .inr ⟨by rw [← server_hist he]; exact g2, g3, nva, dr, r, ev, by simp, g4⟩

theorem hist_chain (hP : ParOk P) {server : Bool} {st : Settings} (hst : SettingsOk st) {x : Nat} (hx : clientBidi x = true) {l : Log} {ep : Ep}
    (h : Hist P server st l ep) :
      Chain (cfg P (init server st).c x) (QL P server st [] l x) (∃ r ev, (Call.shutRd x, r, ev) ∈ l) none (l.pieces x) (l.events x) (l.map (returned x)).sum (view ep.c ep.rx x) := by
  obtain ⟨ep0, h0, h1⟩ := suffix_chain hP hst hx (l := []) l h
  have : ep0 = init server st := by
    generalize hl : ([] : Log) = L at h0
    cases h0 with
    | init => rfl
    | step => simp at hl
  subst this
  exact h1

/-! ### conservation of bytes -/

/-- the bytes that wait in the buffers of the stream -/
def held (o : Option Bidi.Str) : Nat := (o.map fun s => (Bidi.buffered s).length).getD 0

theorem sim_sum {s : Bidi.Str} {d : Dec} {x : Nat} {a : Bidi.ARes} {s' : Bidi.Str} {d' : Dec} {ev : List Bidi.Ev} {n : Nat} {rest : Bytes}
    (h : Bidi.Sim s d x a (.ok s' d' ev n rest)) :
    n + Bidi.deferredLen ev + Bidi.dataLen ev + (Bidi.buffered s').length = x + (Bidi.buffered s).length ∧ (s'.gone = s.gone ∨ s'.inq = []) := by
  cases a with
  | crash => exact h.elim
  | fail e => cases (show _ = Bidi.Out.fail e from h)
  | ok s1 d1 o n1 r1 =>
    obtain ⟨s2, ev2, n2, r2, e, _, _, k1, k2, _, _, k3⟩ := h
    cases e
    exact ⟨by omega, k3⟩

theorem Move.sum {a b : Option Bidi.Str} {g : List (Bytes × Bool)} {e : List Bidi.Ev} {u : Int} (m : Move K Q S a g e u b) :
    ((g.map fun p => p.1.length).sum : Nat) + (held a : Int) = u + (Bidi.deferredLen e : Nat) + (Bidi.dataLen e : Nat) + held b := by
  have fin : ∀ (s s' : Bidi.Str), s.gone = false → (s'.gone = s.gone ∨ s'.inq = []) → held (if s'.gone then none else some s') = (Bidi.buffered s').length := by
    intro s s' h1 h2
    cases hg : s'.gone with
    | false => rfl
    | true =>
      rcases h2 with h2 | h2
      · rw [h1, hg] at h2; cases h2
      · unfold Bidi.buffered; rw [h2]; rfl
  cases m with
  | made req k => rfl
  | refused k => rfl
  | recv s d b room fin src s' d' ev n rest hs k =>
    have hs' : Bidi.SInv { s with priFixed := b } d := ⟨Bidi.inv_of hs.inv rfl rfl rfl rfl rfl, hs.buf, hs.inq, hs.blk⟩
    have := Bidi.recv_sim K room fin { s with priFixed := b } d src hs'
    rw [k] at this
    have := (sim_sum this).1
    have e1 : (Bidi.buffered { s with priFixed := b }).length = (Bidi.buffered s).length := rfl
    rw [e1] at this
    show (src.length : Int) + ((Bidi.buffered s).length : Nat) = (n : Int) + _ + _ + ((Bidi.buffered s').length : Nat)
    omega
  | woken s d b room s' d' ev n rest hs hg hb hn k =>
    have hs' : Bidi.SInv { s with priFixed := b } d := ⟨Bidi.inv_of hs.inv rfl rfl rfl rfl rfl, hs.buf, hs.inq, hs.blk⟩
    have := Bidi.wake_sim K room { s with priFixed := b } d hs'
    unfold Bidi.wake at this
    rw [if_pos ⟨hb, hn⟩] at this
    have hn := proc_zero _ _ _ _ k
    dsimp only at this
    rw [k] at this
    obtain ⟨k1, k2⟩ := sim_sum this
    rw [fin s s' hg k2]
    have e1 : (Bidi.buffered { s with priFixed := b }).length = (Bidi.buffered s).length := rfl
    rw [e1] at k1
    show ((0 : Nat) : Int) + ((Bidi.buffered s).length : Nat) = _
    omega
  | shut s => show ((0 : Nat) : Int) + held _ = 0 + ((0 : Nat) : Int) + ((0 : Nat) : Int) + held _
              have : held (some { s with shutRd := true }) = held (some s) := rfl
              rw [this]; omega
  | closed s d s' d' ev n rest hs hg k =>
    have := Bidi.close_sim s d hs
    rw [k] at this
    obtain ⟨k1, k2⟩ := sim_sum this
    rw [fin s s' hg k2]
    have hn : n = 0 := by
      unfold Bidi.closeStream at k
      split_ifs at k <;> cases k <;> rfl
    show ((0 : Nat) : Int) + ((Bidi.buffered s).length : Nat) = _
    omega

theorem dataLen_app (a b : List Bidi.Ev) : Bidi.dataLen (a ++ b) = Bidi.dataLen a + Bidi.dataLen b := by
  unfold Bidi.dataLen; rw [List.map_append, List.sum_append]

theorem deferredLen_app (a b : List Bidi.Ev) : Bidi.deferredLen (a ++ b) = Bidi.deferredLen a + Bidi.deferredLen b := by
  unfold Bidi.deferredLen; rw [List.map_append, List.sum_append]

theorem Chain.sum {a b : Option Bidi.Str} {g : List (Bytes × Bool)} {e : List Bidi.Ev} {u : Int} (m : Chain K Q S a g e u b) :
    ((g.map fun p => p.1.length).sum : Nat) + (held a : Int) = u + (Bidi.deferredLen e : Nat) + (Bidi.dataLen e : Nat) + held b := by
  induction m with
  | refl => show ((0 : Nat) : Int) + _ = 0 + ((0 : Nat) : Int) + ((0 : Nat) : Int) + _; omega
  | step _ m ih =>
    have := m.sum
    rw [dataLen_app, deferredLen_app, List.map_append, List.sum_append]
    push_cast at this ih ⊢
    omega

theorem credit_eq (l : Log) (x : Nat) : l.credit x = (l.map (returned x)).sum + (Bidi.deferredLen (l.events x) : Nat) := by
  induction l with
  | nil => rfl
  | cons y t ih =>
    have h1 : Log.credit (y :: t) x = (returned x y + ((y.2.2.map (Ev.deferredTo x)).sum : Nat)) + Log.credit t x := rfl
    have h2 : Log.events (y :: t) x = y.2.2.filterMap (Ev.ofStr x) ++ Log.events t x := rfl
    have h3 : ∀ ev : List Ev, (ev.map (Ev.deferredTo x)).sum = Bidi.deferredLen (ev.filterMap (Ev.ofStr x)) := by
      intro ev
      induction ev with
      | nil => rfl
      | cons e t ih =>
        rw [List.map_cons, List.sum_cons, ih, List.filterMap_cons]
        cases e with
        | ctl e => simp [Ev.ofStr, Ev.deferredTo]
        | str i e =>
          by_cases hi : i = x
          · simp [Ev.ofStr, Ev.deferredTo, hi, Bidi.deferredLen]
          · simp [Ev.ofStr, Ev.deferredTo, hi]
    rw [h1, h2, h3, ih, deferredLen_app, List.map_cons, List.sum_cons]
    push_cast
    omega

end Endpoint
end Nghttp3

namespace Nghttp3
namespace Endpoint
open Conn (clientBidi streamUni)

variable {P : Par}

/-! ### unidirectional streams -/

theorem release_code (n f : Nat) (ep : Ep) {ep' : Ep} {r : Conn.Ret} {ev : List Ev} (e : release P n f ep = .ok ep' r ev) : r = .code n := by
  induction f generalizing ep ev with
  | zero => unfold release at e; cases e
  | succ f ih =>
    unfold release at e
    generalize ep.bq.top = o at e
    rcases o with _ | m <;> dsimp only at e
    · cases e; rfl
    by_cases hnx : ep.dec.ctx.next < (ep.rx m).sc.ricnt
    · rw [if_pos hnx] at e; cases e; rfl
    rw [if_neg hnx] at e
    generalize ep.bq.pop (ricntLess ep.rx) = o at e
    rcases o with _ | bq <;> dsimp only at e
    · cases e
    generalize Bidi.processBlocked _ _ _ _ = o at e
    rcases o with _ | z | ⟨s', d', ev1, n', rest⟩ <;> dsimp only at e
    · cases e
    · cases e
    generalize priorities ep.c m ev1 = o at e
    rcases o with _ | _ | _ | c1 <;> dsimp only [lift] at e
    · cases e
    · cases e
    · cases e
    generalize Conn.qpackUnblock c1 m none s'.blocked = o at e
    rcases o with _ | _ | _ | ⟨c2, r2⟩ <;> dsimp only at e
    · cases e
    · cases e
    · cases e
    generalize hg : release P n f _ = o at e
    rcases o with _ | _ | ⟨ep2, r3, ev2⟩
    · cases e
    · cases e
    dsimp only [Res.after] at e
    injection e with e3 e4 e5
    subst e3 e4
    exact ih _ hg

theorem readUni_zero {c c' : CC} {id : Nat} {src : Bytes} {fin : Bool} (e : Conn.readUni c id src fin = .ok (c', .code 0)) : src = [] := by
  have hd : ∀ ty y f, Conn.deliverUni ty y f ≠ Conn.Ret.code 0 := by
    intro ty y f h
    unfold Conn.deliverUni at h
    cases ty <;> first | (cases h; done) | (split_ifs at h <;> cases h; done) | skip
  unfold Conn.readUni at e
  by_cases h0 : ((c.server && !Conn.clientUni id) || (!c.server && !Conn.serverUni id)) = true
  · rw [if_pos h0] at e; cases e
  rw [if_neg h0] at e
  generalize c.str id = o at e
  rcases o with _ | s <;> dsimp only at e
  · cases e
  by_cases h1 : (src.isEmpty && !fin) = true
  · rw [Bool.and_eq_true] at h1; simpa using h1.1
  rw [if_neg h1] at e
  by_cases h2 : s.ident = true
  · rw [if_pos h2] at e
    exact absurd (Prod.mk.inj (Outq.R.ok.inj e)).2 (hd _ _ _)
  rw [if_neg h2] at e
  by_cases h3 : src.isEmpty = true
  · simpa using h3
  rw [if_neg h3] at e
  generalize rd s.rv src fin = o at e
  rcases o with _ | _ | rv | ⟨v, k⟩ <;> dsimp only at e
  · cases e
  · cases e
  · cases e
  have hu : ∀ z, Conn.setUniType c s v = .error z → z ≠ 0 := by
    intro z hz
    unfold Conn.setUniType at hz
    dsimp only at hz
    split_ifs at hz <;> cases hz <;> decide
  rcases h4 : Conn.setUniType c s v with z | ⟨c1, s1⟩ <;> rw [h4] at e <;> dsimp only at e
  · injection e with e
    injection e with _ e
    injection e with e
    exact absurd e (hu z h4)
  by_cases h5 : k = src.length
  · rw [if_pos h5] at e; cases e
  rw [if_neg h5] at e
  have := hd s1.ty (src.drop k) fin
  generalize Conn.deliverUni s1.ty (src.drop k) fin = o at e this
  cases o with
  | code z =>
    dsimp only at e
    injection e with e
    injection e with _ e
    exact absurd e this
  | _ => cases e

theorem readUni_code {ep : Ep} {id : Nat} {src : Bytes} {fin : Bool} {ep' : Ep} {r : Conn.Ret} {ev : List Ev} (e : readUni P ep id src fin = .ok ep' r ev) : r = .code src.length := by
  unfold readUni at e
  rcases e1 : Conn.readUni ep.c id src fin with _ | _ | _ | ⟨c', r1⟩ <;> rw [e1] at e <;> dsimp only [lift] at e
  · cases e
  · cases e
  · cases e
  cases r1 with
  | code z =>
    dsimp only at e
    by_cases hz : z = 0
    · subst hz
      rw [if_pos rfl] at e
      cases e
      rw [readUni_zero e1]; rfl
    · rw [if_neg hz] at e; cases e
  | discard a b => dsimp only at e; cases e; rfl
  | vecs v => cases e
  | route o =>
    rcases o with _ | ⟨ty, y⟩
    · cases e; rfl
    cases ty with
    | control =>
      dsimp only at e
      unfold readControl at e
      generalize Control.read _ _ _ = o at e
      cases o with
      | crash => cases e
      | stop => cases e
      | fail z => dsimp only at e; split_ifs at e
      | ok s =>
        dsimp only at e
        generalize s.conn.ext = o at e
        rcases o with _ | ⟨c1, rx1⟩ <;> cases e
        rfl
    | qenc =>
      dsimp only at e
      unfold readQenc at e
      generalize Qpack.Dec.readEncoder _ _ = o at e
      cases o with
      | crash => cases e
      | fail => cases e
      | ok d => exact release_code _ _ _ e
    | qdec =>
      dsimp only at e
      unfold readQdec at e
      generalize Qpack.Enc.readDecoder _ _ = o at e
      cases o with
      | crash => cases e
      | fail => cases e
      | ok d => cases e; rfl
    | _ => cases e

/-- a read on a unidirectional stream consumes everything -/
theorem uni_code {ep : Ep} {id : Nat} {src : Bytes} {fin : Bool} (hu : streamUni id = true) {ep' : Ep} {r : Conn.Ret} {ev : List Ev}
    (e : read P ep id src fin = .ok ep' r ev) : r = .code src.length := by
  rw [read_eq] at e
  rcases e1 : Conn.openStream ep.c id (src.isEmpty && fin) with _ | _ | _ | ⟨c', r1⟩ <;> rw [e1] at e <;> dsimp only [lift] at e
  · cases e
  · cases e
  · cases e
  obtain ⟨z, rfl⟩ := open_code e1
  dsimp only at e
  by_cases hz : z ≠ 0
  · rw [if_pos hz] at e; cases e
  rw [if_neg hz] at e
  obtain rfl : z = 0 := by simpa using hz
  by_cases hno : (c'.str id).isNone = true
  · rw [if_pos hno] at e
    cases e
    have hc : (c'.str id) = none := by simpa using hno
    by_cases hem : (src.isEmpty && fin) = true
    · rw [Bool.and_eq_true] at hem
      have : src = [] := by simpa using hem.1
      rw [this]; rfl
    · exfalso
      unfold Conn.openStream at e1
      have hem : (src.isEmpty && fin) = false := by simpa using hem
      rw [hem] at e1
      by_cases h1 : decide (id ≥ 2 ^ 62) = true
      · rw [if_pos h1] at e1; cases e1
      rw [if_neg h1] at e1
      have hb : clientBidi id = false := by
        cases hb : clientBidi id
        · rfl
        · rw [bidi_not_uni hb] at hu; cases hu
      rcases h2 : ep.c.str id with _ | s <;> rw [h2] at e1 <;> dsimp only at e1
      · rw [hb] at e1
        cases hs : ep.c.server <;> rw [hs] at e1 <;> simp only [Bool.false_eq_true, if_false, if_true] at e1
        · split_ifs at e1
          · cases e1
            rw [show (Conn.createStream _ id _ : CC).str id = some _ from PQ.upd_same _ _ _] at hc; cases hc
          · cases e1
        · split_ifs at e1
          · cases e1
          · cases e1
            rw [show (Conn.createStream _ id _ : CC).str id = some _ from PQ.upd_same _ _ _] at hc; cases hc
      · split_ifs at e1
        injection e1 with e1
        injection e1 with e1
        rw [e1, hc] at h2
        cases h2
  rw [if_neg hno] at e
  generalize ho : rest P (opened P ep id c') id src fin = o at e
  rcases o with _ | _ | ⟨ep2, r2, ev2⟩
  · cases e
  · cases e
  dsimp only [Res.after] at e
  injection e with e3 e4 e5
  subst e4
  unfold rest at ho
  by_cases h1 : (src.isEmpty && !fin) = true
  · rw [if_pos h1] at ho
    cases ho
    have : src = [] := by
      rw [Bool.and_eq_true] at h1
      simpa using h1.1
    rw [this]; rfl
  rw [if_neg h1, if_pos hu] at ho
  exact readUni_code ho

theorem uni_sum {server : Bool} {st : Settings} {x : Nat} (hx : streamUni x = true) {l : Log} {ep : Ep} (h : Hist P server st l ep) :
    (l.received x : Int) = (l.map (returned x)).sum := by
  induction h with
  | init => rfl
  | step h1 h2 e ih =>
    rename_i l ep ep' o r ev
    rw [received_snoc, returned_snoc]
    have : (o.given x : Int) = returned x (o, r, ev) := by
      cases o with
      | read id src fin =>
        by_cases hi : id = x
        · subst hi
          rw [uni_code (P := P) hx e]
          simp [Call.given, returned]
        · cases r <;> simp [Call.given, returned, hi]
      | _ => rfl
    push_cast
    omega

end Endpoint
end Nghttp3
