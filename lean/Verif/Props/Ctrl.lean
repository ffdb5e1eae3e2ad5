import Verif.Lemmas.EndpointCtrl
import Verif.Lemmas.ControlOrder
import Verif.Props.Frame
import Verif.Props.Drain
/-! Property theorems C65: the control stream of the peer in a whole connection. -/
namespace Nghttp3
namespace Endpoint
open Conn (UState IsUni)
open Control (bare feed start)

variable {P : Par} {server : Bool} {st : Settings}

/-- the stream type that arrived is the one the connection knows -/
theorem typed {l : Log} {ep : Ep} {chunks : List Bytes} (h : CJ P server l ep chunks) {u v : Nat} {t bs : Bytes} (hu : Conn.peerUni server u) (ht : Spec.IsVarint v t)
    (ha : l.arrived u = t ++ bs) : ∃ ty, IsUni ep.c ty u ∧ Conn.Typ v ty := by
  have hs := h.st u hu
  rw [ha] at hs
  rcases hq : ep.c.str u with _ | s <;> rw [hq] at hs
  · have := isVarint_pos ht
    have hs : t ++ bs = [] := hs
    rw [List.append_eq_nil_iff] at hs
    rw [hs.1] at this; simp at this
  · obtain ⟨_, h1, h2⟩ := hs
    rcases hi : s.ident with _ | _
    · exact absurd rfl ((h2 hi).short ht)
    · obtain ⟨v', p, y, k1, k2, k3⟩ := h1 hi
      obtain ⟨rfl, _, _⟩ := Props.isVarint_unique ht k1 k3
      exact ⟨s.ty, ⟨s, hq, hi, rfl⟩, k2⟩

theorem control_bytes {l : Log} {ep : Ep} {chunks : List Bytes} (h : CJ P server l ep chunks) {u : Nat} {bs : Bytes} (hc : IsControl server l u bs) :
    chunks.flatten = bs := by
  obtain ⟨hu, t, ht, ha⟩ := hc
  obtain ⟨ty, k1, k2⟩ := typed h hu ht ha
  have : ty = .control := by
    rcases k2 with k2 | ⟨k2, _⟩
    · cases k2; rfl
    · omega
  subst this
  obtain ⟨p, m1, m2⟩ := h.con u k1
  rw [ha] at m2
  exact (Props.isVarint_unique ht m1 m2).2.2.symm

end Endpoint

namespace Props
open Endpoint Spec.Control
open Control (bare feed start toReport)
open EpDemo

theorem outcome_accepted {S : Type} {server : Bool} {pri : S → Nat → List UInt8 → Except Int S} {past : List Frame} {x : S} {fs past' : List Frame} {x' : S}
    (h : outcome server pri past x fs = .accepted past' x') : past' = past ++ fs ∧ ∀ a f b, fs = a ++ f :: b → verdict server (past ++ a) f = none := by
  induction fs generalizing past x with
  | nil =>
    unfold outcome at h
    cases h
    exact ⟨by simp, fun a f b g => by simp at g⟩
  | cons f fs ih =>
    unfold outcome at h
    rcases hv : verdict server past f with _ | e <;> rw [hv] at h <;> dsimp only at h
    · have key : ∀ {x1 : S}, outcome server pri (past ++ [f]) x1 fs = .accepted past' x' →
          past' = past ++ f :: fs ∧ ∀ a g b, f :: fs = a ++ g :: b → verdict server (past ++ a) g = none := by
        intro x1 h
        obtain ⟨h1, h2⟩ := ih h
        refine ⟨by rw [h1]; simp, fun a g b k => ?_⟩
        rcases a with _ | ⟨f', a⟩
        · rw [List.nil_append] at k
          injection k with k1 k2
          subst k1
          rw [List.append_nil]; exact hv
        · rw [List.cons_append] at k
          injection k with k1 k2
          subst k1
          have := h2 a g b k2
          rwa [List.append_assoc] at this
      cases f with
      | priorityUpdate id fld =>
        dsimp only at h
        rcases hp : pri x id fld with e | x1 <;> rw [hp] at h <;> dsimp only at h
        · cases h
        · exact key h
      | _ => exact key h
    · cases h

/-- C65.  Take any history of a connection of an application whose callbacks succeed, and suppose that what arrived on the control
stream of the peer - whatever calls brought it and whatever happened in between on other streams - is the frames `fs`, complete, no
PRIORITY_UPDATE value being longer than 8 bytes.  Then each of these frames was acceptable after those before it, and the application
was told of the SETTINGS and GOAWAY frames among them, with their contents, in their order, once each, and of nothing else. -/
theorem C65_reports (P : Par) (server : Bool) (st : Settings) (l : Log) (ep : Ep) (u : Nat) (bs : Bytes) (fs : List Frame) (hP : ParOk P) (hst : SettingsOk st)
    (hcb : ∀ ev, P.cb ev = true) (h : Endpoint.Hist P server st l ep) (hc : IsControl server l u bs) (hfs : EncodesAll fs bs)
    (hshort : ∀ id fld, Frame.priorityUpdate id fld ∈ fs → fld.length ≤ 8) :
    (∀ a f b, fs = a ++ f :: b → verdict server a f = none) ∧ l.reports.map toReport = reports server fs := by
  obtain ⟨chunks, hj⟩ := hist_cj hP hst h
  obtain ⟨e, hrun⟩ := hj.run
  obtain rfl := control_bytes hj hc
  have := C27_frames (bare (env P)) hcb server noEnc () fs chunks hj.ne hfs hshort (by rw [hrun]; simp)
  rcases ho : outcome server (priorityUpdate (bare (env P)).parsePri (bare (env P)).onPri) [] () fs with ⟨past, x⟩ | ⟨past, x, e'⟩ <;> rw [ho] at this
  · obtain ⟨h1, h2⟩ := outcome_accepted ho
    rw [List.nil_append] at h1
    subst h1
    obtain ⟨c, k1, k2, _⟩ := this
    rw [hrun] at k1
    injection k1 with k1
    refine ⟨fun a f b g => by simpa using h2 a f b g, ?_⟩
    rw [hj.rep, ← k2, show c.ev = (ep.ctl.recast e ()).conn.ev from by rw [k1]]
    rfl
  · obtain ⟨c, k1, _⟩ := this
    rw [hrun] at k1
    cases k1

/-- C65.  On a client what follows the complete frames may be anything, for example the beginning of a frame: the complete frames are
acceptable and the callbacks begin with those for the complete frames. -/
theorem C65_reports_client (P : Par) (st : Settings) (l : Log) (ep : Ep) (u : Nat) (bs rest : Bytes) (fs : List Frame) (hP : ParOk P) (hst : SettingsOk st)
    (hcb : ∀ ev, P.cb ev = true) (h : Endpoint.Hist P false st l ep) (hc : IsControl false l u (bs ++ rest)) (hfs : EncodesAll fs bs)
    (hshort : ∀ id fld, Frame.priorityUpdate id fld ∈ fs → fld.length ≤ 8) :
    (∀ a f b, fs = a ++ f :: b → verdict false a f = none) ∧ reports false fs <+: l.reports.map toReport := by
  obtain ⟨chunks, hj⟩ := hist_cj hP hst h
  obtain ⟨e, hrun⟩ := hj.run
  have hfl := control_bytes hj hc
  rw [Control.feed_client _ _ hj.ne (Control.inv_start ..) rfl, hfl, Control.runI_append _ _ _ (Control.inv_start ..)] at hrun
  have := Control.ideal_frames (env := bare (env P)) hcb false noEnc () hfs hshort
  rcases ho : outcome false (Control.priOf (bare (env P))) [] () fs with ⟨past, x⟩ | ⟨past, x, e'⟩ <;> rw [ho] at this
  · obtain ⟨h1, h2⟩ := outcome_accepted ho
    rw [List.nil_append] at h1
    subst h1
    obtain ⟨c, k1, hv⟩ := this
    rw [k1] at hrun
    dsimp only at hrun
    have hi : Control.Inv Control.Pnil ({ conn := c } : Control.St Unit) := Control.inv_idle Control.bufNil _
    have hgr : c.ev <+: ep.ctl.conn.ev := by
      by_cases hr : rest = []
      · subst hr
        have : Control.runI (bare (env P)) ({ conn := c } : Control.St Unit) [] = .ok { conn := c } := by
          unfold Control.runI Machine.run Machine.loop; simp
        rw [this] at hrun
        injection hrun with hrun
        rw [show c.ev = (ep.ctl.recast e ()).conn.ev from by rw [← hrun]]
        exact List.prefix_refl _
      · have k := Control.feed_client (env := bare (env P)) ({ conn := c } : Control.St Unit) [rest] (by simpa using hr) hi hv.sv
        rw [List.flatten_singleton, hrun] at k
        unfold feed at k
        rcases hrd : Control.read (bare (env P)) ({ conn := c } : Control.St Unit) rest with _ | _ | _ | s <;> rw [hrd] at k <;> dsimp only [feed] at k
        · cases k
        · cases k
        · cases k
        · injection k with k
          subst k
          exact Control.read_grows _ _ _ hrd
    refine ⟨fun a f b g => by simpa using h2 a f b g, ?_⟩
    rw [hj.rep, ← hv.ev]
    exact List.IsPrefix.map _ hgr
  · obtain ⟨c, k1, _⟩ := this
    rw [k1] at hrun
    cases hrun

/-- C65.  For arbitrary bytes: the application is told of the settings of the peer at most once, before any shutdown callback; the identifiers
of the shutdown callbacks never increase, and on a client they are those of request streams. -/
theorem C65_order (P : Par) (server : Bool) (st : Settings) (l : Log) (ep : Ep) (hP : ParOk P) (hst : SettingsOk st) (h : Endpoint.Hist P server st l ep) :
    l.reports = [] ∨ ∃ x, ∃ ids : List Nat, l.reports = .settings x :: ids.map .shutdown ∧ ids.Pairwise (· ≥ ·) ∧ (server = false → ∀ id ∈ ids, id % 4 = 0) := by
  obtain ⟨chunks, hj⟩ := hist_cj hP hst h
  obtain ⟨e, hrun⟩ := hj.run
  rw [hj.rep]
  have hph := Control.feed_ph _ _ (show Control.Ph (start server noEnc ()) from .before rfl rfl rfl rfl) hrun
  have h29 := C29_received (bare (env P)) server noEnc () chunks _ (by rw [hrun]; rfl)
  rcases hph with ⟨_, b, _, _⟩ | ⟨_, b, _, _⟩ | ⟨_, x, ids, b, _, _, _⟩
  · exact .inl b
  · exact .inl b
  · rw [b] at h29
    have hs : shutdowns (.settings x :: ids.map .shutdown) = ids := by
      unfold shutdowns
      rw [List.filterMap_cons]
      dsimp only
      rw [List.filterMap_map]
      exact List.filterMap_some
    rw [hs] at h29
    exact .inr ⟨x, ids, b, h29.1, h29.2⟩

/-- C65.  Nothing is reported unless there is a control stream of the peer: if there was a callback, then some stream of the peer has
type 0 (and something has arrived on it after the type). -/
theorem C65_source (P : Par) (server : Bool) (st : Settings) (l : Log) (ep : Ep) (hP : ParOk P) (hst : SettingsOk st) (h : Endpoint.Hist P server st l ep)
    (hr : l.reports ≠ []) : ∃ u bs, IsControl server l u bs ∧ bs ≠ [] := by
  obtain ⟨chunks, hj⟩ := hist_cj hP hst h
  obtain ⟨e, hrun⟩ := hj.run
  have hne : chunks.flatten ≠ [] := by
    intro hn
    have : chunks = [] := by
      rcases chunks with _ | ⟨c, cs⟩
      · rfl
      · rw [List.flatten_cons, List.append_eq_nil_iff] at hn
        exact absurd hn.1 (hj.ne c (by simp))
    subst this
    injection hrun with hrun
    refine hr ?_
    rw [hj.rep, show ep.ctl.conn.ev = (ep.ctl.recast e ()).conn.ev from rfl, ← hrun]
    rfl
  by_cases hu : ∃ u, Conn.IsUni ep.c .control u
  · obtain ⟨u, hu⟩ := hu
    obtain ⟨p, k1, k2⟩ := hj.con u hu
    exact ⟨u, _, ⟨hj.peer _ _ hu, p, k1, k2⟩, hne⟩
  · exact absurd (by rw [hj.none fun u g => hu ⟨u, g⟩]; rfl) hne

/-- C65.  There is never a second control stream, QPACK encoder stream or QPACK decoder stream of the peer, nor a push
stream.  (A call that would make one returns an error.) -/
theorem C65_one_each (P : Par) (server : Bool) (st : Settings) (l : Log) (ep : Ep) (hP : ParOk P) (hst : SettingsOk st) (h : Endpoint.Hist P server st l ep) :
    (∀ v u u', v = 0 ∨ v = 2 ∨ v = 3 → HasType server l u v → HasType server l u' v → u = u') ∧ ∀ u, ¬ HasType server l u 1 := by
  obtain ⟨chunks, hj⟩ := hist_cj hP hst h
  have hun := (hist_einv hP hst h).core.c.uni
  constructor
  · rintro v u u' hv ⟨a1, t, bs, a2, a3⟩ ⟨b1, t', bs', b2, b3⟩
    obtain ⟨ty, c1, c2⟩ := typed hj a1 a2 a3
    obtain ⟨ty', d1, d2⟩ := typed hj b1 b2 b3
    rcases hv with rfl | rfl | rfl <;> rcases c2 with c2 | ⟨c2, _⟩ <;> rcases d2 with d2 | ⟨d2, _⟩ <;> first | omega | skip
    all_goals
      cases c2
      cases d2
      exact hun.one _ _ _ (by simp) c1 d1
  · rintro u ⟨a1, t, bs, a2, a3⟩
    obtain ⟨ty, c1, c2⟩ := typed hj a1 a2 a3
    rcases c2 with c2 | ⟨c2, _⟩
    · cases c2
    · omega

/-- C65.  On a client, as soon as the shutdown callback has been made, no request can be submitted: nghttp3_conn_submit_request returns
NGHTTP3_ERR_CONN_CLOSING; and never before. -/
theorem C65_no_request (P : Par) (st : Settings) (l : Log) (ep ep' : Ep) (id : Nat) (nva : List Qpack.Nv) (dr : Bool) (r : Conn.Ret) (ev : List Endpoint.Ev)
    (hP : ParOk P) (hst : SettingsOk st) (h : Endpoint.Hist P false st l ep)
    (e : Endpoint.step P ep (.submitRequest id nva dr) = .ok ep' r ev) :
    r = .code Err.CONN_CLOSING ↔ ∃ g, Control.Ev.shutdown g ∈ l.reports := by
  obtain ⟨chunks, hj⟩ := hist_cj hP hst h
  obtain ⟨e0, hrun⟩ := hj.run
  have hph := Control.feed_ph _ _ (show Control.Ph (start false noEnc ()) from .before rfl rfl rfl rfl) hrun
  have hgo : ep.c.goawayRecved = true ↔ ∃ g, Control.Ev.shutdown g ∈ l.reports := by
    rw [← hist_sync hP hst h, hj.rep]
    rcases hph with ⟨_, b, g, _⟩ | ⟨_, b, g, _⟩ | ⟨_, x, ids, b, g, _, _⟩
    · rw [show ep.ctl.conn.goawayRecved = false from g, show ep.ctl.conn.ev = [] from b]; simp
    · rw [show ep.ctl.conn.goawayRecved = false from g, show ep.ctl.conn.ev = [] from b]; simp
    · rw [show ep.ctl.conn.ev = _ from b]
      refine Iff.trans g ⟨fun hn => ?_, fun ⟨i, hi⟩ => ?_⟩
      · rcases ids with _ | ⟨i, ids⟩
        · exact absurd rfl hn
        · exact ⟨i, by simp⟩
      · rintro rfl
        simp at hi
  rw [← hgo]
  change submitRequest P ep id nva dr = _ at e
  unfold submitRequest at e
  rcases e1 : Conn.submitRequest ep.c id (id, nva) dr with _ | _ | _ | ⟨c', r1⟩ <;> rw [e1] at e <;> dsimp only [lift] at e
  · cases e
  · cases e
  · cases e
  cases e
  unfold Conn.submitRequest at e1
  split_ifs at e1 with h1 h2
  · cases e1
    simp [h2]
  · simp only [h2]
    rcases hs : ep.c.str id with _ | s <;> rw [hs] at e1 <;> dsimp only at e1
    · generalize Conn.submitHeadersData _ id _ (id, nva) dr = q at e1
      rcases q with _ | _ | _ | c <;> cases e1
      simp [Err.CONN_CLOSING]
    · cases e1
      simp [Err.CONN_CLOSING, Err.STREAM_IN_USE]

/-- C65.  On a client the callbacks of the control stream depend only on the bytes that arrived on it: not on how they were divided among
calls, nor on anything else that happened on the connection, nor on the settings. -/
theorem C65_client (P : Par) (st st' : Settings) (l l' : Log) (ep ep' : Ep) (u u' : Nat) (bs : Bytes) (hP : ParOk P) (hst : SettingsOk st) (hst' : SettingsOk st')
    (h : Endpoint.Hist P false st l ep) (h' : Endpoint.Hist P false st' l' ep') (hc : IsControl false l u bs) (hc' : IsControl false l' u' bs) :
    l.reports = l'.reports := by
  obtain ⟨chunks, hj⟩ := hist_cj hP hst h
  obtain ⟨chunks', hj'⟩ := hist_cj hP hst' h'
  obtain ⟨e, hrun⟩ := hj.run
  obtain ⟨e', hrun'⟩ := hj'.run
  have := C30_client (bare (env P)) noEnc () chunks chunks' hj.ne hj'.ne (by rw [control_bytes hj hc, control_bytes hj' hc'])
  rw [hrun, hrun'] at this
  injection this with this
  rw [hj.rep, hj'.rep, show ep.ctl.conn.ev = (ep.ctl.recast e ()).conn.ev from rfl, this]
  rfl

/-! ## example -/

/-- a client; SETTINGS, a frame of unknown type and two GOAWAY frames arrive in pieces, between them the QPACK streams of the server; the request
at the end comes too late -/
def EpDemo.told : List Call :=
  [.bindControl 2, .bindQpack 6 10, .submitRequest 0 [{ name := [58], value := [97] }] false, .read 3 [0, 4, 2, 6] false, .read 7 [2] false, .read 3 [9, 0x21, 1] false,
    .read 3 [5, 7, 1, 8, 7, 1] false, .read 11 [3] false, .read 3 [4] false, .submitRequest 4 [{ name := [58], value := [97] }] false]
def EpDemo.toldFrames : List Frame := [.settings [(6, 9)], .other 0x21 [5], .goaway 8, .goaway 4]
def EpDemo.toldBytes : Bytes := [4, 2, 6, 9] ++ ([0x21, 1, 5] ++ ([7, 1, 8] ++ ([7, 1, 4] ++ [])))

def EpDemo.codeOf : Conn.Ret → Option Int
  | .code e => some e
  | _ => none

theorem told_encodes : EncodesAll toldFrames toldBytes := by
  have v : ∀ n : Nat, n < 64 → Spec.IsVarint n [UInt8.ofNat n] := by
    intro n hn
    refine ⟨0, by decide, rfl, by omega, ?_⟩
    simp [Spec.bigEndian]
    omega
  refine .cons ⟨[6, 9], .cons (bi := [6]) (bv := [9]) (v 6 (by decide)) (v 9 (by decide)) .nil, [4], [2], v 4 (by decide), v 2 (by decide), rfl⟩
    (.cons ⟨by decide, by decide, by decide, by decide, [0x21], [1], v 0x21 (by decide), v 1 (by decide), rfl⟩
    (.cons ⟨[8], v 8 (by decide), [7], [1], v 7 (by decide), v 1 (by decide), rfl⟩ (.cons ⟨[4], v 4 (by decide), [7], [1], v 7 (by decide), v 1 (by decide), rfl⟩ .nil)))

set_option maxRecDepth 100000 in
/-- C65 is about such histories: three callbacks are made, and the late request is refused -/
theorem C65_example : ∃ (l : Log) (ep : Ep), Endpoint.Hist anyPar false someSettings l ep ∧ IsControl false l 3 toldBytes ∧ EncodesAll toldFrames toldBytes ∧
    HasType false l 7 2 ∧ HasType false l 11 3 ∧ l.reports.map toReport = [.settings (settingsOf false [(6, 9)]), .shutdown 8, .shutdown 4] ∧
    (l.getLast?.map fun x => codeOf x.2.1) = some (some Err.CONN_CLOSING) := by
  rcases h1 : makeCalls anyPar told (init false someSettings) with _ | ⟨ep, l⟩
  · have : (makeCalls anyPar told (init false someSettings)).isSome = true := by decide +kernel
    rw [h1] at this; cases this
  have v : ∀ n : Nat, n < 64 → Spec.IsVarint n [UInt8.ofNat n] := by
    intro n hn
    refine ⟨0, by decide, rfl, by omega, ?_⟩
    simp [Spec.bigEndian]
    omega
  have k1 : (makeCalls anyPar told (init false someSettings)).map (fun r => (r.2.arrived 3, r.2.arrived 7, r.2.arrived 11)) = some (0 :: toldBytes, [2], [3]) := by
    decide +kernel
  have k4 : (makeCalls anyPar told (init false someSettings)).map (fun r => r.2.reports.map toReport) =
      some [.settings (settingsOf false [(6, 9)]), .shutdown 8, .shutdown 4] := by decide +kernel
  have k5 : (makeCalls anyPar told (init false someSettings)).map (fun r => r.2.getLast?.map fun x => codeOf x.2.1) = some (some (some Err.CONN_CLOSING)) := by decide +kernel
  rw [h1] at k1 k4 k5
  injection k1 with k1
  injection k4 with k4
  injection k5 with k5
  simp only [Prod.mk.injEq] at k1
  obtain ⟨k1, k2, k3⟩ := k1
  exact ⟨l, ep, by simpa using makeCalls_hist _ .init h1, ⟨rfl, [0], v 0 (by decide), k1⟩, told_encodes, ⟨rfl, [2], [], v 2 (by decide), k2⟩,
    ⟨rfl, [3], [], v 3 (by decide), k3⟩, k4, k5⟩

end Props
end Nghttp3
