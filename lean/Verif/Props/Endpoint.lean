import Verif.Lemmas.EndpointRun
/-! C60 (a whole connection). -/
namespace Nghttp3
namespace Props
open Endpoint

/-- C60 (what holds).  Let a program make any permitted calls, and let the peer send any bytes, on any streams, in any order and packets.  The
only way in which an assertion of the library can fail is the one of C47: on a server, in a call of nghttp3_conn_read_stream that ends at one
particular place of a frame of the control stream; it would not have failed if one more byte had been received. -/
theorem C60_safe {P : Par} (hP : ParOk P) {server : Bool} {st : Settings} (hst : SettingsOk st) {log : Log} {ep : Ep} (h : Hist P server st log ep) {o : Call}
    (ho : Permitted ep o) (hc : step P ep o = .crash) :
    server = true ∧ ∃ id src fin, o = .read id src fin ∧ ∀ b, step P ep (.read id (src ++ [b]) fin) ≠ .crash := by
  have hi := hist_einv hP hst h
  obtain ⟨_, _, _, _, hsv, _⟩ := hi.core.q
  rcases step_fine hP hi ho with g | ⟨_, id, src, fin, g1, g2, g3⟩
  · rw [hc] at g; exact g.elim
  · exact ⟨hsv.symm.trans g2, id, src, fin, g1, g3⟩

/-- C60.  No assertion fails on a client. -/
theorem C60_client_safe {P : Par} (hP : ParOk P) {st : Settings} (hst : SettingsOk st) {log : Log} {ep : Ep} (h : Hist P false st log ep) {o : Call}
    (ho : Permitted ep o) : step P ep o ≠ .crash :=
  fun hc => by cases (C60_safe hP hst h ho hc).1

/-- C60.  There are never more streams that wait for the QPACK encoder stream than the endpoint has announced in its settings. -/
theorem C60_blocked_streams {P : Par} (hP : ParOk P) {server : Bool} {st : Settings} (hst : SettingsOk st) {log : Log} {ep : Ep} (h : Hist P server st log ep)
    (l : List Nat) (hl : l.Nodup) (hw : ∀ x ∈ l, Waiting ep x) : l.length ≤ st.qpackBlockedStreams := by
  obtain ⟨M, h1, h2, h3, _⟩ := (hist_einv hP hst h).core.q
  have hs : l ⊆ M := fun x hx => (h2 x).2 (hw x hx)
  exact Nat.le_trans (hl.subperm hs).length_le h3

/-- C60.  A stream waits only for table entries that have not arrived: no wakeup is lost. -/
theorem C60_no_lost_wakeup {P : Par} (hP : ParOk P) {server : Bool} {st : Settings} (hst : SettingsOk st) {log : Log} {ep : Ep} (h : Hist P server st log ep)
    (x : Nat) (hw : Waiting ep x) : ep.dec.ctx.next < (ep.rx x).sc.ricnt :=
  (hist_einv hP hst h).waits x hw

/-- C60.  The QPACK encoder can encode any fields at any time. -/
theorem C60_encoder {P : Par} (hP : ParOk P) {server : Bool} {st : Settings} (hst : SettingsOk st) {log : Log} {ep : Ep} (h : Hist P server st log ep)
    (id : Nat) (nva : List Qpack.Nv) : (ep.c.enc.encode id nva).isSome = true := by
  obtain ⟨o, h1, _⟩ := Qpack.encode_ok (hist_einv hP hst h).core.c.enc.inv id nva
  rw [h1]; rfl

/-- C60.  A stream is released once only: what the connection notes about a stream that waits (whether it was closed meanwhile) is what its
reader notes. -/
theorem C60_views_agree {P : Par} (hP : ParOk P) {server : Bool} {st : Settings} (hst : SettingsOk st) {log : Log} {ep : Ep} (h : Hist P server st log ep)
    (x : Nat) (s : Conn.Strm Fld) (hx : Conn.clientBidi x = true) (hs : ep.c.str x = some s) :
    (ep.rx x).blocked = s.qblocked ∧ (ep.rx x).closed = s.closed ∧ (ep.rx x).gone = false :=
  let k := (hist_einv hP hst h).core.r.str x s hx hs
  ⟨k.blk, k.cl, k.gone⟩

/-! ### A concrete case -/

namespace EpDemo

def allowedB (ep : Ep) : Call → Bool
  | .read id _ _ => decide (id < 2 ^ 62) && !decide (id % 4 = if ep.c.server then 3 else 2)
  | .bindControl id => decide (id < 2 ^ 62) && decide (id % 4 = if ep.c.server then 3 else 2)
  | .bindQpack e d => decide (e < 2 ^ 62) && decide (d < 2 ^ 62) && decide (e % 4 = if ep.c.server then 3 else 2) && decide (d % 4 = if ep.c.server then 3 else 2)
  | .submitResponse id _ _ => Conn.clientBidi id && ep.c.server && ep.c.qenc.isSome && (match ep.c.str id with | none => true | some s => !s.closed)
  | .writev _ as => as.isEmpty
  | .addWrite id n => match ep.c.str id with | none => true | some s => !s.closed && decide (n ≤ s.out.unsent)
  | .close id => match ep.c.str id with | none => true | some s => !s.qblocked
  | .submitRequest id _ _ => decide (ep.c.server = false) && ep.c.qenc.isSome && decide (id < 2 ^ 62) && decide (id % 4 = 0) && (ep.c.str id).isNone
  | .shutRd id => decide (id < 2 ^ 62)
  | .shutdown => ep.c.ctrl.isSome && !ep.c.shutdownCommenced
  | .notice => ep.c.ctrl.isSome && !ep.c.shutdownCommenced
  | .setServerPri id pri => ep.c.server && decide (pri.urgency < 8) && decide (id < 2 ^ 62) && match ep.c.str id with | none => true | some s => !s.closed
  | .block _ => true
  | .unblock id => match ep.c.str id with | none => true | some s => !s.closed
  | .shutWr _ => true
  | .setMaxClient n => ep.c.server && decide (ep.c.maxClient ≤ n)
  | _ => false

theorem allowedB_ok {ep : Ep} {o : Call} (h : allowedB ep o = true) : Permitted ep o := by
  unfold Permitted
  cases o with
  | read id src fin =>
    simp only [allowedB, Bool.and_eq_true, Bool.not_eq_true', decide_eq_true_eq, decide_eq_false_iff_not] at h
    intro i s f g; cases g; exact h
  | bindControl id =>
    simp only [allowedB, Bool.and_eq_true, decide_eq_true_eq] at h
    exact ⟨trivial, trivial, h, fun _ g => by cases g⟩
  | bindQpack e d =>
    simp only [allowedB, Bool.and_eq_true, decide_eq_true_eq] at h
    exact ⟨trivial, trivial, ⟨h.1.1.1, h.1.1.2, h.1.2, h.2⟩, fun _ g => by cases g⟩
  | submitResponse id nva dr =>
    simp only [allowedB, Bool.and_eq_true] at h
    refine ⟨h.1.1.1, fun s g => ?_, ⟨h.1.1.2, h.1.2⟩, fun _ g => by cases g⟩
    have := h.2; rw [g] at this; simpa using this
  | writev k as =>
    simp only [allowedB, List.isEmpty_iff] at h
    subst h
    exact ⟨trivial, trivial, (fun a g => by cases g), (fun _ g => by cases g)⟩
  | addWrite id n =>
    simp only [allowedB] at h
    refine ⟨trivial, fun s g => ?_, fun s g => ?_, fun _ g => by cases g⟩ <;>
    · rw [g] at h
      simp only [Bool.and_eq_true, decide_eq_true_eq, Bool.not_eq_true'] at h
      first | exact h.1 | exact h.2
  | close id =>
    simp only [allowedB] at h
    refine ⟨trivial, trivial, trivial, fun i g _ s hs => ?_⟩
    cases g
    rw [hs] at h; simpa using h
  | submitRequest id nva dr =>
    simp only [allowedB, Bool.and_eq_true, decide_eq_true_eq] at h
    exact ⟨by simpa [Conn.OpOk, Conn.clientBidi] using h.1.2, trivial, ⟨h.1.1.1.1, h.1.1.1.2, h.1.1.2, h.1.2⟩, fun _ g => by cases g⟩
  | shutRd id =>
    simp only [allowedB, decide_eq_true_eq] at h
    exact ⟨trivial, trivial, h, fun _ g => by cases g⟩
  | shutdown =>
    simp only [allowedB, Bool.and_eq_true, Bool.not_eq_true'] at h
    exact ⟨trivial, trivial, h, fun _ g => by cases g⟩
  | notice =>
    simp only [allowedB, Bool.and_eq_true, Bool.not_eq_true'] at h
    exact ⟨trivial, trivial, h, fun _ g => by cases g⟩
  | setServerPri id pri =>
    simp only [allowedB, Bool.and_eq_true, decide_eq_true_eq] at h
    refine ⟨trivial, fun s g => ?_, ⟨h.1.1.1, h.1.1.2, h.1.2⟩, fun _ g => by cases g⟩
    have := h.2; rw [g] at this; simpa using this
  | block id => exact ⟨trivial, trivial, trivial, fun _ g => by cases g⟩
  | shutWr id => exact ⟨trivial, trivial, trivial, fun _ g => by cases g⟩
  | unblock id =>
    simp only [allowedB] at h
    refine ⟨trivial, fun s g => ?_, trivial, fun _ g => by cases g⟩
    rw [g] at h; simpa using h
  | setMaxClient n =>
    simp only [allowedB, Bool.and_eq_true, decide_eq_true_eq] at h
    exact ⟨trivial, trivial, h, fun _ g => by cases g⟩
  | _ => cases h

/-- makes the calls, if they are permitted -/
def makeCalls (P : Par) : List Call → Ep → Option (Ep × Log)
  | [], ep => some (ep, [])
  | o :: t, ep =>
    if allowedB ep o then
      match step P ep o with
      | .ok ep' r ev => (makeCalls P t ep').map fun p => (p.1, (o, r, ev) :: p.2)
      | _ => none
    else none

theorem makeCalls_hist {P : Par} {server : Bool} {st : Settings} (t : List Call) {l l' : Log} {ep ep' : Ep} (h : Hist P server st l ep)
    (e : makeCalls P t ep = some (ep', l')) : Hist P server st (l ++ l') ep' := by
  induction t generalizing l l' ep with
  | nil => cases e; rw [List.append_nil]; exact h
  | cons o t ih =>
    unfold makeCalls at e
    split_ifs at e with ha
    rcases hs : step P ep o with _ | _ | ⟨ep1, r, ev⟩ <;> rw [hs] at e
    · cases e
    · cases e
    dsimp only at e
    rcases hm : makeCalls P t ep1 with _ | ⟨ep2, l2⟩ <;> rw [hm] at e
    · cases e
    cases e
    have := ih (.step h (allowedB_ok ha) hs) hm
    rwa [List.append_assoc] at this

def anyPar : Par := { pp := fun p _ => some p, cb := fun _ => true }
def someSettings : Settings := { maxFieldSectionSize := 2 ^ 62 - 1, qpackMaxDtableCapacity := 4096, qpackEncoderMaxDtableCapacity := 4096, qpackBlockedStreams := 1 }

/-- a request whose field section refers to the first entry of the dynamic table -/
def request : Bytes := [1, 6, 2, 0, 0xd1, 0xc1, 0xd7, 0x80]
/-- the QPACK encoder stream of the client: capacity 4096, and the entry ":authority: a" -/
def inserts : Bytes := [2, 0x3f, 0xe1, 0x1f, 0xc0, 1, 0x61]

/-- a server is set up, and gets the request before the table entry -/
def early : List Call := [.bindControl 3, .bindQpack 7 11, .read 0 request true]
/-- the entry arrives, the application responds, and sends -/
def late : List Call := early ++ [.read 2 inserts false, .submitResponse 0 [{ name := [58, 115, 116, 97, 116, 117, 115], value := [50, 48, 48] }] false, .writev 8 [], .writev 8 []]

def waitsB (ep : Ep) (x : Nat) : Bool := Conn.clientBidi x && match ep.c.str x with | some s => s.qblocked | none => false

theorem waitsB_ok {ep : Ep} {x : Nat} (h : waitsB ep x = true) : Waiting ep x := by
  unfold waitsB at h
  rw [Bool.and_eq_true] at h
  refine ⟨h.1, ?_⟩
  rcases hs : ep.c.str x with _ | s <;> rw [hs] at h
  · cases h.2
  · exact ⟨s, rfl, h.2⟩

/-- the values of the fields that were delivered on stream 0 -/
def values (l : Log) : List Bytes := (l.map (·.2.2)).flatten.filterMap fun e => match e with | .str 0 (.header f) => some f.value | _ => none

end EpDemo
open EpDemo

set_option maxRecDepth 100000 in
/-- the request waits; when the entry has arrived it is delivered, and nothing waits any more -/
theorem C60_example :
    ((makeCalls anyPar early (init true someSettings)).map fun r => (waitsB r.1 0, values r.2)) = some (true, []) ∧
    ((makeCalls anyPar late (init true someSettings)).map fun r => (waitsB r.1 0, values r.2)) =
      some (false, [[71, 69, 84], [47], [104, 116, 116, 112, 115], [97]]) := by
  constructor <;> decide +kernel

theorem EpDemo.anyPar_ok : ParOk anyPar := fun p b q h e => by cases e; exact h

theorem EpDemo.someSettings_ok : SettingsOk someSettings := by unfold SettingsOk someSettings; refine ⟨?_, ?_, ?_, ?_⟩ <;> decide

/-- there are permitted histories after which a stream waits -/
theorem C60_reachable : ParOk anyPar ∧ SettingsOk someSettings ∧ ∃ log ep, Hist anyPar true someSettings log ep ∧ Waiting ep 0 := by
  refine ⟨anyPar_ok, someSettings_ok, ?_⟩
  have := C60_example.1
  rcases h : makeCalls anyPar early (init true someSettings) with _ | ⟨ep, l⟩ <;> rw [h] at this
  · cases this
  · exact ⟨[] ++ l, ep, makeCalls_hist _ .init h, waitsB_ok (by
      have := congrArg (Option.map (·.1)) this
      simpa using this)⟩

def EpDemo.crashed : Res → Bool
  | .crash => true
  | _ => false

/-- the stream type, SETTINGS, and a PRIORITY_UPDATE frame that is cut after the prioritized element ID -/
def EpDemo.cut : Bytes := [0, 4, 0, 0x80, 0x0f, 0x07, 0x00, 4, 0]

set_option maxRecDepth 100000 in
/-- the exception of `C60_safe` is real: a new server fails an assertion when the first packet of a client's control stream ends there -/
theorem C60_fails_on_server : Permitted (init true someSettings) (.read 2 cut false) ∧ step anyPar (init true someSettings) (.read 2 cut false) = .crash := by
  refine ⟨allowedB_ok (by decide +kernel), ?_⟩
  have : crashed (step anyPar (init true someSettings) (.read 2 cut false)) = true := by decide +kernel
  generalize step anyPar (init true someSettings) (.read 2 cut false) = r at this ⊢
  cases r <;> first | rfl | cases this

end Props
end Nghttp3
