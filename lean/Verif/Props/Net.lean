import Verif.Lemmas.NetStep
/-! C54: two endpoints of this library -/
namespace Nghttp3
namespace Props
open Net Http Qpack Bidi

/-- C54.  Whatever the sender submits (well-formed messages), in whatever pieces and in whatever order the bytes of the streams arrive:
neither endpoint reports an error, and no assertion fails. -/
theorem C54_never_fails (P : Par) (hP : P.Ok) (ops : List NOp) (ha : Net.Admissible P (Net.init P) ops) : ∃ n, (Net.init P).run P ops = .ok n := by
  obtain ⟨h1, h2⟩ := net_init hP
  obtain ⟨n, l, h3, _⟩ := net_run hP h1 h2 ops ha
  exact ⟨n, h3⟩

theorem net_inv {P : Par} (hP : P.Ok) {ops : List NOp} (ha : Net.Admissible P (Net.init P) ops) {n : Sys} (hr : (Net.init P).run P ops = .ok n) : ∃ l, Core P l n ∧ Strs P l l.p.dec.ctx.next n := by
  obtain ⟨h1, h2⟩ := net_init hP
  obtain ⟨n', l, h3, h4, h5⟩ := net_run hP h1 h2 ops ha
  rw [hr] at h3; cases h3
  exact ⟨l, h4, h5⟩

/-- C54.  At every moment, the callbacks made for a stream are the first ones of those the rules for messages demand for what was
submitted on it, the body handed over is the beginning of the body submitted, and the receiver has neither reset nor stopped nor closed
the stream. -/
theorem C54_only_what_was_sent (P : Par) (hP : P.Ok) (ops : List NOp) (ha : Net.Admissible P (Net.init P) ops) (n : Sys) (hr : (Net.init P).run P ops = .ok n) (id : Nat) (hid : id ∈ P.ids) :
    seen (n.str id) <+: (rules (P.cfg id) (n.str id).msg (n.str id).ended).1 ∧ seenBody (n.str id) <+: sent (n.str id) ∧ (obs (n.str id).ev).filterMap Obs.signal = [] := by
  obtain ⟨l, h1, h2⟩ := net_inv hP ha hr
  exact ⟨(h2 id hid).shows.1, (h2 id hid).shows.2, (h2 id hid).sig⟩

/-- C54.  If everything that was submitted on a stream has arrived, the end included, and the stream is not waiting for the encoder
stream: the callbacks are all those the rules for messages demand, and the body is the body submitted. -/
theorem C54_complete (P : Par) (hP : P.Ok) (ops : List NOp) (ha : Net.Admissible P (Net.init P) ops) (n : Sys) (hr : (Net.init P).run P ops = .ok n) (id : Nat) (hid : id ∈ P.ids)
    (hw : (n.str id).wire = []) (hf : (n.str id).fin = (n.str id).ended) (hb : (n.str id).s.blocked = false) (hs : (n.str id).s.shutRd = false) :
    seen (n.str id) = (rules (P.cfg id) (n.str id).msg (n.str id).ended).1 ∧ seenBody (n.str id) = sent (n.str id) := by
  obtain ⟨l, h1, h2⟩ := net_inv hP ha hr
  exact (h2 id hid).all hw hb hs hf

theorem read_all {H : Nat} {l : Loop} (h : LoopOk H l) (he : l.p.ech = []) : l.p.dec.ctx.next = l.p.sys.inserted := by
  obtain ⟨D, g1, g2, _⟩ := h.pair.trans
  rw [he] at g1
  have : esRun l.p.dec [] false = .ok l.p.dec := by
    unfold esRun
    rfl
  rw [this] at g1
  cases g1
  rw [h.pair.sys.ins, g2.next]

theorem fly_ric {H : Nat} {l : Loop} (h : LoopOk H l) {f : Fly} (hf : f ∈ l.p.flies) : f.sec.ricnt ≤ l.p.sys.inserted := by
  obtain ⟨E0, m, hfo⟩ := h.pair.flies f hf
  rw [h.pair.sys.ins]
  exact Nat.le_trans hfo.ric hfo.ext.next

/-- C54.  Once the encoder stream has been read, no stream is waiting for it. -/
theorem C54_unblocked (P : Par) (hP : P.Ok) (ops : List NOp) (ha : Net.Admissible P (Net.init P) ops) (n : Sys) (hr : (Net.init P).run P ops = .ok n) (he : n.ech = []) (id : Nat) (hid : id ∈ P.ids) :
    (n.str id).s.blocked = false := by
  obtain ⟨l, h1, h2⟩ := net_inv hP ha hr
  by_contra hne
  obtain ⟨_, f, f1, f2⟩ := (h2 id hid).waits (by simpa using hne)
  have := fly_ric h1.loop (List.mem_filter.1 f1).1
  rw [← read_all h1.loop (by rw [← h1.ech]; exact he)] at this
  omega

/-- C54.  So once all bytes have arrived, everything has been delivered. -/
theorem C54_all_delivered (P : Par) (hP : P.Ok) (ops : List NOp) (ha : Net.Admissible P (Net.init P) ops) (n : Sys) (hr : (Net.init P).run P ops = .ok n) (he : n.ech = []) (id : Nat) (hid : id ∈ P.ids)
    (hw : (n.str id).wire = []) (hf : (n.str id).fin = (n.str id).ended) (hs : (n.str id).s.shutRd = false) :
    seen (n.str id) = (rules (P.cfg id) (n.str id).msg (n.str id).ended).1 ∧ seenBody (n.str id) = sent (n.str id) :=
  C54_complete P hP ops ha n hr id hid hw hf (C54_unblocked P hP ops ha n hr he id hid) hs

/-- C54.  The number of streams waiting for the encoder stream is never larger than the number the receiver permits. -/
theorem C54_blocked_within_limit (P : Par) (hP : P.Ok) (ops : List NOp) (ha : Net.Admissible P (Net.init P) ops) (n : Sys) (hr : (Net.init P).run P ops = .ok n) :
    (P.ids.filter fun j => (n.str j).s.blocked).length ≤ P.B := by
  obtain ⟨l, h1, h2⟩ := net_inv hP ha hr
  exact blocked_le hP h1 (Nat.le_trans (known_le h1.loop) h1.loop.wi) h2

/-- C54.  Once everything has arrived on a stream and on the encoder stream, and the decoder stream has been written and read, the sender
counts no section of the stream as outstanding, and knows that all insertions were received. -/
theorem C54_settled (P : Par) (hP : P.Ok) (ops : List NOp) (ha : Net.Admissible P (Net.init P) ops) (n : Sys) (hr : (Net.init P).run P ops = .ok n) (he : n.ech = []) (hd : n.dch = [])
    (hb : n.dec.writeDecoder.2 = []) :
    n.sys.e.krcnt = n.sys.e.ctx.next ∧ ∀ id ∈ P.ids, (n.str id).wire = [] → (n.str id).s.shutRd = false → n.outstanding id = [] := by
  obtain ⟨l, h1, h2⟩ := net_inv hP ha hr
  have hub := C54_unblocked P hP ops ha n hr he
  rw [h1.dec] at hb
  rw [h1.ech] at he
  obtain ⟨k', secs', f1, f2, f3⟩ := h1.loop.feed
  have hflat : ∀ q : List DIns, q.flatMap DIns.bytes = [] → q = [] := by
    intro q hq
    cases q with
    | nil => rfl
    | cons i t =>
      rw [List.flatMap_cons, List.append_eq_nil_iff] at hq
      exact absurd hq.1 (dins_ne i)
  have hq : l.q = [] := hflat _ (by rw [← h1.dch]; exact hd)
  have hwr : l.p.dec.dbuf = [] ∧ l.p.dec.writtenIcnt = l.p.dec.ctx.next := by
    have hw := h1.loop.wi
    unfold Dec.writeDecoder at hb
    by_cases hc : l.p.dec.writtenIcnt < l.p.dec.ctx.next
    · rw [if_pos hc] at hb
      dsimp only at hb
      have := (List.append_eq_nil_iff.1 hb).2
      exact absurd this (dins_ne (.icnt, _))
    · rw [if_neg hc] at hb
      exact ⟨hb, by omega⟩
  have hp : l.pend = [] := hflat _ (by rw [← h1.loop.buf]; exact hwr.1)
  rw [hq, hp] at f1
  cases f1
  refine ⟨?_, ?_⟩
  · rw [h1.sys, ← h1.loop.pair.sys.known, ← h1.loop.pair.sys.ins, f2, hwr.2]
    exact read_all h1.loop he
  · intro id hid hw hs
    have hbl := hub id hid
    have hg : id ∉ l.gone ∧ undone id l.p.flies = [] := by
      obtain ⟨all, mend, j1, j2, j3⟩ := (h2 id hid).at_
      rcases j3 with ⟨k1, k2, s0, cbs, body, k3, k4, k5, k6, k7⟩ | ⟨k1, k2, k3, k4⟩ | ⟨k0, k1, k2, k3, k4, k5, k6, k7, k8⟩
      · have hqq : (n.str id).s.inq = [] := by
          by_contra hne
          have := (h2 id hid).sinv.inq hne
          rw [hbl] at this; cases this
        have hbu : buffered (n.str id).s = [] := by unfold buffered; rw [hqq]; rfl
        rw [hbu, hw] at k3
        have := k3.idle.2.2.2
        rw [hP.id] at this k1
        exact ⟨k1, this⟩
      · rw [hs] at k2; cases k2
      · rw [hP.id] at k0 k6
        exact ⟨k0, k6⟩
    unfold Sys.outstanding
    rw [h1.sys, f3 id hg.1]
    unfold toRead
    rw [List.map_eq_nil_iff, List.filter_eq_nil_iff]
    intro f hf hh
    have : f ∈ undone id l.p.flies := by
      unfold undone
      rw [List.mem_filter]
      simp only [Bool.and_eq_true, beq_iff_eq, Bool.not_eq_true', decide_eq_true_eq] at hh ⊢
      exact ⟨hf, hh.1⟩
    rw [hg.2] at this
    cases this

/-! ### concrete runs -/

/-- is an operation admitted? -/
def _root_.Nghttp3.Net.Sys.check (P : Par) (n : Sys) : NOp → Bool
  | .headers id nvs => decide (id ∈ P.ids) && !(n.str id).ended && nvs.all (fun nv => decide (codedLen nv.name ≤ 256) && decide (codedLen nv.value ≤ 65536)) &&
      (match n.sys.e.encode id nvs with | some o => decide (o.e.ctx.next ≤ QInt.INT_MAX) && decide (o.section.length < 2 ^ 62) | none => true) &&
      (match (rules (P.cfg id) ((n.str id).msg ++ [.headers nvs]) false).2 with | .ok _ => true | _ => false)
  | .data id b => decide (id ∈ P.ids) && !(n.str id).ended && decide (b.length < 2 ^ 62) &&
      (match (rules (P.cfg id) ((n.str id).msg ++ [.data b]) false).2 with | .ok _ => true | _ => false)
  | .fin id => decide (id ∈ P.ids) && !(n.str id).ended && (match (rules (P.cfg id) (n.str id).msg true).2 with | .ok _ => true | _ => false)
  | .setMaxBlocked k => decide (k ≤ P.B)
  | .recv id _ => decide (id ∈ P.ids) && ((n.outstanding id).all fun x => decide (x.ricnt ≤ n.dec.ctx.next + P.H / 32)) &&
      decide (n.dec.dbuf.length + ((n.outstanding id).map fun x => (DIns.bytes (.ack, x.id)).length).sum ≤ max n.dec.maxConc 100 * 2 * 10)
  | .readEnc k order => order.all (fun id => decide (id ∈ P.ids)) && P.ids.all (fun id => decide (id ∈ order)) && decide (n.dec.uninterrupted + k ≤ 128 * 1024) &&
      (n.sys.secs.all fun x => decide (x.ricnt ≤ n.dec.ctx.next + P.H / 32)) &&
      decide (n.dec.dbuf.length + (n.sys.secs.map fun x => (DIns.bytes (.ack, x.id)).length).sum ≤ max n.dec.maxConc 100 * 2 * 10)
  | .stop id => decide (id ∈ P.ids) && !(n.str id).s.blocked && !n.dec.dbufOverflow
  | _ => true

def _root_.Nghttp3.Net.Sys.checked (P : Par) (n : Sys) : List NOp → Option Sys
  | [] => some n
  | o :: t =>
    if n.check P o then
      match n.step P o with
      | .ok n' => n'.checked P t
      | _ => none
    else none

theorem mres_ok {r : MRes} (h : (match r with | .ok _ => true | _ => false) = true) : ∃ m, r = .ok m := by
  cases r <;> first | exact ⟨_, rfl⟩ | cases h

theorem net_check_admits {P : Par} {n : Sys} {o : NOp} (h : n.check P o = true) : n.admits P o := by
  cases o with
  | headers id nvs =>
    simp only [Sys.check, Bool.and_eq_true, decide_eq_true_eq, Bool.not_eq_true', List.all_eq_true] at h
    obtain ⟨⟨⟨⟨h1, h2⟩, h3⟩, h4⟩, h5⟩ := h
    refine ⟨h1, h2, h3, ?_, mres_ok h5⟩
    intro o ho
    rw [ho] at h4
    simpa using h4
  | data id b =>
    simp only [Sys.check, Bool.and_eq_true, decide_eq_true_eq, Bool.not_eq_true'] at h
    obtain ⟨⟨⟨h1, h2⟩, h3⟩, h4⟩ := h
    exact ⟨h1, h2, h3, mres_ok h4⟩
  | fin id =>
    simp only [Sys.check, Bool.and_eq_true, decide_eq_true_eq, Bool.not_eq_true'] at h
    obtain ⟨⟨h1, h2⟩, h3⟩ := h
    exact ⟨h1, h2, mres_ok h3⟩
  | setMaxBlocked k => simpa [Sys.check, Sys.admits] using h
  | recv id k =>
    simp only [Sys.check, Bool.and_eq_true, decide_eq_true_eq, List.all_eq_true] at h
    exact ⟨h.1.1, h.1.2, h.2⟩
  | readEnc k order =>
    simp only [Sys.check, Bool.and_eq_true, decide_eq_true_eq, List.all_eq_true] at h
    obtain ⟨⟨⟨⟨h1, h2⟩, h3⟩, h4⟩, h5⟩ := h
    exact ⟨fun id => ⟨h1 id, h2 id⟩, h3, h4, h5⟩
  | stop id =>
    simp only [Sys.check, Bool.and_eq_true, decide_eq_true_eq, Bool.not_eq_true'] at h
    exact ⟨h.1.1, h.1.2, h.2⟩
  | _ => trivial

theorem net_checked {P : Par} {n m : Sys} {ops : List NOp} (h : n.checked P ops = some m) : Net.Admissible P n ops ∧ n.run P ops = .ok m := by
  induction ops generalizing n with
  | nil => cases h; exact ⟨trivial, rfl⟩
  | cons o t ih =>
    unfold Sys.checked at h
    by_cases hc : n.check P o = true
    · rw [if_pos hc] at h
      unfold Net.Admissible Sys.run
      rcases hs : n.step P o with _ | _ | _ | n' <;> rw [hs] at h
      · cases h
      · cases h
      · cases h
      · obtain ⟨h1, h2⟩ := ih h
        exact ⟨⟨net_check_admits hc, fun n'' hp => (by cases hp; exact h1)⟩, h2⟩
    · rw [if_neg hc] at h; cases h

/-- a server with two request streams; one of them may wait for the encoder stream -/
def netPar : Par := { H := 200, B := 1, ids := [0, 4], cfg := fun id => ⟨id, true, false, fun p _ => some p, []⟩ }

theorem netPar_ok : netPar.Ok := ⟨by decide, fun _ => rfl, by decide⟩

def reqNvs (x : Nv) : List Nv :=
  [{ name := Spec.ascii ":method", value := Spec.ascii "POST" }, { name := Spec.ascii ":scheme", value := Spec.ascii "https" },
    { name := Spec.ascii ":authority", value := [97] }, { name := Spec.ascii ":path", value := [47] }, x]

/-- two requests; the first one has to wait for the encoder stream, in the middle of its header section; bytes come in pieces -/
def netSchedule : List NOp :=
  [.setCap 200, .setMaxBlocked 1, .headers 0 (reqNvs nvA), .recv 0 1, .recv 0 9, .data 0 [1, 2, 3], .headers 4 (reqNvs nvB), .recv 0 1000, .recv 4 7, .readEnc 3 [4, 0], .fin 0, .recv 4 1000,
    .readEnc 1000 [4, 0], .recv 0 0, .data 4 [9], .fin 4, .recv 4 2, .recv 4 100, .flush, .deliver (.ack, 0), .deliver (.icnt, 1)]

set_option maxRecDepth 100000 in
/-- the schedule meets the hypotheses of the theorems; both messages are delivered, the decoder stream has been read -/
theorem C54_witness : ((Net.init netPar).checked netPar netSchedule).any (fun n =>
    n.ech.isEmpty && n.dch.isEmpty && n.dec.writeDecoder.2.isEmpty && (n.str 0).fin && (n.str 0).ended && (n.str 4).fin && (n.str 0).wire.isEmpty && (n.str 4).wire.isEmpty &&
      seenBody (n.str 0) == [1, 2, 3] && seenBody (n.str 4) == [9] && (seen (n.str 0)).length == 11 && (n.sys.e.krcnt == 3)) = true := by decide +kernel

set_option maxRecDepth 100000 in
/-- on the way a stream was waiting for the encoder stream -/
theorem C54_witness_blocked : ((Net.init netPar).checked netPar (netSchedule.take 12)).any (fun n => (n.str 0).s.blocked && !n.ech.isEmpty && (seen (n.str 0)).length == 1) = true := by decide +kernel

/-- the receiver gives up a stream that is waiting for the encoder stream -/
def stopSchedule : List NOp :=
  [.setCap 200, .setMaxBlocked 1, .headers 0 (reqNvs nvA), .recv 0 1000, .stop 0, .flush, .deliver (.cancel, 0), .headers 4 (reqNvs nvB), .recv 4 1000]

def NRes.error : NRes → Option Int
  | .fail e => some e
  | _ => none

set_option maxRecDepth 100000 in
/-- C54.  Why `stop` is restricted to streams that are not waiting for the encoder stream: nghttp3_conn_shutdown_stream_read announces the
cancellation to the sender but leaves the stream in the queue of blocked streams (nghttp3_conn.c:2456-2476).  The sender, which is told that
the stream is no longer blocked, blocks another one, within the limit; the receiver counts two and fails the connection. -/
theorem C54_stop_of_blocked_stream_fails_connection :
    ((Net.init netPar).checked netPar (stopSchedule.take 4)).any (fun n => (n.str 0).s.blocked) = true ∧
    NRes.error ((Net.init netPar).run netPar stopSchedule) = some Err.QPACK_DECOMPRESSION_FAILED := by decide +kernel

/-- C54.  The hypotheses of the theorems can be met, by two messages that are delivered completely. -/
theorem C54_witness_meets_hypotheses : ∃ n, netPar.Ok ∧ Net.Admissible netPar (Net.init netPar) netSchedule ∧ (Net.init netPar).run netPar netSchedule = .ok n ∧
    n.ech = [] ∧ (n.str 0).wire = [] ∧ (n.str 0).fin = true ∧ (n.str 0).ended = true ∧ seenBody (n.str 0) = [1, 2, 3] := by
  have h := C54_witness
  rcases hc : (Net.init netPar).checked netPar netSchedule with _ | n
  · rw [hc] at h; cases h
  · rw [hc] at h
    simp only [Option.any_some, Bool.and_eq_true, List.isEmpty_iff, beq_iff_eq] at h
    obtain ⟨h1, h2⟩ := net_checked hc
    exact ⟨n, netPar_ok, h1, h2, by tauto, by tauto, by tauto, by tauto, by tauto⟩

end Props
end Nghttp3
