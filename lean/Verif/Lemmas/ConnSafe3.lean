import Verif.Lemmas.ConnSafe2
/-! No assertion fails: every call. -/
namespace Nghttp3
namespace Conn
open PQ (Mem IdxOk Heap upd upd_same upd_ne)
open Outq (R Frent Ans Bytes St FrentOk AnsOk EncodeOk)

variable {E F : Type} {w v : Prop} {c c' : Conn E F} {id : Nat} {s0 s : Strm F} {encode : Encode E F}

theorem own_of {sv : Bool} (h : ownUni sv id) : (sv && !serverUni id) = false ∧ (!sv && !clientUni id) = false ∧ streamUni id = true ∧ clientBidi id = false ∧ id % 4 ≠ 1 := by
  unfold ownUni at h
  unfold serverUni clientUni streamUni clientBidi
  cases sv <;> simp at h <;> simp [h]

theorem own_of' {sv : Bool} (h : ownUni sv id) : (sv = true → serverUni id = true) ∧ (sv = false → clientUni id = true) := by
  unfold ownUni at h
  unfold serverUni clientUni
  cases sv <;> simp at h <;> simp [h]

theorem bidi_iff : clientBidi id = true ↔ id % 4 = 0 := by unfold clientBidi; simp

theorem ctrl_ok (h : Inv w v c) (hs : Safe c) (hc : c.ctrl.isSome = true) {f : Frent F} (hf : FrentOk f) : ∃ c', ctrlFrame c f = .ok c' ∧ Safe c' := by
  obtain ⟨i, hi⟩ := Option.isSome_iff_exists.1 hc
  obtain ⟨hl, s, g1, _⟩ := h.tctrl i hi
  have e : ctrlFrame c f = .ok (c.set i { s with out := { s.out with frq := s.out.frq ++ [f] } }) := by
    unfold ctrlFrame
    split
    · rename_i g; rw [hi] at g; cases g
    · rename_i j g
      rw [hi] at g; cases g
      rw [g1]
  refine ⟨_, e, safe_out hs g1 ((hs.outs i s g1).frq [f] (fun x hx => by rw [List.mem_singleton.1 hx]; exact hf)) fun _ g => ?_⟩
  rw [(localUni_uni hl).1] at g; cases g

theorem goaway_ok (h : Inv w v c) (hs : Safe c) (hc : c.ctrl.isSome = true) {g : Nat} (hg : g ≤ c.txGoaway) (hl : g < 2 ^ 62) :
    ∃ c1, ctrlFrame c (.goaway g) = .ok c1 ∧ Safe c1 ∧
      queueGoaway c g = .ok { c1 with txGoaway := g, goawayQueued := true, goaways := g :: c1.goaways } := by
  obtain ⟨c1, e, h1⟩ := ctrl_ok h hs hc (f := .goaway g) hl
  refine ⟨c1, e, h1, ?_⟩
  unfold queueGoaway
  rw [if_neg (by rw [Option.isNone_iff_eq_none]; intro g; rw [g] at hc; cases hc), if_neg (by omega), e]
  rfl

theorem bindControl_nc (hs : Safe c) (hl : id < 2 ^ 62) (ho : ownUni c.server id) : NC (bindControl c id) := by
  obtain ⟨o1, o2, o3, o4, o5⟩ := own_of ho
  unfold bindControl
  rw [if_neg (by rw [o1, o2, decide_eq_false (by omega)]; decide)]
  split_ifs
  · exact nc_ok hs
  · exact nc_ok hs
  · obtain ⟨t1, t2⟩ := type_ok (F := F) 0 (by decide)
    refine nc_bind t1 fun o e => nc_ok ?_
    have h1 := safe_create (id := id) hs (a := { ty := .control, out := { o with frq := o.frq ++ [.settings c.settings] } })
      ((t2 o e).1.frq _ (fun x hx => by rw [List.mem_singleton.1 hx]; exact hs.st)) (fun _ g => by rw [o3] at g; cases g) o5
    exact ⟨h1.outs, h1.noq, h1.ids, h1.tx, h1.gp, h1.st⟩

theorem bindQpack_nc (hs : Safe c) {a d : Nat} (ha : a < 2 ^ 62) (hd : d < 2 ^ 62) (oa : ownUni c.server a) (od : ownUni c.server d) : NC (bindQpack c a d) := by
  obtain ⟨a1, a2⟩ := own_of' oa
  obtain ⟨d1, d2⟩ := own_of' od
  obtain ⟨_, _, a3, _, a5⟩ := own_of oa
  obtain ⟨_, _, d3, _, d5⟩ := own_of od
  have hif : (decide (a ≥ 2 ^ 62) || decide (d ≥ 2 ^ 62) || (c.server && (!serverUni a || !serverUni d)) ||
      (!c.server && (!clientUni a || !clientUni d))) = false := by
    rw [decide_eq_false (by omega), decide_eq_false (by omega)]
    cases hsv : c.server
    · rw [a2 hsv, d2 hsv]; rfl
    · rw [a1 hsv, d1 hsv]; rfl
  unfold bindQpack
  rw [if_neg (by rw [hif]; decide)]
  split_ifs
  · exact nc_ok hs
  · exact nc_ok hs
  · obtain ⟨t1, t2⟩ := type_ok (F := F) 2 (by decide)
    refine nc_bind t1 fun oe e => ?_
    have h1 := safe_create (id := a) hs (a := { ty := .qenc, out := oe }) (t2 oe e).1 (fun _ _ => (t2 oe e).2) a5
    have h2 : Safe { createStream c a { ty := .qenc, out := oe } with qenc := some a } :=
      ⟨h1.outs, (fun g => by cases g), h1.ids, h1.tx, h1.gp, h1.st⟩
    dsimp only
    split
    · exact nc_ok h2
    · obtain ⟨u1, u2⟩ := type_ok (F := F) 3 (by decide)
      refine nc_bind u1 fun od e2 => nc_ok ?_
      have h3 := safe_create (id := d) h2 (a := { ty := .qdec, out := od }) (u2 od e2).1 (fun _ _ => (u2 od e2).2) d5
      exact ⟨h3.outs, (fun g => by cases g), h3.ids, h3.tx, h3.gp, h3.st⟩

theorem submit_nc (h : Inv w v c) (hs : Safe c) (hq : c.qenc.isSome = true) (h0 : c.str id = some s0) (b : Bool) (nva : F) (dr : Bool) :
    NC ((submitHeadersData c id (setEnd s0 b) nva dr).bind fun c => .ok (c, .code 0)) ∧
    NC ((submitHeadersData c id s0 nva dr).bind fun c => .ok (c, .code 0)) := by
  have hq' : c.qenc ≠ none := by intro g; rw [g] at hq; cases hq
  have ho := hs.outs id s0 h0
  constructor
  · have ho' : OOk (setEnd s0 b).out := by
      unfold setEnd Outq.setEnd
      cases b
      · exact ho
      · exact ho.flags true s0.out.readBlocked
    exact nc_one hs (submit_ok (s := setEnd s0 b) h.core.reg h0 rfl rfl nva dr) (ho'.frq _ (frames_ok nva dr))
      (fun g => absurd g hq') (hs.ids id s0 h0)
  · exact nc_one hs (submit_ok h.core.reg h0 rfl rfl nva dr) (ho.frq _ (frames_ok nva dr)) (fun g => absurd g hq') (hs.ids id s0 h0)

theorem uni_nc (h : Inv w v c) (hs : Safe c) (hp : peerUni c.server id) (he : (c.str id).isSome = true) (src : Bytes) (fin : Bool) : NC (readUni c id src fin) := by
  obtain ⟨s, h0⟩ := Option.isSome_iff_exists.1 he
  have hif : ((c.server && !clientUni id) || (!c.server && !serverUni id)) = false := by
    unfold peerUni at hp
    unfold clientUni serverUni
    cases hsv : c.server <;> rw [hsv] at hp <;> simp at hp <;> simp [hp]
  have hb : clientBidi id = false := by
    unfold peerUni at hp
    unfold clientBidi
    cases hsv : c.server <;> rw [hsv] at hp <;> simp at hp <;> simp [hp]
  have hu : streamUni id = true := by
    unfold peerUni at hp
    unfold streamUni
    cases hsv : c.server <;> rw [hsv] at hp <;> simp at hp <;> simp [hp]
  have hk := h.sok id s h0
  have hns : s.sched = false := by
    cases hx : s.sched
    · rfl
    · have := (hk.need hx).1; rw [hb] at this; cases this
  have hset : ∀ (ty : Ty) (i : Bool) (rv : RVInt), Safe (c.set id { s with ty := ty, ident := i, rv := rv }) := fun ty i rv =>
    safe_one hs one_set (hs.outs id s h0) (fun _ g => by rw [hu] at g; cases g) (hs.ids id s h0)
  unfold readUni
  rw [if_neg (by rw [hif]; decide), h0]
  dsimp only
  by_cases g1 : (src.isEmpty && !fin) = true
  · rw [if_pos g1]; exact nc_ok hs
  rw [if_neg g1]
  by_cases g2 : s.ident = true
  · rw [if_pos g2]; exact nc_ok hs
  rw [if_neg g2]
  by_cases g3 : src.isEmpty = true
  · rw [if_pos g3]
    by_cases g4 : s.rv.left ≠ 0
    · rw [if_pos g4]; exact nc_ok hs
    · rw [if_neg g4]
      obtain ⟨c1, e⟩ := delete_ok h h0 hns
      rw [e]
      exact nc_ok (safe_delete hs e)
  · rw [if_neg g3]
    have hr := rd_spec s.rv src fin hk.rvo (by rintro rfl; exact g3 rfl)
    split
    · rename_i e; rw [e] at hr; exact hr.elim
    · exact nc_ok hs
    · exact nc_ok (hset s.ty s.ident _)
    · split
      · exact nc_ok hs
      · rename_i n _ _ c1 s1 e1
        obtain ⟨ty, a, b, d, rfl, rfl, _⟩ := uniType_mono e1
        have h3 : Safe (({ c with ctrlOpened := a, qencOpened := b, qdecOpened := d } : Conn E F).set id { s with ty := ty, ident := true, rv := {} }) := by
          have := hset ty true {}
          exact ⟨this.outs, this.noq, this.ids, this.tx, this.gp, this.st⟩
        split
        · exact nc_ok h3
        · split
          · exact nc_ok hs
          · exact nc_ok h3

theorem hdr_nc (h : Inv w v c) (hs : Safe c) (hb : clientBidi id = true) (he : (c.str id).isSome = true) {p : Http.Pri} (hp : p.urgency < 8) : NC (onHeaderPriority c id p) := by
  obtain ⟨s, h0⟩ := Option.isSome_iff_exists.1 he
  unfold onHeaderPriority
  rw [h0]
  dsimp only
  split_ifs
  · exact nc_one hs (update_ok h.core hb h0 rfl rfl hp) (hs.outs id s h0) (fun hq hu => hs.noq hq id s h0 hu) (hs.ids id s h0)
  · exact nc_ok hs

theorem step_nc (henc : EncodeOk encode) (h : Inv w True c) (hs : Safe c) {o : Op F} (ho : OpOk o) (hl : LeavesClosed c o) (ha : Allowed c o) :
    NC (step encode c o) := by
  cases o with
  | bindControl id => exact bindControl_nc hs ha.1 ha.2
  | bindQpack a d => exact bindQpack_nc hs ha.1 ha.2.1 ha.2.2.1 ha.2.2.2
  | submitRequest id nva dr =>
    obtain ⟨a1, a2, a3, a4⟩ := ha
    change NC (submitRequest c id nva dr)
    have hb : clientBidi id = true := bidi_iff.2 a4
    unfold submitRequest
    rw [if_neg (by rw [a1, hb, decide_eq_false (by omega)]; cases hq : c.qenc with | none => rw [hq] at a2; cases a2 | some _ => simp)]
    by_cases g1 : c.goawayRecved = true
    · rw [if_pos g1]; exact nc_ok hs
    rw [if_neg g1]
    split
    · exact nc_ok hs
    · rename_i h0
      have hinv : Inv w True (createStream c id {}) := inv_create h h0 rfl (show (3 : Nat) < 8 by decide) rfl
        ⟨(fun g => by cases g), (fun _ _ g => by cases g), (fun g => by cases g), (fun g => by cases g), Or.inl rfl, fun _ _ => rfl⟩
        (fun g => by rw [a1] at g; cases g)
      have hsafe := safe_create (id := id) hs (a := {}) ook_init (fun _ _ => rfl) (by omega)
      exact (submit_nc hinv hsafe a2 (id := id) (s0 := {}) (upd_same _ _ _) (!dr) nva dr).1
  | submitInfo id nva =>
    change NC (submitInfo c id nva)
    unfold submitInfo
    rw [if_neg (by rw [ha.1]; cases hq : c.qenc with | none => have := ha.2; rw [hq] at this; cases this | some _ => simp)]
    split
    · exact nc_ok hs
    · rename_i s0 h0; exact (submit_nc h hs ha.2 h0 true nva false).2
  | submitResponse id nva dr =>
    change NC (submitResponse c id nva dr)
    unfold submitResponse
    rw [if_neg (by rw [ha.1]; cases hq : c.qenc with | none => have := ha.2; rw [hq] at this; cases this | some _ => simp)]
    split
    · exact nc_ok hs
    · rename_i s0 h0; exact (submit_nc h hs ha.2 h0 _ nva dr).1
  | submitTrailers id nva =>
    change NC (submitTrailers c id nva)
    unfold submitTrailers
    rw [if_neg (by intro g; rw [Option.isNone_iff_eq_none] at g; have : c.qenc.isSome = true := ha; rw [g] at this; cases this)]
    split
    · exact nc_ok hs
    · rename_i s0 h0
      split
      · exact nc_ok hs
      · exact (submit_nc h hs ha h0 _ nva false).1
  | writev k db as => exact writevStream_nc henc h hs k db ha
  | addWrite id n =>
    change NC (addWriteOffset c id n)
    unfold addWriteOffset
    split
    · exact nc_ok hs
    · rename_i s0 h0
      obtain ⟨⟨m, hm⟩, hf⟩ := hs.outs id s0 h0
      obtain ⟨o', g1, g2, g3, g4, _⟩ := Outq.addOffset_spec hm n (ha s0 h0)
      rw [g1]
      have hok : OOk o' := ⟨⟨m, g2⟩, by rw [g4]; exact hf⟩
      have hnq : c.qenc = none → streamUni id = false → o'.frq = [] := fun hq hu => by rw [g4]; exact hs.noq hq id s0 h0 hu
      change NC (if (!clientBidi id) = true then _ else _)
      split_ifs
      · exact nc_ok (safe_one hs one_set hok hnq (hs.ids id s0 h0))
      · exact nc_one hs (unschedule_ok (s := { s0 with out := o', uwrite := s0.uwrite + n }) h.core.reg h0 rfl rfl) hok hnq (hs.ids id s0 h0)
      · exact nc_ok (safe_one hs one_set hok hnq (hs.ids id s0 h0))
      · exact nc_one hs (schedule_ok (s := { s0 with out := o', uwrite := s0.uwrite + n }) h.core.reg h0 rfl rfl) hok hnq (hs.ids id s0 h0)
  | addAck id n =>
    change NC (addAckOffset c id n)
    unfold addAckOffset
    split
    · exact nc_ok hs
    · rename_i s0 h0
      obtain ⟨⟨m, hm⟩, hf⟩ := hs.outs id s0 h0
      have hb := ha s0 h0
      have h1 := hm.sent
      have h2 := hm.tx
      obtain ⟨o', rep, k, g1, g2, g3, g4, g5, _⟩ := Outq.ack_spec hm (s0.out.ackOffset + n) (by omega) (by omega)
      unfold Outq.connAddAckOffset
      rw [g1]
      exact nc_ok (safe_one hs one_set ⟨⟨m, g2⟩, by rw [g5]; exact hf⟩ (fun hq hu => by dsimp only; rw [g5]; exact hs.noq hq id s0 h0 hu) (hs.ids id s0 h0))
  | updAck id off =>
    change NC (updateAckOffset c id off)
    unfold updateAckOffset
    split
    · exact nc_ok hs
    · rename_i s0 h0
      obtain ⟨⟨m, hm⟩, hf⟩ := hs.outs id s0 h0
      have hb := ha s0 h0
      have h1 := hm.sent
      have h2 := hm.tx
      unfold Outq.connUpdateAckOffset
      by_cases hlt : s0.out.ackOffset > off
      · rw [if_pos hlt]; exact nc_ok hs
      · rw [if_neg hlt]
        obtain ⟨o', rep, k, g1, g2, g3, g4, g5, _⟩ := Outq.ack_spec hm off (by omega) (by omega)
        dsimp only
        rw [g1]
        exact nc_ok (safe_one hs one_set ⟨⟨m, g2⟩, by rw [g5]; exact hf⟩ (fun hq hu => by dsimp only; rw [g5]; exact hs.noq hq id s0 h0 hu) (hs.ids id s0 h0))
  | block id =>
    change NC (blockStream c id)
    unfold blockStream
    split
    · exact nc_ok hs
    · rename_i s0 h0
      dsimp only
      split_ifs
      · exact nc_one hs (unschedule_ok h.core.reg h0 rfl rfl) (hs.outs id s0 h0) (fun hq hu => hs.noq hq id s0 h0 hu) (hs.ids id s0 h0)
      · exact nc_ok (safe_one hs one_set (hs.outs id s0 h0) (fun hq hu => hs.noq hq id s0 h0 hu) (hs.ids id s0 h0))
  | unblock id =>
    change NC (unblockStream c id)
    unfold unblockStream
    split
    · exact nc_ok hs
    · rename_i s0 h0
      dsimp only
      split_ifs
      · exact nc_one hs (ensure_ok h.core.reg h0 rfl rfl) (hs.outs id s0 h0) (fun hq hu => hs.noq hq id s0 h0 hu) (hs.ids id s0 h0)
      · exact nc_ok (safe_one hs one_set (hs.outs id s0 h0) (fun hq hu => hs.noq hq id s0 h0 hu) (hs.ids id s0 h0))
  | shutWr id =>
    change NC (shutdownWrite c id)
    unfold shutdownWrite
    split
    · exact nc_ok hs
    · rename_i s0 h0
      dsimp only
      split_ifs
      · exact nc_one hs (unschedule_ok h.core.reg h0 rfl rfl) (hs.outs id s0 h0) (fun hq hu => hs.noq hq id s0 h0 hu) (hs.ids id s0 h0)
      · exact nc_ok (safe_one hs one_set (hs.outs id s0 h0) (fun hq hu => hs.noq hq id s0 h0 hu) (hs.ids id s0 h0))
  | resume id =>
    change NC (resumeStream c id)
    unfold resumeStream
    split
    · exact nc_ok hs
    · rename_i s0 h0
      have hok : OOk { s0.out with readBlocked := false } := (hs.outs id s0 h0).flags s0.out.endStream false
      dsimp only
      split
      · exact nc_one hs (ensure_ok (s := { s0 with out := { s0.out with readBlocked := false } }) h.core.reg h0 rfl rfl) hok (fun hq hu => hs.noq hq id s0 h0 hu) (hs.ids id s0 h0)
      · exact nc_ok (safe_one hs one_set hok (fun hq hu => hs.noq hq id s0 h0 hu) (hs.ids id s0 h0))
  | shutRd id =>
    change NC (shutdownRead c id)
    have ha' : id < 2 ^ 62 := ha
    unfold shutdownRead
    rw [if_neg (by rw [decide_eq_false (by omega)]; decide)]
    split_ifs
    · exact nc_ok hs
    · split
      · exact nc_ok hs
      · rename_i s0 h0
        exact nc_ok (safe_one hs one_set (hs.outs id s0 h0) (fun hq hu => hs.noq hq id s0 h0 hu) (hs.ids id s0 h0))
  | close id =>
    change NC (closeStream c id)
    unfold closeStream
    split
    · exact nc_ok hs
    · rename_i s0 h0
      split
      · exact nc_ok hs
      · obtain ⟨sch, e, hr, _⟩ := unschedule_spec h.core.reg h0 rfl rfl
        have hs1 : Safe ({ c with sched := sch }.set id { s0 with sched := false }) :=
          safe_one hs (one_unschedule e) (hs.outs id s0 h0) (fun hq hu => hs.noq hq id s0 h0 hu) (hs.ids id s0 h0)
        rw [e]
        change NC (if s0.qblocked = false then _ else _)
        split
        · refine nc_bind ?_ fun c2 e2 => nc_ok (safe_delete hs1 e2)
          unfold deleteStream
          have := delete_ok h (s := { s0 with sched := false }) h0 rfl
          unfold deleteStream at this
          rw [if_neg, if_neg]
          · exact fun g => by cases g
          · exact fun g => by cases g
          · obtain ⟨c2, e2⟩ := this
            intro g
            change (c.server && clientBidi id && c.num == 0) = true at g
            rw [if_pos g] at e2; cases e2
        · have := safe_one (s := { s0 with sched := false, closed := true }) hs1 one_set (hs.outs id s0 h0) (fun hq hu => hs.noq hq id s0 h0 hu) (hs.ids id s0 h0)
          exact nc_ok this
  | notice =>
    change NC (submitNotice c)
    obtain ⟨a1, a2⟩ := ha
    have htx := hs.tx a2
    have hlt : (if c.server then 2 ^ 62 - 4 else 2 ^ 62 - 1) < 2 ^ 62 := by split <;> decide
    obtain ⟨c1, e1, s1, e2⟩ := goaway_ok h hs a1 htx hlt
    unfold submitNotice
    rw [e2]
    have hg := glob_ctrlFrame e1
    have h1 : c1.server = c.server := congrArg Glob.server hg
    refine nc_ok ⟨s1.outs, s1.noq, s1.ids, fun _ => ?_, s1.gp, s1.st⟩
    dsimp only
    rw [h1]
  | shutdown =>
    change NC (shutdown c)
    obtain ⟨a1, a2⟩ := ha
    have htx := hs.tx a2
    have hlt : (if c.server then min (2 ^ 62 - 4) (c.maxBidi + 4).toNat else 0) < 2 ^ 62 := by split <;> omega
    have hle : (if c.server then min (2 ^ 62 - 4) (c.maxBidi + 4).toNat else 0) ≤ c.txGoaway := by
      revert htx; cases c.server <;> simp <;> omega
    obtain ⟨c1, e1, s1, e2⟩ := goaway_ok h hs a1 hle hlt
    unfold shutdown
    rw [e2]
    exact nc_ok ⟨s1.outs, s1.noq, s1.ids, (fun g => by cases g), s1.gp, s1.st⟩
  | setServerPri id pri =>
    change NC (setServerPriority c id pri)
    obtain ⟨a1, a2, a3⟩ := ha
    unfold setServerPriority
    rw [if_neg (by rw [a1, decide_eq_false (by unfold URGENCY_LEVELS; omega), decide_eq_false (by omega)]; decide)]
    split_ifs with hb
    · exact nc_ok hs
    · split
      · exact nc_ok hs
      · rename_i s0 h0
        exact nc_one hs (update_ok (s := { s0 with srvPri := true }) h.core (by simpa using hb) h0 rfl rfl a2) (hs.outs id s0 h0) (fun hq hu => hs.noq hq id s0 h0 hu) (hs.ids id s0 h0)
  | setClientPri id va =>
    change NC (setClientPriority c id va)
    obtain ⟨a1, a2, a3, a4⟩ := ha
    unfold setClientPriority
    rw [if_neg (by rw [a1, decide_eq_false (by omega)]; decide)]
    split_ifs with hb
    · exact nc_ok hs
    · split
      · exact nc_ok hs
      · obtain ⟨c1, e, s1⟩ := ctrl_ok h hs a3 (f := .priorityUpdate 0x0f0700 id va) ⟨Or.inl rfl, a2, a4⟩
        rw [e]
        exact nc_ok s1
  | setMaxClient n =>
    change NC (setMaxClientStreams c n)
    have a1 : c.server = true := ha.1
    have a2 : c.maxClient ≤ n := ha.2
    unfold setMaxClientStreams
    rw [if_neg (by rw [a1, decide_eq_false (by omega)]; decide)]
    exact nc_ok ⟨hs.outs, hs.noq, hs.ids, hs.tx, hs.gp, hs.st⟩
  | «open» id empty =>
    change NC (openStream c id empty)
    obtain ⟨a1, a2⟩ := ha
    unfold openStream
    rw [if_neg (by rw [decide_eq_false (by omega)]; decide)]
    split
    · rename_i s0 h0
      have h1 := hs.ids id s0 h0
      have hr : (c.server && !(clientBidi id || clientUni id)) = false ∧ (!c.server && !(clientBidi id || serverUni id)) = false := by
        unfold ownUni at a2
        unfold clientBidi clientUni serverUni
        cases hsv : c.server <;> rw [hsv] at a2 <;> simp at a2 ⊢ <;> omega
      rw [if_neg (by rw [hr.1]; decide), if_neg (by rw [hr.2]; decide)]
      exact nc_ok hs
    · rename_i h0
      split
      · split
        · rename_i hb
          obtain ⟨i1, i2⟩ := idtr_ok hs (bidi_iff.1 hb) a1
          split
          · rename_i e; rw [e] at i1; exact absurd rfl i1
          · rename_i g _ e
            rw [e] at i2
            exact nc_ok (safe_create (safe_gaps hs i2) ook_init (fun _ _ => rfl) (by have := bidi_iff.1 hb; omega))
        · split
          · exact nc_ok hs
          · rename_i hu
            have hu' : id % 4 = 2 := by unfold clientUni at hu; simpa using hu
            split
            · exact nc_ok hs
            · exact nc_ok (safe_create hs ook_init (fun _ _ => rfl) (by omega))
      · split
        · rename_i hu
          have hu' : id % 4 = 3 := by unfold serverUni at hu; simpa using hu
          split
          · exact nc_ok hs
          · exact nc_ok (safe_create hs ook_init (fun _ _ => rfl) (by omega))
        · exact nc_ok hs
  | uni id src fin => exact uni_nc h hs ha.1 ha.2 src fin
  | priUpd id pri =>
    change NC (onPriorityUpdate c id pri)
    have a1 : c.server = true := ha.1
    have a2 : id < 2 ^ 62 := ha.2
    unfold onPriorityUpdate
    rw [if_neg (by rw [a1]; decide)]
    split
    · exact nc_ok hs
    · rename_i hif
      have hb : clientBidi id = true := by revert hif; cases clientBidi id <;> simp
      split
      · rename_i h0
        split
        · exact nc_ok hs
        · obtain ⟨i1, i2⟩ := idtr_ok hs (bidi_iff.1 hb) a2
          split
          · rename_i e; rw [e] at i1; exact absurd rfl i1
          · exact nc_ok hs
          · rename_i g e
            rw [e] at i2
            exact nc_ok (safe_create (safe_gaps hs i2) ook_init (fun _ _ => rfl) (by have := bidi_iff.1 hb; omega))
      · rename_i s0 h0
        split
        · exact nc_ok hs
        · exact nc_one hs (update_ok (s := { s0 with priUpd := true }) h.core hb h0 rfl rfl ho) (hs.outs id s0 h0) (fun hq hu => hs.noq hq id s0 h0 hu) (hs.ids id s0 h0)
  | hdrPri id pri => exact hdr_nc h hs (bidi_iff.2 ha.1) ha.2 ho
  | qpackBlock id =>
    change NC (qpackBlock c id)
    obtain ⟨a1, s0, h0, a2⟩ := ha
    unfold qpackBlock
    rw [h0]
    dsimp only
    rw [if_neg (by rw [a2]; decide)]
    exact nc_ok (safe_one hs one_set (hs.outs id s0 h0) (fun hq hu => hs.noq hq id s0 h0 hu) (hs.ids id s0 h0))
  | qpackUnblock id p again =>
    change NC (qpackUnblock c id p again)
    obtain ⟨a1, s0, h0, a2⟩ := ha
    have hb := bidi_iff.2 a1
    unfold qpackUnblock
    rw [h0]
    dsimp only
    rw [if_neg (by rw [a2]; decide)]
    have hs1 : Safe (c.set id { s0 with qblocked := false }) :=
      safe_one hs one_set (hs.outs id s0 h0) (fun hq hu => hs.noq hq id s0 h0 hu) (hs.ids id s0 h0)
    have hk := h.sok id s0 h0
    have finish : ∀ (c1 : Conn E F) (s1 : Strm F) (x : Ret), Safe c1 → c1.str id = some s1 → (s1.closed = true → deleteStream c1 id s1 ≠ .crash) →
        NC (match c1.str id with
          | none => .crash
          | some s =>
            if again then .ok (c1.set id { s with qblocked := true }, .code 0)
            else if s.closed then (deleteStream c1 id s).bind fun c => .ok (c, .code 0)
            else .ok (c1, x)) := by
      intro c1 s1 x k1 k2 k3
      rw [k2]
      dsimp only
      split_ifs with _ hcl
      · exact nc_ok (safe_one k1 one_set (k1.outs id s1 k2) (fun hq hu => k1.noq hq id s1 k2 hu) (k1.ids id s1 k2))
      · exact nc_bind (k3 hcl) fun c2 e2 => nc_ok (safe_delete k1 e2)
      · exact nc_ok k1
    cases p with
    | none =>
      refine finish _ _ _ hs1 (set_str _ _ _) fun hcl => ?_
      obtain ⟨c2, e2⟩ := delete_ok h (s := { s0 with qblocked := false }) h0 (hk.cl trivial hcl)
      intro g
      unfold deleteStream at e2 g
      by_cases n1 : (c.server && clientBidi id && c.num == 0) = true
      · rw [if_pos n1] at e2; cases e2
      · rw [if_neg n1] at e2
        change (if (c.server && clientBidi id && c.num == 0) = true then R.crash else if s0.sched = true then _ else _) = _ at g
        rw [if_neg n1] at g
        rw [if_neg (show ¬ s0.sched = true by rw [hk.cl trivial hcl]; decide)] at g
        cases g
    | some q =>
      have hop : Open c id := hl (by simp)
      have hcl := hop s0 h0
      unfold onHeaderPriority
      rw [set_str]
      dsimp only
      split
      · obtain ⟨c1, e1, o1⟩ := update_ok (s := { s0 with qblocked := false }) (c := c.set id { s0 with qblocked := false })
          (h.core.set h0 rfl rfl rfl (h.core.uwOk' h0 rfl rfl rfl (Nat.le_refl _))) hb (set_str _ _ _) rfl rfl (ho.2 q rfl)
        rw [e1]
        have hs2 := safe_one hs1 o1 (hs.outs id s0 h0) (fun hq hu => hs.noq hq id s0 h0 hu) (hs.ids id s0 h0)
        obtain ⟨_, _, _, hown⟩ := o1.own
        exact finish _ _ _ hs2 hown (fun g => by change s0.closed = true at g; rw [hcl] at g; cases g)
      · exact finish _ _ _ hs1 (set_str _ _ _) (fun g => by change s0.closed = true at g; rw [hcl] at g; cases g)
  | recvGoaway => exact nc_ok ⟨hs.outs, hs.noq, hs.ids, hs.tx, hs.gp, hs.st⟩

end Conn
end Nghttp3
