import Verif.Lemmas.ConnSent4
/-! What the streams of a connection carry: binding the critical streams, and all histories. -/
namespace Nghttp3
namespace Conn
open PQ (upd upd_same upd_ne)
open Outq (R Frent Ans Bytes St Emit FrentOk AnsOk EncodeOk EmitOk itemsBytes itemBytes written endsIn dataAnswers encoderItems)
open Sent (Book Ledger Made Serve Chain Serves subm closes enter note Permits servedSince Tallies)

variable {E F : Type} {w v : Prop} {c c' : Conn E F} {id : Nat} {s0 s : Strm F} {encode : Encode E F} {peer : E → E → Prop}
variable {B : Nat → Book F} {K : Nat → List (Made F)} {U : Nat → List Ans} {M : List (Made F)} {D : Bytes}

theorem sinv_crit {ct qe qd ct' qe' qd' : Option Nat} {b : Book F} {ks : List (Made F)} {us : List Ans} {x : Nat} {o : St F} {items : List Emit}
    (h : SInv ct qe qd b ks us M D x o items) (h1 : ct' = some x ↔ ct = some x) (h2 : qe' = some x ↔ qe = some x) (h3 : qd' = some x ↔ qd = some x) :
    SInv ct' qe' qd' b ks us M D x o items :=
  ⟨h.inv, h.ok, h.len, h.pre, h.ack, h.ends, h.frqOk, h.req, fun g => h.ctl (h1.1 g), fun g => h.enc (h2.1 g), fun g => h.dec (h3.1 g),
    fun g1 g2 g3 g4 => h.oth g1 (fun g => g2 (h1.2 g)) (fun g => g3 (h2.2 g)) (fun g => g4 (h3.2 g)), h.uni⟩

theorem streamType_spec {ty : Nat} (hty : ty < 2 ^ 62) {o : St F} (e : Outq.writeStreamType ({} : St F) ty = .ok o) :
    Outq.Inv (itemsBytes [.streamType ty]) o ∧ o.frq = [] ∧ o.endStream = false ∧ o.ackOffset = 0 ∧ o.ackBase + written o.outq = 0 := by
  rcases Outq.adds_shared (Outq.inv_init (F := F)) (putVarintLen ty) (putVarint ty) (Outq.putVarint_ne ty hty) (Nat.le_of_eq (putVarint_length ty)) with g | ⟨o', g1, g2, g3, g4, g5, g6, g7⟩
  · unfold Outq.writeStreamType at e; rw [e] at g; cases g
  · unfold Outq.writeStreamType at e
    rw [e] at g1
    obtain rfl := R.ok.inj g1
    exact ⟨by rw [Outq.itemsBytes_one]; exact g2, g3, g4, g6, g7⟩

/-- a new unidirectional stream -/
theorem sinv_bind {ct qe qd : Option Nat} {ty n x : Nat} {o : St F} {b : Book F} (hty : ty < 2 ^ 62) (hu : streamUni x = true) (e : Outq.writeStreamType ({} : St F) ty = .ok o)
    (fs : List (Frent F)) (hb : b = { born := n, submitted := fs }) (hf : ∀ f ∈ fs, FrentOk f ∧ isCtl f = true)
    (h1 : ct = some x → ty = 0) (h2 : qe = some x → ty = 2 ∧ M = [] ∧ fs = []) (h3 : qd = some x → ty = 3 ∧ D = [] ∧ fs = [])
    (h4 : ct = some x ∨ qe = some x ∨ qd = some x) :
    SInv ct qe qd b [] [] M D x { o with frq := o.frq ++ fs } [.streamType ty] := by
  obtain ⟨g1, g2, g3, g4, g5⟩ := streamType_spec hty e
  subst hb
  have hfr : o.frq ++ fs = fs := by rw [g2]; rfl
  refine ⟨Outq.inv_congr g1 rfl rfl rfl rfl rfl rfl rfl rfl, fun i hi => by obtain rfl := List.mem_singleton.1 hi; exact hty, g5.symm, List.nil_prefix, g4.symm, g3, ?_,
    (fun g => by rw [hu] at g; cases g), fun g => ?_, fun g => ?_, fun g => ?_, fun _ z1 z2 z3 => ?_, fun _ => ?_⟩
  · show ∀ f ∈ o.frq ++ fs, _
    rw [hfr]; exact fun f g => (hf f g).1
  · obtain rfl := h1 g
    exact ⟨[], rfl, by show Serves fs [] [] (o.frq ++ fs); rw [hfr]; exact .done _⟩
  · obtain ⟨rfl, rfl, rfl⟩ := h2 g
    exact ⟨rfl, hfr⟩
  · obtain ⟨rfl, rfl, rfl⟩ := h3 g
    exact ⟨[], rfl, rfl, hfr⟩
  · rcases h4 with g | g | g
    · exact absurd g z1
    · exact absurd g z2
    · exact absurd g z3
  · show ∀ f ∈ o.frq ++ fs, _
    rw [hfr]; exact fun f g => (hf f g).2

theorem enter_bindQ (b : Book F) (c : Conn E F) (e d : Nat) (r : Ret) (x : Nat) : enter b c (.bindQpack e d) r x = b := by
  unfold enter subm closes
  dsimp only
  split_ifs <;> (rw [List.append_nil, Bool.or_false])

theorem crit_live (h : Inv w v c) {x : Nat} (hx : c.str x = none) : c.ctrl ≠ some x ∧ c.qenc ≠ some x ∧ c.qdec ≠ some x := by
  refine ⟨fun g => ?_, fun g => ?_, fun g => ?_⟩
  · obtain ⟨_, t, g2, _⟩ := h.tctrl x g; rw [hx] at g2; cases g2
  · obtain ⟨_, t, g2, _⟩ := h.tqenc x g; rw [hx] at g2; cases g2
  · obtain ⟨_, t, g2, _⟩ := h.tqdec x g; rw [hx] at g2; cases g2

theorem some_ne {a b : Nat} (h : a ≠ b) : (some a = some b) ↔ False := ⟨fun g => h (Option.some.inj g), fun g => g.elim⟩

/-- nghttp3_conn_bind_control_stream -/
theorem rinv_control {e0 : E} {l : Ledger F} {log : List (Serve F)} (h : RInv encode peer e0 l c log) {id : Nat} {r : Ret}
    (e : step encode c (.bindControl id) = .ok (c', r)) : RInv encode peer e0 (note l c (.bindControl id) r) c' log := by
  have hi := step_inv h.inv (o := .bindControl id) trivial (fun g => g.elim) (fun g => g.elim) e
  have hs' := step_settings h.inv e
  have hlen : log.length = l.asks.length := h.tal.1
  change bindControl c id = _ at e
  unfold bindControl at e
  have err : ∀ {n : Int}, n ≠ 0 → RInv encode peer e0 (note l c (.bindControl id) (.code n)) c log := by
    intro n hn
    have hat : ∀ x s, c.str x = some s → (note l c (.bindControl id) (.code n)).at x = l.at x := by
      intro x s hx
      unfold note
      dsimp only
      rw [hx]
      unfold enter
      dsimp only
      rw [subm_err hn, closes_err hn, List.append_nil, Bool.or_false]
      rfl
    refine ⟨h.inv, h.st, h.tal, h.chain, h.noEnc, h.noDec, fun x s hx => ?_, fun x s hx => ?_⟩
    · rw [hat x s hx]; exact h.born x s hx
    · dsimp only; rw [hat x s hx]; exact h.all x s hx
  by_cases hg : (decide (id ≥ 2 ^ 62) || (c.server && !serverUni id) || (!c.server && !clientUni id)) = true
  · rw [if_pos hg] at e; cases e
  rw [if_neg hg] at e
  by_cases h2 : c.ctrl.isSome = true
  · rw [if_pos h2] at e
    obtain ⟨rfl, rfl⟩ := Prod.mk.inj (R.ok.inj e)
    exact err (by decide)
  rw [if_neg h2] at e
  by_cases h3 : (c.str id).isSome = true
  · rw [if_pos h3] at e
    obtain ⟨rfl, rfl⟩ := Prod.mk.inj (R.ok.inj e)
    exact err (by decide)
  rw [if_neg h3] at e
  obtain ⟨o, e1, e2⟩ := bind_ok e
  obtain ⟨rfl, rfl⟩ := Prod.mk.inj (R.ok.inj e2)
  have hc0 : c.ctrl = none := by simpa using h2
  have hs0 : c.str id = none := by simpa using h3
  have hu : streamUni id = true := by
    simp only [Bool.or_eq_true, not_or] at hg
    obtain ⟨⟨_, g1⟩, g2⟩ := hg
    unfold serverUni at g1
    unfold clientUni at g2
    unfold streamUni
    cases hsv : c.server <;> simp_all
  obtain ⟨n1, n2, n3⟩ := crit_live h.inv hs0
  have hold : ∀ x, x ≠ id → ∀ s, (createStream c id { ty := .control, out := { o with frq := o.frq ++ [.settings c.settings] } } : Conn E F).str x = some s → c.str x = some s := by
    intro x hx s g
    change upd c.str id _ x = _ at g
    rwa [upd_ne _ _ hx] at g
  have hat : ∀ x s, x ≠ id → c.str x = some s → (note l c (.bindControl id) (.code 0)).at x = l.at x := by
    intro x s hne hx
    unfold note
    dsimp only
    rw [hx]
    unfold enter subm closes
    dsimp only
    rw [if_pos rfl, if_neg (Ne.symm hne), if_pos rfl, List.append_nil, Bool.or_false]
    rfl
  have hid : (note l c (.bindControl id) (.code 0)).at id = { born := l.asks.length, submitted := [.settings c.settings] } := by
    unfold note
    dsimp only
    rw [hs0]
    unfold enter subm closes
    dsimp only
    rw [if_pos rfl, if_pos rfl, if_pos rfl]
    rfl
  refine ⟨hi, h.st, h.tal, h.chain, h.noEnc, h.noDec, fun x s hx => ?_, fun x s hx => ?_⟩
  · by_cases hne : x = id
    · subst hne; rw [hid, hlen]
    · have := hold x hne s hx
      rw [hat x s hne this]; exact h.born x s this
  · dsimp only
    show ∃ items, SInv (some id) c.qenc c.qdec _ _ _ _ _ x s.out items
    by_cases hne : x = id
    · subst hne
      have hs1 : s.out = { o with frq := o.frq ++ [.settings c.settings] } := by
        change upd c.str x _ x = _ at hx
        rw [upd_same] at hx
        obtain rfl := Option.some.inj hx; rfl
      rw [hid, hs1]
      dsimp only
      rw [← hlen, served_new]
      refine ⟨_, sinv_bind (n := log.length) (by decide) hu e1 [.settings c.settings] rfl ?_ (fun _ => rfl) (fun g => absurd g n2) (fun g => absurd g n3) (.inl rfl)⟩
      intro f hf
      obtain rfl := List.mem_singleton.1 hf
      exact ⟨h.st, rfl⟩
    · have hx0 := hold x hne s hx
      rw [hat x s hne hx0]
      obtain ⟨items, hs⟩ := h.all x s hx0
      refine ⟨items, sinv_crit hs ?_ Iff.rfl Iff.rfl⟩
      rw [hc0, some_ne (Ne.symm hne)]
      exact ⟨fun g => g.elim, fun g => by cases g⟩

/-- a new encoder or decoder stream -/
theorem all_bindE (h : Inv w v c) (ha : All c B K U M D) (hq : c.qenc = none) (h0 : c.str id = none) (hu : streamUni id = true) {o : St F}
    (e : Outq.writeStreamType ({} : St F) 2 = .ok o) {n : Nat} (hb : B id = { born := n }) (hk : K id = []) (hus : U id = []) (hM : M = []) :
    All { createStream c id { ty := .qenc, out := o } with qenc := some id } B K U M D := by
  obtain ⟨n1, n2, n3⟩ := crit_live h h0
  intro x s hx
  change upd c.str id _ x = _ at hx
  show ∃ items, SInv c.ctrl (some id) c.qdec _ _ _ _ _ x s.out items
  by_cases hne : x = id
  · subst hne
    rw [upd_same] at hx
    obtain rfl := Option.some.inj hx
    rw [hk, hus]
    obtain ⟨_, g2, _⟩ := streamType_spec (by decide) e
    have := sinv_bind (ct := c.ctrl) (qe := some x) (qd := c.qdec) (M := M) (D := D) (n := n) (b := B x) (x := x) (by decide) hu e [] hb (fun f hf => by cases hf)
      (fun g => absurd g n1) (fun _ => ⟨rfl, hM, rfl⟩) (fun g => absurd g n3) (.inr (.inl rfl))
    rw [List.append_nil] at this
    exact ⟨_, this⟩
  · rw [upd_ne _ _ hne] at hx
    obtain ⟨items, hs⟩ := ha x s hx
    refine ⟨items, sinv_crit hs Iff.rfl ?_ Iff.rfl⟩
    rw [hq, some_ne (Ne.symm hne)]
    exact ⟨fun g => g.elim, fun g => by cases g⟩

theorem all_bindD (n1 : c.ctrl ≠ some id) (n2 : c.qenc ≠ some id) (ha : All c B K U M D) (hq : c.qdec = none) (hu : streamUni id = true) {o : St F}
    (e : Outq.writeStreamType ({} : St F) 3 = .ok o) {n : Nat} (hb : B id = { born := n }) (hk : K id = []) (hus : U id = []) (hD : D = []) :
    All { createStream c id { ty := .qdec, out := o } with qdec := some id } B K U M D := by
  intro x s hx
  change upd c.str id _ x = _ at hx
  show ∃ items, SInv c.ctrl c.qenc (some id) _ _ _ _ _ x s.out items
  by_cases hne : x = id
  · subst hne
    rw [upd_same] at hx
    obtain rfl := Option.some.inj hx
    rw [hk, hus]
    have := sinv_bind (ct := c.ctrl) (qe := c.qenc) (qd := some x) (M := M) (D := D) (n := n) (b := B x) (x := x) (by decide) hu e [] hb (fun f hf => by cases hf)
      (fun g => absurd g n1) (fun g => absurd g n2) (fun _ => ⟨rfl, hD, rfl⟩) (.inr (.inr rfl))
    rw [List.append_nil] at this
    exact ⟨_, this⟩
  · rw [upd_ne _ _ hne] at hx
    obtain ⟨items, hs⟩ := ha x s hx
    refine ⟨items, sinv_crit hs Iff.rfl Iff.rfl ?_⟩
    rw [hq, some_ne (Ne.symm hne)]
    exact ⟨fun g => g.elim, fun g => by cases g⟩

/-- nghttp3_conn_bind_qpack_streams -/
theorem rinv_qpack {e0 : E} {l : Ledger F} {log : List (Serve F)} (h : RInv encode peer e0 l c log) {a d : Nat} {r : Ret}
    (e : step encode c (.bindQpack a d) = .ok (c', r)) : RInv encode peer e0 (note l c (.bindQpack a d) r) c' log := by
  have hi := step_inv h.inv (o := .bindQpack a d) trivial (fun g => g.elim) (fun g => g.elim) e
  have hlen : log.length = l.asks.length := h.tal.1
  have hold : ∀ x s, c.str x = some s → (note l c (.bindQpack a d) r).at x = l.at x := by
    intro x s hx
    unfold note
    dsimp only
    rw [enter_bindQ, hx]; rfl
  have hnew : ∀ x, c.str x = none → (note l c (.bindQpack a d) r).at x = { born := l.asks.length } := by
    intro x hx
    unfold note
    dsimp only
    rw [enter_bindQ, hx]; rfl
  have hsv : ∀ x, c.str x = none → servedSince log ((note l c (.bindQpack a d) r).at x).born x = [] := by
    intro x hx
    rw [hnew x hx]; dsimp only; rw [← hlen, served_new]
  have hborn : ∀ x, (c.str x = none ∨ ∃ s, c.str x = some s) → ((note l c (.bindQpack a d) r).at x).born ≤ log.length := by
    rintro x (hx | ⟨s, hx⟩)
    · rw [hnew x hx, hlen]
    · rw [hold x s hx]; exact h.born x s hx
  have hb : ∀ x, ((note l c (.bindQpack a d) r).at x).born ≤ log.length := by
    intro x
    apply hborn
    cases c.str x
    · exact .inl rfl
    · exact .inr ⟨_, rfl⟩
  have hall : All c (note l c (.bindQpack a d) r).at (fun x => (servedSince log ((note l c (.bindQpack a d) r).at x).born x).flatMap Serve.made)
      (fun x => (servedSince log ((note l c (.bindQpack a d) r).at x).born x).flatMap Serve.used) (log.flatMap Serve.made) (log.flatMap Serve.dec) := by
    intro x s hx
    dsimp only
    rw [hold x s hx]; exact h.all x s hx
  change bindQpack c a d = _ at e
  unfold bindQpack at e
  by_cases hg : (decide (a ≥ 2 ^ 62) || decide (d ≥ 2 ^ 62) || (c.server && (!serverUni a || !serverUni d)) || (!c.server && (!clientUni a || !clientUni d))) = true
  · rw [if_pos hg] at e; cases e
  rw [if_neg hg] at e
  by_cases h2 : (c.qenc.isSome || c.qdec.isSome) = true
  · rw [if_pos h2] at e
    obtain ⟨rfl, rfl⟩ := Prod.mk.inj (R.ok.inj e)
    exact ⟨h.inv, h.st, h.tal, h.chain, h.noEnc, h.noDec, fun x s hx => hb x, hall⟩
  rw [if_neg h2] at e
  by_cases h3 : (c.str a).isSome = true
  · rw [if_pos h3] at e
    obtain ⟨rfl, rfl⟩ := Prod.mk.inj (R.ok.inj e)
    exact ⟨h.inv, h.st, h.tal, h.chain, h.noEnc, h.noDec, fun x s hx => hb x, hall⟩
  rw [if_neg h3] at e
  have hq0 : c.qenc = none ∧ c.qdec = none := by simpa using h2
  have hs0 : c.str a = none := by simpa using h3
  have hu : streamUni a = true ∧ streamUni d = true := by
    simp only [Bool.or_eq_true, not_or] at hg
    obtain ⟨⟨_, g1⟩, g2⟩ := hg
    unfold serverUni at g1
    unfold clientUni at g2
    unfold streamUni
    cases hsv : c.server <;> simp_all
  obtain ⟨oe, e1, e2⟩ := bind_ok e
  have hM := h.noEnc hq0.1
  have hD := h.noDec hq0.2
  have hA := all_bindE h.inv hall hq0.1 hs0 hu.1 e1 (hnew a hs0) (by rw [hsv a hs0]; rfl) (by rw [hsv a hs0]; rfl) hM
  dsimp only at e2
  by_cases h4 : (PQ.upd c.str a (some { ty := .qenc, out := oe }) d).isSome = true
  · have : ((createStream c a ({ ty := .qenc, out := oe } : Strm F)).str d).isSome = true := h4
    rw [if_pos this] at e2
    obtain ⟨rfl, rfl⟩ := Prod.mk.inj (R.ok.inj e2)
    exact ⟨hi, h.st, h.tal, h.chain, (fun _ => hM), h.noDec, fun x s hx => hb x, hA⟩
  · have : ¬ ((createStream c a ({ ty := .qenc, out := oe } : Strm F)).str d).isSome = true := h4
    rw [if_neg this] at e2
    obtain ⟨od, e3, e4⟩ := bind_ok e2
    obtain ⟨rfl, rfl⟩ := Prod.mk.inj (R.ok.inj e4)
    have hda : d ≠ a := by
      rintro rfl; rw [upd_same] at h4; exact h4 rfl
    have hd0 : c.str d = none := by rw [upd_ne _ _ hda] at h4; simpa using h4
    obtain ⟨n1, n2, n3⟩ := crit_live h.inv hd0
    have hA2 := all_bindD (c := { createStream c a { ty := .qenc, out := oe } with qenc := some a }) (id := d) n1 (fun g => hda (Option.some.inj g).symm) hA hq0.2 hu.2 e3
      (hnew d hd0) (by rw [hsv d hd0]; rfl) (by rw [hsv d hd0]; rfl) hD
    exact ⟨hi, h.st, h.tal, h.chain, (fun _ => hM), (fun _ => hD), fun x s hx => hb x, hA2⟩

theorem inv_enc (h : Inv w v c) (e : E) : Inv w v { c with enc := e } :=
  ⟨⟨⟨h.core.reg.idx, h.core.reg.mem, h.core.reg.urg⟩, h.core.lv, h.core.uwb⟩, h.sok, h.cnt, h.tctrl, h.tqenc, h.tqdec, h.gsort, h.ghead, h.gq, h.mb, h.mbl⟩

/-- the peer changes the encoder -/
theorem rinv_peer {e0 e : E} {l : Ledger F} {log : List (Serve F)} (h : RInv encode peer e0 l c log) (hp : peer c.enc e) :
    RInv encode peer e0 l { c with enc := e } log :=
  ⟨inv_enc h.inv e, h.st, h.tal, by have := chain_append h.chain (.peer hp (.nil e)); rwa [List.append_nil] at this, h.noEnc, h.noDec, h.born, h.all⟩

/-- all histories -/
theorem run_rinv (henc : EncodeOk encode) {server : Bool} {st : Settings} {e0 : E} (hst : FrentOk (.settings st : Frent F)) {l : Ledger F}
    (h : Sent.Run encode peer (init server st e0) l c) : ∃ log, RInv encode peer e0 l c log := by
  induction h with
  | init =>
    refine ⟨[], init_inv _ _ _, hst, ⟨rfl, (fun p hp => by cases hp)⟩, .nil _, fun _ => rfl, fun _ => rfl, fun x s hx => ?_, fun x s hx => ?_⟩
    · cases hx
    · cases hx
  | @step l c1 c2 o r _ hp e ih =>
    obtain ⟨log, h⟩ := ih
    by_cases h1 : ∃ id, o = .bindControl id
    · obtain ⟨id, rfl⟩ := h1; exact ⟨log, rinv_control h e⟩
    by_cases h2 : ∃ a b, o = .bindQpack a b
    · obtain ⟨a, b, rfl⟩ := h2; exact ⟨log, rinv_qpack h e⟩
    by_cases h3 : ∃ k db as, o = .writev k db as
    · obtain ⟨k, db, as, rfl⟩ := h3
      obtain ⟨sv, g, _⟩ := rinv_writev henc h hp e
      exact ⟨_, g⟩
    · exact ⟨log, rinv_out h (fun id g => h1 ⟨id, g⟩) (fun a b g => h2 ⟨a, b, g⟩) (fun k db as g => h3 ⟨k, db, as, g⟩) hp e⟩
  | @peer l c e _ hp ih =>
    obtain ⟨log, h⟩ := ih
    exact ⟨log, rinv_peer h hp⟩

end Conn
end Nghttp3
