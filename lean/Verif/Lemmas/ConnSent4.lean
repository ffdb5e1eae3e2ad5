import Verif.Lemmas.ConnSent3
/-! What the streams of a connection carry: all calls. -/
namespace Nghttp3
namespace Conn
open PQ (upd upd_same upd_ne)
open Outq (R Frent Ans Bytes St Emit FrentOk AnsOk EncodeOk EmitOk itemsBytes itemBytes written endsIn dataAnswers encoderItems)
open Sent (Book Ledger Made Serve Chain Serves subm closes enter note Permits servedSince Tallies)

variable {E F : Type} {w v : Prop} {c c' : Conn E F} {id : Nat} {s0 s : Strm F} {encode : Encode E F} {peer : E → E → Prop}
variable {B : Nat → Book F} {K : Nat → List (Made F)} {U : Nat → List Ans} {M : List (Made F)} {D : Bytes}

theorem glob_crit (h : Inv w v c) {o : Op F} {r : Ret} (h1 : ∀ id, o ≠ .bindControl id) (h2 : ∀ a b, o ≠ .bindQpack a b)
    (e : step encode c o = .ok (c', r)) : c'.ctrl = c.ctrl ∧ c'.qenc = c.qenc ∧ c'.qdec = c.qdec := by
  have hg := step_glob h e
  have key : ∀ g : Glob, glob c' = g → g.ctrl = c.ctrl → g.qenc = c.qenc → g.qdec = c.qdec → c'.ctrl = c.ctrl ∧ c'.qenc = c.qenc ∧ c'.qdec = c.qdec := by
    rintro g rfl k1 k2 k3; exact ⟨k1, k2, k3⟩
  cases o with
  | bindControl id => exact absurd rfl (h1 id)
  | bindQpack a b => exact absurd rfl (h2 a b)
  | notice => obtain ⟨i, _, _, hg⟩ := hg; exact key _ hg rfl rfl rfl
  | shutdown => obtain ⟨i, _, _, hg⟩ := hg; exact key _ hg rfl rfl rfl
  | setMaxClient n => exact key _ hg.2 rfl rfl rfl
  | «open» id em => rcases hg with hg | ⟨_, _, _, hg⟩ <;> exact key _ hg rfl rfl rfl
  | priUpd id p => rcases hg with hg | ⟨_, _, _, hg⟩ <;> exact key _ hg rfl rfl rfl
  | uni a b d => obtain ⟨_, _, _, hg, _⟩ := hg; exact key _ hg rfl rfl rfl
  | _ => exact key _ hg rfl rfl rfl

theorem step_settings (h : Inv w v c) {o : Op F} {r : Ret} (e : step encode c o = .ok (c', r)) : c'.settings = c.settings := by
  have hg := step_glob h e
  have key : ∀ g : Glob, glob c' = g → g.settings = c.settings → c'.settings = c.settings := by
    rintro g rfl k1; exact k1
  cases o with
  | bindControl id => rcases hg with hg | ⟨_, hg⟩ <;> exact key _ hg rfl
  | bindQpack a b => rcases hg with hg | ⟨_, _, hg | hg⟩ <;> exact key _ hg rfl
  | notice => obtain ⟨i, _, _, hg⟩ := hg; exact key _ hg rfl
  | shutdown => obtain ⟨i, _, _, hg⟩ := hg; exact key _ hg rfl
  | setMaxClient n => exact key _ hg.2 rfl
  | «open» id em => rcases hg with hg | ⟨_, _, _, hg⟩ <;> exact key _ hg rfl
  | priUpd id p => rcases hg with hg | ⟨_, _, _, hg⟩ <;> exact key _ hg rfl
  | uni a b d => obtain ⟨_, _, _, hg, _⟩ := hg; exact key _ hg rfl
  | _ => exact key _ hg rfl

theorem writev_dom (h : Inv w v c) {k : Nat} {db : Bytes} {as : List Ans} {r : Ret} (e : writevStream encode c k db as = .ok (c', r)) {x : Nat}
    (hx : c.str x = none) : c'.str x = none := by
  obtain ⟨_, rr, hr, hc⟩ := writevStream_inv h e
  rcases hc with ⟨i, f, v, g1, g2, g3⟩ | ⟨_, rfl, _⟩ | ⟨_, c3, he, h3, e3, _⟩
  · exact g3.none x hx
  · exact hx
  · have hx3 := he.none x hx
    obtain ⟨_, rr', _, _, _, k5, k6⟩ := writeRequest_inv h3 e3
    rcases hn : nextTx c3 with _ | id
    · rw [k5 hn]; exact hx3
    · obtain ⟨c1, s1, k7, k8, k9, k10⟩ := k6 id hn
      have hx1 := k9.none x hx3
      rcases k10 with ⟨_, rfl⟩ | ⟨_, sch, rfl⟩
      · exact hx1
      · have : x ≠ id := by
          rintro rfl
          rw [hx1] at k8; cases k8
        rw [set_ne _ _ _ _ this]; exact hx1

theorem enter_born (b : Book F) (c : Conn E F) (o : Op F) (r : Ret) (x : Nat) : (enter b c o r x).born = b.born := by
  unfold enter
  split
  · split
    · split_ifs <;> rfl
    · rfl
  · split_ifs <;> rfl
  · split_ifs <;> rfl
  · split_ifs <;> rfl
  · rfl

/-- the frames that calls queue: they fit the wire format; unidirectional streams get frames of the control stream, and only the control stream
does -/
theorem subm_ok (hst : FrentOk (.settings c.settings : Frent F)) {o : Op F} {r : Ret} (hnb : ∀ id, o ≠ .bindControl id) {l : Ledger F}
    (hp : Permits l c o) (e : step encode c o = .ok (c', r)) (x : Nat) :
    (∀ f ∈ subm c o r x, FrentOk f) ∧ (streamUni x = true → ∀ f ∈ subm c o r x, isCtl f = true) ∧
      (streamUni x = true → c.ctrl ≠ some x → subm c o r x = []) := by
  have none : (∀ f ∈ ([] : List (Frent F)), FrentOk f) ∧ (streamUni x = true → ∀ f ∈ ([] : List (Frent F)), isCtl f = true) ∧
      (streamUni x = true → c.ctrl ≠ some x → ([] : List (Frent F)) = []) := ⟨(fun f hf => by cases hf), (fun _ f hf => by cases hf), fun _ _ => rfl⟩
  have req : ∀ {nva : F} {dr : Bool}, streamUni x = false → (∀ f ∈ (Frent.headers nva :: if dr then [.data] else []), FrentOk f) ∧
      (streamUni x = true → ∀ f ∈ (Frent.headers nva :: if dr then [.data] else []), isCtl f = true) ∧
      (streamUni x = true → c.ctrl ≠ some x → (Frent.headers nva :: if dr then [.data] else []) = []) := by
    intro nva dr hu
    refine ⟨fun f hf => ?_, (fun g => by rw [hu] at g; cases g), (fun g => by rw [hu] at g; cases g)⟩
    cases dr
    · rcases List.mem_cons.1 hf with rfl | hf
      · trivial
      · cases hf
    · rcases List.mem_cons.1 hf with rfl | hf
      · trivial
      · obtain rfl := List.mem_singleton.1 hf; trivial
  have ctl : ∀ {f : Frent F}, FrentOk f → isCtl f = true → (∀ g ∈ (if c.ctrl = some x then [f] else []), FrentOk g) ∧
      (streamUni x = true → ∀ g ∈ (if c.ctrl = some x then [f] else []), isCtl g = true) ∧
      (streamUni x = true → c.ctrl ≠ some x → (if c.ctrl = some x then [f] else []) = []) := by
    intro f h1 h2
    by_cases hc : c.ctrl = some x
    · rw [if_pos hc]
      exact ⟨(fun g hg => by obtain rfl := List.mem_singleton.1 hg; exact h1), (fun _ g hg => by obtain rfl := List.mem_singleton.1 hg; exact h2),
        fun _ g => absurd hc g⟩
    · rw [if_neg hc]; exact none
  unfold subm
  by_cases hr : r = .code 0
  · rw [if_pos hr]
    cases o with
    | bindControl id => exact absurd rfl (hnb id)
    | submitRequest id nva dr =>
      dsimp only
      by_cases hx : id = x
      · subst hx
        rw [if_pos rfl]
        refine req ?_
        change submitRequest c id nva dr = _ at e
        unfold submitRequest at e
        by_cases hg : (c.server || c.qenc.isNone || decide (id ≥ 2 ^ 62) || !clientBidi id) = true
        · rw [if_pos hg] at e; cases e
        · simp only [Bool.or_eq_true, Bool.not_eq_true', not_or] at hg
          exact bidi_not_uni (by simpa using hg.2)
      · rw [if_neg hx]; exact none
    | submitInfo id nva =>
      dsimp only
      by_cases hx : id = x
      · subst hx
        rw [if_pos rfl]
        exact req (dr := false) (bidi_not_uni hp.1)
      · rw [if_neg hx]; exact none
    | submitResponse id nva dr =>
      dsimp only
      by_cases hx : id = x
      · subst hx
        rw [if_pos rfl]
        exact req (bidi_not_uni hp.1)
      · rw [if_neg hx]; exact none
    | submitTrailers id nva =>
      dsimp only
      by_cases hx : id = x
      · subst hx
        rw [if_pos rfl]
        exact req (dr := false) (bidi_not_uni hp.1)
      · rw [if_neg hx]; exact none
    | notice =>
      refine ctl ?_ rfl
      show (if c.server then 2 ^ 62 - 4 else 2 ^ 62 - 1) < 2 ^ 62
      split_ifs <;> decide
    | shutdown =>
      refine ctl ?_ rfl
      show (if c.server then min (2 ^ 62 - 4) (c.maxBidi + 4).toNat else 0) < 2 ^ 62
      split_ifs
      · exact Nat.lt_of_le_of_lt (Nat.min_le_left _ _) (by decide)
      · decide
    | setClientPri id va =>
      refine ctl ?_ rfl
      refine ⟨.inl rfl, ?_, hp.2⟩
      change setClientPriority c id va = _ at e
      unfold setClientPriority at e
      by_cases hg : (c.server || decide (id ≥ 2 ^ 62)) = true
      · rw [if_pos hg] at e; cases e
      · simp only [Bool.or_eq_true, not_or, decide_eq_true_eq] at hg
        omega
    | _ => exact none
  · rw [if_neg hr]; exact none

/-- frames are queued on a stream, or its end is announced -/
theorem sinv_submit {ct qe qd : Option Nat} {b : Book F} {ks : List (Made F)} {us : List Ans} {x : Nat} {o : St F} {items : List Emit}
    (h : SInv ct qe qd b ks us M D x o items) {l : List (Frent F)} {cl : Bool} (h1 : ∀ f ∈ l, FrentOk f)
    (h2 : streamUni x = true → ∀ f ∈ l, isCtl f = true) (h3 : streamUni x = true → ct ≠ some x → l = [])
    (hqe : qe = some x → streamUni x = true ∧ ct ≠ some x) (hqd : qd = some x → streamUni x = true ∧ ct ≠ some x) :
    SInv ct qe qd { b with submitted := b.submitted ++ l, closed := b.closed || cl } ks us M D x (addF o l cl) items := by
  have app : ∀ (P : Frent F → Prop), (∀ f ∈ o.frq, P f) → (∀ f ∈ l, P f) → ∀ f ∈ o.frq ++ l, P f := by
    intro P k1 k2 f hf
    rcases List.mem_append.1 hf with hf | hf
    · exact k1 f hf
    · exact k2 f hf
  have nof : o.frq = [] → l = [] → (addF o l cl).frq = [] := by
    intro k1 k2; show o.frq ++ l = []; rw [k1, k2]; rfl
  refine ⟨Outq.inv_congr h.inv rfl rfl rfl rfl rfl rfl rfl rfl, h.ok, h.len, h.pre, h.ack, ?_, app _ h.frqOk h1, fun g => ?_, fun g => ?_, fun g => ?_, fun g => ?_,
    fun g1 g2 g3 g4 => ?_, fun g => app (fun f => isCtl f = true) (h.uni g) (h2 g)⟩
  · show (o.endStream || cl) = _
    rw [h.ends]
    dsimp only
    cases b.closed <;> cases cl <;> cases endsIn items <;> rfl
  · obtain ⟨k1, k2⟩ := h.req g
    exact ⟨serves_submit k1 l, k2⟩
  · obtain ⟨t, k1, k2⟩ := h.ctl g
    exact ⟨t, k1, serves_submit k2 l⟩
  · obtain ⟨k1, k2⟩ := h.enc g
    exact ⟨k1, nof k2 (h3 (hqe g).1 (hqe g).2)⟩
  · obtain ⟨bs, k1, k2, k3⟩ := h.dec g
    exact ⟨bs, k1, k2, nof k3 (h3 (hqd g).1 (hqd g).2)⟩
  · obtain ⟨k1, k2⟩ := h.oth g1 g2 g3 g4
    exact ⟨k1, nof k2 (h3 g1 g2)⟩

/-- a stream on which nothing has been put -/
theorem sinv_empty {ct qe qd : Option Nat} {x n : Nat} (h1 : ct ≠ some x) (h2 : qe ≠ some x) (h3 : qd ≠ some x) :
    SInv ct qe qd ({ born := n } : Book F) [] [] M D x ({} : St F) [] :=
  ⟨Outq.inv_init, (fun _ g => by cases g), rfl, List.nil_prefix, rfl, rfl, (fun _ g => by cases g), fun _ => ⟨.done _, rfl⟩, fun g => absurd g h1,
    fun g => absurd g h2, fun g => absurd g h3, fun _ _ _ _ => ⟨rfl, rfl⟩, (fun _ _ g => by cases g)⟩

/-- only the fields of the queue that matter -/
theorem sinv_congr {ct qe qd : Option Nat} {b b' : Book F} {ks : List (Made F)} {us : List Ans} {x : Nat} {o o' : St F} {items : List Emit}
    (h : SInv ct qe qd b ks us M D x o items) (h1 : Outq.Inv (itemsBytes items) o') (h2 : b'.taken.length = o'.ackBase + written o'.outq)
    (h3 : b'.taken ++ b'.offered <+: (itemsBytes items).map Prod.fst) (h4 : b'.acked = o'.ackOffset) (h5 : o'.endStream = o.endStream) (h6 : o'.frq = o.frq)
    (h7 : b'.submitted = b.submitted) (h8 : b'.closed = b.closed) : SInv ct qe qd b' ks us M D x o' items := by
  refine ⟨h1, h.ok, h2, h3, h4, by rw [h5, h8]; exact h.ends, by rw [h6]; exact h.frqOk, ?_, ?_, ?_, ?_, ?_, by rw [h6]; exact h.uni⟩
  · rw [h6, h7]; exact h.req
  · rw [h6, h7]; exact h.ctl
  · rw [h6]; exact h.enc
  · rw [h6]; exact h.dec
  · rw [h6]; exact h.oth

theorem sinv_taken {ct qe qd : Option Nat} {b : Book F} {ks : List (Made F)} {us : List Ans} {x : Nat} {o : St F} {items : List Emit}
    (h : SInv ct qe qd b ks us M D x o items) : b.taken.length + o.unsent = (itemsBytes items).length ∧ b.offered.length ≤ o.unsent := by
  have h1 := h.inv.sent
  have h2 := h.len
  have h3 := h.pre.length_le
  rw [List.length_append, List.length_map] at h3
  omega

/-- what a call does to the queue of a stream that exists, and to its book -/
theorem sinv_tr {ct qe qd : Option Nat} {b : Book F} {ks : List (Made F)} {us : List Ans} {x : Nat} {a a' : St F} {items : List Emit}
    (h : SInv ct qe qd b ks us M D x a items) {o : Op F} {r : Ret} (ht : TrO c o r x a a')
    (hs : (∀ f ∈ subm c o r x, FrentOk f) ∧ (streamUni x = true → ∀ f ∈ subm c o r x, isCtl f = true) ∧ (streamUni x = true → ct ≠ some x → subm c o r x = []))
    (hqe : qe = some x → streamUni x = true ∧ ct ≠ some x) (hqd : qd = some x → streamUni x = true ∧ ct ≠ some x)
    (hw : ∀ n, o = .addWrite x n → n ≤ b.offered.length) (ha : ∀ n, o = .addAck x n → b.acked + n ≤ b.taken.length)
    (hu : ∀ n, o = .updAck x n → n ≤ b.taken.length) (hv : ∀ k db as, o ≠ .writev k db as) : SInv ct qe qd (enter b c o r x) ks us M D x a' items := by
  have sub : a' = addF a (subm c o r x) (closes o r x) → enter b c o r x = { b with submitted := b.submitted ++ subm c o r x, closed := b.closed || closes o r x } →
      SInv ct qe qd (enter b c o r x) ks us M D x a' items := by
    intro k1 k2
    rw [k1, k2]
    exact sinv_submit h hs.1 hs.2.1 hs.2.2 hqe hqd
  have same : enter b c o r x = b → a' = a → SInv ct qe qd (enter b c o r x) ks us M D x a' items := by
    intro k1 k2; rw [k1, k2]; exact h
  obtain ⟨t1, t2⟩ := sinv_taken h
  cases o with
  | writev k db as => exact absurd rfl (hv k db as)
  | addWrite id n =>
    unfold TrO at ht
    dsimp only at ht
    by_cases hx : id = x
    · subst hx
      rw [if_pos rfl] at ht
      have hn := hw n rfl
      obtain ⟨s', g1, g2, g3, g4, g5, g6, g7, g8⟩ := Outq.addOffset_spec h.inv n (by omega)
      rw [ht] at g1
      obtain rfl := R.ok.inj g1
      unfold enter
      dsimp only
      rw [if_pos rfl]
      refine sinv_congr h g2 ?_ ?_ ?_ g5 g4 rfl rfl
      · dsimp only
        rw [g3, List.length_append, List.length_take, h.len]; omega
      · dsimp only
        rw [List.append_assoc, List.take_append_drop]; exact h.pre
      · exact h.ack.trans g7.symm
    · rw [if_neg hx] at ht
      refine same ?_ ht
      unfold enter; dsimp only; rw [if_neg hx]
  | addAck id n =>
    unfold TrO at ht
    dsimp only at ht
    by_cases hx : id = x
    · subst hx
      rw [if_pos rfl] at ht
      obtain ⟨rep, ht⟩ := ht
      have hn := ha n rfl
      have := h.ack
      have := h.len
      obtain ⟨s', rep', k, g1, g2, g3, g4, g5, g6, _⟩ := Outq.ack_spec h.inv (a.ackOffset + n) (by omega) (by omega)
      rw [ht] at g1
      obtain ⟨rfl, _⟩ := Prod.mk.inj (R.ok.inj g1)
      unfold enter
      dsimp only
      rw [if_pos rfl]
      exact sinv_congr h g2 (h.len.trans g4.symm) h.pre (by dsimp only; rw [g3, h.ack]) g6 g5 rfl rfl
    · rw [if_neg hx] at ht
      refine same ?_ ht
      unfold enter; dsimp only; rw [if_neg hx]
  | updAck id off =>
    unfold TrO at ht
    dsimp only at ht
    by_cases hx : id = x ∧ r = .code 0
    · obtain ⟨rfl, hr⟩ := hx
      rw [if_pos ⟨rfl, hr⟩] at ht
      obtain ⟨hle, rep, ht⟩ := ht
      have hn := hu off rfl
      have := h.len
      obtain ⟨s', rep', k, g1, g2, g3, g4, g5, g6, _⟩ := Outq.ack_spec h.inv off hle (by omega)
      rw [ht] at g1
      obtain ⟨rfl, _⟩ := Prod.mk.inj (R.ok.inj g1)
      unfold enter
      dsimp only
      rw [if_pos ⟨rfl, hr⟩]
      exact sinv_congr h g2 (h.len.trans g4.symm) h.pre g3.symm g6 g5 rfl rfl
    · rw [if_neg hx] at ht
      refine same ?_ ht
      unfold enter; dsimp only; rw [if_neg hx]
  | resume id =>
    have he : enter b c (.resume id) r x = b := by
      unfold enter subm closes
      dsimp only
      split_ifs <;> (rw [List.append_nil, Bool.or_false])
    unfold TrO at ht
    dsimp only at ht
    split_ifs at ht
    · rw [he, ht]
      exact sinv_congr h (Outq.inv_flags h.inv a.endStream false) h.len h.pre h.ack rfl rfl rfl rfl
    · exact same he ht
  | _ => exact sub ht rfl

theorem served_old (log : List (Serve F)) (sv : Serve F) {n x : Nat} (h : n ≤ log.length) :
    servedSince (log ++ [sv]) n x = servedSince log n x ++ (if sv.id = x then [sv] else []) := by
  unfold servedSince
  rw [List.drop_append_of_le_length h, List.filter_append]
  congr 1
  by_cases hx : sv.id = x
  · rw [if_pos hx]; simp [hx]
  · rw [if_neg hx]; simp [hx]

theorem served_new (log : List (Serve F)) (x : Nat) : servedSince log log.length x = [] := by
  unfold servedSince; rw [List.drop_length]; rfl

theorem tallies_append {log : List (Serve F)} {asks : List (Bytes × List Ans)} (h : Tallies log asks) {sv : Serve F} {db : Bytes} {as : List Ans}
    (h1 : sv.used <+: as) (h2 : sv.dec = db) : Tallies (log ++ [sv]) (asks ++ [(db, as)]) := by
  refine ⟨by rw [List.length_append, List.length_append, h.1]; rfl, fun p hp => ?_⟩
  rw [List.zip_append h.1] at hp
  rcases List.mem_append.1 hp with hp | hp
  · exact h.2 p hp
  · obtain rfl := List.mem_singleton.1 hp
    exact ⟨h1, h2⟩

/-- the invariant -/
structure RInv (encode : Encode E F) (peer : E → E → Prop) (e0 : E) (l : Ledger F) (c : Conn E F) (log : List (Serve F)) : Prop where
  inv : Inv False False c
  st : FrentOk (.settings c.settings : Frent F)
  tal : Tallies log l.asks
  chain : Chain encode peer e0 (log.flatMap Serve.made) c.enc
  noEnc : c.qenc = none → log.flatMap Serve.made = []
  noDec : c.qdec = none → log.flatMap Serve.dec = []
  born : ∀ x s, c.str x = some s → (l.at x).born ≤ log.length
  all : All c l.at (fun x => (servedSince log (l.at x).born x).flatMap Serve.made) (fun x => (servedSince log (l.at x).born x).flatMap Serve.used)
    (log.flatMap Serve.made) (log.flatMap Serve.dec)

/-- the calls that neither bind streams nor write -/
theorem rinv_out {e0 : E} {l : Ledger F} {log : List (Serve F)} (h : RInv encode peer e0 l c log) {o : Op F} {r : Ret}
    (h1 : ∀ id, o ≠ .bindControl id) (h2 : ∀ a b, o ≠ .bindQpack a b) (h3 : ∀ k db as, o ≠ .writev k db as) (hp : Permits l c o)
    (e : step encode c o = .ok (c', r)) : RInv encode peer e0 (note l c o r) c' log := by
  have hasks : (note l c o r).asks = l.asks := by
    unfold note
    cases o <;> first | rfl | exact absurd rfl (h3 _ _ _)
  obtain ⟨g1, g2, g3⟩ := glob_crit h.inv h1 h2 e
  obtain ⟨q1, q2⟩ := step_out h1 h2 h3 e
  have hi := step_inv h.inv hp.1 (fun g => g.elim) (fun g => g.elim) e
  have hcr := crits h.inv
  have hlen : log.length = l.asks.length := h.tal.1
  have hborn : ∀ x, ((note l c o r).at x).born = if (c.str x).isSome then (l.at x).born else l.asks.length := by
    intro x
    show (enter _ c o r x).born = _
    rw [enter_born]
    split_ifs <;> rfl
  refine ⟨hi, by rw [step_settings h.inv e]; exact h.st, by rw [hasks]; exact h.tal, by rw [q1]; exact h.chain, by rw [g2]; exact h.noEnc, by rw [g3]; exact h.noDec,
    fun x s hx => ?_, fun x s hx => ?_⟩
  · rw [hborn]
    rcases q2 x s hx with ⟨k1, _⟩ | ⟨s0, k1, _⟩
    · rw [k1, hlen]; exact Nat.le_refl _
    · rw [k1]; exact h.born x s0 k1
  · dsimp only
    rw [g1, g2, g3, hborn]
    have hso := subm_ok h.st h1 hp e x
    have hqe : c.qenc = some x → streamUni x = true ∧ c.ctrl ≠ some x := fun g => ⟨hcr.ue x g, fun k => hcr.ce x k g⟩
    have hqd : c.qdec = some x → streamUni x = true ∧ c.ctrl ≠ some x := fun g => ⟨hcr.ud x g, fun k => hcr.cd x k g⟩
    rcases q2 x s hx with ⟨k1, k2⟩ | ⟨s0, k1, k2⟩
    · have hat : (note l c o r).at x = enter { born := l.asks.length } c o r x := by
        show enter _ c o r x = _
        rw [k1]; rfl
      rw [hat, k1, k2]
      rw [if_neg (show ¬ (none : Option (Strm F)).isSome = true from fun g => by cases g), ← hlen, served_new]
      have n1 : c.ctrl ≠ some x := fun g => by obtain ⟨_, t, g2, _⟩ := h.inv.tctrl x g; rw [k1] at g2; cases g2
      have n2 : c.qenc ≠ some x := fun g => by obtain ⟨_, t, g2, _⟩ := h.inv.tqenc x g; rw [k1] at g2; cases g2
      have n3 : c.qdec ≠ some x := fun g => by obtain ⟨_, t, g2, _⟩ := h.inv.tqdec x g; rw [k1] at g2; cases g2
      have h0 : SInv c.ctrl c.qenc c.qdec ({ born := log.length } : Book F) [] [] (log.flatMap Serve.made) (log.flatMap Serve.dec) x ({} : St F) [] :=
        sinv_empty n1 n2 n3
      have hne : ∀ {id : Nat}, (∀ c1 r1, c.str id = none → step encode c o = .ok (c1, r1) → c1 = c) → id ≠ x := by
        rintro id hh rfl
        have := hh _ _ k1 e
        subst this
        rw [k1] at hx; cases hx
      refine ⟨[], ?_⟩
      have hnq : newQ c o r x = addF {} (subm c o r x) (closes o r x) := rfl
      have nil : ∀ {id : Nat}, subm c o r x = [] → closes o r x = false → enter ({ born := log.length } : Book F) c o r x = { born := log.length } →
          SInv c.ctrl c.qenc c.qdec (enter ({ born := log.length } : Book F) c o r x) [] [] (log.flatMap Serve.made) (log.flatMap Serve.dec) x (newQ c o r x) [] := by
        intro _ z1 z2 z3
        rw [z3, hnq, z1, z2, addF_nil]; exact h0
      cases o with
      | bindControl id => exact absurd rfl (h1 id)
      | bindQpack a b => exact absurd rfl (h2 a b)
      | writev k db as => exact absurd rfl (h3 k db as)
      | addWrite id n =>
        have : id ≠ x := hne fun c1 r1 z1 z2 => by
          change addWriteOffset c id n = _ at z2
          unfold addWriteOffset at z2; rw [z1] at z2
          exact (Prod.mk.inj (R.ok.inj z2)).1.symm
        exact nil (id := id) (by unfold subm; split_ifs <;> rfl) (by unfold closes; split_ifs <;> rfl) (by unfold enter; dsimp only; rw [if_neg this])
      | addAck id n =>
        have : id ≠ x := hne fun c1 r1 z1 z2 => by
          change addAckOffset c id n = _ at z2
          unfold addAckOffset at z2; rw [z1] at z2
          exact (Prod.mk.inj (R.ok.inj z2)).1.symm
        exact nil (id := id) (by unfold subm; split_ifs <;> rfl) (by unfold closes; split_ifs <;> rfl) (by unfold enter; dsimp only; rw [if_neg this])
      | updAck id n =>
        have : id ≠ x := hne fun c1 r1 z1 z2 => by
          change updateAckOffset c id n = _ at z2
          unfold updateAckOffset at z2; rw [z1] at z2
          exact (Prod.mk.inj (R.ok.inj z2)).1.symm
        exact nil (id := id) (by unfold subm; split_ifs <;> rfl) (by unfold closes; split_ifs <;> rfl)
          (by unfold enter; dsimp only; rw [if_neg fun g => this g.1])
      | _ => exact sinv_submit h0 hso.1 hso.2.1 hso.2.2 hqe hqd
    · have hat : (note l c o r).at x = enter (l.at x) c o r x := by
        show enter _ c o r x = _
        rw [k1]; rfl
      rw [hat, k1]
      obtain ⟨items, hs⟩ := h.all x s0 k1
      have hsome : (c.str x).isSome = true := by rw [k1]; rfl
      refine ⟨items, sinv_tr hs k2 hso hqe hqd ?_ ?_ ?_ h3⟩
      · rintro n rfl; exact hp.2 hsome
      · rintro n rfl; exact hp.2 hsome
      · rintro n rfl; exact hp.2 hsome

/-- nghttp3_conn_writev_stream -/
theorem rinv_writev (henc : EncodeOk encode) {e0 : E} {l : Ledger F} {log : List (Serve F)} (h : RInv encode peer e0 l c log) {k : Nat} {db : Bytes}
    {as : List Ans} {r : Ret} (hp : Permits l c (.writev k db as)) (e : step encode c (.writev k db as) = .ok (c', r)) :
    ∃ sv, RInv encode peer e0 (note l c (.writev k db as) r) c' (log ++ [sv]) ∧ Steps encode c.enc sv.made c'.enc ∧
      (c.str sv.id = none ∨ streamUni sv.id = true → sv.made = [] ∧ sv.used = []) ∧ ∃ rr, r = .vecs rr ∧ Offer c' k rr := by
  have hi := step_inv h.inv hp.1 (fun g => g.elim) (fun g => g.elim) e
  obtain ⟨g1, g2, g3⟩ := glob_crit h.inv (by intro _ g; cases g) (by intro _ _ g; cases g) e
  have e' : writevStream encode c k db as = .ok (c', r) := e
  obtain ⟨⟨sv, d⟩, rr, rfl, hoff⟩ := writevStream_all henc h.inv h.all hp.2 e'
  have hlive : ∀ x s, c'.str x = some s → (c.str x).isSome = true := by
    intro x s hx
    rcases hc : c.str x with _ | t
    · rw [writev_dom h.inv e' hc] at hx; cases hx
    · rfl
  have hat : ∀ x s, c'.str x = some s → (note l c (.writev k db as) (.vecs rr)).at x = enter (l.at x) c (.writev k db as) (.vecs rr) x := by
    intro x s hx
    unfold note
    dsimp only
    rw [if_pos (hlive x s hx)]
  have hb : ∀ x s, c'.str x = some s → (l.at x).born ≤ log.length := by
    intro x s hx
    obtain ⟨t, ht⟩ := Option.isSome_iff_exists.1 (hlive x s hx)
    exact h.born x t ht
  have fm : ∀ {α : Type} (f : Serve F → List α), (log ++ [sv]).flatMap f = log.flatMap f ++ f sv := by
    intro α f; rw [List.flatMap_append]; simp
  refine ⟨sv, ⟨hi, by rw [step_settings h.inv e]; exact h.st, tallies_append h.tal d.used d.dec, ?_, ?_, ?_, fun x s hx => ?_, fun x s hx => ?_⟩, d.chain, d.live, rr, rfl, hoff⟩
  · rw [fm]; exact chain_append h.chain (steps_chain _ d.chain)
  · rw [fm, g2]; intro g; rw [h.noEnc g, d.noEnc g]; rfl
  · rw [fm, g3]; intro g; rw [h.noDec g, d.noDec g]; rfl
  · rw [hat x s hx, enter_born, List.length_append]
    have := hb x s hx
    omega
  · dsimp only
    rw [hat x s hx, enter_born]
    obtain ⟨items, hs⟩ := d.all x s hx
    rw [served_old log sv (hb x s hx), fm, fm]
    have ek : ∀ {α : Type} (f : Serve F → List α), upd (fun x => (servedSince log (l.at x).born x).flatMap f) sv.id
        ((servedSince log (l.at sv.id).born sv.id).flatMap f ++ f sv) x = (servedSince log (l.at x).born x ++ if sv.id = x then [sv] else []).flatMap f := by
      intro α f
      rw [List.flatMap_append]
      by_cases hx : x = sv.id
      · rw [hx, upd_same, if_pos rfl]; simp
      · rw [upd_ne _ _ hx, if_neg (Ne.symm hx)]; simp
    rw [ek, ek] at hs
    have same : enter (l.at x) c (.writev k db as) (.vecs rr) x = l.at x → ∃ items, SInv c'.ctrl c'.qenc c'.qdec (enter (l.at x) c (.writev k db as) (.vecs rr) x)
        ((servedSince log (l.at x).born x ++ if sv.id = x then [sv] else []).flatMap Serve.made)
        ((servedSince log (l.at x).born x ++ if sv.id = x then [sv] else []).flatMap Serve.used) (log.flatMap Serve.made ++ sv.made)
        (log.flatMap Serve.dec ++ sv.dec) x s.out items := by
      intro z; rw [z]; exact ⟨items, hs⟩
    rcases rr with _ | ⟨y, fin, vs⟩
    · exact same rfl
    · by_cases hy : y = x
      · subst hy
        obtain ⟨s2, k1, k2⟩ := hoff _ _ _ rfl
        rw [hx] at k1; cases k1
        have hk : 0 < k := by
          rcases Nat.eq_zero_or_pos k with rfl | hk
          · unfold Outq.writev at k2; rw [if_pos rfl] at k2; cases k2
          · exact hk
        obtain ⟨vs', fin', m1, m2, _⟩ := Outq.writev_spec hs.inv k hk
        rw [k2] at m1
        obtain ⟨rfl, rfl⟩ := Prod.mk.inj (R.ok.inj m1)
        unfold enter
        dsimp only
        rw [if_pos rfl]
        refine ⟨items, sinv_congr hs hs.inv hs.len ?_ hs.ack rfl rfl rfl rfl⟩
        dsimp only
        obtain ⟨t, ht⟩ := m2
        have htk : (l.at y).taken <+: (itemsBytes items).map Prod.fst := (List.prefix_append _ _).trans hs.pre
        have : (l.at y).taken = ((itemsBytes items).map Prod.fst).take (s.out.ackBase + written s.out.outq) := by
          rw [← hs.len]; exact List.prefix_iff_eq_take.1 htk
        refine ⟨t, ?_⟩
        rw [List.append_assoc, ht, this, List.take_append_drop]
      · refine same ?_
        unfold enter; dsimp only; rw [if_neg hy]

end Conn
end Nghttp3
