import Verif.Lemmas.DuoFeed
/-! Two endpoints: the invariant, and calls other than nghttp3_conn_writev_stream. -/
namespace Nghttp3
namespace Duo
open Http Qpack Bidi
open Conn (streamUni RInv SInv)
open Outq (R Frent Ans Emit EmitOk itemsBytes itemBytes dataAnswers EncodeOk)
open Sent (Book Ledger Made Serve Serves servedSince note enter subm closes Permits)
open Net (SFrame NOp NRes Par NStr)

/-- field sections and answers used for a stream -/
def madeOf (log : List (Serve Fld)) (b : Book Fld) (x : Nat) : List (Made Fld) := (servedSince log b.born x).flatMap Serve.made
def usedOf (log : List (Serve Fld)) (b : Book Fld) (x : Nat) : List Ans := (servedSince log b.born x).flatMap Serve.used

/-- all bytes of a stream -/
def bytes (it : List Emit) : Bidi.Bytes := (itemsBytes it).map Prod.fst

/-- a request stream, whether it still exists or not -/
structure Strm (P : Par) (log : List (Serve Fld)) (b : Book Fld) (x : Nat) (items : List Emit) (rest : List (Frent Fld)) : Prop where
  srv : Serves b.submitted (madeOf log b x) items rest
  ans : dataAnswers items = usedOf log b x
  req : ∀ f ∈ b.submitted, IsReq x f
  ids : b.submitted ≠ [] → x ∈ P.ids
  ok : ∀ i ∈ items, EmitOk i
  tak : b.taken <+: bytes items
  born : b.born ≤ log.length
  cls : b.closed = true → b.submitted ≠ []

/-- what is known of the two endpoints: `items` are what the streams carry, `rest` the frames still to be served; of the encoder stream the
receiver has got `del`, and the sender still holds `pe` -/
structure DInv (P : Par) (e0 : ESys) (d : Duo) (log : List (Serve Fld)) (items : Nat → List Emit) (rest : Nat → List (Frent Fld)) (del pe : Bidi.Bytes) : Prop where
  rinv : RInv encode Peer e0 d.l d.c log
  sys : d.net.sys = d.c.enc
  live : ∀ x s, streamUni x = false → d.c.str x = some s → d.book x = d.l.at x ∧
    SInv d.c.ctrl d.c.qenc d.c.qdec (d.book x) (madeOf log (d.book x) x) (usedOf log (d.book x) x) (log.flatMap Serve.made) (log.flatMap Serve.dec) x s.out (items x) ∧ rest x = s.out.frq
  fresh : ∀ x, d.c.str x = none → d.gone x = false → d.book x = {}
  uni : ∀ x, streamUni x = true → items x = []
  strm : ∀ x, streamUni x = false → Strm P log (d.book x) x (items x) (rest x)
  last : ∀ x s, streamUni x = false → d.c.str x = some s → d.last x = true → (d.book x).taken ++ (d.book x).offered = bytes (items x)
  sealed : ∀ x, streamUni x = false → d.sealed x = true → rest x = [] ∧ x ∈ P.ids
  lsea : ∀ x, d.last x = true → d.sealed x = true
  ended : ∀ x, (d.net.str x).ended = true → streamUni x = false ∧ d.sealed x = true ∧ (d.book x).taken = bytes (items x)
  enc : (log.flatMap Serve.made).flatMap Made.enc = del ++ d.net.ech ++ pe
  etak : ∀ q, d.c.qenc = some q → ((d.l.at q).taken = [] ∧ del ++ d.net.ech = []) ∨ (d.l.at q).taken = 2 :: (del ++ d.net.ech)
  sim : d.Wellformed P log → Reached P (lift d.net (fun x => frames (madeOf log (d.book x) x) (items x)) (fun x => (bytes (items x)).drop (d.book x).taken.length) pe)

variable {P : Par} {e0 : ESys} {d : Duo} {log : List (Serve Fld)} {items : Nat → List Emit} {rest : Nat → List (Frent Fld)} {del pe : Bidi.Bytes}

theorem enter_sub (b : Book Fld) (c : Conn.Conn ESys Fld) (o : Conn.Op Fld) (r : Conn.Ret) (x : Nat) : (enter b c o r x).submitted = b.submitted ++ subm c o r x := by
  cases o with
  | writev k db as =>
    have : subm c (.writev k db as) r x = [] := by unfold subm; split_ifs <;> rfl
    rw [this, List.append_nil]
    unfold enter
    dsimp only
    split
    · split_ifs <;> rfl
    · rfl
  | addWrite a b =>
    have : subm c (.addWrite a b) r x = [] := by unfold subm; split_ifs <;> rfl
    rw [this, List.append_nil]
    unfold enter
    dsimp only
    split_ifs <;> rfl
  | addAck a b =>
    have : subm c (.addAck a b) r x = [] := by unfold subm; split_ifs <;> rfl
    rw [this, List.append_nil]
    unfold enter
    dsimp only
    split_ifs <;> rfl
  | updAck a b =>
    have : subm c (.updAck a b) r x = [] := by unfold subm; split_ifs <;> rfl
    rw [this, List.append_nil]
    unfold enter
    dsimp only
    split_ifs <;> rfl
  | _ => rfl

theorem enter_cls {b : Book Fld} {c : Conn.Conn ESys Fld} {o : Conn.Op Fld} {r : Conn.Ret} {x : Nat} (hb : b.closed = true → b.submitted ≠ []) :
    (enter b c o r x).closed = true → (enter b c o r x).submitted ≠ [] := by
  have hcl : (enter b c o r x).closed = true → b.closed = true ∨ closes o r x = true := by
    unfold enter
    split
    · split
      · split_ifs <;> exact .inl
      · exact .inl
    · split_ifs <;> exact .inl
    · split_ifs <;> exact .inl
    · split_ifs <;> exact .inl
    · intro g
      simpa using g
  intro g
  rw [enter_sub]
  intro hn
  obtain ⟨h1, h2⟩ := List.append_eq_nil_iff.1 hn
  rcases hcl g with h | h
  · exact hb h h1
  · unfold closes at h
    unfold subm at h2
    by_cases hr : r = .code 0
    · rw [if_pos hr] at h h2
      cases o <;> simp at h h2 <;> simp_all
    · rw [if_neg hr] at h; cases h

/-- what is submitted on request streams -/
theorem subm_req {l : Ledger Fld} {c c' : Conn.Conn ESys Fld} {o : Conn.Op Fld} {r : Conn.Ret} {x : Nat} (hi : RInv encode Peer e0 l c log) (hc : c = d.c) (hx : streamUni x = false)
    (e : Conn.step encode c o = .ok (c', r)) (hk : Keeps P d o r) : (∀ f ∈ subm c o r x, IsReq x f) ∧ (subm c o r x ≠ [] → x ∈ P.ids ∧ d.sealed x = false) := by
  by_cases hr : r = .code 0
  · have hk := hk hr
    have hcr := (Conn.crits hi.inv).uc x
    have hnc : c.ctrl ≠ some x := fun g => by rw [hcr g] at hx; cases hx
    have nil : subm c o r x = [] → (∀ f ∈ subm c o r x, IsReq x f) ∧ (subm c o r x ≠ [] → x ∈ P.ids ∧ d.sealed x = false) := by
      intro g; rw [g]; exact ⟨fun f hf => (by cases hf), fun g => absurd rfl g⟩
    have one : ∀ (id : Nat) (nva : Fld) (dr : Bool), subm c o r x = (if id = x then .headers nva :: (if dr then [.data] else []) else []) → (nva.1 = id ∧ id ∈ P.ids ∧ d.sealed id = false) →
        (∀ f ∈ subm c o r x, IsReq x f) ∧ (subm c o r x ≠ [] → x ∈ P.ids ∧ d.sealed x = false) := by
      rintro id nva dr g ⟨g1, g2, g3⟩
      by_cases hid : id = x
      · subst hid
        rw [g, if_pos rfl]
        refine ⟨fun f hf => ?_, fun _ => ⟨g2, g3⟩⟩
        rcases List.mem_cons.1 hf with rfl | hf
        · exact g1
        · cases dr
          · cases hf
          · obtain rfl := List.mem_singleton.1 hf; trivial
      · rw [g, if_neg hid]
        exact ⟨fun f hf => (by cases hf), fun g => absurd rfl g⟩
    cases o with
    | bindControl id =>
      refine nil ?_
      unfold subm
      rw [if_pos hr]
      dsimp only
      rw [if_neg]
      rintro rfl
      change Conn.bindControl c id = _ at e
      unfold Conn.bindControl at e
      by_cases hg : (decide (id ≥ 2 ^ 62) || (c.server && !Conn.serverUni id) || (!c.server && !Conn.clientUni id)) = true
      · rw [if_pos hg] at e; cases e
      · simp only [Bool.or_eq_true, not_or] at hg
        obtain ⟨⟨_, g1⟩, g2⟩ := hg
        unfold Conn.serverUni at g1
        unfold Conn.clientUni at g2
        unfold streamUni at hx
        cases hsv : c.server <;> simp_all
    | submitRequest id nva dr => exact one id nva dr (by unfold subm; rw [if_pos hr]) hk
    | submitInfo id nva => exact one id nva false (by unfold subm; rw [if_pos hr]; rfl) hk
    | submitResponse id nva dr => exact one id nva dr (by unfold subm; rw [if_pos hr]) hk
    | submitTrailers id nva => exact one id nva false (by unfold subm; rw [if_pos hr]; rfl) hk
    | notice => exact nil (by unfold subm; rw [if_pos hr]; dsimp only; rw [if_neg hnc])
    | shutdown => exact nil (by unfold subm; rw [if_pos hr]; dsimp only; rw [if_neg hnc])
    | setClientPri id v => exact nil (by unfold subm; rw [if_pos hr]; dsimp only; rw [if_neg hnc])
    | _ => exact nil (by unfold subm; rw [if_pos hr])
  · have : subm c o r x = [] := by unfold subm; rw [if_neg hr]
    rw [this]
    exact ⟨fun f hf => (by cases hf), fun g => absurd rfl g⟩

theorem rinv_call {l : Ledger Fld} {c c' : Conn.Conn ESys Fld} {o : Conn.Op Fld} {r : Conn.Ret} (h : RInv encode Peer e0 l c log) (h3 : ∀ k db as, o ≠ .writev k db as)
    (hp : Permits l c o) (e : Conn.step encode c o = .ok (c', r)) : RInv encode Peer e0 (note l c o r) c' log := by
  by_cases h1 : ∃ id, o = .bindControl id
  · obtain ⟨id, rfl⟩ := h1; exact Conn.rinv_control h e
  by_cases h2 : ∃ a b, o = .bindQpack a b
  · obtain ⟨a, b, rfl⟩ := h2; exact Conn.rinv_qpack h e
  exact Conn.rinv_out h (fun id g => h1 ⟨id, g⟩) (fun a b g => h2 ⟨a, b, g⟩) h3 hp e

/-- calls other than nghttp3_conn_writev_stream do not encode -/
theorem call_enc {l : Ledger Fld} {c c' : Conn.Conn ESys Fld} {o : Conn.Op Fld} {r : Conn.Ret} (h : RInv encode Peer e0 l c log) (h3 : ∀ k db as, o ≠ .writev k db as)
    (e : Conn.step encode c o = .ok (c', r)) : c'.enc = c.enc := by
  by_cases h1 : ∃ id, o = .bindControl id
  · obtain ⟨id, rfl⟩ := h1
    change Conn.bindControl c id = _ at e
    unfold Conn.bindControl at e
    split_ifs at e
    · obtain ⟨rfl, _⟩ := Prod.mk.inj (R.ok.inj e); rfl
    · obtain ⟨rfl, _⟩ := Prod.mk.inj (R.ok.inj e); rfl
    · obtain ⟨o, _, e2⟩ := Conn.bind_ok e
      obtain ⟨rfl, _⟩ := Prod.mk.inj (R.ok.inj e2); rfl
  by_cases h2 : ∃ a b, o = .bindQpack a b
  · obtain ⟨a, b, rfl⟩ := h2
    change Conn.bindQpack c a b = _ at e
    unfold Conn.bindQpack at e
    split_ifs at e
    · obtain ⟨rfl, _⟩ := Prod.mk.inj (R.ok.inj e); rfl
    · obtain ⟨rfl, _⟩ := Prod.mk.inj (R.ok.inj e); rfl
    · obtain ⟨o, _, e2⟩ := Conn.bind_ok e
      dsimp only at e2
      split_ifs at e2
      · obtain ⟨rfl, _⟩ := Prod.mk.inj (R.ok.inj e2); rfl
      · obtain ⟨o, _, e3⟩ := Conn.bind_ok e2
        obtain ⟨rfl, _⟩ := Prod.mk.inj (R.ok.inj e3); rfl
  exact (Conn.step_out (fun id g => h1 ⟨id, g⟩) (fun a b g => h2 ⟨a, b, g⟩) h3 e).1

/-- what a call does to the bytes taken and offered -/
theorem enter_taken (b : Book Fld) (c : Conn.Conn ESys Fld) (o : Conn.Op Fld) (r : Conn.Ret) (x : Nat) (h : ∀ n, o ≠ .addWrite x n) :
    (enter b c o r x).taken = b.taken ∧ ((∀ k db as, o ≠ .writev k db as) → (enter b c o r x).offered = b.offered) := by
  cases o with
  | writev k db as =>
    unfold enter
    dsimp only
    refine ⟨?_, fun g => absurd rfl (g k db as)⟩
    split
    · split_ifs <;> rfl
    · rfl
  | addWrite a n =>
    unfold enter
    dsimp only
    rw [if_neg (by rintro rfl; exact h n rfl)]
    exact ⟨rfl, fun _ => rfl⟩
  | addAck a n =>
    unfold enter
    dsimp only
    split_ifs <;> exact ⟨rfl, fun _ => rfl⟩
  | updAck a n =>
    unfold enter
    dsimp only
    split_ifs <;> exact ⟨rfl, fun _ => rfl⟩
  | _ => exact ⟨rfl, fun _ => rfl⟩

/-- the frames still to be served after a call -/
def restOf (c' : Conn.Conn ESys Fld) (rest : Nat → List (Frent Fld)) (x : Nat) : List (Frent Fld) :=
  match c'.str x with
  | some s => s.out.frq
  | none => rest x

theorem call_book_live {o : Conn.Op Fld} {c' : Conn.Conn ESys Fld} {r : Conn.Ret} {x : Nat} {s : Conn.Strm Fld} (hx : c'.str x = some s) :
    (d.call o c' r).book x = (note d.l d.c o r).at x := by
  show (if (c'.str x).isSome = true then _ else _) = _
  rw [hx]; rfl

theorem call_book_dead {o : Conn.Op Fld} {c' : Conn.Conn ESys Fld} {r : Conn.Ret} {x : Nat} (hx : c'.str x = none) : (d.call o c' r).book x = d.book x := by
  show (if (c'.str x).isSome = true then _ else _) = _
  rw [hx]; rfl

theorem note_old {o : Conn.Op Fld} {r : Conn.Ret} {x : Nat} {s : Conn.Strm Fld} (hx : d.c.str x = some s) : (note d.l d.c o r).at x = enter (d.l.at x) d.c o r x := by
  show enter _ d.c o r x = _
  rw [hx]; rfl

theorem note_new {o : Conn.Op Fld} {r : Conn.Ret} {x : Nat} (hx : d.c.str x = none) : (note d.l d.c o r).at x = enter { born := d.l.asks.length } d.c o r x := by
  show enter _ d.c o r x = _
  rw [hx]; rfl

/-- a request stream after a call -/
structure After (P : Par) (d : Duo) (o : Conn.Op Fld) (c' : Conn.Conn ESys Fld) (r : Conn.Ret) (log : List (Serve Fld)) (items : Nat → List Emit) (rest : Nat → List (Frent Fld)) (x : Nat) : Prop where
  strm : Strm P log ((d.call o c' r).book x) x (items x) (restOf c' rest x)
  live : ∀ s, c'.str x = some s → SInv c'.ctrl c'.qenc c'.qdec ((d.call o c' r).book x) (madeOf log ((d.call o c' r).book x) x) (usedOf log ((d.call o c' r).book x) x)
    (log.flatMap Serve.made) (log.flatMap Serve.dec) x s.out (items x)
  made : madeOf log ((d.call o c' r).book x) x = madeOf log (d.book x) x
  used : usedOf log ((d.call o c' r).book x) x = usedOf log (d.book x) x
  sub : (d.call o c' r).book x = d.book x ∨ (d.call o c' r).book x = enter (d.book x) d.c o r x ∧ (d.c.str x).isSome = true ∨
    d.c.str x = none ∧ d.book x = {} ∧ (d.call o c' r).book x = enter { born := d.l.asks.length } d.c o r x
  seld : d.sealed x = true → restOf c' rest x = [] ∧ x ∈ P.ids

theorem after_call (h : DInv P e0 d log items rest del pe) {o : Conn.Op Fld} {c' : Conn.Conn ESys Fld} {r : Conn.Ret} (h3 : ∀ k db as, o ≠ .writev k db as)
    (hp : Permits d.l d.c o) (e : Conn.step encode d.c o = .ok (c', r)) (hk : Keeps P d o r) (hg : ∀ x, d.gone x = true → c'.str x = none) (x : Nat) (hx : streamUni x = false) :
    After P d o c' r log items rest x := by
  have hr := rinv_call h.rinv h3 hp e
  have hS := h.strm x hx
  obtain ⟨q1, q2⟩ := subm_req (x := x) h.rinv rfl hx e hk
  rcases hc' : c'.str x with _ | s'
  · have hb := call_book_dead (d := d) (o := o) (r := r) hc'
    have hrest : restOf c' rest x = rest x := by unfold restOf; rw [hc']
    refine ⟨by rw [hb, hrest]; exact hS, (fun s g => by rw [hc'] at g; cases g), by rw [hb], by rw [hb], .inl hb, ?_⟩
    rw [hrest]; exact h.sealed x hx
  · have hb := call_book_live (d := d) (o := o) (r := r) hc'
    have hrest : restOf c' rest x = s'.out.frq := by unfold restOf; rw [hc']
    obtain ⟨it', hs'⟩ := hr.all x s' hc'
    dsimp only at hs'
    obtain ⟨z1, z2⟩ := hs'.req hx
    rcases hc : d.c.str x with _ | s
    · have hgx : d.gone x = false := by
        cases hgg : d.gone x with
        | false => rfl
        | true => rw [hg x hgg] at hc'; cases hc'
      have hfr := h.fresh x hc hgx
      have hn := note_new (d := d) (o := o) (r := r) hc
      rw [hfr] at hS
      obtain ⟨i1, i2, i3⟩ := serves_nil hS.srv
      have hbo : ((note d.l d.c o r).at x).born = log.length := by
        rw [hn, Conn.enter_born]; exact h.rinv.tal.1.symm
      have hsv : servedSince log ((note d.l d.c o r).at x).born x = [] := by rw [hbo, Conn.served_new]
      rw [hsv] at z1 z2 hs'
      have hsub : ((note d.l d.c o r).at x).submitted = subm d.c o r x := by rw [hn, enter_sub]; rfl
      obtain ⟨j1, j2⟩ := serves_none (x := x) z1 (by rw [hsub]; exact q1) z2
      subst j1
      have hm : madeOf log ((note d.l d.c o r).at x) x = [] := by unfold madeOf; rw [hsv]; rfl
      have hu : usedOf log ((note d.l d.c o r).at x) x = [] := by unfold usedOf; rw [hsv]; rfl
      have hu0 : usedOf log (d.book x) x = [] := by rw [hfr, ← hS.ans, i1]; rfl
      refine ⟨?_, ?_, ?_, ?_, .inr (.inr ⟨hc, hfr, by rw [hb, hn]⟩), ?_⟩
      · rw [hb, hrest, i1]
        refine ⟨by rw [hm]; exact z1, by rw [hu]; exact z2, by rw [hsub]; exact q1, fun g => (q2 (by rw [← hsub]; exact g)).1, (fun i hi => by cases hi), ?_, ?_, by rw [hn]; exact enter_cls (fun g => by cases g)⟩
        · have := hs'.pre
          exact (List.prefix_append _ _).trans this
        · rw [hbo]
      · intro s g
        cases hc'.symm.trans g
        rw [hb, hm, hu, i1]; exact hs'
      · rw [hb, hm, hfr, i2]
      · rw [hb, hu, hu0]
      · intro g
        refine ⟨?_, (h.sealed x hx g).2⟩
        rw [hrest, j2, hsub]
        by_contra hne
        rw [(q2 hne).2] at g; cases g
    · obtain ⟨l1, l2, l3⟩ := h.live x s hx hc
      have hn := note_old (d := d) (o := o) (r := r) hc
      rw [← l1] at hn
      have hbo : ((note d.l d.c o r).at x).born = (d.book x).born := by rw [hn, Conn.enter_born]
      have hm : madeOf log ((note d.l d.c o r).at x) x = madeOf log (d.book x) x := by unfold madeOf; rw [hbo]
      have hu : usedOf log ((note d.l d.c o r).at x) x = usedOf log (d.book x) x := by unfold usedOf; rw [hbo]
      have hsub : ((note d.l d.c o r).at x).submitted = (d.book x).submitted ++ subm d.c o r x := by rw [hn, enter_sub]
      have z1' : Serves ((d.book x).submitted ++ subm d.c o r x) (madeOf log (d.book x) x ++ []) it' s'.out.frq := by
        rw [List.append_nil, ← hm, ← hsub]; exact z1
      obtain ⟨new, j1, j2, j3⟩ := serves_ext hS.srv hS.req z1' (us := []) (by rw [List.append_nil, hS.ans, ← hu]; exact z2)
      obtain ⟨_, hmem⟩ := serves_mem hS.srv
      obtain ⟨k1, k2⟩ := serves_none (x := x) j2 (by
        intro f hf
        rcases List.mem_append.1 hf with hf | hf
        · exact hS.req f ((serves_mem hS.srv).1 f hf)
        · exact q1 f hf) j3
      subst k1
      rw [List.append_nil] at j1
      subst j1
      refine ⟨?_, ?_, ?_, ?_, .inr (.inl ⟨by rw [hb, hn], by rw [hc]; rfl⟩), ?_⟩
      · rw [hb, hrest]
        refine ⟨z1, z2, ?_, ?_, hs'.ok, (List.prefix_append _ _).trans hs'.pre, by rw [hbo]; exact hS.born, by rw [hn]; exact enter_cls hS.cls⟩
        · rw [hsub]
          intro f hf
          rcases List.mem_append.1 hf with hf | hf
          · exact hS.req f hf
          · exact q1 f hf
        · rw [hsub]
          intro g
          by_cases hne : subm d.c o r x = []
          · rw [hne, List.append_nil] at g; exact hS.ids g
          · exact (q2 hne).1
      · intro s0 g
        cases hc'.symm.trans g
        rw [hb]; exact hs'
      · rw [hb, hm]
      · rw [hb, hu]
      · intro g
        refine ⟨?_, (h.sealed x hx g).2⟩
        rw [hrest, k2, (h.sealed x hx g).1, List.nil_append]
        by_contra hne
        rw [(q2 hne).2] at g; cases g

end Duo
end Nghttp3
