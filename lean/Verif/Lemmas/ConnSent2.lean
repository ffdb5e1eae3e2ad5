import Verif.Lemmas.ConnSent
import Verif.Lemmas.ConnSafe2
import Verif.Props.Outq
/-! What the streams of a connection carry: the invariant, and what writing does to it. -/
namespace Nghttp3
namespace Conn
open PQ (upd upd_same upd_ne)
open Outq (R Frent Ans Bytes St Emit FrentOk AnsOk EncodeOk EmitOk itemsBytes itemBytes written endsIn dataAnswers encoderItems)
open Sent (Book Ledger Made Serve Chain Serves)

variable {E F : Type} {w v : Prop} {c c' : Conn E F} {id : Nat} {s0 s : Strm F} {encode : Encode E F}

/-- frames of the control stream -/
def isCtl : Frent F → Bool
  | .headers _ => false
  | .data => false
  | _ => true

/-- what goes on the encoder stream -/
def rawE (m : Made F) : Emit := .raw m.enc

/-- what is known of a stream `x` with the queue `o`: `b` is its book, `ks` and `us` the field sections and answers of read_data that were used
for it, `M` all field sections encoded so far, `D` what was put on the decoder stream -/
structure SInv (ct qe qd : Option Nat) (b : Book F) (ks : List (Made F)) (us : List Ans) (M : List (Made F)) (D : Bytes) (x : Nat) (o : St F)
    (items : List Emit) : Prop where
  inv : Outq.Inv (itemsBytes items) o
  ok : ∀ i ∈ items, EmitOk i
  len : b.taken.length = o.ackBase + written o.outq
  pre : b.taken ++ b.offered <+: (itemsBytes items).map Prod.fst
  ack : b.acked = o.ackOffset
  ends : o.endStream = (b.closed || endsIn items)
  frqOk : ∀ f ∈ o.frq, FrentOk f
  req : streamUni x = false → Serves b.submitted ks items o.frq ∧ dataAnswers items = us
  ctl : ct = some x → ∃ t, items = .streamType 0 :: t ∧ Serves b.submitted [] t o.frq
  enc : qe = some x → items = .streamType 2 :: M.map rawE ∧ o.frq = []
  dec : qd = some x → ∃ bs : List Bytes, items = .streamType 3 :: bs.map Emit.raw ∧ bs.flatten = D ∧ o.frq = []
  oth : streamUni x = true → ct ≠ some x → qe ≠ some x → qd ≠ some x → items = [] ∧ o.frq = []
  uni : streamUni x = true → ∀ f ∈ o.frq, isCtl f = true

/-- all streams -/
def All (c : Conn E F) (B : Nat → Book F) (K : Nat → List (Made F)) (U : Nat → List Ans) (M : List (Made F)) (D : Bytes) : Prop :=
  ∀ x s, c.str x = some s → ∃ items, SInv c.ctrl c.qenc c.qdec (B x) (K x) (U x) M D x s.out items

theorem serves_append {fs r1 r2 : List (Frent F)} {k1 k2 : List (Made F)} {a b : List Emit} (h1 : Serves fs k1 a r1) (h2 : Serves r1 k2 b r2) :
    Serves fs (k1 ++ k2) (a ++ b) r2 := by
  induction h1 with
  | done => exact h2
  | settings _ ih => exact .settings (ih h2)
  | headers _ ih => exact .headers (ih h2)
  | dataMore _ ih => exact .dataMore (ih h2)
  | dataEnd _ ih => exact .dataEnd (ih h2)
  | goaway _ ih => exact .goaway (ih h2)
  | priorityUpdate _ ih => exact .priorityUpdate (ih h2)

theorem serves_submit {fs r : List (Frent F)} {k : List (Made F)} {a : List Emit} (h1 : Serves fs k a r) (l : List (Frent F)) :
    Serves (fs ++ l) k a (r ++ l) := by
  induction h1 with
  | done => exact .done _
  | settings _ ih => exact .settings ih
  | headers _ ih => exact .headers ih
  | dataMore _ ih => exact .dataMore ih
  | dataEnd _ ih => exact .dataEnd ih
  | goaway _ ih => exact .goaway ih
  | priorityUpdate _ ih => exact .priorityUpdate ih

/-- encodings with nothing in between -/
abbrev Steps (encode : Encode E F) : E → List (Made F) → E → Prop := Chain encode fun _ _ => False

theorem chain_append {p : E → E → Prop} {e e1 e2 : E} {a b : List (Made F)} (h1 : Chain encode p e a e1) (h2 : Chain encode p e1 b e2) : Chain encode p e (a ++ b) e2 := by
  induction h1 with
  | nil => exact h2
  | cons h _ ih => exact .cons h (ih h2)
  | peer h _ ih => exact .peer h (ih h2)

theorem steps_chain (p : E → E → Prop) {e e1 : E} {a : List (Made F)} (h : Steps encode e a e1) : Chain encode p e a e1 := by
  induction h with
  | nil => exact .nil _
  | cons h _ ih => exact .cons h ih
  | peer h _ _ => exact h.elim

/-- frames of the control stream need no encoder and no answers, and what is left are such frames -/
theorem serves_ctl {fs r : List (Frent F)} {k : List (Made F)} {a : List Emit} (h1 : Serves fs k a r) (h : ∀ f ∈ fs, isCtl f = true) :
    k = [] ∧ dataAnswers a = [] ∧ endsIn a = false ∧ ∀ f ∈ r, isCtl f = true := by
  induction h1 with
  | done => exact ⟨rfl, rfl, rfl, h⟩
  | settings _ ih => exact ih fun f hf => h f (List.mem_cons_of_mem _ hf)
  | headers _ ih => have := h _ List.mem_cons_self; cases this
  | dataMore _ ih => have := h _ List.mem_cons_self; cases this
  | dataEnd _ ih => have := h _ List.mem_cons_self; cases this
  | goaway _ ih => exact ih fun f hf => h f (List.mem_cons_of_mem _ hf)
  | priorityUpdate _ ih => exact ih fun f hf => h f (List.mem_cons_of_mem _ hf)

theorem serves_nil {r : List (Frent F)} {k : List (Made F)} {a : List Emit} (h1 : Serves [] k a r) : a = [] ∧ r = [] := by
  generalize hf : ([] : List (Frent F)) = fs at h1
  cases h1 with
  | done => exact ⟨rfl, rfl⟩
  | _ => cases hf

/-- what nghttp3_stream_fill_outq encodes and serves -/
theorem fillLoop_serves : ∀ (fs : List (Frent F)) (e : E) (s q : St F) (as : List Ans) (em : List Emit) (e' : E) (s' q' : St F) (out : List Emit),
    Outq.fillLoop encode fs e s q as em = .ok (e', s', q', out) →
    ∃ ks new, out = em ++ new ∧ Serves fs ks new s'.frq ∧ Steps encode e ks e' ∧ encoderItems new = ks.map rawE := by
  intro fs
  induction fs with
  | nil =>
    intro e s q as em e' s' q' out h
    rw [Outq.fillLoop] at h
    cases h
    exact ⟨[], [], by simp, .done _, .nil _, rfl⟩
  | cons f t ih =>
    intro e s q as em e' s' q' out h
    unfold Outq.fillLoop at h
    by_cases hu : s.unsent ≥ Outq.MIN_UNSENT_BYTES
    · rw [if_pos hu] at h
      cases h
      exact ⟨[], [], by simp, .done _, .nil _, rfl⟩
    rw [if_neg hu] at h
    cases f with
    | settings st =>
      obtain ⟨s1, _, h2⟩ := bind_ok h
      obtain ⟨ks, new, rfl, k2, k3, k4⟩ := ih _ _ _ _ _ _ _ _ _ h2
      exact ⟨ks, .settings st :: new, by simp, .settings k2, k3, k4⟩
    | goaway i =>
      obtain ⟨s1, _, h2⟩ := bind_ok h
      obtain ⟨ks, new, rfl, k2, k3, k4⟩ := ih _ _ _ _ _ _ _ _ _ h2
      exact ⟨ks, .goaway i :: new, by simp, .goaway k2, k3, k4⟩
    | priorityUpdate ft el vv =>
      obtain ⟨s1, _, h2⟩ := bind_ok h
      obtain ⟨ks, new, rfl, k2, k3, k4⟩ := ih _ _ _ _ _ _ _ _ _ h2
      exact ⟨ks, .priorityUpdate ft el vv :: new, by simp, .priorityUpdate k2, k3, k4⟩
    | headers nva =>
      dsimp only at h
      rcases he : encode e nva with _ | ⟨e1, p, r, eb⟩ <;> rw [he] at h
      · cases h
      · obtain ⟨s1, _, h2⟩ := bind_ok h
        obtain ⟨q1, _, h3⟩ := bind_ok h2
        obtain ⟨ks, new, rfl, k2, k3, k4⟩ := ih _ _ _ _ _ _ _ _ _ h3
        exact ⟨⟨nva, p, r, eb⟩ :: ks, .headers p r eb :: new, by simp, .headers (m := ⟨nva, p, r, eb⟩) k2, .cons he k3, by
          rw [encoderItems, k4]; rfl⟩
    | data =>
      dsimp only at h
      obtain ⟨⟨s1, eof⟩, h1, h2⟩ := bind_ok h
      dsimp only at h2
      by_cases hb : s1.readBlocked = true
      · rw [if_pos hb] at h2
        cases h2
        exact ⟨[], [], by simp, .done _, .nil _, rfl⟩
      rw [if_neg hb] at h2
      generalize as.head?.getD .wouldblock = a at h1 h2
      have hz : ∃ vv noEnd, a = .vecs vv eof noEnd := by
        unfold Outq.writeData at h1
        split_ifs at h1
        cases a with
        | wouldblock => dsimp only at h1; cases h1; exact absurd rfl hb
        | fail => cases h1
        | vecs vv ef noEnd =>
          dsimp only at h1
          split at h1
          · cases h1
          · split_ifs at h1
            · obtain ⟨_, _, h5⟩ := bind_ok h1
              cases h5; exact ⟨_, _, rfl⟩
            · cases h1; exact ⟨_, _, rfl⟩
            · obtain ⟨_, _, h5⟩ := bind_ok h1
              obtain ⟨_, _, h6⟩ := bind_ok h5
              cases h6; exact ⟨_, _, rfl⟩
      obtain ⟨vv, noEnd, rfl⟩ := hz
      dsimp only at h2
      cases eof with
      | false =>
        rw [if_pos (by decide)] at h2
        cases h2
        exact ⟨[], [.data vv false noEnd], rfl, .dataMore (.done _), .nil _, rfl⟩
      | true =>
        rw [if_neg (by decide)] at h2
        obtain ⟨ks, new, rfl, k2, k3, k4⟩ := ih _ _ _ _ _ _ _ _ _ h2
        exact ⟨ks, .data vv true noEnd :: new, by simp, .dataEnd k2, k3, k4⟩

/-- items are added to a stream -/
theorem sinv_add {ct qe qd : Option Nat} {b : Book F} {ks ks' : List (Made F)} {us us' : List Ans} {M M' : List (Made F)} {D D' : Bytes} {x : Nat}
    {o o' : St F} {items : List Emit} (h : SInv ct qe qd b ks us M D x o items) (new : List Emit)
    (h1 : Outq.Inv (itemsBytes items ++ itemsBytes new) o') (h2 : ∀ i ∈ new, EmitOk i) (h3 : o'.ackOffset = o.ackOffset)
    (h4 : o'.ackBase + written o'.outq = o.ackBase + written o.outq) (h5 : o'.endStream = (o.endStream || endsIn new))
    (h6 : ∀ f ∈ o'.frq, FrentOk f)
    (req : streamUni x = false → Serves b.submitted ks' (items ++ new) o'.frq ∧ dataAnswers (items ++ new) = us')
    (ctl : ct = some x → ∃ t, items ++ new = .streamType 0 :: t ∧ Serves b.submitted [] t o'.frq)
    (enc : qe = some x → items ++ new = .streamType 2 :: M'.map rawE ∧ o'.frq = [])
    (dec : qd = some x → ∃ bs : List Bytes, items ++ new = .streamType 3 :: bs.map Emit.raw ∧ bs.flatten = D' ∧ o'.frq = [])
    (oth : streamUni x = true → ct ≠ some x → qe ≠ some x → qd ≠ some x → items ++ new = [] ∧ o'.frq = [])
    (uni : streamUni x = true → ∀ f ∈ o'.frq, isCtl f = true) : SInv ct qe qd b ks' us' M' D' x o' (items ++ new) := by
  refine ⟨by rw [Outq.itemsBytes_append]; exact h1, ?_, h.len.trans h4.symm, ?_, h.ack.trans h3.symm, ?_, h6, req, ctl, enc, dec, oth, uni⟩
  · intro i hi
    rcases List.mem_append.1 hi with hi | hi
    · exact h.ok i hi
    · exact h2 i hi
  · rw [Outq.itemsBytes_append, List.map_append]
    exact h.pre.trans (List.prefix_append _ _)
  · rw [h5, h.ends, Outq.endsIn_append, Bool.or_assoc]

/-- streams that are not touched -/
theorem sinv_mono {ct qe qd : Option Nat} {b : Book F} {ks : List (Made F)} {us : List Ans} {M M' : List (Made F)} {D D' : Bytes} {x : Nat}
    {o : St F} {items : List Emit} (h : SInv ct qe qd b ks us M D x o items) (h1 : qe = some x → M' = M) (h2 : qd = some x → D' = D) :
    SInv ct qe qd b ks us M' D' x o items :=
  ⟨h.inv, h.ok, h.len, h.pre, h.ack, h.ends, h.frqOk, h.req, h.ctl, fun g => by rw [h1 g]; exact h.enc g, fun g => by rw [h2 g]; exact h.dec g, h.oth, h.uni⟩

/-- facts on the identifiers of the critical streams -/
structure Crits (c : Conn E F) : Prop where
  uc : ∀ x, c.ctrl = some x → streamUni x = true
  ue : ∀ x, c.qenc = some x → streamUni x = true
  ud : ∀ x, c.qdec = some x → streamUni x = true
  ce : ∀ x, c.ctrl = some x → c.qenc ≠ some x
  cd : ∀ x, c.ctrl = some x → c.qdec ≠ some x
  de : ∀ x, c.qdec = some x → c.qenc ≠ some x

theorem crits (h : Inv w v c) : Crits c := by
  have k : ∀ x, c.qdec = some x → c.qenc ≠ some x := by
    intro x g1 g2
    obtain ⟨_, s1, k1, k2⟩ := h.tqdec x g1
    obtain ⟨_, s2, k3, k4⟩ := h.tqenc x g2
    rw [k1] at k3; cases k3; rw [k2] at k4; cases k4
  refine ⟨fun x g => (isCritical_uni h (Or.inl g)).2, fun x g => (isCritical_uni h (Or.inr (Or.inr g))).2,
    fun x g => (isCritical_uni h (Or.inr (Or.inl g))).2, ?_, ?_, k⟩
  · intro x g1 g2
    obtain ⟨_, s1, k1, k2⟩ := h.tctrl x g1
    obtain ⟨_, s2, k3, k4⟩ := h.tqenc x g2
    rw [k1] at k3; cases k3; rw [k2] at k4; cases k4
  · intro x g1 g2
    obtain ⟨_, s1, k1, k2⟩ := h.tctrl x g1
    obtain ⟨_, s2, k3, k4⟩ := h.tqdec x g2
    rw [k1] at k3; cases k3; rw [k2] at k4; cases k4

variable {B : Nat → Book F} {K : Nat → List (Made F)} {U : Nat → List Ans} {M : List (Made F)} {D : Bytes}

/-- a unidirectional stream: frames of the control stream are served -/
theorem all_fillUni (henc : EncodeOk encode) (h : All c B K U M D) (h0 : c.str id = some s) (hu : streamUni id = true)
    (hrb : s.out.readBlocked = false) {as : List Ans} (ha : ∀ a ∈ as, AnsOk a) (e : fillStream encode c id s as = .ok c') :
    All c' B K U M D ∧ c'.enc = c.enc := by
  obtain ⟨items, hs⟩ := h id s h0
  unfold fillStream at e
  rw [if_pos hu] at e
  obtain ⟨⟨e1, o, q1, new⟩, e2, e3⟩ := bind_ok e
  obtain rfl := R.ok.inj e3
  refine ⟨?_, rfl⟩
  unfold Outq.fillOutq at e2
  rcases Outq.fillLoop_spec encode henc s.out.frq c.enc s.out {} as [] _ [] hs.inv Outq.inv_init hs.frqOk ha hrb with g | g | ⟨e', s', q', new', g, hF⟩
  · rw [e2] at g; cases g
  · rw [e2] at g; cases g
  rw [e2] at g
  cases g
  obtain ⟨ks, new2, k0, k1, k2, k3⟩ := fillLoop_serves _ _ _ _ _ _ _ _ _ _ e2
  rw [List.nil_append, List.nil_append] at k0
  subst k0
  obtain ⟨rfl, k4, k5, k6⟩ := serves_ctl k1 (hs.uni hu)
  intro x t hx
  by_cases hxi : x = id
  · subst hxi
    rw [set_str] at hx
    obtain rfl := Option.some.inj hx
    have nonew : s.out.frq = [] → new' = [] ∧ o.frq = [] := by
      intro hf
      rw [hf] at k1
      exact serves_nil k1
    refine ⟨items ++ new', sinv_add hs new' hF.inv hF.ok hF.ack hF.sent hF.ends hF.frqOk (fun g => by rw [hu] at g; cases g) (fun g => ?_)
      (fun g => ?_) (fun g => ?_) (fun g1 g2 g3 g4 => ?_) (fun _ => k6)⟩
    · obtain ⟨t, rfl, m2⟩ := hs.ctl g
      exact ⟨t ++ new', rfl, serves_append m2 k1⟩
    · obtain ⟨m1, m2⟩ := hs.enc g
      obtain ⟨rfl, m4⟩ := nonew m2
      rw [List.append_nil]; exact ⟨m1, m4⟩
    · obtain ⟨bs, m1, m2, m3⟩ := hs.dec g
      obtain ⟨rfl, m4⟩ := nonew m3
      rw [List.append_nil]; exact ⟨bs, m1, m2, m4⟩
    · obtain ⟨m1, m2⟩ := hs.oth g1 g2 g3 g4
      obtain ⟨rfl, m4⟩ := nonew m2
      rw [List.append_nil]; exact ⟨m1, m4⟩
  · rw [set_ne _ _ _ _ hxi] at hx
    exact h x t hx

/-- a request stream -/
theorem all_fillReq (hc : Crits c) (henc : EncodeOk encode) (h : All c B K U M D) (h0 : c.str id = some s) (hu : streamUni id = false)
    (hrb : s.out.readBlocked = false) {as : List Ans} (ha : ∀ a ∈ as, AnsOk a) (e : fillStream encode c id s as = .ok c') :
    ∃ ks us, us <+: as ∧ Steps encode c.enc ks c'.enc ∧ (c.qenc = none → ks = []) ∧
      All c' B (upd K id (K id ++ ks)) (upd U id (U id ++ us)) (M ++ ks) D := by
  obtain ⟨items, hs⟩ := h id s h0
  unfold fillStream at e
  rw [if_neg (by rw [hu]; decide)] at e
  split at e
  · split_ifs at e
    obtain rfl := R.ok.inj e
    refine ⟨[], [], List.nil_prefix, .nil _, fun _ => rfl, ?_⟩
    have e1 : upd K id (K id ++ []) = K := by funext x; by_cases hx : x = id; · subst hx; rw [upd_same, List.append_nil]
                                              · exact upd_ne _ _ hx
    have e2 : upd U id (U id ++ []) = U := by funext x; by_cases hx : x = id; · subst hx; rw [upd_same, List.append_nil]
                                              · exact upd_ne _ _ hx
    rw [e1, e2, List.append_nil]; exact h
  · rename_i qid hq
    split at e
    · cases e
    · rename_i q hqs
      obtain ⟨⟨e1, o, q1, new⟩, e2, e3⟩ := bind_ok e
      obtain rfl := R.ok.inj e3
      have hne : qid ≠ id := by
        rintro rfl
        rw [hc.ue qid hq] at hu; cases hu
      obtain ⟨qi, hqi⟩ := h qid q hqs
      unfold Outq.fillOutq at e2
      rcases Outq.fillLoop_spec encode henc s.out.frq c.enc s.out q.out as [] _ _ hs.inv hqi.inv hs.frqOk ha hrb with g | g | ⟨e', s', q', new', g, hF⟩
      · rw [e2] at g; cases g
      · rw [e2] at g; cases g
      rw [e2] at g
      cases g
      obtain ⟨ks, new2, k0, k1, k2, k3⟩ := fillLoop_serves _ _ _ _ _ _ _ _ _ _ e2
      rw [List.nil_append, List.nil_append] at k0
      subst k0
      refine ⟨ks, dataAnswers new', hF.answers, k2, (fun g => by rw [hq] at g; cases g), ?_⟩
      intro x t hx
      show ∃ items, SInv c.ctrl c.qenc c.qdec _ _ _ _ _ _ _ _
      by_cases hxq : x = qid
      · subst hxq
        rw [set_str] at hx
        obtain rfl := Option.some.inj hx
        rw [upd_ne _ _ hne, upd_ne _ _ hne]
        obtain ⟨m1, m2⟩ := hqi.enc hq
        have hux := hc.ue x hq
        have h9 : endsIn (ks.map rawE) = false := by
          clear k1 k2 k3
          induction ks with
          | nil => rfl
          | cons a t ih => exact ih
        refine ⟨qi ++ ks.map rawE, sinv_add hqi (ks.map rawE) (by rw [← k3]; exact hF.invq) (fun i hi => ?_) hF.qack hF.qsent
          (by rw [hF.qsame.2.1, h9, Bool.or_false]) (by rw [hF.qsame.1]; exact hqi.frqOk) (fun g => by rw [hux] at g; cases g)
          (fun g => absurd hq (hc.ce x g)) (fun _ => ?_) (fun g => absurd hq (hc.de x g)) (fun _ _ g => absurd hq g)
          (by rw [hF.qsame.1]; exact hqi.uni)⟩
        · obtain ⟨a, _, rfl⟩ := List.mem_map.1 hi
          exact trivial
        · rw [m1, hF.qsame.1, List.map_append]
          exact ⟨rfl, m2⟩
      · rw [set_ne _ _ _ _ hxq] at hx
        by_cases hxi : x = id
        · subst hxi
          rw [set_str] at hx
          obtain rfl := Option.some.inj hx
          rw [upd_same, upd_same]
          obtain ⟨m1, m2⟩ := hs.req hu
          refine ⟨items ++ new', sinv_add hs new' hF.inv hF.ok hF.ack hF.sent hF.ends hF.frqOk (fun _ => ⟨serves_append m1 k1, ?_⟩)
            (fun g => ?_) (fun g => ?_) (fun g => ?_) (fun g => ?_) (fun g => ?_)⟩
          · rw [Outq.dataAnswers_append, m2]
          · rw [hc.uc x g] at hu; cases hu
          · rw [hc.ue x g] at hu; cases hu
          · rw [hc.ud x g] at hu; cases hu
          · rw [g] at hu; cases hu
          · rw [g] at hu; cases hu
        · rw [set_ne _ _ _ _ hxi] at hx
          rw [upd_ne _ _ hxi, upd_ne _ _ hxi]
          obtain ⟨it, hi⟩ := h x t hx
          exact ⟨it, sinv_mono hi (fun g => by rw [hq] at g; cases g; exact absurd rfl hxq) fun _ => rfl⟩

end Conn
end Nghttp3
