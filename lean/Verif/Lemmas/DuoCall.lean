import Verif.Lemmas.DuoInv
/-! Two endpoints: calls other than nghttp3_conn_writev_stream keep the invariant. -/
namespace Nghttp3
namespace Duo
open Http Qpack Bidi
open Conn (streamUni RInv SInv)
open Outq (R Frent Ans Emit EmitOk itemsBytes itemBytes dataAnswers EncodeOk)
open Sent (Book Ledger Made Serve Serves servedSince note enter subm closes Permits)
open Net (SFrame NOp NRes Par NStr)

variable {P : Par} {e0 : ESys} {d : Duo} {log : List (Serve Fld)} {items : Nat → List Emit} {rest : Nat → List (Frent Fld)} {del pe : Bidi.Bytes}

theorem msg_eq {b : Book Fld} {x : Nat} {it : List Emit} {rs : List (Frent Fld)} (h : Strm P log b x it rs) (hd : d.book x = b) :
    d.msg log x = (frames (madeOf log b x) it, rs.isEmpty) := by
  unfold Duo.msg
  rw [hd]
  have := message_serves h.srv h.req
  rw [h.ans] at this
  exact this

/-- the encoder stream -/
theorem call_qenc {o : Conn.Op Fld} {c' : Conn.Conn ESys Fld} {r : Conn.Ret} (h : RInv encode Peer e0 d.l d.c log) (h3 : ∀ k db as, o ≠ .writev k db as)
    (e : Conn.step encode d.c o = .ok (c', r)) {q : Nat} (hq : c'.qenc = some q) : d.c.qenc = some q ∨ d.c.qenc = none ∧ ((note d.l d.c o r).at q).taken = [] := by
  by_cases h1 : ∃ id, o = .bindControl id
  · obtain ⟨id, rfl⟩ := h1
    change Conn.bindControl d.c id = _ at e
    unfold Conn.bindControl at e
    left
    split_ifs at e
    · obtain ⟨rfl, _⟩ := Prod.mk.inj (R.ok.inj e); exact hq
    · obtain ⟨rfl, _⟩ := Prod.mk.inj (R.ok.inj e); exact hq
    · obtain ⟨o, _, e2⟩ := Conn.bind_ok e
      obtain ⟨rfl, _⟩ := Prod.mk.inj (R.ok.inj e2); exact hq
  by_cases h2 : ∃ a b, o = .bindQpack a b
  · obtain ⟨a, b, rfl⟩ := h2
    change Conn.bindQpack d.c a b = _ at e
    unfold Conn.bindQpack at e
    by_cases hg : (decide (a ≥ 2 ^ 62) || decide (b ≥ 2 ^ 62) || (d.c.server && (!Conn.serverUni a || !Conn.serverUni b)) || (!d.c.server && (!Conn.clientUni a || !Conn.clientUni b))) = true
    · rw [if_pos hg] at e; cases e
    rw [if_neg hg] at e
    by_cases hb : (d.c.qenc.isSome || d.c.qdec.isSome) = true
    · rw [if_pos hb] at e
      obtain ⟨rfl, _⟩ := Prod.mk.inj (R.ok.inj e); exact .inl hq
    rw [if_neg hb] at e
    by_cases hs : (d.c.str a).isSome = true
    · rw [if_pos hs] at e
      obtain ⟨rfl, _⟩ := Prod.mk.inj (R.ok.inj e); exact .inl hq
    rw [if_neg hs] at e
    have hq0 : d.c.qenc = none := by
      simp only [Bool.or_eq_true, not_or, Bool.not_eq_true, Option.isSome_eq_false_iff, Option.isNone_iff_eq_none] at hb
      exact hb.1
    have hs0 : d.c.str a = none := by simpa using hs
    have key : q = a → d.c.qenc = some q ∨ d.c.qenc = none ∧ ((note d.l d.c (.bindQpack a b) r).at q).taken = [] := by
      rintro rfl
      refine .inr ⟨hq0, ?_⟩
      rw [note_new hs0, Conn.enter_bindQ]
    obtain ⟨o, _, e2⟩ := Conn.bind_ok e
    dsimp only at e2
    split_ifs at e2
    · obtain ⟨rfl, _⟩ := Prod.mk.inj (R.ok.inj e2)
      exact key (Option.some.inj hq).symm
    · obtain ⟨o, _, e3⟩ := Conn.bind_ok e2
      obtain ⟨rfl, _⟩ := Prod.mk.inj (R.ok.inj e3)
      exact key (Option.some.inj hq).symm
  · left
    rw [← (Conn.glob_crit h.inv (fun id g => h1 ⟨id, g⟩) (fun a b g => h2 ⟨a, b, g⟩) e).2.1]; exact hq

theorem call_last {o : Conn.Op Fld} {c' : Conn.Conn ESys Fld} {r : Conn.Ret} (h3 : ∀ k db as, o ≠ .writev k db as) (x : Nat) : (d.call o c' r).last x = d.last x := by
  show d.lastFin o r x = _
  unfold Duo.lastFin
  cases o <;> first | rfl | exact absurd rfl (h3 _ _ _)

theorem call_sealed (h : DInv P e0 d log items rest del pe) {o : Conn.Op Fld} {c' : Conn.Conn ESys Fld} {r : Conn.Ret} (h3 : ∀ k db as, o ≠ .writev k db as) (x : Nat) :
    (d.call o c' r).sealed x = d.sealed x := by
  show (d.sealed x || (d.call o c' r).last x) = _
  rw [call_last h3]
  cases hl : d.last x with
  | false => exact Bool.or_false _
  | true => rw [h.lsea x hl]; rfl

/-- the bytes taken and offered on a request stream -/
theorem after_taken {o : Conn.Op Fld} {c' : Conn.Conn ESys Fld} {r : Conn.Ret} {x : Nat} (h3 : ∀ k db as, o ≠ .writev k db as) (ha : After P d o c' r log items rest x)
    (hw : ∀ n, o ≠ .addWrite x n) : ((d.call o c' r).book x).taken = (d.book x).taken ∧ ((d.call o c' r).book x).offered = (d.book x).offered := by
  rcases ha.sub with g | ⟨g, _⟩ | ⟨_, g1, g2⟩
  · rw [g]; exact ⟨rfl, rfl⟩
  · obtain ⟨k1, k2⟩ := enter_taken (d.book x) d.c o r x hw
    rw [g]; exact ⟨k1, k2 h3⟩
  · obtain ⟨k1, k2⟩ := enter_taken { born := d.l.asks.length } d.c o r x hw
    rw [g2, g1]; exact ⟨k1, k2 h3⟩

/-- everything but what is on its way -/
theorem call_rest (h : DInv P e0 d log items rest del pe) {o : Conn.Op Fld} {c' : Conn.Conn ESys Fld} {r : Conn.Ret} (h3 : ∀ k db as, o ≠ .writev k db as)
    (hp : Permits d.l d.c o) (e : Conn.step encode d.c o = .ok (c', r)) (hk : Keeps P d o r) (hg : ∀ x, d.gone x = true → c'.str x = none)
    {del' pe' : Bidi.Bytes}
    (h1 : ∀ x s, streamUni x = false → c'.str x = some s → d.last x = true → ((d.call o c' r).book x).taken ++ ((d.call o c' r).book x).offered = bytes (items x))
    (h2 : ∀ x, ((d.call o c' r).net.str x).ended = true → streamUni x = false ∧ d.sealed x = true ∧ ((d.call o c' r).book x).taken = bytes (items x))
    (h4 : (log.flatMap Serve.made).flatMap Made.enc = del' ++ (d.call o c' r).net.ech ++ pe')
    (h5 : ∀ q, c'.qenc = some q → (((note d.l d.c o r).at q).taken = [] ∧ del' ++ (d.call o c' r).net.ech = []) ∨ ((note d.l d.c o r).at q).taken = 2 :: (del' ++ (d.call o c' r).net.ech))
    (h6 : (d.call o c' r).Wellformed P log → Reached P (lift (d.call o c' r).net (fun x => frames (madeOf log (d.book x) x) (items x)) (fun x => (bytes (items x)).drop ((d.call o c' r).book x).taken.length) pe')) :
    DInv P e0 (d.call o c' r) log items (restOf c' rest) del' pe' := by
  have A := after_call h h3 hp e hk hg
  refine ⟨rinv_call h.rinv h3 hp e, rfl, fun x s hx hs => ⟨call_book_live hs, (A x hx).live s hs, by unfold restOf; change c'.str x = _ at hs; rw [hs]⟩, fun x hx hgx => ?_, h.uni, fun x hx => (A x hx).strm, ?_, ?_, ?_, ?_, h4, h5, ?_⟩
  · change c'.str x = none at hx
    rw [call_book_dead hx]
    change (d.gone x || ((d.c.str x).isSome && (c'.str x).isNone)) = false at hgx
    rw [hx] at hgx
    simp only [Option.isNone_none, Bool.and_true, Bool.or_eq_false_iff, Option.isSome_eq_false_iff, Option.isNone_iff_eq_none] at hgx
    exact h.fresh x hgx.2 hgx.1
  · intro x s hx hs hl
    rw [call_last h3] at hl
    exact h1 x s hx hs hl
  · intro x hx hl
    rw [call_sealed h h3] at hl
    exact (A x hx).seld hl
  · intro x hl
    rw [call_last h3] at hl
    rw [call_sealed h h3]; exact h.lsea x hl
  · intro x hx
    rw [call_sealed h h3]; exact h2 x hx
  · intro hw
    have := h6 hw
    have e1 : (fun x => frames (madeOf log ((d.call o c' r).book x) x) (items x)) = fun x => frames (madeOf log (d.book x) x) (items x) := by
      funext x
      cases hx : streamUni x with
      | false => rw [(A x hx).made]
      | true => rw [h.uni x hx]; simp [frames]
    rw [e1]; exact this

/-- the messages do not change -/
theorem call_wf (hP : ∀ x ∈ P.ids, streamUni x = false) (h : DInv P e0 d log items rest del pe) {o : Conn.Op Fld} {c' : Conn.Conn ESys Fld} {r : Conn.Ret} (h3 : ∀ k db as, o ≠ .writev k db as)
    (hp : Permits d.l d.c o) (e : Conn.step encode d.c o = .ok (c', r)) (hk : Keeps P d o r) (hg : ∀ x, d.gone x = true → c'.str x = none)
    (he : ∀ x, (d.net.str x).ended = true → ((d.call o c' r).net.str x).ended = true) (hw : (d.call o c' r).Wellformed P log) : d.Wellformed P log := by
  intro x hx
  have hu := hP x hx
  have A := after_call h h3 hp e hk hg x hu
  have := hw x hx
  rw [msg_eq A.strm rfl, A.made] at this
  rw [msg_eq (h.strm x hu) rfl]
  cases hee : (d.net.str x).ended with
  | true => rw [he x hee] at this; exact this
  | false =>
    dsimp only at this ⊢
    exact valid_prefix (b := []) (by rw [List.append_nil]; exact this)

/-- what is known of the end of the stream -/
theorem last_any (h : DInv P e0 d log items rest del pe) {c' : Conn.Conn ESys Fld} (hg : ∀ x, d.gone x = true → c'.str x = none) {x : Nat} {s : Conn.Strm Fld}
    (hx : streamUni x = false) (hsx : c'.str x = some s) (hl : d.last x = true) : (d.book x).taken ++ (d.book x).offered = bytes (items x) := by
  rcases hc : d.c.str x with _ | s0
  · have hgx : d.gone x = false := by
      cases hgg : d.gone x with
      | false => rfl
      | true => rw [hg x hgg] at hsx; cases hsx
    have := h.fresh x hc hgx
    have hS := h.strm x hx
    rw [this] at hS ⊢
    rw [(serves_nil hS.srv).1]; rfl
  · exact h.last x s0 hx hc hl

theorem addWrite_live {id n : Nat} {s : Conn.Strm Fld} {c c' : Conn.Conn ESys Fld} {r : Conn.Ret} (hc : c.str id = some s) (e : Conn.step encode c (.addWrite id n) = .ok (c', r)) :
    ∃ s', c'.str id = some s' := by
  change Conn.addWriteOffset c id n = _ at e
  unfold Conn.addWriteOffset at e
  rw [hc] at e
  dsimp only at e
  obtain ⟨o, _, e⟩ := Conn.bind_ok e
  split_ifs at e
  · obtain ⟨rfl, _⟩ := Prod.mk.inj (R.ok.inj e); exact ⟨_, Conn.set_str _ _ _⟩
  · obtain ⟨c1, e1, e⟩ := Conn.bind_ok e
    obtain ⟨rfl, _⟩ := Prod.mk.inj (R.ok.inj e)
    unfold Conn.unscheduleStream at e1
    split_ifs at e1
    · cases R.ok.inj e1; exact ⟨_, Conn.set_str _ _ _⟩
    · split at e1
      · cases e1
      · cases R.ok.inj e1; exact ⟨_, Conn.set_str _ _ _⟩
  · obtain ⟨rfl, _⟩ := Prod.mk.inj (R.ok.inj e); exact ⟨_, Conn.set_str _ _ _⟩
  · obtain ⟨c1, e1, e⟩ := Conn.bind_ok e
    obtain ⟨rfl, _⟩ := Prod.mk.inj (R.ok.inj e)
    unfold Conn.scheduleStream at e1
    split_ifs at e1
    split at e1
    · cases e1
    · cases R.ok.inj e1; exact ⟨_, Conn.set_str _ _ _⟩

theorem raws_bytes (M : List (Made Fld)) : bytes (M.map Conn.rawE) = M.flatMap Made.enc := by
  induction M with
  | nil => rfl
  | cons m t ih =>
    rw [List.map_cons, bytes, items_cons, List.flatMap_cons]
    unfold bytes at ih
    rw [ih]
    unfold Conn.rawE itemBytes
    rw [own_fst]

/-- the transport takes bytes of the encoder stream -/
theorem take_enc (h : DInv P e0 d log items rest del pe) {id : Nat} {s : Conn.Strm Fld} (hc : d.c.str id = some s) (hq : d.c.qenc = some id) (n : Nat) :
    ∃ u pe', pe = u ++ pe' ∧ (if (d.l.at id).taken.isEmpty = true then ((d.l.at id).offered.take n).drop 1 else (d.l.at id).offered.take n) = u ∧
      (((d.l.at id).taken ++ (d.l.at id).offered.take n = [] ∧ del ++ (d.net.ech ++ u) = []) ∨ (d.l.at id).taken ++ (d.l.at id).offered.take n = 2 :: (del ++ (d.net.ech ++ u))) := by
  obtain ⟨it, hs⟩ := h.rinv.all id s hc
  dsimp only at hs
  have hpre := hs.pre
  rw [(hs.enc hq).1, items_cons] at hpre
  have hb := raws_bytes (log.flatMap Serve.made)
  unfold bytes at hb
  rw [hb, h.enc] at hpre
  have h2 : (itemBytes (.streamType 2)).map Prod.fst = [2] := by decide
  rw [h2, List.singleton_append] at hpre
  have hpre : (d.l.at id).taken ++ (d.l.at id).offered.take n <+: 2 :: (del ++ d.net.ech ++ pe) :=
    List.IsPrefix.trans ((List.prefix_append_right_inj _).2 (List.take_prefix _ _)) hpre
  generalize (d.l.at id).offered.take n = t at hpre ⊢
  rcases h.etak id hq with ⟨g1, g2⟩ | g
  · rw [g1] at hpre ⊢
    rw [g2, List.nil_append, List.nil_append] at hpre
    rw [List.isEmpty_nil, if_pos rfl]
    obtain ⟨g3, g4⟩ := List.append_eq_nil_iff.1 g2
    cases t with
    | nil => exact ⟨[], pe, rfl, rfl, .inl ⟨rfl, by rw [g3, g4]; rfl⟩⟩
    | cons a t =>
      obtain ⟨rfl, hp⟩ := List.cons_prefix_cons.1 hpre
      obtain ⟨z, hz⟩ := hp
      exact ⟨t, z, hz.symm, rfl, .inr (by rw [g3, g4]; rfl)⟩
  · rw [g] at hpre ⊢
    rw [if_neg (by simp)]
    rw [List.cons_append, List.cons_prefix_cons, List.prefix_append_right_inj] at hpre
    obtain ⟨z, hz⟩ := hpre.2
    exact ⟨t, z, hz.symm, rfl, .inr (by simp)⟩

/-- calls by which the transport does not take anything -/
theorem dinv_quiet (hP : ∀ x ∈ P.ids, streamUni x = false) (h : DInv P e0 d log items rest del pe) {o : Conn.Op Fld} {c' : Conn.Conn ESys Fld} {r : Conn.Ret} (h3 : ∀ k db as, o ≠ .writev k db as)
    (hp : Permits d.l d.c o) (e : Conn.step encode d.c o = .ok (c', r)) (hk : Keeps P d o r) (hg : ∀ x, d.gone x = true → c'.str x = none)
    (hs : d.sent o = d.net) (ht : ∀ x, streamUni x = false → ((d.call o c' r).book x).taken = (d.book x).taken ∧ ((d.call o c' r).book x).offered = (d.book x).offered)
    (htq : ∀ q, d.c.qenc = some q → ((note d.l d.c o r).at q).taken = (d.l.at q).taken) :
    DInv P e0 (d.call o c' r) log items (restOf c' rest) del pe := by
  have hnet : (d.call o c' r).net = d.net := by
    show ({ d.sent o with sys := c'.enc } : Net.Sys) = d.net
    rw [hs, call_enc h.rinv h3 e, ← h.sys]
  refine call_rest h h3 hp e hk hg ?_ ?_ (by rw [hnet]; exact h.enc) ?_ ?_
  · intro x s hx hsx hl
    rw [(ht x hx).1, (ht x hx).2]
    rcases hc : d.c.str x with _ | s0
    · have A := after_call h h3 hp e hk hg x hx
      rcases A.sub with g | ⟨g, g'⟩ | ⟨_, g1, g2⟩
      · have hgx : d.gone x = false := by
          cases hgg : d.gone x with
          | false => rfl
          | true => rw [hg x hgg] at hsx; cases hsx
        have := h.fresh x hc hgx
        have hS := h.strm x hx
        rw [this] at hS ⊢
        rw [(serves_nil hS.srv).1]; rfl
      · rw [hc] at g'; cases g'
      · have hS := h.strm x hx
        rw [g1] at hS ⊢
        rw [(serves_nil hS.srv).1]; rfl
    · exact h.last x s0 hx hc hl
  · intro x hx
    rw [hnet] at hx
    obtain ⟨g1, g2, g3⟩ := h.ended x hx
    exact ⟨g1, g2, by rw [(ht x g1).1]; exact g3⟩
  · intro q hq
    rw [hnet]
    rcases call_qenc h.rinv h3 e hq with g | ⟨g1, g2⟩
    · rw [htq q g]; exact h.etak q g
    · left
      refine ⟨g2, ?_⟩
      have := h.enc
      rw [h.rinv.noEnc g1] at this
      have := List.append_eq_nil_iff.1 this.symm
      exact this.1
  · intro hw
    have := h.sim (call_wf hP h h3 hp e hk hg (by rw [hnet]; exact fun x g => g) hw)
    rw [hnet]
    have e1 : (fun x => (bytes (items x)).drop ((d.call o c' r).book x).taken.length) = fun x => (bytes (items x)).drop (d.book x).taken.length := by
      funext x
      cases hx : streamUni x with
      | false => rw [(ht x hx).1]
      | true => rw [h.uni x hx]; simp [bytes, itemsBytes]
    rw [e1]; exact this

/-- the transport takes bytes -/
theorem dinv_take (hP : ∀ x ∈ P.ids, streamUni x = false) (h : DInv P e0 d log items rest del pe) {id n : Nat} {c' : Conn.Conn ESys Fld} {r : Conn.Ret}
    (hp : Permits d.l d.c (.addWrite id n)) (e : Conn.step encode d.c (.addWrite id n) = .ok (c', r)) (hg : ∀ x, d.gone x = true → c'.str x = none) :
    ∃ del' pe', DInv P e0 (d.call (.addWrite id n) c' r) log items (restOf c' rest) del' pe' := by
  have h3 : ∀ k db as, (.addWrite id n : Conn.Op Fld) ≠ .writev k db as := by intro _ _ _ g; cases g
  have hk : Keeps P d (.addWrite id n) r := fun _ => trivial
  have A := after_call h h3 hp e hk hg
  have hqn : ∀ q, q ≠ id → d.c.qenc = some q → ((note d.l d.c (.addWrite id n) r).at q).taken = (d.l.at q).taken := by
    intro q hqi hq
    obtain ⟨_, s, k1, _⟩ := h.rinv.inv.tqenc q hq
    rw [note_old k1]
    exact (enter_taken _ _ _ _ _ (by rintro m g; cases g; exact hqi rfl)).1
  have hne : ∀ x, streamUni x = false → x ≠ id → ((d.call (.addWrite id n) c' r).book x).taken = (d.book x).taken ∧ ((d.call (.addWrite id n) c' r).book x).offered = (d.book x).offered := by
    intro x hx hxi
    exact after_taken h3 (A x hx) (by rintro m g; cases g; exact hxi rfl)
  rcases hc : d.c.str id with _ | s
  · -- no such stream
    have hcc : c' = d.c := by
      change Conn.addWriteOffset d.c id n = _ at e
      unfold Conn.addWriteOffset at e
      rw [hc] at e
      exact (Prod.mk.inj (R.ok.inj e)).1.symm
    refine ⟨del, pe, dinv_quiet hP h h3 hp e hk hg (by unfold Duo.sent; dsimp only; rw [hc]; rfl) (fun x hx => ?_) (fun q hq => ?_)⟩
    · by_cases hxi : x = id
      · subst hxi
        rw [call_book_dead (by rw [hcc]; exact hc)]; exact ⟨rfl, rfl⟩
      · exact hne x hx hxi
    · refine hqn q ?_ hq
      rintro rfl
      obtain ⟨_, s, k1, _⟩ := h.rinv.inv.tqenc q hq
      rw [hc] at k1; cases k1
  have hperm := hp.2 (by rw [hc]; rfl)
  have hbk : (note d.l d.c (.addWrite id n) r).at id = { d.l.at id with taken := (d.l.at id).taken ++ (d.l.at id).offered.take n, offered := (d.l.at id).offered.drop n } := by
    rw [note_old hc]
    unfold enter
    dsimp only
    rw [if_pos rfl]
  cases hu : streamUni id with
  | true =>
    have hbook : ∀ x, streamUni x = false → ((d.call (.addWrite id n) c' r).book x).taken = (d.book x).taken ∧ ((d.call (.addWrite id n) c' r).book x).offered = (d.book x).offered := by
      intro x hx
      exact hne x hx (by rintro rfl; rw [hu] at hx; cases hx)
    by_cases hq : d.c.qenc = some id
    · -- the encoder stream
      obtain ⟨u, pe', w1, w2, w3⟩ := take_enc h hc hq n
      have hsn : d.sent (.addWrite id n) = { d.net with ech := d.net.ech ++ u } := by
        unfold Duo.sent
        dsimp only
        rw [hc, if_pos (show (some s).isSome = true from rfl), if_pos hq, w2]
      have hnet : (d.call (.addWrite id n) c' r).net = { d.net with ech := d.net.ech ++ u } := by
        show ({ d.sent (.addWrite id n) with sys := c'.enc } : Net.Sys) = _
        rw [hsn, call_enc h.rinv h3 e, ← h.sys]
      refine ⟨del, pe', call_rest h h3 hp e hk hg ?_ ?_ ?_ ?_ ?_⟩
      · intro x s' hx hsx hl
        rw [(hbook x hx).1, (hbook x hx).2]
        exact last_any h hg hx hsx hl
      · intro x hx
        rw [hnet] at hx
        obtain ⟨g1, g2, g3⟩ := h.ended x hx
        exact ⟨g1, g2, by rw [(hbook x g1).1]; exact g3⟩
      · rw [hnet, h.enc, w1]
        simp only [List.append_assoc]
      · intro q hqq
        rw [hnet]
        rcases call_qenc h.rinv h3 e hqq with g | ⟨g1, g2⟩
        · rw [hq] at g
          cases g
          rw [hbk]
          exact w3
        · rw [hq] at g1; cases g1
      · intro hw
        have := h.sim (call_wf hP h h3 hp e hk hg (by rw [hnet]; exact fun x g => g) hw)
        rw [hnet]
        have e1 : (fun x => (bytes (items x)).drop ((d.call (.addWrite id n) c' r).book x).taken.length) = fun x => (bytes (items x)).drop (d.book x).taken.length := by
          funext x
          cases hx : streamUni x with
          | false => rw [(hbook x hx).1]
          | true => rw [h.uni x hx]; simp [bytes, itemsBytes]
        rw [e1]
        have e2 : lift { d.net with ech := d.net.ech ++ u } (fun x => frames (madeOf log (d.book x) x) (items x)) (fun x => (bytes (items x)).drop (d.book x).taken.length) pe' =
            lift d.net (fun x => frames (madeOf log (d.book x) x) (items x)) (fun x => (bytes (items x)).drop (d.book x).taken.length) pe := by
          unfold lift
          rw [w1, ← List.append_assoc]
        rw [e2]; exact this
    · refine ⟨del, pe, dinv_quiet hP h h3 hp e hk hg ?_ hbook (fun q hqq => ?_)⟩
      · unfold Duo.sent
        dsimp only
        rw [hc, if_pos (show (some s).isSome = true from rfl), if_neg hq, if_pos hu]
      · refine hqn q ?_ hqq
        rintro rfl; exact hq hqq
  | false =>
    have hq : d.c.qenc ≠ some id := fun g => by
      rw [(Conn.crits h.rinv.inv).ue id g] at hu; cases hu
    obtain ⟨l1, l2, l3⟩ := h.live id s hu hc
    obtain ⟨s', hs'⟩ := addWrite_live hc e
    have hb : (d.call (.addWrite id n) c' r).book id = { d.book id with taken := (d.book id).taken ++ (d.book id).offered.take n, offered := (d.book id).offered.drop n } := by
      rw [call_book_live hs', hbk, ← l1]
    have hS := h.strm id hu
    have hpre : (d.book id).taken ++ (d.book id).offered.take n <+: bytes (items id) :=
      List.IsPrefix.trans ((List.prefix_append_right_inj _).2 (List.take_prefix _ _)) l2.pre
    have hnet : (d.call (.addWrite id n) c' r).net = d.net.set id { d.net.str id with wire := (d.net.str id).wire ++ (d.book id).offered.take n, ended := (d.net.str id).ended || (d.last id && ((d.book id).offered.drop n).isEmpty) } := by
      show ({ d.sent (.addWrite id n) with sys := c'.enc } : Net.Sys) = _
      unfold Duo.sent
      dsimp only
      rw [hc, if_pos (show (some s).isSome = true from rfl), if_neg hq, if_neg (by rw [hu]; decide), call_enc h.rinv h3 e, ← h.sys, l1]
      rfl
    refine ⟨del, pe, call_rest h h3 hp e hk hg ?_ ?_ ?_ ?_ ?_⟩
    · intro x s' hx hsx hl
      by_cases hxi : x = id
      · subst hxi
        rw [hb]
        dsimp only
        rw [List.append_assoc, List.take_append_drop]
        exact h.last x s hx hc hl
      · rw [(hne x hx hxi).1, (hne x hx hxi).2]
        exact last_any h hg hx hsx hl
    · intro x hx
      rw [hnet] at hx
      by_cases hxi : x = id
      · subst hxi
        rw [set_at] at hx
        rw [hb]
        refine ⟨hu, ?_⟩
        rcases Bool.or_eq_true _ _ |>.mp hx with g | g
        · obtain ⟨_, g2, g3⟩ := h.ended x g
          refine ⟨g2, ?_⟩
          rw [g3] at hpre
          rw [g3]
          exact (hpre.eq_of_length_le (by rw [List.length_append]; omega))
        · obtain ⟨g1, g2⟩ := Bool.and_eq_true _ _ |>.mp g
          refine ⟨h.lsea x g1, ?_⟩
          rw [List.isEmpty_iff] at g2
          have := h.last x s hu hc g1
          rw [← List.take_append_drop n (d.book x).offered, g2, List.append_nil] at this
          exact this
      · have : (d.net.set id { d.net.str id with wire := (d.net.str id).wire ++ (d.book id).offered.take n, ended := (d.net.str id).ended || (d.last id && ((d.book id).offered.drop n).isEmpty) }).str x = d.net.str x := by
          unfold Net.Sys.set
          dsimp only
          rw [if_neg hxi]
        rw [this] at hx
        obtain ⟨g1, g2, g3⟩ := h.ended x hx
        exact ⟨g1, g2, by rw [(hne x g1 hxi).1]; exact g3⟩
    · rw [hnet]; exact h.enc
    · intro q hqq
      rw [hnet]
      rcases call_qenc h.rinv h3 e hqq with g | ⟨g1, g2⟩
      · rw [hqn q (by rintro rfl; exact hq g) g]; exact h.etak q g
      · left
        refine ⟨g2, ?_⟩
        have := h.enc
        rw [h.rinv.noEnc g1] at this
        have := List.append_eq_nil_iff.1 this.symm
        exact this.1
    · intro hw
      have hmono : ∀ x, (d.net.str x).ended = true → ((d.call (.addWrite id n) c' r).net.str x).ended = true := by
        intro x g
        rw [hnet]
        unfold Net.Sys.set
        dsimp only
        by_cases hxi : x = id
        · rw [if_pos hxi]; subst hxi; rw [g]; rfl
        · rw [if_neg hxi]; exact g
      have hR := h.sim (call_wf hP h h3 hp e hk hg hmono hw)
      have hdrop : (d.book id).offered.take n ++ (bytes (items id)).drop ((d.book id).taken ++ (d.book id).offered.take n).length = (bytes (items id)).drop (d.book id).taken.length := by
        obtain ⟨z, hz⟩ := hpre
        rw [← hz, List.drop_left, List.append_assoc, List.drop_left]
      have e2 : lift (d.call (.addWrite id n) c' r).net (fun x => frames (madeOf log (d.book x) x) (items x)) (fun x => (bytes (items x)).drop ((d.call (.addWrite id n) c' r).book x).taken.length) pe =
          (lift d.net (fun x => frames (madeOf log (d.book x) x) (items x)) (fun x => (bytes (items x)).drop (d.book x).taken.length) pe).set id
            { (lift d.net (fun x => frames (madeOf log (d.book x) x) (items x)) (fun x => (bytes (items x)).drop (d.book x).taken.length) pe).str id with
              ended := (d.net.str id).ended || (d.last id && ((d.book id).offered.drop n).isEmpty) } := by
        rw [hnet]
        unfold lift Net.Sys.set
        dsimp only
        congr 1
        funext x
        by_cases hxi : x = id
        · subst hxi
          rw [if_pos rfl, if_pos rfl, hb]
          dsimp only
          rw [List.append_assoc, hdrop]
        · rw [if_neg hxi, if_neg hxi]
          cases hx : streamUni x with
          | false => rw [(hne x hx hxi).1]
          | true => rw [h.uni x hx]; simp [bytes, itemsBytes]
      rw [e2]
      cases hen : (d.net.str id).ended || (d.last id && ((d.book id).offered.drop n).isEmpty) with
      | false =>
        have hf : (d.net.str id).ended = false := by simp only [Bool.or_eq_false_iff] at hen; exact hen.1
        have := set_self (lift d.net (fun x => frames (madeOf log (d.book x) x) (items x)) (fun x => (bytes (items x)).drop (d.book x).taken.length) pe) id
        rw [← hf]
        exact this.symm ▸ hR
      | true =>
        cases hee : (d.net.str id).ended with
        | true =>
          have := set_self (lift d.net (fun x => frames (madeOf log (d.book x) x) (items x)) (fun x => (bytes (items x)).drop (d.book x).taken.length) pe) id
          rw [← hee]
          exact this.symm ▸ hR
        | false =>
          rw [hee, Bool.false_or] at hen
          obtain ⟨g1, g2⟩ := Bool.and_eq_true _ _ |>.mp hen
          have hid := (h.sealed id hu (h.lsea id g1)).2
          refine reached_step (o := .fin id) hR ⟨hid, hee, ?_⟩ rfl
          have := hw id hid
          rw [msg_eq (A id hu).strm rfl, (A id hu).made, hnet, set_at] at this
          dsimp only at this
          rw [hee, Bool.false_or, hen] at this
          exact this

end Duo
end Nghttp3
