import Verif.Lemmas.DuoCall
import Verif.Lemmas.OutqWrite
/-! Two endpoints: nghttp3_conn_writev_stream keeps the invariant. -/
namespace Nghttp3
namespace Duo
open Http Qpack Bidi
open Conn (streamUni RInv SInv)
open Outq (R Frent Ans Emit EmitOk itemsBytes itemBytes dataAnswers EncodeOk)
open Sent (Book Ledger Made Serve Serves servedSince note enter subm closes Permits)
open Net (SFrame NOp NRes Par NStr)

variable {P : Par} {e0 : ESys} {d : Duo} {log : List (Serve Fld)} {items : Nat → List Emit} {rest : Nat → List (Frent Fld)} {del pe : Bidi.Bytes}

/-- nghttp3_conn_writev_stream closes no stream -/
theorem writev_keep {c c' : Conn.Conn ESys Fld} (h : Conn.Inv False False c) {k : Nat} {db : Bidi.Bytes} {as : List Ans} {r : Conn.Ret} (e : Conn.writevStream encode c k db as = .ok (c', r))
    {x : Nat} {s : Conn.Strm Fld} (hx : c.str x = some s) : ∃ s', c'.str x = some s' := by
  obtain ⟨_, rr, hr, hc⟩ := Conn.writevStream_inv h e
  rcases hc with ⟨i, f, v, g1, g2, g3⟩ | ⟨_, rfl, _⟩ | ⟨_, c3, he, h3, e3, _⟩
  · obtain ⟨o, ho, _⟩ := g3.str x s hx; exact ⟨_, ho⟩
  · exact ⟨s, hx⟩
  · obtain ⟨o, hx3, _⟩ := he.str x s hx
    obtain ⟨_, rr', _, _, _, k5, k6⟩ := Conn.writeRequest_inv h3 e3
    rcases hn : Conn.nextTx c3 with _ | id
    · rw [k5 hn]; exact ⟨_, hx3⟩
    · obtain ⟨c1, s1, k7, k8, k9, k10⟩ := k6 id hn
      obtain ⟨o1, hx1, _⟩ := k9.str x _ hx3
      rcases k10 with ⟨_, rfl⟩ | ⟨_, sch, rfl⟩
      · exact ⟨_, hx1⟩
      · by_cases hxi : x = id
        · subst hxi; exact ⟨_, Conn.set_str _ _ _⟩
        · rw [Conn.set_ne _ _ _ _ hxi]; exact ⟨_, hx1⟩

theorem put_ne (b : UInt8) (n : Nat) {pfx : Nat} (h : pfx ≤ 7) : QInt.put b n pfx ≠ [] := by
  obtain ⟨a, t, e, _⟩ := QInt.put_cons b n (pfx := pfx) (by omega)
  rw [e]; exact List.cons_ne_nil _ _

/-- a field line has at least one byte -/
theorem rep_ne (base : Nat) (rep : Rep) : rep.bytes base ≠ [] := by
  cases rep with
  | static i => exact put_ne _ _ (by omega)
  | dyn a =>
    unfold Rep.bytes
    dsimp only
    split_ifs <;> exact put_ne _ _ (by omega)
  | nameStatic i v never => exact fun g => put_ne _ _ (by omega) (List.append_eq_nil_iff.1 g).1
  | nameDyn a v never =>
    unfold Rep.bytes
    dsimp only
    split_ifs <;> exact fun g => put_ne _ _ (by omega) (List.append_eq_nil_iff.1 g).1
  | lit n v never =>
    intro g
    have := (List.append_eq_nil_iff.1 g).1
    unfold strBytes at this
    split_ifs at this <;> exact put_ne _ _ (by omega) (List.append_eq_nil_iff.1 this).1

theorem nvs_reps {e : Enc} {mx : Nat} {mn : Option Nat} {allow : Bool} {nvs : List Nv} {r : NvsOut} (h : e.encodeNvs mx mn allow nvs = some r) (hn : nvs ≠ []) : r.reps ≠ [] := by
  cases nvs with
  | nil => exact absurd rfl hn
  | cons nv t =>
    unfold Enc.encodeNvs at h
    split at h
    · cases h
    · split at h
      · cases h
      · cases h; exact List.cons_ne_nil _ _

theorem lines_ne {e : Enc} {id : Nat} {nvs : List Nv} {o : EncOut} (h : e.encode id nvs = some o) (hn : nvs ≠ []) : o.reps.flatMap (Rep.bytes o.base) ≠ [] := by
  have hr : o.reps ≠ [] := by
    unfold Enc.encode at h
    split at h
    · cases h
    · split at h
      · cases h
      · rename_i hr
        have := nvs_reps hr hn
        split at h
        · cases h
        · dsimp only at h
          split_ifs at h
          · cases h; exact this
          · split at h
            · cases h
            · cases h; exact this
  obtain ⟨a, t, e⟩ := List.exists_cons_of_ne_nil hr
  rw [e, List.flatMap_cons]
  exact fun g => rep_ne _ _ (List.append_eq_nil_iff.1 g).1

theorem encode_ok : EncodeOk encode := by
  intro e nva e' p r eb h
  unfold encode at h
  rcases h1 : e.e.encode nva.1 nva.2 with _ | o
  · rw [h1] at h; cases h
  obtain ⟨o', o1, _, o3, _, o5, _, _, o8⟩ := encode_some (f := nva) (s := e) (by unfold encode; exact h)
  rw [h1] at o1; cases o1
  refine ⟨?_, by rw [← List.length_append, o3]; exact o8⟩
  rcases h2 : e.step (.encode nva.1 nva.2) with _ | _ | s1
  · rw [h1, h2] at h; cases h
  · rw [h1, h2] at h; cases h
  rw [h1, h2] at h
  dsimp only at h
  split_ifs at h
  simp only [Option.some.injEq, Prod.mk.injEq] at h
  rw [← h.2.2.1]
  exact lines_ne h1 o5

/-- the streams after nghttp3_conn_writev_stream -/
structure Wrote (P : Par) (d : Duo) (o : Conn.Op Fld) (c' : Conn.Conn ESys Fld) (r : Conn.Ret) (log : List (Serve Fld)) (sv : Serve Fld) (items : Nat → List Emit) (rest : Nat → List (Frent Fld))
    (x : Nat) (new : List Emit) : Prop where
  strm : Strm P (log ++ [sv]) ((d.call o c' r).book x) x (items x ++ new) (restOf c' rest x)
  live : ∀ s, c'.str x = some s → SInv c'.ctrl c'.qenc c'.qdec ((d.call o c' r).book x) (madeOf (log ++ [sv]) ((d.call o c' r).book x) x) (usedOf (log ++ [sv]) ((d.call o c' r).book x) x)
    ((log ++ [sv]).flatMap Serve.made) ((log ++ [sv]).flatMap Serve.dec) x s.out (items x ++ new)
  made : madeOf (log ++ [sv]) ((d.call o c' r).book x) x = madeOf log (d.book x) x ++ if sv.id = x then sv.made else []
  srv : Serves (rest x) (if sv.id = x then sv.made else []) new (restOf c' rest x)
  taken : ((d.call o c' r).book x).taken = (d.book x).taken
  offered : ((d.call o c' r).book x).offered = (d.book x).offered ∨ ∃ f vs, r = .vecs (some (x, f, vs)) ∧ ((d.call o c' r).book x).offered = vs.flatten
  off : (∀ f vs, r ≠ .vecs (some (x, f, vs))) → ((d.call o c' r).book x).offered = (d.book x).offered
  none : x ≠ sv.id → new = []

theorem wrote (h : DInv P e0 d log items rest del pe) {k : Nat} {db : Bidi.Bytes} {as : List Ans} {c' : Conn.Conn ESys Fld} {r : Conn.Ret} {sv : Serve Fld}
    (e : Conn.step encode d.c (.writev k db as) = .ok (c', r))
    (hr : RInv encode Peer e0 (note d.l d.c (.writev k db as) r) c' (log ++ [sv])) (hlv : d.c.str sv.id = none ∨ streamUni sv.id = true → sv.made = [] ∧ sv.used = [])
    (x : Nat) (hx : streamUni x = false) : ∃ new, Wrote P d (.writev k db as) c' r log sv items rest x new := by
  have hS := h.strm x hx
  have hso := Conn.served_old log sv (x := x) hS.born
  have fm : ∀ {α : Type} (f : Serve Fld → List α) (b : Book Fld), b.born = (d.book x).born → (servedSince (log ++ [sv]) b.born x).flatMap f = (servedSince log (d.book x).born x).flatMap f ++ if sv.id = x then f sv else [] := by
    intro α f b hb
    rw [hb, hso, List.flatMap_append]
    congr 1
    split_ifs <;> simp
  rcases hc : d.c.str x with _ | s
  · have hc' : c'.str x = none := Conn.writev_dom h.rinv.inv e hc
    have hb := call_book_dead (d := d) (o := .writev k db as) (r := r) hc'
    have hrest : restOf c' rest x = rest x := by unfold restOf; rw [hc']
    have hmz : (if sv.id = x then sv.made else []) = [] := by
      by_cases hi : sv.id = x
      · rw [if_pos hi]; exact (hlv (.inl (by rw [hi]; exact hc))).1
      · rw [if_neg hi]
    have huz : (if sv.id = x then sv.used else []) = [] := by
      by_cases hi : sv.id = x
      · rw [if_pos hi]; exact (hlv (.inl (by rw [hi]; exact hc))).2
      · rw [if_neg hi]
    have hm : madeOf (log ++ [sv]) (d.book x) x = madeOf log (d.book x) x := by unfold madeOf; rw [fm Serve.made _ rfl, hmz, List.append_nil]
    have hu : usedOf (log ++ [sv]) (d.book x) x = usedOf log (d.book x) x := by unfold usedOf; rw [fm Serve.used _ rfl, huz, List.append_nil]
    refine ⟨[], ?_, (fun s g => by rw [hc'] at g; cases g), by rw [hb, hm, hmz, List.append_nil], by rw [hmz, hrest]; exact .done _, by rw [hb], .inl (by rw [hb]), fun _ => by rw [hb], fun _ => rfl⟩
    rw [hb, hrest, List.append_nil]
    refine ⟨by rw [hm]; exact hS.srv, by rw [hu]; exact hS.ans, hS.req, hS.ids, hS.ok, hS.tak, ?_, hS.cls⟩
    have := hS.born
    rw [List.length_append]; omega
  · obtain ⟨s', hc'⟩ := writev_keep h.rinv.inv e hc
    obtain ⟨l1, l2, l3⟩ := h.live x s hx hc
    have hb := call_book_live (d := d) (o := .writev k db as) (r := r) hc'
    have hn := note_old (d := d) (o := .writev k db as) (r := r) hc
    rw [← l1] at hn
    have hrest : restOf c' rest x = s'.out.frq := by unfold restOf; rw [hc']
    have hbo : ((note d.l d.c (.writev k db as) r).at x).born = (d.book x).born := by rw [hn, Conn.enter_born]
    have hsub : ((note d.l d.c (.writev k db as) r).at x).submitted = (d.book x).submitted := by
      rw [hn, enter_sub]
      have : subm d.c (.writev k db as) r x = [] := by unfold subm; split_ifs <;> rfl
      rw [this, List.append_nil]
    obtain ⟨it', hs'⟩ := hr.all x s' hc'
    dsimp only at hs'
    obtain ⟨z1, z2⟩ := hs'.req hx
    have hm : madeOf (log ++ [sv]) ((note d.l d.c (.writev k db as) r).at x) x = madeOf log (d.book x) x ++ if sv.id = x then sv.made else [] := fm Serve.made _ hbo
    have hu : usedOf (log ++ [sv]) ((note d.l d.c (.writev k db as) r).at x) x = usedOf log (d.book x) x ++ if sv.id = x then sv.used else [] := fm Serve.used _ hbo
    have z1' : Serves ((d.book x).submitted ++ []) (madeOf log (d.book x) x ++ if sv.id = x then sv.made else []) it' s'.out.frq := by
      rw [List.append_nil, ← hm, ← hsub]; exact z1
    obtain ⟨new, j1, j2, j3⟩ := serves_ext hS.srv hS.req z1' (us := if sv.id = x then sv.used else []) (by rw [hS.ans, ← hu]; exact z2)
    subst j1
    rw [List.append_nil] at j2
    refine ⟨new, ?_, ?_, by rw [hb, hm], by rw [hrest]; exact j2, ?_, ?_, ?_, fun g => ?_⟩
    · rw [hb, hrest]
      refine ⟨z1, z2, by rw [hsub]; exact hS.req, by rw [hsub]; exact hS.ids, hs'.ok, (List.prefix_append _ _).trans hs'.pre, ?_, by rw [hn]; exact enter_cls hS.cls⟩
      have := hS.born
      rw [hbo, List.length_append]; omega
    · intro s0 g
      cases hc'.symm.trans g
      rw [hb]; exact hs'
    · rw [hb, hn]
      exact (enter_taken _ _ _ _ _ (by intro n g; cases g)).1
    · rw [hb, hn]
      unfold enter
      dsimp only
      split
      · rename_i y f vs
        by_cases hy : y = x
        · subst hy
          rw [if_pos rfl]
          exact .inr ⟨f, vs, rfl, rfl⟩
        · rw [if_neg hy]; exact .inl rfl
      · exact .inl rfl
    · intro g
      rw [hb, hn]
      unfold enter
      dsimp only
      split
      · rename_i y f vs
        by_cases hy : y = x
        · subst hy
          exact absurd rfl (g f vs)
        · rw [if_neg hy]
      · rfl
    · rw [if_neg (Ne.symm g)] at j2 j3
      exact (serves_none (x := x) j2 (fun f hf => hS.req f ((serves_mem hS.srv).1 f hf)) j3).1

/-- what comes with fin -/
theorem offer_fin {k : Nat} {c' : Conn.Conn ESys Fld} {rr : Option (Nat × Bool × List Bidi.Bytes)} (hoff : Conn.Offer c' k rr) {x : Nat} {vs : List Bidi.Bytes} (hrr : rr = some (x, true, vs)) :
    ∃ s, c'.str x = some s ∧ ∀ {ct qe qd : Option Nat} {b : Book Fld} {ks M : List (Made Fld)} {us : List Ans} {D : Bidi.Bytes} {it : List Emit}, SInv ct qe qd b ks us M D x s.out it →
      s.out.frq = [] ∧ (b.closed || Outq.endsIn it) = true ∧ b.taken ++ vs.flatten = bytes it := by
  obtain ⟨s, h1, h2⟩ := hoff x true vs hrr
  refine ⟨s, h1, fun {ct qe qd b ks M us D it} hs => ?_⟩
  have hk : 0 < k := by
    rcases Nat.eq_zero_or_pos k with rfl | hk
    · unfold Outq.writev at h2
      rw [if_pos rfl] at h2; cases h2
    · exact hk
  obtain ⟨vs', fin, k1, _, k2, _⟩ := Outq.writev_spec hs.inv k hk
  rw [h2] at k1
  obtain ⟨rfl, rfl⟩ := Prod.mk.inj (R.ok.inj k1)
  obtain ⟨k3, k4, k5⟩ := k2 rfl
  refine ⟨k3, by rw [← hs.ends]; exact k4, ?_⟩
  rw [k5, ← hs.len]
  obtain ⟨z, hz⟩ := (List.prefix_append _ _).trans hs.pre
  unfold bytes
  rw [← hz, List.drop_left]

/-- nghttp3_conn_writev_stream keeps the invariant -/
theorem dinv_write (hP : ∀ x ∈ P.ids, streamUni x = false) (h : DInv P e0 d log items rest del pe) {k : Nat} {db : Bidi.Bytes} {as : List Ans} {c' : Conn.Conn ESys Fld} {r : Conn.Ret}
    (hp : Permits d.l d.c (.writev k db as)) (e : Conn.step encode d.c (.writev k db as) = .ok (c', r)) (hg : ∀ x, d.gone x = true → c'.str x = none) :
    ∃ sv items' pe', DInv P e0 (d.call (.writev k db as) c' r) (log ++ [sv]) items' (restOf c' rest) del pe' := by
  obtain ⟨sv, hr, hst, hlv, rr, rfl, hoff⟩ := Conn.rinv_writev encode_ok h.rinv hp e
  have W := wrote h e hr hlv
  have hex : ∃ new, (streamUni sv.id = false → Wrote P d (.writev k db as) c' (.vecs rr) log sv items rest sv.id new) ∧ (streamUni sv.id = true → new = []) := by
    cases hu : streamUni sv.id with
    | false =>
      obtain ⟨new, hw⟩ := W sv.id hu
      exact ⟨new, fun _ => hw, fun g => by cases g⟩
    | true => exact ⟨[], (fun g => by cases g), fun _ => rfl⟩
  obtain ⟨new, hW1, hW2⟩ := hex
  have hV : ∀ x, streamUni x = false → Wrote P d (.writev k db as) c' (.vecs rr) log sv items rest x (if x = sv.id then new else []) := by
    intro x hx
    by_cases hxi : x = sv.id
    · subst hxi; rw [if_pos rfl]; exact hW1 hx
    · obtain ⟨n', hw⟩ := W x hx
      rw [if_neg hxi, ← hw.none hxi]; exact hw
  have hnet : (d.call (.writev k db as) c' (.vecs rr)).net = { d.net with sys := c'.enc } := rfl
  have hquiet : ∀ x, streamUni x = false → rest x = [] → restOf c' rest x = [] ∧ (if x = sv.id then new else []) = [] ∧ (if sv.id = x then sv.made else []) = [] := by
    intro x hx g
    have := (hV x hx).srv
    rw [g] at this
    obtain ⟨g1, g2, g3⟩ := serves_nil this
    exact ⟨g3, g1, g2⟩
  have hfin : ∀ x vs, streamUni x = false → rr = some (x, true, vs) →
      restOf c' rest x = [] ∧ x ∈ P.ids ∧ ((d.call (.writev k db as) c' (.vecs rr)).book x).taken ++ vs.flatten = bytes (items x ++ if x = sv.id then new else []) := by
    intro x vs hx hrr
    obtain ⟨s, g1, g2⟩ := offer_fin hoff hrr
    have hw := hV x hx
    obtain ⟨g3, g4, g5⟩ := g2 (hw.live s g1)
    refine ⟨by unfold restOf; rw [g1]; exact g3, hw.strm.ids ?_, g5⟩
    rcases Bool.or_eq_true _ _ |>.mp g4 with g | g
    · exact hw.strm.cls g
    · intro hn
      have := hw.strm.srv
      rw [hn] at this
      rw [(serves_nil this).1] at g; cases g
  have hlast : ∀ x, d.lastFin (.writev k db as) (.vecs rr) x = true → (∃ vs, rr = some (x, true, vs)) ∨ (d.last x = true ∧ ∀ f vs, rr ≠ some (x, f, vs)) := by
    intro x g
    unfold Duo.lastFin at g
    rcases rr with _ | ⟨y, f, vs⟩
    · exact .inr ⟨g, fun _ _ z => by cases z⟩
    · dsimp only at g
      by_cases hy : y = x
      · subst hy
        rw [if_pos rfl] at g
        subst g
        exact .inl ⟨vs, rfl⟩
      · rw [if_neg hy] at g
        exact .inr ⟨g, fun f' vs' z => hy (by cases z; rfl)⟩
  have hseal : ∀ x, streamUni x = false → (d.sealed x || d.lastFin (.writev k db as) (.vecs rr) x) = true → restOf c' rest x = [] ∧ x ∈ P.ids := by
    intro x hx g
    have old : d.sealed x = true → restOf c' rest x = [] ∧ x ∈ P.ids := fun g => ⟨(hquiet x hx (h.sealed x hx g).1).1, (h.sealed x hx g).2⟩
    rcases Bool.or_eq_true _ _ |>.mp g with g | g
    · exact old g
    · rcases hlast x g with ⟨vs, g⟩ | ⟨g, _⟩
      · obtain ⟨g1, g2, _⟩ := hfin x vs hx g
        exact ⟨g1, g2⟩
      · exact old (h.lsea x g)
  have fm : ∀ {α : Type} (f : Serve Fld → List α), (log ++ [sv]).flatMap f = log.flatMap f ++ f sv := by
    intro α f; rw [List.flatMap_append]; simp
  refine ⟨sv, fun x => items x ++ (if x = sv.id then new else []), pe ++ sv.made.flatMap Made.enc,
    hr, rfl, fun x s hx hs => ⟨call_book_live hs, (hV x hx).live s hs, by unfold restOf; change c'.str x = _ at hs; rw [hs]⟩, fun x hx hgx => ?_, fun x hx => ?_, fun x hx => (hV x hx).strm, ?_, ?_, ?_, ?_, ?_, ?_, ?_⟩
  · change c'.str x = none at hx
    rw [call_book_dead hx]
    change (d.gone x || ((d.c.str x).isSome && (c'.str x).isNone)) = false at hgx
    rw [hx] at hgx
    simp only [Option.isNone_none, Bool.and_true, Bool.or_eq_false_iff, Option.isSome_eq_false_iff, Option.isNone_iff_eq_none] at hgx
    exact h.fresh x hgx.2 hgx.1
  · rw [h.uni x hx, List.nil_append]
    by_cases hxi : x = sv.id
    · rw [if_pos hxi]; exact hW2 (by rw [← hxi]; exact hx)
    · rw [if_neg hxi]
  · intro x s hx hs hl
    have hw := hV x hx
    rcases hlast x hl with ⟨vs, g⟩ | ⟨g, g'⟩
    · obtain ⟨_, _, g3⟩ := hfin x vs hx g
      have : ((d.call (.writev k db as) c' (.vecs rr)).book x).offered = vs.flatten := by
        subst g
        have hc' : c'.str x = some s := hs
        rw [call_book_live hc']
        rcases hcs : d.c.str x with _ | s0
        · rw [Conn.writev_dom h.rinv.inv e hcs] at hc'; cases hc'
        · rw [note_old hcs]
          unfold enter
          dsimp only
          rw [if_pos rfl]
      rw [this]; exact g3
    · have ho := hw.off (fun f vs z => g' f vs (by cases z; rfl))
      rw [ho, hw.taken, (hquiet x hx (h.sealed x hx (h.lsea x g)).1).2.1, List.append_nil]
      exact last_any h hg hx hs g
  · intro x hx hl
    exact hseal x hx hl
  · intro x hl
    change (d.sealed x || d.lastFin (.writev k db as) (.vecs rr) x) = true
    change d.lastFin (.writev k db as) (.vecs rr) x = true at hl
    rw [hl, Bool.or_true]
  · intro x hx
    obtain ⟨g1, g2, g3⟩ := h.ended x hx
    refine ⟨g1, ?_, ?_⟩
    · change (d.sealed x || d.lastFin (.writev k db as) (.vecs rr) x) = true
      rw [g2]; rfl
    · rw [(hV x g1).taken, (hquiet x g1 (h.sealed x g1 g2).1).2.1, List.append_nil]; exact g3
  · rw [fm, List.flatMap_append, h.enc, hnet]
    simp only [List.append_assoc]
  · intro q hq
    rw [hnet]
    have hq0 : d.c.qenc = some q := by
      rw [← (Conn.glob_crit h.rinv.inv (by intro _ g; cases g) (by intro _ _ g; cases g) e).2.1]; exact hq
    obtain ⟨_, s, k1, _⟩ := h.rinv.inv.tqenc q hq0
    have : (note d.l d.c (.writev k db as) (.vecs rr)).at q = enter (d.l.at q) d.c (.writev k db as) (.vecs rr) q := note_old k1
    show (((note d.l d.c (.writev k db as) (.vecs rr)).at q).taken = [] ∧ _) ∨ ((note d.l d.c (.writev k db as) (.vecs rr)).at q).taken = _
    rw [this, (enter_taken _ _ _ _ _ (by intro n g; cases g)).1]
    exact h.etak q hq0
  · intro hw
    have hmade : ∀ x, streamUni x = false → frames (madeOf (log ++ [sv]) ((d.call (.writev k db as) c' (.vecs rr)).book x) x) (items x ++ if x = sv.id then new else []) =
        frames (madeOf log (d.book x) x) (items x) ++ frames (if sv.id = x then sv.made else []) (if x = sv.id then new else []) := by
      intro x hx
      rw [(hV x hx).made]
      exact frames_append (h.strm x hx).srv _
    have hwf : d.Wellformed P log := by
      intro x hx
      have hu := hP x hx
      have := hw x hx
      rw [msg_eq (hV x hu).strm rfl, hmade x hu] at this
      rw [msg_eq (h.strm x hu) rfl]
      have he : ((d.call (.writev k db as) c' (.vecs rr)).net.str x).ended = (d.net.str x).ended := rfl
      rw [he] at this
      cases hee : (d.net.str x).ended with
      | true =>
        obtain ⟨_, g2, _⟩ := h.ended x hee
        obtain ⟨_, g4, g5⟩ := hquiet x hu (h.sealed x hu g2).1
        rw [g4, g5, hee] at this
        simpa [frames] using this
      | false =>
        rw [hee] at this
        exact valid_prefix this
    have hR := h.sim hwf
    by_cases htr : sv.made = [] ∧ new = []
    · obtain ⟨t1, t2⟩ := htr
      have hen : c'.enc = d.c.enc := by
        rw [t1] at hst
        revert hst
        generalize c'.enc = e1
        generalize d.c.enc = e2
        intro hst
        cases hst with
        | nil => rfl
        | peer g => exact g.elim
      have : lift (d.call (.writev k db as) c' (.vecs rr)).net (fun x => frames (madeOf (log ++ [sv]) ((d.call (.writev k db as) c' (.vecs rr)).book x) x) (items x ++ if x = sv.id then new else []))
          (fun x => (bytes (items x ++ if x = sv.id then new else [])).drop ((d.call (.writev k db as) c' (.vecs rr)).book x).taken.length) (pe ++ sv.made.flatMap Made.enc) =
          lift d.net (fun x => frames (madeOf log (d.book x) x) (items x)) (fun x => (bytes (items x)).drop (d.book x).taken.length) pe := by
        rw [hnet, hen, ← h.sys, t1, t2]
        simp only [ite_self, List.append_nil, List.flatMap_nil]
        congr 1
        · funext x
          cases hx : streamUni x with
          | false => rw [(hV x hx).made, t1, ite_self, List.append_nil]
          | true => rw [h.uni x hx]; simp [frames]
        · funext x
          cases hx : streamUni x with
          | false => rw [(hV x hx).taken]
          | true => rw [h.uni x hx]; simp [bytes, itemsBytes]
      rw [this]; exact hR
    · have hu : streamUni sv.id = false := by
        cases hu : streamUni sv.id with
        | false => rfl
        | true => exact absurd ⟨(hlv (.inr hu)).1, hW2 hu⟩ htr
      have hw1 := hW1 hu
      have hsv := hw1.srv
      rw [if_pos rfl] at hsv
      have hrne : rest sv.id ≠ [] := by
        intro g
        rw [g] at hsv
        obtain ⟨g1, g2, _⟩ := serves_nil hsv
        exact htr ⟨g2, g1⟩
      have hS := h.strm sv.id hu
      have hid : sv.id ∈ P.ids := by
        refine hS.ids ?_
        obtain ⟨f, t, g⟩ := List.exists_cons_of_ne_nil hrne
        have := (serves_mem hS.srv).1 f (by rw [g]; exact List.mem_cons_self ..)
        intro hn; rw [hn] at this; cases this
      have hend : (d.net.str sv.id).ended = false := by
        cases hee : (d.net.str sv.id).ended with
        | false => rfl
        | true =>
          obtain ⟨_, g2, _⟩ := h.ended sv.id hee
          exact absurd (h.sealed sv.id hu g2).1 hrne
      have hval := hw sv.id hid
      rw [msg_eq hw1.strm rfl, hw1.made, if_pos rfl, frames_append hS.srv] at hval
      have hF := feed hid hsv (fun f hf => hS.req f ((serves_mem hS.srv).1 f hf)) (fun i hi => hw1.strm.ok i (List.mem_append_right _ hi)) (e := c'.enc) (n := lift d.net (fun x => frames (madeOf log (d.book x) x) (items x)) (fun x => (bytes (items x)).drop (d.book x).taken.length) pe)
        (by show Conn.Steps encode d.net.sys sv.made c'.enc; rw [h.sys]; exact hst) hR hend (valid_prefix (b := []) (by rw [List.append_nil]; exact hval))
      have : lift (d.call (.writev k db as) c' (.vecs rr)).net (fun x => frames (madeOf (log ++ [sv]) ((d.call (.writev k db as) c' (.vecs rr)).book x) x) (items x ++ if x = sv.id then new else []))
          (fun x => (bytes (items x ++ if x = sv.id then new else [])).drop ((d.call (.writev k db as) c' (.vecs rr)).book x).taken.length) (pe ++ sv.made.flatMap Made.enc) =
          ({ lift d.net (fun x => frames (madeOf log (d.book x) x) (items x)) (fun x => (bytes (items x)).drop (d.book x).taken.length) pe with
            sys := c'.enc, ech := (lift d.net (fun x => frames (madeOf log (d.book x) x) (items x)) (fun x => (bytes (items x)).drop (d.book x).taken.length) pe).ech ++ sv.made.flatMap Made.enc } : Net.Sys).set sv.id
            { (lift d.net (fun x => frames (madeOf log (d.book x) x) (items x)) (fun x => (bytes (items x)).drop (d.book x).taken.length) pe).str sv.id with
              msg := ((lift d.net (fun x => frames (madeOf log (d.book x) x) (items x)) (fun x => (bytes (items x)).drop (d.book x).taken.length) pe).str sv.id).msg ++ frames sv.made new,
              wire := ((lift d.net (fun x => frames (madeOf log (d.book x) x) (items x)) (fun x => (bytes (items x)).drop (d.book x).taken.length) pe).str sv.id).wire ++ (itemsBytes new).map Prod.fst } := by
        rw [hnet]
        unfold lift Net.Sys.set
        dsimp only
        rw [List.append_assoc]
        congr 1
        funext x
        by_cases hxi : x = sv.id
        · subst hxi
          rw [if_pos rfl, if_pos rfl, hw1.made, if_pos rfl, frames_append hS.srv, hw1.taken, List.append_assoc]
          have hb : bytes (items sv.id ++ new) = bytes (items sv.id) ++ bytes new := by
            unfold bytes itemsBytes; rw [List.map_append, List.flatten_append, List.map_append]
          have hle : (d.book sv.id).taken.length ≤ (bytes (items sv.id)).length := hS.tak.length_le
          rw [hb, List.drop_append_of_le_length hle]; rfl
        · rw [if_neg hxi, if_neg hxi, List.append_nil]
          cases hx : streamUni x with
          | false => rw [(hV x hx).made, if_neg (Ne.symm hxi), List.append_nil, (hV x hx).taken]
          | true => rw [h.uni x hx]; simp [frames, bytes, itemsBytes]
      rw [this]; exact hF

end Duo
end Nghttp3
