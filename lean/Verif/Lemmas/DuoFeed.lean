import Verif.Lemmas.DuoSim
/-! Two endpoints: what a call of nghttp3_conn_writev_stream produces, as operations of the network. -/
namespace Nghttp3
namespace Duo
open Http Qpack Bidi
open Outq (R Frent Ans Emit EmitOk itemsBytes itemBytes dataAnswers EncodeOk)
open Sent (Book Ledger Made Serve Serves)
open Net (SFrame NOp NRes Par NStr)

variable {P : Par} {n n' : Net.Sys}

theorem valid_prefix {c : Cfg} {a b : List SFrame} {e : Bool} (h : Net.Valid c (a ++ b) e) : Net.Valid c a false := by
  unfold Net.Valid Net.rules at h ⊢
  rw [if_neg (by decide)]
  have key : ∀ r : List Cb × MRes, (∃ m, r.2 = .ok m) → r = onFrames c.pp (c.server && c.ext) (Msg.start c) ((a ++ b).map SFrame.frm) →
      ∃ m, (onFrames c.pp (c.server && c.ext) (Msg.start c) (a.map SFrame.frm)).2 = .ok m := by
    rintro r ⟨m, hm⟩ rfl
    rw [List.map_append, Net.onFrames_append] at hm
    rcases ho : onFrames c.pp (c.server && c.ext) (Msg.start c) (a.map SFrame.frm) with ⟨cb, mr⟩
    cases mr with
    | ok m' => exact ⟨m', rfl⟩
    | _ => rw [ho] at hm; exact ⟨m, hm⟩
  cases e with
  | false =>
    rw [if_neg (by decide)] at h
    exact key _ h rfl
  | true =>
    rw [if_pos rfl] at h
    unfold onMessage at h
    rcases ho : onFrames c.pp (c.server && c.ext) (Msg.start c) ((a ++ b).map SFrame.frm) with ⟨cb, mr⟩
    rw [ho] at h
    cases mr with
    | ok m' => exact key (cb, .ok m') ⟨m', rfl⟩ ho.symm
    | _ => exact key _ h ho.symm

theorem encode_some {s s' : ESys} {f : Fld} {p r eb : Bidi.Bytes} (h : encode s f = some (s', p, r, eb)) :
    ∃ o, s.e.encode f.1 f.2 = some o ∧ s.step (.encode f.1 f.2) = .ok s' ∧ p ++ r = o.section ∧ eb = o.ebuf ∧ f.2 ≠ [] ∧ (∀ nv ∈ f.2, NvFits nv) ∧
      o.e.ctx.next ≤ QInt.INT_MAX ∧ o.section.length < 2 ^ 62 := by
  unfold encode at h
  rcases h1 : s.e.encode f.1 f.2 with _ | o
  · rw [h1] at h; cases h
  rcases h2 : s.step (.encode f.1 f.2) with _ | _ | s1
  · rw [h1, h2] at h; cases h
  · rw [h1, h2] at h; cases h
  rw [h1, h2] at h
  dsimp only at h
  by_cases hc : (!f.2.isEmpty && fits f.2 && decide (o.e.ctx.next ≤ QInt.INT_MAX) && decide (o.section.length < 2 ^ 62)) = true
  · rw [if_pos hc] at h
    simp only [Bool.and_eq_true, Bool.not_eq_true', List.isEmpty_eq_false_iff, decide_eq_true_eq] at hc
    obtain ⟨⟨⟨c1, c2⟩, c3⟩, c4⟩ := hc
    simp only [Option.some.injEq, Prod.mk.injEq] at h
    obtain ⟨rfl, rfl, rfl, rfl⟩ := h
    refine ⟨o, rfl, rfl, rfl, rfl, c1, ?_, c3, c4⟩
    intro nv hnv
    have := List.all_eq_true.1 c2 nv hnv
    simpa [NvFits] using this
  · rw [if_neg hc] at h; cases h

theorem own_fst (b : Bidi.Bytes) : (Outq.own b).map Prod.fst = b := by unfold Outq.own; rw [List.map_map]; exact List.map_id _
theorem app_fst (b : Bidi.Bytes) : (Outq.app b).map Prod.fst = b := by unfold Outq.app; rw [List.map_map]; exact List.map_id _

theorem data_fst {v : List Bidi.Bytes} (h : v.flatten ≠ []) (a b : Bool) : (itemBytes (.data v a b)).map Prod.fst = Net.frame FRAME_DATA v.flatten := by
  unfold itemBytes Outq.dataBytes Net.frame
  dsimp only
  rw [if_neg h, List.map_append, own_fst, app_fst]

theorem items_cons (i : Emit) (t : List Emit) : (itemsBytes (i :: t)).map Prod.fst = (itemBytes i).map Prod.fst ++ (itemsBytes t).map Prod.fst := by
  unfold itemsBytes; rw [List.map_cons, List.flatten_cons, List.map_append]

/-- one more field section or piece of the body -/
theorem set_set (n : Net.Sys) (x : Nat) (a b : NStr) : (n.set x a).set x b = n.set x b := by
  unfold Net.Sys.set
  dsimp only
  congr 1
  funext j
  by_cases hj : j = x
  · rw [if_pos hj, if_pos hj]
  · rw [if_neg hj, if_neg hj, if_neg hj]

theorem set_at (n : Net.Sys) (x : Nat) (a : NStr) : (n.set x a).str x = a := by unfold Net.Sys.set; dsimp only; rw [if_pos rfl]

theorem set_self (n : Net.Sys) (x : Nat) : n.set x (n.str x) = n := by
  unfold Net.Sys.set
  congr 1
  funext j
  by_cases hj : j = x
  · rw [if_pos hj, hj]
  · rw [if_neg hj]

/-- a piece of the body -/
theorem feed_piece {x : Nat} (hx : x ∈ P.ids) {v : List Bidi.Bytes} (a b : Bool) (hv0 : v.flatten.length < 2 ^ 62) (hr : Reached P n) (he : (n.str x).ended = false)
    (hv : Net.Valid (P.cfg x) ((n.str x).msg ++ piece v) false) :
    Reached P (n.set x { n.str x with msg := (n.str x).msg ++ piece v, wire := (n.str x).wire ++ (itemBytes (.data v a b)).map Prod.fst }) := by
  by_cases hz : v.flatten = []
  · have e1 : piece v = [] := by unfold piece; rw [hz]; rfl
    have e2 : (itemBytes (.data v a b)).map Prod.fst = [] := by
      unfold itemBytes Outq.dataBytes
      dsimp only
      rw [if_pos hz]; rfl
    rw [e1, e2, List.append_nil, List.append_nil]
    exact (set_self n x).symm ▸ hr
  · have e1 : piece v = [.data v.flatten] := by
      unfold piece
      rw [if_neg (by rw [List.isEmpty_iff]; exact hz)]
    rw [e1] at hv ⊢
    rw [data_fst hz]
    exact reached_step (o := .data x v.flatten) hr ⟨hx, he, hv0, hv⟩ rfl

theorem feed {x : Nat} (hx : x ∈ P.ids) {S rest : List (Frent Fld)} {ks : List (Made Fld)} {it : List Emit} (h : Serves S ks it rest) :
    (∀ f ∈ S, IsReq x f) → (∀ i ∈ it, EmitOk i) → ∀ {n : Net.Sys} {e : ESys}, Conn.Steps encode n.sys ks e → Reached P n → (n.str x).ended = false →
    Net.Valid (P.cfg x) ((n.str x).msg ++ frames ks it) false →
    Reached P ({ n with sys := e, ech := n.ech ++ ks.flatMap Made.enc }.set x { n.str x with msg := (n.str x).msg ++ frames ks it, wire := (n.str x).wire ++ (itemsBytes it).map Prod.fst }) := by
  induction h with
  | done rest =>
    intro _ _ n e hst hr he hv
    cases hst with
    | nil =>
      have e1 : (itemsBytes []).map Prod.fst = [] := rfl
      have e2 : frames [] [] = [] := rfl
      rw [e1, e2, List.append_nil, List.append_nil, List.flatMap_nil, List.append_nil]
      exact (set_self n x).symm ▸ hr
    | peer g => exact g.elim
  | settings _ _ => intro hS; exact (hS _ (List.mem_cons_self ..)).elim
  | goaway _ _ => intro hS; exact (hS _ (List.mem_cons_self ..)).elim
  | priorityUpdate _ _ => intro hS; exact (hS _ (List.mem_cons_self ..)).elim
  | @headers m fs ks em rest _ ih =>
    intro hS hok n e hst hr he hv
    cases hst with
    | peer g => exact g.elim
    | @cons _ e1 _ _ _ g1 g2 =>
      obtain ⟨o, o1, o2, o3, o4, o5, o6, o7, o8⟩ := encode_some g1
      have hid : m.nva.1 = x := hS _ (List.mem_cons_self ..)
      rw [hid] at o1 o2
      have hfr : frames (m :: ks) (.headers m.pre m.lines m.enc :: em) = .headers m.nva.2 :: frames ks em := rfl
      rw [hfr] at hv ⊢
      have hv1 : Net.Valid (P.cfg x) ((n.str x).msg ++ [.headers m.nva.2]) false := by
        refine valid_prefix (b := frames ks em) (e := false) ?_
        rw [List.append_assoc]; exact hv
      have ha : n.admits P (.headers x m.nva.2) := by
        refine ⟨hx, he, o6, fun o' ho' => ?_, hv1⟩
        rw [o1] at ho'; cases ho'; exact ⟨o7, o8⟩
      have hs : n.step P (.headers x m.nva.2) = .ok ({ n with sys := e1, ech := n.ech ++ o.ebuf }.set x
          { n.str x with msg := (n.str x).msg ++ [SFrame.headers m.nva.2], wire := (n.str x).wire ++ Net.frame FRAME_HEADERS o.section }) := by
        unfold Net.Sys.step
        dsimp only
        rw [o1, o2]
      have hr1 := reached_step hr ha hs
      have := ih (fun f hf => hS f (List.mem_cons_of_mem _ hf)) (fun i hi => hok i (List.mem_cons_of_mem _ hi)) (n := _) (e := e) g2 hr1 (by rw [set_at]; exact he)
        (by rw [set_at]; dsimp only; rw [List.append_assoc]; exact hv)
      rw [set_at] at this
      have hw : (itemBytes (.headers m.pre m.lines m.enc)).map Prod.fst = Net.frame FRAME_HEADERS o.section := by
        unfold itemBytes Net.frame
        rw [own_fst, ← o3, List.length_append, List.append_assoc]
      rw [items_cons, hw, List.flatMap_cons, o4]
      dsimp only [Net.Sys.set] at this ⊢
      rw [List.append_assoc, List.append_assoc, List.append_assoc] at this
      convert this using 2
      funext j
      by_cases hj : j = x
      · rw [if_pos hj, if_pos hj]; rfl
      · rw [if_neg hj, if_neg hj, if_neg hj]
  | @dataMore v noEnd fs ks em rest _ ih =>
    intro hS hok n e hst hr he hv
    have hfr : frames ks (.data v false noEnd :: em) = piece v ++ frames ks em := rfl
    rw [hfr, ← List.append_assoc] at hv
    have hr1 := feed_piece hx false noEnd (hok _ (List.mem_cons_self ..)) hr he (valid_prefix hv)
    have := ih hS (fun i hi => hok i (List.mem_cons_of_mem _ hi)) (n := n.set x { n.str x with msg := (n.str x).msg ++ piece v, wire := (n.str x).wire ++ (itemBytes (.data v false noEnd)).map Prod.fst }) (e := e) hst hr1 (by rw [set_at]; exact he) (by rw [set_at]; exact hv)
    rw [set_at] at this
    rw [hfr, items_cons, ← List.append_assoc, ← List.append_assoc]
    dsimp only [Net.Sys.set] at this ⊢
    convert this using 2
    funext j
    by_cases hj : j = x
    · rw [if_pos hj, if_pos hj]
    · rw [if_neg hj, if_neg hj, if_neg hj]
  | @dataEnd v noEnd fs ks em rest _ ih =>
    intro hS hok n e hst hr he hv
    have hfr : frames ks (.data v true noEnd :: em) = piece v ++ frames ks em := rfl
    rw [hfr, ← List.append_assoc] at hv
    have hr1 := feed_piece hx true noEnd (hok _ (List.mem_cons_self ..)) hr he (valid_prefix hv)
    have := ih (fun f hf => hS f (List.mem_cons_of_mem _ hf)) (fun i hi => hok i (List.mem_cons_of_mem _ hi)) (n := n.set x { n.str x with msg := (n.str x).msg ++ piece v, wire := (n.str x).wire ++ (itemBytes (.data v true noEnd)).map Prod.fst }) (e := e) hst hr1 (by rw [set_at]; exact he) (by rw [set_at]; exact hv)
    rw [set_at] at this
    rw [hfr, items_cons, ← List.append_assoc, ← List.append_assoc]
    dsimp only [Net.Sys.set] at this ⊢
    convert this using 2
    funext j
    by_cases hj : j = x
    · rw [if_pos hj, if_pos hj]
    · rw [if_neg hj, if_neg hj, if_neg hj]

end Duo
end Nghttp3
