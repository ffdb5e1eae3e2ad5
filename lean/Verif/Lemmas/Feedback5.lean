import Verif.Lemmas.Feedback4
import Verif.Lemmas.ConnSent3
/-! All that the decoder of a whole connection says: every call. -/
namespace Nghttp3
namespace Endpoint
open Qpack Feedback
open Sent (Ledger)
open Conn (clientBidi streamUni open? open_eff critical_eff crits inv_outUni isCritical_uni writeRequest_inv nextTx_spec bidi_not_uni)
open Outq (R Ans)

variable {G : Bool × Settings} {P : Par} {server : Bool} {st : Settings}

/-- the decoder is asked for its instructions exactly by the calls that get to the decoder stream -/
theorem flushes_reached {c c' : CC} {w v : Prop} (h : Conn.Inv w v c) {k : Nat} {db : Bytes} {as : List Ans} {r : Conn.Ret} (e : Conn.writevStream encode c k db as = .ok (c', r)) :
    flushes c k = Sent.reached c k r := by
  unfold Conn.writevStream at e
  unfold flushes
  by_cases hk : k = 0
  · unfold Sent.reached
    rw [hk]; rfl
  rw [if_neg hk] at e
  rw [decide_eq_true hk, Bool.true_and]
  obtain ⟨⟨c1, r1⟩, e1, e⟩ := Conn.bind_ok e
  have hu := crits h
  obtain ⟨a1, b1⟩ := critical_eff hu.uc e1
  have i1 : Conn.Inv w v c1 := inv_outUni h a1 fun x g => (isCritical_uni h (Or.inl g)).1
  have hc1 := a1.ctrl
  rw [e1]
  dsimp only at e ⊢
  cases r1 with
  | some x =>
    obtain ⟨rfl, rfl⟩ := Prod.mk.inj (R.ok.inj e)
    obtain ⟨i, f, vs⟩ := x
    have : Sent.onCtrl c (.vecs (some (i, f, vs))) = true := decide_eq_true (b1 _ _ _ rfl)
    unfold Sent.reached
    rw [this]
    simp
  | none =>
    have hop : open? c1 c1.qdec = open? c c.qdec := by
      rw [hc1.2.2.1]
      exact open_eff a1 _ fun x g1 g2 => hu.cd x g2 g1
    have hre : (∀ y f vs, r = .vecs (some (y, f, vs)) → c.ctrl ≠ some y) → Sent.reached c k r = open? c c.qdec := by
      intro hn
      unfold Sent.reached open?
      rw [decide_eq_true hk]
      have : Sent.onCtrl c r = false := by
        rcases r with _ | _ | (_ | ⟨y, f, vs⟩) | _ | _ <;> first | rfl | exact decide_eq_false (hn _ _ _ rfl)
      rw [this]; rfl
    refine Eq.trans (b := open? c1 c1.qdec) ?_ (hop.trans (hre ?_).symm)
    · unfold open?
      dsimp only
      rcases c1.qdec with _ | q
      · rfl
      dsimp only
      rcases c1.str q with _ | s <;> rfl
    intro y f vs g g'
    obtain ⟨⟨c2, r2⟩, e2, e⟩ := Conn.bind_ok e
    have hu1 := crits i1
    obtain ⟨a2, b2⟩ := critical_eff hu1.ud e2
    have i2 : Conn.Inv w v c2 := inv_outUni i1 a2 fun x g => (isCritical_uni i1 (Or.inr (Or.inl g))).1
    have hc2 := a2.ctrl
    dsimp only at e
    cases r2 with
    | some x =>
      obtain ⟨rfl, rfl⟩ := Prod.mk.inj (R.ok.inj e)
      obtain rfl := Option.some.inj (Conn.Ret.vecs.inj g)
      have := b2 _ _ _ rfl
      rw [hc1.2.2.1] at this; exact hu.cd _ g' this
    | none =>
      obtain ⟨⟨c3, r3⟩, e3, e⟩ := Conn.bind_ok e
      have hu2 := crits i2
      obtain ⟨a3, b3⟩ := critical_eff hu2.ue e3
      have i3 : Conn.Inv w v c3 := inv_outUni i2 a3 fun x g => (isCritical_uni i2 (Or.inr (Or.inr g))).1
      have hc3 := a3.ctrl
      dsimp only at e
      cases r3 with
      | some x =>
        obtain ⟨rfl, rfl⟩ := Prod.mk.inj (R.ok.inj e)
        obtain rfl := Option.some.inj (Conn.Ret.vecs.inj g)
        have := b3 _ _ _ rfl
        rw [hc2.2.1, hc1.2.1] at this; exact hu.ce _ g' this
      | none =>
        dsimp only at e
        obtain ⟨_, rr, hrr, hof, _⟩ := writeRequest_inv i3 e
        rw [hrr] at g
        obtain rfl := Conn.Ret.vecs.inj g
        have huy := hu.uc y g'
        rcases hof _ _ _ rfl with g | g
        · obtain ⟨u, _, _, hm, _⟩ := nextTx_spec i3.core.reg g
          obtain ⟨s, h0, h1, _⟩ := (i3.core.reg.mem u y).1 hm
          rw [bidi_not_uni ((i3.sok y s h0).need h1).1] at huy; cases huy
        · rw [hc3.2.1, hc2.2.1, hc1.2.1] at g
          exact hu.ce _ g' g

/-- what was put on the decoder stream -/
def asked (L : Ledger Fld) : Bytes := L.asks.flatMap Prod.fst

theorem asked_other {L : Ledger Fld} {ep : Ep} {o : Call} {r : Conn.Ret} (h : ∀ k as, o ≠ .writev k as) : asked (note L ep o r) = asked L := by
  unfold note asked
  cases o <;> first | rfl | exact absurd rfl (h _ _)

theorem asked_writev {L : Ledger Fld} {ep : Ep} {k : Nat} {as : List Ans} {r : Conn.Ret} :
    asked (note L ep (.writev k as) r) = asked L ++ (if Sent.reached ep.c k r then ep.dec.writeDecoder.2 else []) := by
  change (L.asks ++ [(_, _)]).flatMap Prod.fst = _
  rw [List.flatMap_append]
  simp [asked]

theorem spoken_step (hP : ParOk P) {ep ep' : Ep} (hi : EInv G ep) {L : Ledger Fld} {l : Log} {said pend : List Said} {done : List (Nat × Nat)}
    (h : Spoken (asked L) l ep said pend done) {o : Call} {r : Conn.Ret} {ev : List Ev} (hp : Permitted ep o) (e : step P ep o = .ok ep' r ev) :
    ∃ said pend done, Spoken (asked (note L ep o r)) (l ++ [(o, r, ev)]) ep' said pend done := by
  have same : ∀ {ev}, (∀ k as, o ≠ .writev k as) → Log.shut [(o, r, ev)] = [] → (∃ t, Fb ep.dec ep.rx t ev ep'.dec ep'.rx) →
      ∃ said pend done, Spoken (asked (note L ep o r)) (l ++ [(o, r, ev)]) ep' said pend done := by
    rintro ev h1 h2 ⟨t, h3⟩
    rw [asked_other h1]
    exact ⟨_, _, _, h.fb h3 h2⟩
  have plain : ∀ {q : Conn.Op Fld}, (∀ k as, o ≠ .writev k as) → Log.shut [(o, r, ev)] = [] → plain ep q = .ok ep' r ev →
      ∃ said pend done, Spoken (asked (note L ep o r)) (l ++ [(o, r, ev)]) ep' said pend done := by
    intro q h1 h2 e
    unfold Endpoint.plain at e
    rcases e1 : Conn.step encode ep.c q with _ | _ | _ | ⟨c', r1⟩ <;> rw [e1] at e <;> dsimp only [lift] at e
    · cases e
    · cases e
    · cases e
    cases e
    exact same h1 h2 ⟨_, .same h.able⟩
  cases o with
  | read id src fin =>
    obtain ⟨a1, a2⟩ := hp id src fin rfl
    exact same (fun _ _ g => by cases g) rfl (read_fb hi h.able a1 a2 e)
  | setMaxConc n =>
    change Res.ok _ _ _ = _ at e
    cases e
    exact same (fun _ _ g => by cases g) rfl ⟨[], .none ⟨Nat.le_refl _, rfl, rfl⟩ h.able (fun _ => .inl rfl) fun _ => rfl⟩
  | submitRequest id nva dr =>
    change submitRequest P ep id nva dr = _ at e
    unfold submitRequest at e
    rcases e1 : Conn.submitRequest ep.c id (id, nva) dr with _ | _ | _ | ⟨c', r1⟩ <;> rw [e1] at e <;> dsimp only [lift] at e
    · cases e
    · cases e
    · cases e
    cases e
    refine same (fun _ _ g => by cases g) rfl ?_
    have h0 : AllAble ep.dec ep.rx ∧ ∀ i, (ep.rx i).shutRd = (ep.rx i).shutRd ∨ (ep.rx i).shutRd = false := ⟨h.able, fun _ => .inl rfl⟩
    dsimp only
    split_ifs
    · obtain ⟨k1, k2⟩ := able_upd (s := Bidi.Str.new { cfg P ep.c id with req := nva.map fun nv => ⟨nv.name, nv.value⟩ }) h0 rfl rfl
      exact ⟨[], .none (.refl _) k1 k2 fun _ => rfl⟩
    · exact ⟨_, .same h.able⟩
  | close id =>
    change close ep id = _ at e
    unfold close at e
    rcases e1 : Conn.closeStream ep.c id with _ | _ | _ | ⟨c', r1⟩ <;> rw [e1] at e <;> dsimp only [lift] at e
    · cases e
    · cases e
    · cases e
    refine same (fun _ _ g => by cases g) rfl ?_
    split_ifs at e
    · have hq : ∀ s' : Bidi.Str, ∀ ev' : List Bidi.Ev, s'.sc = (ep.rx id).sc → s'.shutRd = (ep.rx id).shutRd → Bidi.num sectionEnds ev' = 0 →
          ∃ t, Fb ep.dec ep.rx t (ev'.map (.str id)) ep.dec (PQ.upd ep.rx id s') := by
        intro s' ev' g1 g2 g3
        exact Fb.heard (s := ep.rx id) (rx := ep.rx) h.able (Bidi.Heard.none (by rw [g1]; exact h.able id) g2 g3) rfl
      unfold Bidi.closeStream at e
      split_ifs at e
      · cases e
        exact hq _ [] rfl rfl rfl
      · cases e
        refine hq _ _ rfl rfl ?_
        unfold Bidi.delete
        rw [Bidi.num_append, Bidi.num_append, Bidi.deferred_num]; rfl
    · cases e; exact ⟨_, .same h.able⟩
  | shutRd id =>
    change shutRd ep id = _ at e
    unfold shutRd at e
    rcases e1 : Conn.shutdownRead ep.c id with _ | _ | _ | ⟨c', r1⟩ <;> rw [e1] at e <;> dsimp only [lift] at e
    · cases e
    · cases e
    · cases e
    by_cases hb : (!clientBidi id) = true
    · rw [if_pos hb] at e
      cases e
      refine same (fun _ _ g => by cases g) ?_ ⟨_, .same h.able⟩
      have hb : clientBidi id = false := by simpa using hb
      change List.filterMap _ [_] = _
      rw [List.filterMap_cons]; dsimp only; rw [if_neg (by rw [hb]; simp)]; rfl
    rw [if_neg hb] at e
    have hb : clientBidi id = true := by simpa using hb
    have hsh : ∀ r ev, Log.shut [(.shutRd id, r, ev)] = [id] := by
      intro r ev
      change List.filterMap _ [_] = _
      rw [List.filterMap_cons]; dsimp only; rw [if_pos hb]; rfl
    rw [asked_other (fun _ _ g => by cases g)]
    by_cases hold : ((ep.c.str id).isSome && (ep.rx id).shutRd) = true
    · rw [if_pos hold] at e
      cases e
      have hin := h.shut id hb (Bool.and_eq_true_iff.1 hold).2
      refine ⟨said, pend, done, h.able, h.told, h.wait, h.kn, h.le, h.fair, h.acks, ?_, ?_, ?_, ?_, h.shut⟩
      · intro i; rw [count_snoc, count_snoc]; exact h.up i
      · intro i; rw [count_snoc]; exact h.dn i
      · rw [shut_snoc]; exact h.sub.trans (List.sublist_append_left _ _)
      · rw [shut_snoc, hsh]
        intro i hi
        rcases List.mem_append.1 hi with hi | hi
        · exact h.all i hi
        · obtain rfl := List.mem_singleton.1 hi; exact hin
    · rw [if_neg hold] at e
      rcases e2 : ep.dec.cancelStream id with _ | d <;> rw [e2] at e <;> dsimp only at e
      · cases e
      cases e
      unfold Dec.cancelStream at e2
      split_ifs at e2
      obtain rfl := Option.some.inj e2
      have hcc : cancelled (said ++ (pend ++ [.cancel id])) = cancelled (said ++ pend) ++ [id] := by
        rw [← List.append_assoc, cancelled_append (said ++ pend)]; rfl
      have hcl : ∀ i, (if (ep.c.str id).isSome = true then PQ.upd ep.rx id { ep.rx id with shutRd := true } else ep.rx) i =
          { ep.rx i with shutRd := (ep.rx i).shutRd || ((ep.c.str id).isSome && decide (i = id)) } := by
        intro i
        by_cases hs : (ep.c.str id).isSome = true
        · rw [if_pos hs, hs]
          by_cases hi : i = id
          · subst hi; rw [PQ.upd_same]; simp
          · rw [PQ.upd_ne _ _ hi]; simp [hi]
        · rw [if_neg hs]
          have : (ep.c.str id).isSome = false := by simpa using hs
          rw [this]; simp
      refine ⟨said, pend ++ [.cancel id], done, ?_, h.told, areSaid_append h.wait (areSaid_one (is_cancel id)), ?_, h.le, ?_, ?_, ?_, ?_, ?_, ?_, ?_⟩
      · intro i
        dsimp only
        rw [hcl]; exact h.able i
      · rw [← List.append_assoc, known_append]; exact h.kn
      · rw [← List.append_assoc]; exact allFair_append.2 ⟨h.fair, trivial, trivial⟩
      · rw [← List.append_assoc, acks_append, h.acks]; exact List.append_nil _
      · intro i; rw [count_snoc, count_snoc]; exact h.up i
      · intro i; rw [count_snoc]; exact h.dn i
      · rw [shut_snoc, hsh, hcc]; exact h.sub.append (.refl _)
      · rw [shut_snoc, hsh, hcc]
        intro i hi
        rcases List.mem_append.1 hi with hi | hi
        · exact List.mem_append_left _ (h.all i hi)
        · exact List.mem_append_right _ hi
      · intro i hbi hi
        rw [hcc]
        dsimp only at hi
        rw [hcl] at hi
        dsimp only at hi
        rw [Bool.or_eq_true, Bool.and_eq_true, decide_eq_true_iff] at hi
        rcases hi with hi | ⟨_, rfl⟩
        · exact List.mem_append_left _ (h.shut i hbi hi)
        · exact List.mem_append_right _ (List.mem_singleton.2 rfl)
  | writev k as =>
    change writev ep k as = _ at e
    unfold writev at e
    rcases e1 : Conn.writevStream encode ep.c k ep.dec.writeDecoder.2 as with _ | _ | _ | ⟨c', r1⟩ <;> rw [e1] at e <;> dsimp only [lift] at e
    · cases e
    · cases e
    · cases e
    cases e
    rw [asked_writev, ← flushes_reached hi.core.c.inv e1]
    by_cases hfl : flushes ep.c k = true
    · rw [hfl, if_pos rfl, if_pos rfl]
      obtain ⟨inc, w1, w2, w3, w4, w5, w6, w7, w8⟩ := write_said h.wait h.le h.kn
      have hca : said ++ (pend ++ inc) ++ [] = said ++ pend ++ inc := by rw [List.append_nil, List.append_assoc]
      have hcc : cancelled (said ++ pend ++ inc) = cancelled (said ++ pend) := by rw [cancelled_append, w8, List.append_nil]
      refine ⟨said ++ (pend ++ inc), [], done, ?_, areSaid_append h.told w1, w2, ?_, ?_, ?_, ?_, ?_, ?_, ?_, ?_, ?_⟩
      · intro i
        dsimp only
        rw [w3]; exact h.able i
      · rw [hca, known_append, w5]; exact w4.symm
      · dsimp only
        rw [w4, w3]
      · rw [hca]
        dsimp only
        rw [w3]; exact allFair_append.2 ⟨h.fair, w6⟩
      · rw [hca, acks_append, w7, List.append_nil]; exact h.acks
      · intro i; rw [count_snoc, count_snoc]; exact h.up i
      · intro i; rw [count_snoc]; exact h.dn i
      · rw [hca, hcc, shut_snoc]; exact h.sub.trans (List.sublist_append_left _ _)
      · rw [hca, hcc, shut_snoc]; intro i hi; exact h.all i ((List.mem_append.1 hi).resolve_right fun g => by cases g)
      · rw [hca, hcc]; exact h.shut
    · rw [if_neg hfl, if_neg hfl, List.append_nil]
      exact ⟨_, _, _, h.fb (.same h.able) rfl⟩
  | _ => exact plain (fun _ _ g => by cases g) rfl e

theorem spoken_init : Spoken (asked {}) [] (init server st) [] [] [] where
  able id := able_init id _
  told := rfl
  wait := rfl
  kn := rfl
  le := Nat.le_refl _
  fair := trivial
  acks := rfl
  up _ := Nat.zero_le _
  dn _ := Nat.zero_le _
  sub := .refl _
  all _ h := by cases h
  shut _ _ h := by cases h

theorem kept_spoken (hP : ParOk P) (hst : SettingsOk st) {L : Ledger Fld} {l : Log} {ep : Ep} (h : Kept P server st L l ep) :
    ∃ said pend done, Spoken (asked L) l ep said pend done := by
  induction h with
  | init => exact ⟨_, _, _, spoken_init⟩
  | @step L l ep ep' o r ev h0 h1 h2 h3 ih =>
    obtain ⟨said, pend, done, hs⟩ := ih
    exact spoken_step hP (hist_einv hP hst h0.hist) hs h1 h3

end Endpoint
end Nghttp3
