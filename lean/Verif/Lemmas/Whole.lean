import Verif.Lemmas.EncZero
import Verif.Lemmas.DuoMsg
import Verif.Lemmas.NetPos
import Verif.Lemmas.EndpointKept
import Verif.Props.WireMsg
import Verif.Props.Sent
import Verif.Spec.Alone
/-! What a connection whose encoder has no dynamic table puts on a request stream, and what the frames mean. -/
namespace Nghttp3
namespace Endpoint
open Outq (R Frent Ans Emit)
open Sent (Ledger Book Serves)
open Bidi (WFrame IsFrames wDecode)
open Conn (clientBidi streamUni)

/-- what the encoder made of each field section is read by the decoder without table -/
def Plain (m : Sent.Made Fld) : Prop :=
  (∀ nv ∈ m.nva.2, Qpack.NvFits nv) → m.pre ++ m.lines ≠ [] ∧
    ∃ s, blank.readSection (Qpack.SCtx.init m.nva.1) (m.pre ++ m.lines) true = (m.nva.2.map Qpack.Nv.toQNv, .final blank s)

theorem chain_plain {e e' : Qpack.Enc} {ks : List (Sent.Made Fld)} (h : Sent.Chain encode FromPeer e ks e') (h0 : Qpack.EncZero e) : ∀ m ∈ ks, Plain m := by
  induction h with
  | nil => exact fun _ hm => by cases hm
  | @cons e e1 e' m t h1 _ ih =>
    unfold encode at h1
    rcases ho : e.encode m.nva.1 m.nva.2 with _ | o <;> rw [ho] at h1 <;> dsimp only at h1
    · cases h1
    split_ifs at h1
    simp only [Option.some.injEq, Prod.mk.injEq] at h1
    obtain ⟨rfl, q2, q3, _⟩ := h1
    intro k hk
    rcases List.mem_cons.1 hk with rfl | hk
    · intro hf
      rw [← q2, ← q3]
      exact h0.decodes ho hf
    · exact ih (h0.encode ho).1 k hk
  | peer hp _ ih => exact ih (h0.peer hp)

/-- a successful call asks for request frames only, on a stream that is not unidirectional -/
theorem subm_req {c c' : CC} {ep : Ep} {o : Call} {op : Conn.Op Fld} {r : Conn.Ret} {x : Nat} (hcr : c.ctrl ≠ some x) (hx : streamUni x = false) (ho : opOn ep o = some op)
    (e : Conn.step encode c op = .ok (c', r)) : ∀ f ∈ Sent.subm c op r x, Duo.IsReq x f := by
  by_cases hr : r = .code 0
  · have nil : Sent.subm c op r x = [] → ∀ f ∈ Sent.subm c op r x, Duo.IsReq x f := fun g f hf => by rw [g] at hf; cases hf
    have one : ∀ (id : Nat) (nvs : List Qpack.Nv) (dr : Bool), Sent.subm c op r x = (if id = x then .headers (id, nvs) :: (if dr then [.data] else []) else []) →
        ∀ f ∈ Sent.subm c op r x, Duo.IsReq x f := by
      intro id nvs dr g f hf
      rw [g] at hf
      by_cases hid : id = x
      · subst hid
        rw [if_pos rfl] at hf
        rcases List.mem_cons.1 hf with rfl | hf
        · rfl
        · cases dr
          · cases hf
          · obtain rfl := List.mem_singleton.1 hf; trivial
      · rw [if_neg hid] at hf; cases hf
    cases o with
    | bindControl id =>
      cases ho
      refine nil ?_
      unfold Sent.subm
      rw [if_pos hr]
      dsimp only
      rw [if_neg]
      rintro rfl
      change Conn.bindControl c id = _ at e
      unfold Conn.bindControl at e
      by_cases hg : (decide (id ≥ 2 ^ 62) || (c.server && !Conn.serverUni id) || (!c.server && !Conn.clientUni id)) = true
      · rw [if_pos hg] at e; cases e
      · simp only [Bool.or_eq_true, not_or] at hg
        obtain ⟨⟨_, g1⟩, g2⟩ := hg
        unfold Conn.serverUni at g1
        unfold Conn.clientUni at g2
        unfold streamUni at hx
        cases hsv : c.server <;> simp_all
    | submitRequest id nva dr => cases ho; exact one id nva dr (by unfold Sent.subm; rw [if_pos hr])
    | submitInfo id nva => cases ho; exact one id nva false (by unfold Sent.subm; rw [if_pos hr]; rfl)
    | submitResponse id nva dr => cases ho; exact one id nva dr (by unfold Sent.subm; rw [if_pos hr])
    | submitTrailers id nva => cases ho; exact one id nva false (by unfold Sent.subm; rw [if_pos hr]; rfl)
    | notice => cases ho; exact nil (by unfold Sent.subm; rw [if_pos hr]; dsimp only; rw [if_neg hcr])
    | shutdown => cases ho; exact nil (by unfold Sent.subm; rw [if_pos hr]; dsimp only; rw [if_neg hcr])
    | setClientPri id v => cases ho; exact nil (by unfold Sent.subm; rw [if_pos hr]; dsimp only; rw [if_neg hcr])
    | _ => first | (cases ho; done) | (cases ho; exact nil (by unfold Sent.subm; rw [if_pos hr]))
  · have : Sent.subm c op r x = [] := by unfold Sent.subm; rw [if_neg hr]
    rw [this]
    exact fun f hf => by cases hf

/-- what is submitted on request streams -/
theorem kept_req {P : Par} {server : Bool} {st : Settings} {x : Nat} (hP : ParOk P) (hst : SettingsOk st) (hx : streamUni x = false) {L : Ledger Fld} {l : Log} {ep : Ep}
    (h : Kept P server st L l ep) : ∀ f ∈ (L.at x).submitted, Duo.IsReq x f := by
  induction h with
  | init => exact fun f hf => by cases hf
  | @step L l ep ep' o r ev h0 h1 h2 h3 ih =>
    have old : ∀ f ∈ (if (ep.c.str x).isSome then L.at x else { born := L.asks.length } : Book Fld).submitted, Duo.IsReq x f := by
      split_ifs
      · exact ih
      · exact fun f hf => by cases hf
    rcases ho : opOn ep o with _ | op
    · unfold note; rw [ho]; exact old
    · obtain ⟨e1, _⟩ := step_op ho h3
      have hcr : ep.c.ctrl ≠ some x := fun g => by
        have := (Conn.crits (hist_einv hP hst h0.hist).core.c.inv).uc x g
        rw [this] at hx; cases hx
      have hn : note L ep o r = Sent.note L ep.c op r := by unfold note; rw [ho]
      rw [hn]
      unfold Sent.note
      dsimp only
      generalize (if (ep.c.str x).isSome then L.at x else { born := L.asks.length } : Book Fld) = b at old
      have hs := subm_req hcr hx ho e1
      have app : ∀ f ∈ b.submitted ++ Sent.subm ep.c op r x, Duo.IsReq x f := fun f hf => (List.mem_append.1 hf).elim (old f) (hs f)
      unfold Sent.enter
      cases op <;> dsimp only <;> first | exact app | skip
      · split
        · split_ifs <;> exact old
        · exact old
      all_goals split_ifs <;> exact old

theorem own_fst (b : Outq.Bytes) : (Outq.own b).map Prod.fst = b := by unfold Outq.own; rw [List.map_map]; exact List.map_id _
theorem app_fst (b : Outq.Bytes) : (Outq.app b).map Prod.fst = b := by unfold Outq.app; rw [List.map_map]; exact List.map_id _

/-- the frames that the bytes of a request stream are, and what they mean -/
theorem plain_frames {x : Nat} (c : Bidi.Cfg) (hc : c.id = x) {S rest : List (Frent Fld)} {ks : List (Sent.Made Fld)} {it : List Emit} (h : Serves S ks it rest)
    (hS : ∀ f ∈ S, Duo.IsReq x f) (hf : ∀ f, Frent.headers f ∈ S → ∀ nv ∈ f.2, Qpack.NvFits nv) (hk : ∀ m ∈ ks, Plain m) {parts : List Outq.Marked}
    (hw : List.Forall₂ Outq.Wire it parts) :
    ∃ fs, IsFrames fs (parts.flatten.map Prod.fst) ∧ wDecode c blank fs = some ((Duo.frames ks it).map Net.SFrame.frm, blank) ∧
      fs.flatMap WFrame.bodyOf = (Duo.frames ks it).flatMap Net.SFrame.body := by
  induction h generalizing parts with
  | done => cases hw; exact ⟨[], rfl, rfl, rfl⟩
  | settings _ _ => exact (hS _ (List.mem_cons_self ..)).elim
  | goaway _ _ => exact (hS _ (List.mem_cons_self ..)).elim
  | priorityUpdate _ _ => exact (hS _ (List.mem_cons_self ..)).elim
  | @headers m fs ks em rest _ ih =>
    cases hw with
    | @cons _ b _ bs hw hws =>
    obtain ⟨g, g1, g2, g3⟩ := ih (fun f q => hS f (List.mem_cons_of_mem _ q)) (fun f q => hf f (List.mem_cons_of_mem _ q)) (fun k q => hk k (List.mem_cons_of_mem _ q)) hws
    obtain ⟨w, w1, w2⟩ := hw
    obtain ⟨n1, s, n2⟩ := hk m (List.mem_cons_self ..) (hf _ (List.mem_cons_self ..))
    have hid : m.nva.1 = x := hS _ (List.mem_cons_self ..)
    refine ⟨.headers (m.pre ++ m.lines) :: g, ?_, ?_, ?_⟩
    · rw [List.flatten_cons, List.map_append, w2, own_fst]
      exact ⟨w, _, rfl, w1, g1⟩
    · rcases hsec : m.pre ++ m.lines with _ | ⟨y, sec⟩
      · exact absurd hsec n1
      · rw [hsec, hid] at n2
        rw [wDecode, hc, n2]
        dsimp only
        rw [g2]
        simp [Duo.frames, Net.SFrame.frm, Net.field, Bidi.QNv.field, Qpack.Nv.toQNv]
    · simp [Duo.frames, Net.SFrame.body, WFrame.bodyOf, g3]
  | @dataMore v noEnd fs ks em rest _ ih =>
    cases hw with
    | @cons _ b _ bs hw hws =>
    obtain ⟨g, g1, g2, g3⟩ := ih hS hf hk hws
    rw [List.flatten_cons, List.map_append]
    have hfr : Duo.frames ks (.data v false noEnd :: em) = Duo.piece v ++ Duo.frames ks em := rfl
    rw [hfr]
    unfold Duo.piece
    rcases hw with ⟨w1, rfl⟩ | ⟨w1, hd, w2, rfl⟩
    · rw [w1]; exact ⟨g, g1, g2, g3⟩
    · refine ⟨.data v.flatten :: g, ?_, ?_, ?_⟩
      · rw [List.map_append, own_fst, app_fst]
        exact ⟨_, _, rfl, w2, g1⟩
      · rw [wDecode, g2]; simp [w1, Net.SFrame.frm]
      · rw [List.flatMap_cons, g3]; simp [w1, Net.SFrame.body, WFrame.bodyOf]
  | @dataEnd v noEnd fs ks em rest _ ih =>
    cases hw with
    | @cons _ b _ bs hw hws =>
    obtain ⟨g, g1, g2, g3⟩ := ih (fun f q => hS f (List.mem_cons_of_mem _ q)) (fun f q => hf f (List.mem_cons_of_mem _ q)) hk hws
    rw [List.flatten_cons, List.map_append]
    have hfr : Duo.frames ks (.data v true noEnd :: em) = Duo.piece v ++ Duo.frames ks em := rfl
    rw [hfr]
    unfold Duo.piece
    rcases hw with ⟨w1, rfl⟩ | ⟨w1, hd, w2, rfl⟩
    · rw [w1]; exact ⟨g, g1, g2, g3⟩
    · refine ⟨.data v.flatten :: g, ?_, ?_, ?_⟩
      · rw [List.map_append, own_fst, app_fst]
        exact ⟨_, _, rfl, w2, g1⟩
      · rw [wDecode, g2]; simp [w1, Net.SFrame.frm]
      · rw [List.flatMap_cons, g3]; simp [w1, Net.SFrame.body, WFrame.bodyOf]

theorem wBody_open {c : Bidi.Cfg} {d d' : Qpack.Dec} {m m' : Http.Msg} {fs : List WFrame} (h : (Bidi.wFrames c d m fs).2 = .open d' m') :
    Bidi.wBody c d m fs = fs.flatMap WFrame.bodyOf := by
  induction fs generalizing d m with
  | nil => rfl
  | cons f t ih =>
    rw [Bidi.wFrames] at h
    rw [Bidi.wBody, List.flatMap_cons]
    rcases hf : Bidi.wFrame c d m f with ⟨cb, _ | _ | _ | _ | ⟨d1, m1⟩⟩ <;> rw [hf] at h <;> dsimp only at h ⊢ <;> first | (cases h; done) | skip
    rw [ih h]

/-- a well-formed message: what is shown -/
theorem plain_stream (c : Bidi.Cfg) (fs : List WFrame) (msg : List Net.SFrame) (fin : Bool) (h : wDecode c blank fs = some (msg.map Net.SFrame.frm, blank))
    (hb : fs.flatMap WFrame.bodyOf = msg.flatMap Net.SFrame.body) (hv : Net.Valid c msg fin) :
    (Bidi.wStream c blank (Bidi.Msg.start c) fs fin).2.Fine ∧ (Bidi.wStream c blank (Bidi.Msg.start c) fs fin).2.signals = [] ∧
    (Bidi.wStream c blank (Bidi.Msg.start c) fs fin).1 = (Net.rules c msg fin).1 ∧ Bidi.wBody c blank (Bidi.Msg.start c) fs = msg.flatMap Net.SFrame.body := by
  have hd := Props.decoded_frames c blank blank (Bidi.Msg.start c) fs _ h
  obtain ⟨m, hm⟩ := hv
  unfold Net.rules at hm ⊢
  unfold Bidi.wStream
  rw [hd]
  cases fin with
  | false =>
    rw [if_neg (by simp)] at hm ⊢
    rw [hm]
    have := hd
    rw [hm] at this
    exact ⟨trivial, rfl, rfl, (wBody_open (congrArg Prod.snd this)).trans hb⟩
  | true =>
    rw [if_pos rfl] at hm ⊢
    unfold Http.onMessage at hm ⊢
    rcases ho : Http.onFrames c.pp (c.server && c.ext) (Bidi.Msg.start c) (msg.map Net.SFrame.frm) with ⟨cb, _ | _ | _ | _ | m'⟩ <;> rw [ho] at hm <;> dsimp only at hm <;>
      first | (cases hm; done) | skip
    have := hd
    rw [ho] at this
    dsimp only [Bidi.WOut.of]
    rw [if_pos rfl, hm]
    exact ⟨trivial, rfl, rfl, (wBody_open (congrArg Prod.snd this)).trans hb⟩

end Endpoint
end Nghttp3
