import Verif.Lemmas.EndpointLog
import Verif.Lemmas.BidiProg
import Verif.Lemmas.MessageSoFar
import Verif.Spec.Lives
import Verif.Props.Http
/-! The lives of a request stream in the log of a connection. -/
namespace Nghttp3

namespace Bidi
open Http Qpack

theorem lives_ne (l : List Ev) : lives l ≠ [] := by
  cases l with
  | nil => simp [lives]
  | cons e t =>
    rw [lives]
    split_ifs
    · simp
    · cases lives t <;> simp

theorem lives_plain {e : List Ev} (h : Ev.streamClose ∉ e) : lives e = [e] := by
  induction e with
  | nil => rfl
  | cons x t ih =>
    rw [lives, if_neg (fun g => h (by rw [g]; exact List.mem_cons_self)), ih (fun g => h (List.mem_cons_of_mem _ g))]

theorem lives_append {a : List Ev} {done : List (List Ev)} {cur : List Ev} (ha : lives a = done ++ [cur]) (e : List Ev) (x : List Ev) (r : List (List Ev)) (he : lives e = x :: r) :
    lives (a ++ e) = done ++ (cur ++ x) :: r := by
  induction a generalizing done cur with
  | nil =>
    have : done = [] ∧ cur = [] := by
      cases done with
      | nil => exact ⟨rfl, by simpa [lives] using ha.symm⟩
      | cons y t => simp [lives] at ha
    obtain ⟨rfl, rfl⟩ := this
    exact he
  | cons y t ih =>
    rw [lives] at ha
    rw [List.cons_append, lives]
    by_cases hy : y = .streamClose
    · rw [if_pos hy] at ha ⊢
      cases done with
      | nil =>
        simp only [List.nil_append, List.cons.injEq] at ha
        exact absurd ha.2 (lives_ne t)
      | cons z done =>
        simp only [List.cons_append, List.cons.injEq] at ha
        rw [ih ha.2, ← ha.1]
        rfl
    · rw [if_neg hy] at ha ⊢
      rcases hl : lives t with _ | ⟨z, q⟩
      · exact absurd hl (lives_ne t)
      rw [hl] at ha
      dsimp only at ha
      cases done with
      | nil =>
        simp only [List.nil_append, List.cons.injEq] at ha
        obtain ⟨rfl, rfl⟩ := ha
        rw [ih (done := []) hl]
        rfl
      | cons w done =>
        simp only [List.cons_append, List.cons.injEq] at ha
        obtain ⟨rfl, rfl⟩ := ha
        rw [ih (done := z :: done) hl]
        rfl

theorem lives_more {a : List Ev} {done : List (List Ev)} {cur : List Ev} (ha : lives a = done ++ [cur]) {e : List Ev} (he : Ev.streamClose ∉ e) :
    lives (a ++ e) = done ++ [cur ++ e] := lives_append ha e e [] (lives_plain he)

theorem lives_close {a : List Ev} {done : List (List Ev)} {cur : List Ev} (ha : lives a = done ++ [cur]) {e : List Ev} (he : Ev.streamClose ∉ e) :
    lives (a ++ (e ++ [.streamClose])) = done ++ [cur ++ e] ++ [[]] := by
  rw [← List.append_assoc, lives_append (lives_more ha he) [.streamClose] [] [[]] rfl]
  simp

variable {c : Cfg} {m0 : Msg} {r : Bool}

theorem Plain.noClose {ev : List Ev} (h : Plain ev) : Ev.streamClose ∉ ev := fun g => by cases h _ g

theorem Prog.noClose {s : Str} {ev : List Ev} (h : Prog c m0 s ev r) : Ev.streamClose ∉ ev := by
  have key : Ev.streamClose ∉ loud ev → Ev.streamClose ∉ ev := fun h g => h (List.mem_filter.2 ⟨g, rfl⟩)
  cases h with
  | frame frs hr hp => exact hp.noClose
  | data frs ps m a b hr hp => exact hp.noClose
  | headers frs fs out m a hr hp => exact hp.noClose
  | refused hr h => refine key ?_; unfold Refused at h; rw [h]; simp
  | over hr h =>
    obtain ⟨b, h1, h2, _⟩ := h
    refine key ?_
    rw [h1]
    simp only [List.mem_append, List.mem_cons, List.not_mem_nil, or_false, not_or]
    exact ⟨h2.noClose, by simp, by simp⟩
  | ended frs b hr hh hl hp h =>
    refine key ?_
    rw [hl]
    simp only [List.mem_append, List.mem_cons, List.not_mem_nil, or_false, not_or]
    exact ⟨hp.noClose, by simp⟩

theorem not_mem_of_append {e : Ev} {a b : List Ev} (h : e ∉ a ++ b) : e ∉ b := fun g => h (List.mem_append_right _ g)

theorem deferred_noClose (n : Nat) : Ev.streamClose ∉ deferred n := (deferred_quiet n).plain.noClose

theorem processBlocked_prog (room : Bool) (s : Str) (d : Dec) (ev0 : List Ev) (hi : Inv s d) (hb : s.blocked = false) (hg : s.gone = false) (h : Prog c m0 s ev0 r)
    {s' : Str} {d' : Dec} {ev : List Ev} {n : Nat} {rest : Bytes} (e : processBlocked c room s d = .ok s' d' ev n rest) :
    (s'.gone = false ∧ Prog c m0 s' (ev0 ++ ev) r) ∨ (s'.gone = true ∧ ∃ ev1, ev = ev1 ++ [.streamClose] ∧ Prog c m0 s' (ev0 ++ ev1) r) := by
  unfold processBlocked at e
  have h1 := procLoop_prog room (s.inq.length + 1) s d ev0 [] hi hb (by rw [List.append_nil]; exact h)
  have h2 := procLoop_wait (c := c) room (s.inq.length + 1) s d [] hi hb
  generalize procLoop c room (s.inq.length + 1) s d [] = o at e h1 h2
  rcases o with _ | z | ⟨s1, d1, ev1, n1, r1⟩
  · cases e
  · cases e
  dsimp only at e h2
  have h1 : Prog c m0 s1 (ev0 ++ ev1) r := h1
  by_cases hc : s1.blocked = false ∧ s1.closed = true
  · rw [if_pos hc] at e
    cases e
    refine .inr ⟨rfl, ev1 ++ deferred (bufferedLen s1.inq), rfl, ?_⟩
    rw [← List.append_assoc]
    exact Prog.same (h1.quiet (deferred_quiet _)) rfl rfl rfl
  · rw [if_neg hc] at e
    cases e
    exact .inl ⟨h2.2.1.trans hg, h1⟩

theorem closeStream_prog (s : Str) (d : Dec) (ev0 : List Ev) (hg : s.gone = false) (h : Prog c m0 s ev0 r)
    {s' : Str} {d' : Dec} {ev : List Ev} {n : Nat} {rest : Bytes} (e : closeStream s d = .ok s' d' ev n rest) :
    (s'.gone = false ∧ Prog c m0 s' (ev0 ++ ev) r) ∨ (s'.gone = true ∧ ∃ ev1, ev = ev1 ++ [.streamClose] ∧ Prog c m0 s' (ev0 ++ ev1) r) := by
  unfold closeStream at e
  by_cases hb : s.blocked = true
  · rw [if_pos hb] at e
    cases e
    exact .inl ⟨hg, by rw [List.append_nil]; exact h.same rfl rfl rfl⟩
  · rw [if_neg hb] at e
    cases e
    exact .inr ⟨rfl, [] ++ deferred (bufferedLen s.inq), rfl, Prog.same (h.quiet (deferred_quiet _)) rfl rfl rfl⟩

theorem new_prog (c c' : Cfg) : Prog c (Msg.start c') (Str.new c') [] false := by
  refine .frame [] (.inl rfl) .nil ?_
  show ([], MRes.ok (Msg.start c')) = _
  unfold Msg.start Str.new
  cases c'.server <;> rfl

/-! ### what a life looks like -/

theorem frame_malformed {pp : Pri → List UInt8 → Option Pri} {ext : Bool} {m : Msg} {f : Frm} {cb : List Cb} (e : onFrame pp ext m f = (cb, .malformedHeader)) :
    ∃ (a : List Cb) (out : List Field), cb = a ++ .beginHeaders :: out.map .header ∨ cb = a ++ .beginTrailers :: out.map .trailer := by
  cases f with
  | data ps =>
    exfalso
    unfold onFrame at e
    dsimp only at e
    generalize transit m.h m.s .dataBegin = o at e
    rcases o with _ | _ | _ | h' <;> dsimp only [Tr.bind] at e <;> try (cases (Prod.mk.inj e).2; done)
    generalize onData m.s ps = o at e
    rcases o with ⟨b, _ | s⟩ <;> dsimp only at e
    · cases (Prod.mk.inj e).2
    generalize transit h' s .dataEnd = o at e
    rcases o with _ | _ | _ | h2 <;> cases (Prod.mk.inj e).2
  | headers o =>
    rcases ht : transit m.h m.s .headersBegin with _ | _ | _ | h'
    iterate 3
      · exfalso
        unfold onFrame at e
        cases o <;> dsimp only at e <;> rw [ht] at e <;> cases (Prod.mk.inj e).2
    cases o with
    | none =>
      exfalso
      unfold onFrame at e
      dsimp only at e
      rw [ht] at e
      dsimp only [Tr.bind] at e
      split_ifs at e
      · generalize transit h' m.s .headersEnd = o at e
        rcases o with _ | _ | _ | h2 <;> cases (Prod.mk.inj e).2
      · cases (Prod.mk.inj e).2
    | some fs =>
      obtain ⟨out, rfl⟩ := bad_section ht e
      cases isTrailers h'
      · exact ⟨[], out, .inl rfl⟩
      · exact ⟨[], out, .inr rfl⟩

theorem frames_malformed {frs : List Frm} {cb : List Cb} (e : frames c m0 frs = (cb, .malformedHeader)) : InSection cb := by
  unfold frames at e
  induction frs using List.reverseRecOn generalizing cb with
  | nil => cases e
  | append_singleton frs f ih =>
    rw [onFrames_snoc'] at e
    generalize onFrames c.pp (c.server && c.ext) m0 frs = o at e ih
    rcases o with ⟨cb', _ | _ | _ | _ | m'⟩ <;> dsimp only at e
    all_goals first | exact ih e | skip
    obtain ⟨e1, e2⟩ := Prod.mk.inj e
    obtain ⟨a, out, h⟩ := frame_malformed (show onFrame c.pp (c.server && c.ext) m' f = (_, .malformedHeader) from Prod.ext rfl e2)
    refine ⟨cb' ++ a, out, ?_⟩
    rw [← e1]
    rcases h with h | h
    · exact .inl (by rw [List.append_assoc, ← h])
    · exact .inr (by rw [List.append_assoc, ← h])

theorem data_end {h h' : Hs} {s s' : State} (ht : transit h s .dataBegin = .ok h') : ∃ h2, transit h' s' .dataEnd = .ok h2 := by
  unfold transit at ht
  cases h <;> simp at ht <;> first | (subst ht; exact ⟨_, rfl⟩) | (split_ifs at ht; cases ht; exact ⟨_, rfl⟩)

theorem prog_life {soFar complete : List Cb → Prop} (h1 : ∀ frs cb m, frames c m0 frs = (cb, .ok m) → soFar cb)
    (h2 : ∀ (frs : List Frm) (cb : List Cb) (m : Msg) (h' : Hs) (out : List Field), frames c m0 frs = (cb, .ok m) → transit m.h m.s .headersBegin = .ok h' →
      soFar (cb ++ (if isTrailers h' then .beginTrailers else .beginHeaders) :: out.map (if isTrailers h' then .trailer else .header)))
    (h3 : ∀ frs cb, frames c m0 frs = (cb, .malformedHeader) → soFar cb)
    (h4 : ∀ frs cb m, onMessage c.pp (c.server && c.ext) m0 frs = (cb, .ok m) → complete cb) {s : Str} {ev : List Ev} (h : Prog c m0 s ev r) :
    (r = true ∧ RefusedLife ev) ∨ (r = false ∧ LifeOk soFar complete ev) := by
  cases h with
  | refused hr h => exact .inl ⟨rfl, h⟩
  | frame frs hr hp h => exact .inr ⟨rfl, .progress hp (h1 _ _ _ h)⟩
  | data frs ps m a b hr hp h ht hd he =>
    obtain ⟨hx, ht'⟩ := data_end (s' := s.http) ht
    have := frames_snoc h (.data ps)
    rw [frame_data ht hd ht'] at this
    exact .inr ⟨rfl, .progress hp (by rw [he]; exact h1 _ _ _ this)⟩
  | headers frs fs out m a hr hp h ht hd he => exact .inr ⟨rfl, .progress hp (by rw [he]; exact h2 _ _ _ _ _ h ht)⟩
  | over hr h =>
    obtain ⟨b, k1, k2, frs, k3⟩ := h
    exact .inr ⟨rfl, .malformed b k1 k2 (h3 _ _ k3) (frames_malformed k3)⟩
  | ended frs b hr hh hl hp h => exact .inr ⟨rfl, .complete b hl hp (h4 _ _ _ h)⟩

theorem request_life (hs : c.server = true) {s : Str} {ev : List Ev} (h : Prog c ⟨.reqInitial, {}⟩ s ev r) :
    (r = true ∧ RefusedLife ev) ∨ (r = false ∧ LifeOk (RequestSoFar c.ext) (CompleteRequest c.ext) ev) := by
  have hext : (c.server && c.ext) = c.ext := by rw [hs]; rfl
  refine prog_life (fun frs cb m e => ?_) (fun frs cb m h' out e ht => ?_) (fun frs cb e => ?_) (fun frs cb m e => ?_) h
  · have := req_so (pp := c.pp) (ext := c.ext) frs
    unfold frames at e
    rw [hext] at e
    rw [e] at this
    exact (show ReqAt _ _ _ from this).so
  · have := req_so (pp := c.pp) (ext := c.ext) frs
    unfold frames at e
    rw [hext] at e
    rw [e] at this
    exact req_headers (show ReqAt _ _ _ from this) ht out
  · have := req_so (pp := c.pp) (ext := c.ext) frs
    unfold frames at e
    rw [hext] at e
    rw [e] at this
    exact this
  · rw [hext] at e
    obtain ⟨fs, ds, tr, _, k1, k2, k3, k4⟩ := (Props.C26_request c.pp c.ext frs cb).1 ⟨m, e⟩
    exact ⟨fs, ds.flatten, tr, k1, k2, k3, k4⟩

theorem response_life {req : List Field} {s : Str} {ev : List Ev} (h : Prog c ⟨.respInitial, recordRequestMethod {} req⟩ s ev r) :
    (r = true ∧ RefusedLife ev) ∨ (r = false ∧ LifeOk (ResponseSoFar (Spec.methodOf (req.map fl))) (CompleteResponse (Spec.methodOf (req.map fl))) ev) := by
  obtain ⟨k, hd, e0, hk, hh⟩ := recordRequestMethod_eq req
  refine prog_life (fun frs cb m e => ?_) (fun frs cb m h' out e ht => ?_) (fun frs cb e => ?_) (fun frs cb m e => ?_) h
  · have := resp_so (pp := c.pp) (ext := c.server && c.ext) k hd frs
    unfold frames at e
    rw [e0] at e
    rw [e] at this
    exact (show RespAt _ _ _ _ from this).so.spec hk hh
  · have := resp_so (pp := c.pp) (ext := c.server && c.ext) k hd frs
    unfold frames at e
    rw [e0] at e
    rw [e] at this
    exact (resp_headers (show RespAt _ _ _ _ from this) ht out).spec hk hh
  · have := resp_so (pp := c.pp) (ext := c.server && c.ext) k hd frs
    unfold frames at e
    rw [e0] at e
    rw [e] at this
    exact (show RespSo _ _ _ from this).spec hk hh
  · obtain ⟨is, st, fs, ds, tr, _, k1, k2, k3, k4, k5, k6⟩ := (Props.C26_response c.pp (c.server && c.ext) req frs cb).1 ⟨m, e⟩
    exact ⟨is, st, fs, ds.flatten, tr, k1, k2, k3, k4, k5, k6⟩

end Bidi

namespace Endpoint
open Bidi (Prog lives Ev)
open Http (Msg)
open Conn (clientBidi)

variable {K : Bidi.Cfg} {Q : Bool → List Http.Field → Prop} {S : Prop}

/-- a life of the stream -/
def Lived (K : Bidi.Cfg) (Q : Bool → List Http.Field → Prop) (s : Bidi.Str) (ev : List Bidi.Ev) : Prop :=
  ∃ r req, Q r req ∧ Prog K (Bidi.Msg.start { K with req := req }) s ev r

/-- the lives of a stream -/
structure LivesOk (K : Bidi.Cfg) (Q : Bool → List Http.Field → Prop) (ev : List Bidi.Ev) (b : Option Bidi.Str) (done : List (List Bidi.Ev)) (cur : List Bidi.Ev) : Prop where
  eq : lives ev = done ++ [cur]
  old : ∀ e ∈ done, ∃ s, Lived K Q s e
  none : b = none → cur = []
  some : ∀ s, b = some s → Lived K Q s cur

theorem Lived.same {s s' : Bidi.Str} {ev : List Bidi.Ev} (h : Lived K Q s ev) (h1 : s'.rst = s.rst) (h2 : s'.h = s.h) (h3 : s'.http = s.http) : Lived K Q s' ev := by
  obtain ⟨r, req, k1, k2⟩ := h
  exact ⟨r, req, k1, k2.same h1 h2 h3⟩

theorem Move.lives {a b : Option Bidi.Str} {g : List (Bytes × Bool)} {e : List Bidi.Ev} {u : Int} (m : Move K Q S a g e u b) {ev : List Bidi.Ev} {done : List (List Bidi.Ev)} {cur : List Bidi.Ev}
    (h : LivesOk K Q ev a done cur) : ∃ done' cur', LivesOk K Q (ev ++ e) b done' cur' := by
  have fin : ∀ (s s' : Bidi.Str) (ev1 : List Bidi.Ev), a = .some s →
      (∀ r req, Q r req → Prog K (Bidi.Msg.start { K with req := req }) s cur r →
        (s'.gone = false ∧ Prog K (Bidi.Msg.start { K with req := req }) s' (cur ++ ev1) r) ∨
          (s'.gone = true ∧ ∃ ev2, ev1 = ev2 ++ [.streamClose] ∧ Prog K (Bidi.Msg.start { K with req := req }) s' (cur ++ ev2) r)) →
      ∃ done' cur', LivesOk K Q (ev ++ ev1) (if s'.gone then .none else .some s') done' cur' := by
    intro s s' ev1 ha hp
    obtain ⟨r, req, hq, hc⟩ := h.some s ha
    rcases hp r req hq hc with ⟨hg, h1⟩ | ⟨hg, ev2, rfl, h1⟩
    · refine ⟨done, cur ++ ev1, Bidi.lives_more h.eq (Bidi.not_mem_of_append h1.noClose), h.old, fun g => ?_, fun s2 g => ?_⟩
      · rw [hg] at g; cases g
      · rw [hg] at g; cases g; exact ⟨r, req, hq, h1⟩
    · refine ⟨done ++ [cur ++ ev2], [], Bidi.lives_close h.eq (Bidi.not_mem_of_append h1.noClose), fun e' g => ?_, fun _ => rfl, fun s2 g => ?_⟩
      · rcases List.mem_append.1 g with g | g
        · exact h.old e' g
        · rw [List.mem_singleton.1 g]; exact ⟨s', r, req, hq, h1⟩
      · rw [hg] at g; cases g
  cases m with
  | made req k =>
    obtain rfl := h.none rfl
    refine ⟨done, [], by rw [List.append_nil]; exact h.eq, h.old, (fun g => by cases g), fun s g => ?_⟩
    cases g
    exact ⟨false, req, k, Bidi.new_prog _ _⟩
  | refused k =>
    obtain rfl := h.none rfl
    refine ⟨done, _, Bidi.lives_more h.eq (by simp), h.old, (fun g => by cases g), fun s g => ?_⟩
    cases g
    exact ⟨true, [], k, .refused rfl rfl⟩
  | recv s d b room fin' src s' d' _ n rest hs k =>
    obtain ⟨r, req, hq, hc⟩ := h.some s rfl
    have := Bidi.readStream_prog room fin' { s with priFixed := b } d src cur (Bidi.inv_of hs.inv rfl rfl rfl rfl rfl) (hc.same rfl rfl rfl)
    rw [k] at this
    have this : Prog K (Bidi.Msg.start { K with req := req }) s' (cur ++ e) r := this
    refine ⟨done, cur ++ e, Bidi.lives_more h.eq (Bidi.not_mem_of_append this.noClose), h.old, (fun g => by cases g), fun s2 g => ?_⟩
    cases g
    exact ⟨r, req, hq, this⟩
  | woken s d b room s' d' _ n rest hs hg hb hn k =>
    exact fin s s' e rfl fun r req hq hc => Bidi.processBlocked_prog room { s with blocked := false, priFixed := b } d cur (Bidi.inv_of hs.inv rfl rfl rfl rfl rfl) rfl hg (hc.same rfl rfl rfl) k
  | shut s _ =>
    refine ⟨done, cur, by rw [List.append_nil]; exact h.eq, h.old, (fun g => by cases g), fun s2 g => ?_⟩
    cases g
    exact (h.some s rfl).same rfl rfl rfl
  | closed s d s' d' _ n rest hs hg k => exact fin s s' e rfl fun r req hq hc => Bidi.closeStream_prog s d cur hg hc k

theorem Chain.lives {a b : Option Bidi.Str} {g : List (Bytes × Bool)} {e : List Bidi.Ev} {u : Int} (m : Chain K Q S a g e u b) (ha : a = none) : ∃ done cur, LivesOk K Q e b done cur := by
  subst ha
  generalize ha : (none : Option Bidi.Str) = a at m
  induction m with
  | refl => subst ha; exact ⟨[], [], rfl, (fun _ g => by cases g), fun _ => rfl, fun _ g => by cases g⟩
  | step _ m ih =>
    obtain ⟨done, cur, h⟩ := ih
    exact m.lives h

end Endpoint
end Nghttp3
