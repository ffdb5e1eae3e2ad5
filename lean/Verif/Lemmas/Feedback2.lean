import Verif.Lemmas.Feedback
/-! The sections that are completed on a request stream. -/
namespace Nghttp3
namespace Bidi
open Http Qpack

def BRes.Hears (id : Nat) (s : Str) (d : Dec) : BRes → Prop
  | .cont s' d' _ _ ev _ => Heard id s d s' d' ev
  | .ret s' d' ev _ => Heard id s d s' d' ev
  | .blocked s' d' _ ev _ => Heard id s d s' d' ev
  | _ => True

def Out.Hears (id : Nat) (s : Str) (d : Dec) (ev0 : List Ev) : Out → Prop
  | .ok s' d' ev _ _ => ∃ ev', ev = ev0 ++ ev' ∧ Heard id s d s' d' ev'
  | _ => True

theorem endFrame_hears {id : Nat} {s s1 : Str} {d0 d : Dec} {ev : List Ev} (e : Hev) (rest : Bytes) (n : Nat) (h : Heard id s d0 s1 d ev) :
    (endFrame s1 d e rest ev n).Hears id s d0 := by
  unfold endFrame
  rcases transit s1.h s1.http e with _ | _ | _ | h' <;> first | trivial | skip
  obtain ⟨t, h1, h2, hs, h3⟩ := h
  exact ⟨t, h1, h2, hs, h3⟩

theorem transitOr_hears {id : Nat} {s s1 : Str} {d : Dec} (e : Hev) (k : Str → BRes) (h : ∀ h', (k { s1 with h := h' }).Hears id s d) : (transitOr s1 e k).Hears id s d := by
  unfold transitOr
  rcases transit s1.h s1.http e with _ | _ | _ | h' <;> first | trivial | exact h h'

theorem frameHead_hears {id : Nat} {s s1 : Str} {d : Dec} (rest : Bytes) (n : Nat) (hsh : s1.shutRd = s.shutRd) (h : Able id d.ctx.next s1.sc) : (frameHead s1 d rest n).Hears id s d := by
  unfold frameHead
  split_ifs
  · refine transitOr_hears _ _ fun h' => ?_
    split_ifs
    · exact endFrame_hears _ _ _ (.none h hsh rfl)
    · exact Heard.none h hsh rfl
  · refine transitOr_hears _ _ fun h' => ?_
    split_ifs
    · exact endFrame_hears _ _ _ (.none h hsh rfl)
    · trivial
    · dsimp only
      cases h' <;> first | trivial | exact Heard.none h hsh rfl
  · trivial
  · exact Heard.none h hsh rfl

theorem dataStep_hears {id : Nat} {s : Str} {d : Dec} (x : Bytes) (h : Able id d.ctx.next s.sc) : (dataStep s d x).Hears id s d := by
  unfold dataStep
  dsimp only
  rcases onDataChunk s.http (x.take s.left).length with _ | http
  · trivial
  dsimp only
  split_ifs
  · exact Heard.none h rfl rfl
  · exact endFrame_hears _ _ _ (.none h rfl rfl)

theorem tells_end {ev l : List Ev} {r : Nat} (h : num Endpoint.sectionEnds ev = 0) (hl : num Endpoint.sectionEnds l = 1) : Tells [r] (ev ++ l) := by
  refine ⟨?_, ?_⟩ <;> simp only [num_append, h, hl, List.length_singleton] <;> omega

theorem sectionEnd_hears (c : Cfg) (last : Bool) {id : Nat} {s s1 : Str} {d d' : Dec} {r : Nat} {ev : List Ev} (rest : Bytes) (n : Nat) (hs : s1.sc = SCtx.init id) (hsh : s1.shutRd = s.shutRd)
    (hc : Cmpl id d r d') (he : num Endpoint.sectionEnds ev = 0) : (sectionEnd c last s1 d' rest ev n).Hears id s d := by
  have ha : Able id d'.ctx.next s1.sc := by rw [hs]; exact able_init _ _
  unfold sectionEnd
  rcases endSection s1.h s1.http with _ | http
  · refine ⟨[r], .one hc, ha, hsh, ?_⟩
    have h0 : num Endpoint.sectionBad [Ev.stopSending 0x010e, Ev.resetStream 0x010e] = 1 := rfl
    have h1 : num Endpoint.sectionEnds [Ev.stopSending 0x010e, Ev.resetStream 0x010e] = 0 := rfl
    refine ⟨?_, ?_⟩ <;> simp only [num_append, he, h0, h1, List.length_singleton] <;> omega
  dsimp only
  have hend : ∀ l : List Ev, num Endpoint.sectionEnds l = 1 → Heard id s d { s1 with http := http } d' (ev ++ l) :=
    fun l hl => ⟨[r], .one hc, ha, hsh, tells_end he hl⟩
  generalize s1.h = hh at hend ⊢
  cases hh <;> first
    | trivial
    | exact endFrame_hears _ _ _ (hend _ rfl)
    | (dsimp only
       rw [List.append_assoc]
       refine endFrame_hears _ _ _ (hend _ ?_)
       split_ifs <;> rfl)

theorem headersStep_hears (c : Cfg) (room fin : Bool) {id : Nat} {s : Str} {d : Dec} (x : Bytes) (h : Able id d.ctx.next s.sc) : (headersStep c room fin s d x).Hears id s d := by
  unfold headersStep
  dsimp only
  have hf := onHeaders_fits c s.h s.http (x.take s.left) (decide ((x.take s.left).length = s.left)) h
  rcases ho : onHeaders c s.h d s.sc s.http (x.take s.left) (decide ((x.take s.left).length = s.left)) with
    ⟨ev, _ | e | d' | ⟨d', sc, http⟩ | ⟨d', sc, http⟩ | ⟨d', sc, http, rest⟩⟩ <;> rw [ho] at hf <;> obtain ⟨hf, he⟩ := hf <;> dsimp only [DRes.Fits] at hf he ⊢
  · trivial
  · trivial
  · subst hf
    refine Heard.none h rfl ?_
    rw [num_append, he]; rfl
  · obtain ⟨rfl, hf, hd⟩ := hf
    have : s.left - (x.take s.left).length ≠ 0 := by
      have : ¬(x.take s.left).length = s.left := by simpa using hd
      have := List.length_take_le s.left x
      omega
    rw [if_pos this]
    exact Heard.none hf rfl he
  · obtain ⟨hd, hf, r, hc⟩ := hf
    have : ¬(s.left - (x.take s.left).length ≠ 0) := by
      have : (x.take s.left).length = s.left := by simpa using hd
      omega
    rw [if_neg this]
    exact sectionEnd_hears c _ _ _ hf rfl hc he
  · obtain ⟨rfl, hf⟩ := hf
    cases room
    · trivial
    · exact Heard.none hf rfl he

theorem step_hears (c : Cfg) (room fin : Bool) {id : Nat} {s : Str} {d : Dec} (x : Bytes) (h : Able id d.ctx.next s.sc) : (step c room fin s d x).Hears id s d := by
  unfold step
  rcases hr : s.rst with _ | _ | _ | _ | _ | _ <;> dsimp only
  · rcases hd : rd s.rv x fin with _ | _ | rv | ⟨v, k⟩ <;> first | trivial | exact Heard.none h rfl rfl
  · rcases hd : rd s.rv x fin with _ | _ | rv | ⟨v, k⟩ <;> first | trivial | exact Heard.none h rfl rfl | skip
    exact frameHead_hears _ _ rfl h
  · exact dataStep_hears x h
  · exact headersStep_hears c room fin x h
  · split_ifs
    · exact Heard.none h rfl rfl
    · exact Heard.none h rfl rfl
  · exact Heard.none h rfl rfl

theorem almostDone_hears {id : Nat} {s0 s : Str} {d0 d : Dec} {ev ev' : List Ev} (fin : Bool) (n : Nat) (h : Heard id s0 d0 s d ev') :
    (almostDone fin s d (ev ++ ev') n).Hears id s0 d0 ev := by
  obtain ⟨t, h1, h2, hs, h3⟩ := h
  unfold almostDone
  cases fin
  · exact ⟨_, rfl, t, h1, h2, hs, h3⟩
  rw [if_pos rfl]
  rcases s.rst with _ | _ | _ | _ | _ | _ <;> dsimp only <;> first | trivial | exact ⟨_, rfl, t, h1, h2, hs, h3⟩ | skip
  split_ifs
  · trivial
  rcases transit s.h s.http .msgEnd with _ | _ | _ | h' <;> first | trivial | skip
  refine ⟨ev' ++ [.endStream], by rw [List.append_assoc], t, h1, h2, hs, ?_⟩
  have := h3.append (Tells.quiet (ev := [.endStream]) rfl)
  rwa [List.append_nil] at this

theorem loop_hears (c : Cfg) (room fin : Bool) (f : Nat) {id : Nat} {s : Str} {d : Dec} (x : Bytes) (b : Bool) (ev : List Ev) (n : Nat) (h : Able id d.ctx.next s.sc) :
    (loop c room fin f s d x b ev n).Hears id s d ev := by
  induction f generalizing s d x b ev n with
  | zero => trivial
  | succ f ih =>
    unfold loop
    by_cases h0 : x = [] ∧ b = false
    · rw [if_pos h0]
      have := almostDone_hears (ev := ev) fin n (Heard.none (s := s) (ev := []) h rfl rfl)
      rwa [List.append_nil] at this
    rw [if_neg h0]
    have h1 := step_hears c room fin x h
    rcases hs : step c room fin s d x with _ | e | ⟨s', d', rest, b', ev', n'⟩ | ⟨s', d', ev', n'⟩ | ⟨s', d', rest, ev', n'⟩ <;> rw [hs] at h1 <;> dsimp only [BRes.Hears] at h1 ⊢
    · trivial
    · trivial
    · have h2 := ih (s := s') (d := d') rest b' (ev ++ ev') (n + n') h1.choose_spec.able
      generalize loop c room fin f s' d' rest b' (ev ++ ev') (n + n') = o at h2 ⊢
      rcases o with _ | _ | ⟨s2, d2, ev2, n2, r2⟩ <;> first | trivial | skip
      obtain ⟨e3, rfl, h3⟩ := h2
      exact ⟨ev' ++ e3, by rw [List.append_assoc], h1.append h3⟩
    · exact almostDone_hears fin _ h1
    · refine ⟨ev', rfl, ?_⟩
      obtain ⟨t, k1, k2, ks, k3⟩ := h1
      unfold justBlocked
      split_ifs <;> exact ⟨t, k1, k2, ks, k3⟩

theorem Out.Hears.of {id : Nat} {s s1 : Str} {d : Dec} {ev : List Ev} {o : Out} (h : o.Hears id s1 d ev) (hs : s1.shutRd = s.shutRd) : o.Hears id s d ev := by
  rcases o with _ | _ | ⟨s', d', ev', n, rest⟩ <;> first | trivial | skip
  obtain ⟨e, h1, t, h2, h3, h4, h5⟩ := h
  exact ⟨e, h1, t, h2, h3, h4.trans hs, h5⟩

theorem readBidi_hears (c : Cfg) (room fin : Bool) {id : Nat} {s : Str} {d : Dec} (x : Bytes) (h : Able id d.ctx.next s.sc) :
    (readBidi c room fin s d x).Hears id s d [] := by
  unfold readBidi
  split_ifs
  · exact ⟨[], rfl, .none h rfl rfl⟩
  · exact ⟨[], rfl, .none h rfl rfl⟩
  · exact ⟨[], rfl, .none h rfl rfl⟩
  · exact loop_hears _ _ _ _ _ _ _ _ h

theorem readStream_hears (c : Cfg) (room fin : Bool) {id : Nat} {s : Str} {d : Dec} (x : Bytes) (h : Able id d.ctx.next s.sc) :
    (readStream c room fin s d x).Hears id s d [] := by
  unfold readStream
  split_ifs
  · exact ⟨[], rfl, .none h rfl rfl⟩
  · exact (readBidi_hears (s := { s with eof := true }) c room fin x h).of rfl
  · exact readBidi_hears c room fin x h

theorem deferred_num (n : Nat) : num Endpoint.sectionEnds (deferred n) = 0 := by unfold deferred; split_ifs <;> rfl

theorem Heard.quiet {id : Nat} {s s1 s2 : Str} {d d1 : Dec} {a b : List Ev} (h : Heard id s d s1 d1 a) (hs : s2.sc = s1.sc) (hq : s2.shutRd = s1.shutRd) (hb : num Endpoint.sectionEnds b = 0) :
    Heard id s d s2 d1 (a ++ b) := by
  obtain ⟨t, h1, h2, ks, h3⟩ := h
  refine ⟨t, h1, by rw [hs]; exact h2, hq.trans ks, ?_⟩
  have := h3.append (Tells.quiet hb)
  rwa [List.append_nil] at this

theorem procLoop_hears (c : Cfg) (room : Bool) (f : Nat) {id : Nat} {s : Str} {d : Dec} (ev : List Ev) (h : Able id d.ctx.next s.sc) :
    (procLoop c room f s d ev).Hears id s d ev := by
  induction f generalizing s d ev with
  | zero => trivial
  | succ f ih =>
    unfold procLoop
    rcases hq : s.inq with _ | ⟨b, t⟩ <;> dsimp only
    · exact ⟨[], by rw [List.append_nil], .none h rfl rfl⟩
    have h1 := readBidi_hears c room (decide (t = []) && s.eof) b.data h
    generalize readBidi c room (decide (t = []) && s.eof) s d b.data = o at h1 ⊢
    rcases o with _ | e | ⟨s', d', ev', n, rest⟩ <;> first | trivial | skip
    obtain ⟨e1, he, h1⟩ := h1
    rw [List.nil_append] at he
    subst he
    have h2 := h1.quiet (s2 := { s' with inq := if rest = [] then t else { b with data := rest } :: t }) rfl rfl (deferred_num n)
    dsimp only
    by_cases hb : s'.blocked = true
    · rw [if_pos hb]
      exact ⟨ev' ++ deferred n, by rw [List.append_assoc], h2⟩
    · rw [if_neg hb]
      have h3 := ih (s := { s' with inq := if rest = [] then t else { b with data := rest } :: t }) (d := d') (ev ++ ev' ++ deferred n) h2.choose_spec.able
      generalize procLoop c room f { s' with inq := if rest = [] then t else { b with data := rest } :: t } d' (ev ++ ev' ++ deferred n) = o at h3 ⊢
      rcases o with _ | _ | ⟨s2, d2, ev2, n2, r2⟩ <;> first | trivial | skip
      obtain ⟨e3, rfl, h3⟩ := h3
      exact ⟨ev' ++ deferred n ++ e3, by simp only [List.append_assoc], h2.append h3⟩

theorem processBlocked_hears (c : Cfg) (room : Bool) {id : Nat} {s : Str} {d : Dec} (h : Able id d.ctx.next s.sc) :
    (processBlocked c room s d).Hears id s d [] := by
  unfold processBlocked
  have h1 := procLoop_hears c room (s.inq.length + 1) (ev := []) h
  generalize procLoop c room (s.inq.length + 1) s d [] = o at h1 ⊢
  rcases o with _ | _ | ⟨s', d', ev, n, rest⟩ <;> first | trivial | skip
  obtain ⟨e1, he, h1⟩ := h1
  rw [List.nil_append] at he
  subst he
  dsimp only
  split_ifs
  · refine ⟨(delete s' ev).2, (List.nil_append _).symm, ?_⟩
    unfold delete
    dsimp only
    rw [List.append_assoc]
    refine h1.quiet rfl rfl ?_
    rw [num_append, deferred_num]; rfl
  · exact ⟨_, rfl, h1⟩

end Bidi
end Nghttp3
