import Verif.Lemmas.BidiLoop
import Verif.Spec.BidiHist
/-! Histories of a request stream. -/
namespace Nghttp3
namespace Bidi
open Http Qpack

/-! ### buffers -/

theorem newBufs_flat (x : Bytes) : (newBufs x).flatMap Buf.data = x ∧ ∀ b ∈ newBufs x, b.data ≠ [] := by
  fun_induction newBufs x with
  | case1 => simp
  | case2 x h ih =>
    refine ⟨?_, ?_⟩
    · rw [List.flatMap_cons, ih.1]; exact List.take_append_drop 16384 x
    · intro b hb
      rcases List.mem_cons.1 hb with rfl | hb
      · intro hd
        have : (x.take 16384).length = 0 := by rw [show x.take 16384 = [] from hd]; rfl
        rw [List.length_take] at this
        have : 0 < x.length := List.length_pos_iff.2 h
        omega
      · exact ih.2 b hb

def BufOk (q : List Buf) : Prop := ∀ b ∈ q, b.data ≠ []

theorem bufferData_flat (q : List Buf) (x : Bytes) (hq : BufOk q) :
    (bufferData q x).flatMap Buf.data = q.flatMap Buf.data ++ x ∧ BufOk (bufferData q x) := by
  unfold bufferData
  rcases hl : q.getLast? with _ | b
  · have : q = [] := List.getLast?_eq_none_iff.1 hl
    subst this
    exact ⟨by simpa using (newBufs_flat x).1, (newBufs_flat x).2⟩
  · have hqd : q = q.dropLast ++ [b] := by
      have hne : q ≠ [] := by rintro rfl; simp at hl
      rw [List.getLast?_eq_some_getLast hne] at hl
      cases hl
      exact (List.dropLast_concat_getLast hne).symm
    have hb : b ∈ q := by rw [hqd]; simp
    dsimp only
    constructor
    · rw [List.flatMap_append, List.flatMap_cons, (newBufs_flat _).1]
      conv_rhs => rw [hqd]
      rw [List.flatMap_append]
      simp only [List.flatMap_cons, List.flatMap_nil, List.append_nil, List.append_assoc]
      rw [List.take_append_drop]
    · intro b' hb'
      rcases List.mem_append.1 hb' with h | h
      · exact hq b' (List.dropLast_subset q h)
      · rcases List.mem_cons.1 h with rfl | h
        · intro hd
          exact hq b hb (List.append_eq_nil_iff.1 hd).1
        · exact (newBufs_flat _).2 b' h

theorem bufferedLen_eq (q : List Buf) : bufferedLen q = (q.flatMap Buf.data).length := by
  unfold bufferedLen; induction q with
  | nil => rfl
  | cons b t ih => rw [List.map_cons, List.sum_cons, ih, List.flatMap_cons, List.length_append]

theorem flat_nil {q : List Buf} (hq : BufOk q) (h : q.flatMap Buf.data = []) : q = [] := by
  cases q with
  | nil => rfl
  | cons b t =>
    rw [List.flatMap_cons] at h
    exact absurd (List.append_eq_nil_iff.1 h).1 (hq b (by simp))

/-- one buffer that holds everything -/
def pack (x : Bytes) : List Buf := if x = [] then [] else [⟨x, 0⟩]

theorem pack_flat (x : Bytes) : (pack x).flatMap Buf.data = x ∧ BufOk (pack x) := by
  unfold pack
  split_ifs with h
  · exact ⟨h ▸ rfl, by simp [BufOk]⟩
  · exact ⟨by simp, by simpa [BufOk] using h⟩

def _root_.Nghttp3.Bidi.Str.canon (s : Str) : Str := { s.norm with inq := pack (buffered s) }

theorem norm_setInq (s : Str) (q : List Buf) : { s with inq := q }.norm = { s.norm with inq := q } := by
  unfold Str.norm
  by_cases h : s.rst = .ignRest
  · rw [if_pos (by exact h), if_pos h]
  · rw [if_neg (by exact h), if_neg h]

theorem norm_inq (s : Str) : s.norm.inq = s.inq := by unfold Str.norm; split_ifs <;> rfl
theorem norm_flags (s : Str) : s.norm.inq = s.inq ∧ s.norm.blocked = s.blocked ∧ s.norm.shutRd = s.shutRd ∧ s.norm.eof = s.eof ∧ s.norm.closed = s.closed ∧ s.norm.gone = s.gone := by
  unfold Str.norm; split_ifs <;> exact ⟨rfl, rfl, rfl, rfl, rfl, rfl⟩

/-! ### the decoder's encoder-stream state is not touched -/

def SameEnc (d d' : Dec) : Prop := d'.ctx = d.ctx ∧ d'.state = d.state ∧ d'.op = d.op ∧ d'.rs = d.rs
theorem SameEnc.refl (d : Dec) : SameEnc d d := ⟨rfl, rfl, rfl, rfl⟩
theorem SameEnc.trans {a b c : Dec} (h : SameEnc a b) (h' : SameEnc b c) : SameEnc a c :=
  ⟨h'.1.trans h.1, h'.2.1.trans h.2.1, h'.2.2.1.trans h.2.2.1, h'.2.2.2.trans h.2.2.2⟩

theorem readRequest_same (d : Dec) (s : SCtx) (x : Bytes) (fin : Bool) :
    match d.readRequest s x fin with
    | .crash => True
    | .fail _ _ => True
    | .more d' _ => SameEnc d d'
    | .final d' _ => SameEnc d d'
    | .emit d' _ _ _ => SameEnc d d'
    | .blocked d' _ _ => SameEnc d d' := by
  unfold Dec.readRequest
  split_ifs
  · trivial
  generalize rsFuel x = f
  generalize false = b
  have ha : ∀ s, match almostOk d s fin with
    | .crash => True
    | .fail _ _ => True
    | .more d' _ => SameEnc d d'
    | .final d' _ => SameEnc d d'
    | .emit d' _ _ _ => SameEnc d d'
    | .blocked d' _ _ => SameEnc d d' := by
    intro s
    unfold almostOk
    split_ifs
    · trivial
    · rcases hw : d.writeSectionAck s with _ | d'
      · trivial
      · have := writeSectionAck_same hw
        exact ⟨this.1, this.2.1, this.2.2.1, this.2.2.2⟩
    · exact .refl d
    · exact .refl d
  induction f generalizing s x b with
  | zero => trivial
  | succ f ih =>
    unfold rsLoop
    by_cases h0 : x = [] ∧ b = false
    · rw [if_pos h0]; exact ha s
    · rw [if_neg h0]
      rcases rsStep d.ctx s x with _ | e | ⟨s1, r1, b1⟩ | ⟨s1, r1⟩ | ⟨s1, nv, r1⟩ | ⟨s1, r1⟩ <;> dsimp only
      · exact ih _ _ _
      · exact ha s1
      · exact .refl d
      · exact .refl d

theorem onHeaders_same (c : Cfg) (h : Hs) (d : Dec) (s : SCtx) (http : State) (x : Bytes) (fin : Bool) :
    match (onHeaders c h d s http x fin).2 with
    | .crash => True
    | .fail _ => True
    | .malformed d' => SameEnc d d'
    | .more d' _ _ => SameEnc d d'
    | .done d' _ _ => SameEnc d d'
    | .blocked d' _ _ _ => SameEnc d d' := by
  unfold onHeaders
  by_cases h0 : x = [] ∧ fin = false
  · rw [if_pos h0]; exact .refl d
  rw [if_neg h0]
  clear h0
  generalize x.length + 1 = f
  generalize ([] : List Ev) = acc
  induction f generalizing d s http x acc with
  | zero => trivial
  | succ f ih =>
    unfold decLoop
    have hs := readRequest_same d s x fin
    rcases hr : d.readRequest s x fin with _ | ⟨d', e⟩ | ⟨d', s'⟩ | ⟨d', s'⟩ | ⟨d', s', nv, rest⟩ | ⟨d', s', rest⟩ <;> rw [hr] at hs <;> dsimp only at hs ⊢
    · exact hs
    · exact hs
    · by_cases h0 : rest.length = x.length
      · rw [if_pos h0]; exact hs
      · rw [if_neg h0]
        have htr : ∀ r : DRes, (match r with
            | .crash => True
            | .fail _ => True
            | .malformed d'' => SameEnc d' d''
            | .more d'' _ _ => SameEnc d' d''
            | .done d'' _ _ => SameEnc d' d''
            | .blocked d'' _ _ _ => SameEnc d' d'') → match r with
            | .crash => True
            | .fail _ => True
            | .malformed d'' => SameEnc d d''
            | .more d'' _ _ => SameEnc d d''
            | .done d'' _ _ => SameEnc d d''
            | .blocked d'' _ _ _ => SameEnc d d'' := by
          intro r; cases r <;> first | exact fun h => hs.trans h | exact id
        rcases fieldRes c h http nv with _ | _ | _ <;> dsimp only
        · exact hs
        · exact htr _ (ih _ _ _ _ _)
        · exact htr _ (ih _ _ _ _ _)
    · exact hs

theorem endFrame_d (s : Str) (d : Dec) (e : Hev) (rest : Bytes) (ev : List Ev) (n : Nat) :
    match endFrame s d e rest ev n with
    | .cont _ d' _ _ _ _ => d' = d
    | .ret _ d' _ _ => d' = d
    | .blocked _ d' _ _ _ => d' = d
    | _ => True := by
  unfold endFrame; rcases transit s.h s.http e with _ | _ | _ | _ <;> trivial

theorem step_same (c : Cfg) (room fin : Bool) (s : Str) (d : Dec) (x : Bytes) (hi : Inv s d) (hx : x ≠ [] ∨ s.rst = .ignFrame ∨ s.rst = .ignRest) :
    match step c room fin s d x with
    | .cont _ d' _ _ _ _ => SameEnc d d'
    | .ret _ d' _ _ => SameEnc d d'
    | .blocked _ d' _ _ _ => SameEnc d d'
    | _ => True := by
  have hk := hi.hok
  unfold step
  rcases hr : s.rst with _ | _ | _ | _ | _ | _ <;> rw [hr] at hx hk <;> dsimp only
  · rcases hd : rd s.rv x fin with _ | _ | rv | ⟨v, k⟩ <;> first | trivial | exact .refl d
  · rcases hd : rd s.rv x fin with _ | _ | rv | ⟨v, k⟩ <;> first | trivial | exact .refl d | skip
    dsimp only
    rcases frameHead_cases (s := { s with rst := .frameLen, rv := {}, left := v }) (d := d) rfl
          ⟨hi.ctx, hi.wf, hi.idle, rvOk_idle, hk, fun g => by cases g⟩ rfl with ⟨e, he⟩ | ⟨s', b, ev', h1, _⟩
    · rw [he]; trivial
    · rw [h1]; exact .refl d
  · unfold dataStep
    dsimp only
    rcases onDataChunk s.http (x.take s.left).length with _ | http
    · trivial
    dsimp only
    split_ifs
    · exact .refl d
    · unfold endFrame
      obtain ⟨h', ht, _⟩ := transit_data hk http
      dsimp only
      rw [ht]; exact .refl d
  · unfold headersStep
    dsimp only
    have hsafe := onHeaders_safe c s.h hi.ctx (decide ((x.take s.left).length = s.left)) s.sc s.http (x.take s.left) hi.wf hi.idle
    have hsame := onHeaders_same c s.h d s.sc s.http (x.take s.left) (decide ((x.take s.left).length = s.left))
    have hsec : ∀ (d' : Dec) (sc : SCtx) http ev, (d'.ctx = d.ctx ∧ SWF sc ∧ Idle sc) → SameEnc d d' →
        match (if s.left - (x.take s.left).length ≠ 0 then
            BRes.ret { s with sc := sc, http := http, left := s.left - (x.take s.left).length } d' ev (x.take s.left).length
          else sectionEnd c (fin && decide (x.drop (x.take s.left).length = [])) { s with sc := sc, http := http, left := s.left - (x.take s.left).length } d'
            (x.drop (x.take s.left).length) ev (x.take s.left).length) with
        | .cont _ d' _ _ _ _ => SameEnc d d'
        | .ret _ d' _ _ => SameEnc d d'
        | .blocked _ d' _ _ _ => SameEnc d d'
        | _ => True := by
      intro d' sc http ev hsc hsd
      have hinv : Inv { s with sc := sc, http := http, left := s.left - (x.take s.left).length } d' :=
        ⟨by rw [hsc.1]; exact hi.ctx, hsc.2.1, hsc.2.2, hi.rv, hi.hok, fun g => by dsimp only at g; rw [hr] at g; cases g⟩
      by_cases h0 : s.left - (x.take s.left).length ≠ 0
      · rw [if_pos h0]; exact hsd
      · rw [if_neg h0]
        obtain ⟨s', b, ev2, h1, _⟩ := sectionEnd_cases c hinv (by exact hr)
        rw [h1]; exact hsd
    rcases ho : onHeaders c s.h d s.sc s.http (x.take s.left) (decide ((x.take s.left).length = s.left)) with ⟨ev, _ | e | d' | ⟨d', sc, http⟩ | ⟨d', sc, http⟩ | ⟨d', sc, http, rest⟩⟩ <;> rw [ho] at hsafe hsame <;> dsimp only at hsafe hsame ⊢
    · exact hsame
    · exact hsec _ _ _ _ ⟨by rw [hsafe.1], hsafe.2⟩ hsame
    · exact hsec _ _ _ _ ⟨hsafe.1, hsafe.2.1, hsafe.2.2.1⟩ hsame
    · cases room
      · trivial
      · exact hsame
  · split_ifs
    · exact .refl d
    · exact .refl d
  · exact .refl d

theorem loop_same (c : Cfg) (room fin : Bool) (f : Nat) (s : Str) (d : Dec) (x : Bytes) (b : Bool) (ev : List Ev) (n : Nat) (hi : Inv s d)
    (hb : b = true → s.rst = .ignFrame ∨ s.rst = .ignRest) :
    match loop c room fin f s d x b ev n with
    | .ok _ d' _ _ _ => SameEnc d d'
    | _ => True := by
  have hdone : ∀ (s' : Str) (d' : Dec) ev' n', match almostDone fin s' d' ev' n' with
      | .ok _ d2 _ _ _ => d2 = d'
      | _ => True := by
    intro s' d' ev' n'
    unfold almostDone
    cases fin
    · trivial
    simp only [if_true]
    rcases s'.rst with _ | _ | _ | _ | _ | _ <;> dsimp only
    split_ifs
    · trivial
    · rcases transit s'.h s'.http .msgEnd with _ | _ | _ | h' <;> trivial
  induction f generalizing s d x b ev n with
  | zero => trivial
  | succ f ih =>
    unfold loop
    by_cases h0 : x = [] ∧ b = false
    · rw [if_pos h0]
      have := hdone s d ev n
      rcases hl : almostDone fin s d ev n with _ | _ | ⟨s2, d2, ev2, n2, rest2⟩ <;> rw [hl] at this <;> dsimp only at this ⊢
      rw [this]; exact .refl d
    rw [if_neg h0]
    have hx : x ≠ [] ∨ s.rst = .ignFrame ∨ s.rst = .ignRest := by
      by_cases hx : x = []
      · right; apply hb; cases b <;> simp_all
      · left; exact hx
    have hacc := step_acc c room fin s d x hi hx
    have hsm := step_same c room fin s d x hi hx
    rcases hs : step c room fin s d x with _ | e | ⟨s', d', rest, b', ev', n'⟩ | ⟨s', d', ev', n'⟩ | ⟨s', d', rest, ev', n'⟩ <;> rw [hs] at hacc hsm <;> dsimp only at hacc hsm ⊢
    · have := ih s' d' rest b' (ev ++ ev') (n + n') hacc.1 hacc.2.1
      rcases hl : loop c room fin f s' d' rest b' (ev ++ ev') (n + n') with _ | _ | ⟨s2, d2, ev2, n2, rest2⟩ <;> rw [hl] at this <;> dsimp only at this ⊢
      exact hsm.trans this
    · have := hdone s' d' (ev ++ ev') (n + n')
      rcases hl : almostDone fin s' d' (ev ++ ev') (n + n') with _ | _ | ⟨s2, d2, ev2, n2, rest2⟩ <;> rw [hl] at this <;> dsimp only at this ⊢
      rw [this]; exact hsm
    · exact hsm

end Bidi
end Nghttp3
