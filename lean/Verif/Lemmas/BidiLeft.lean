import Verif.Lemmas.QpackSuffix
import Verif.Lemmas.ConnArrive
import Verif.Lemmas.BidiIface
import Verif.Spec.Left
/-! Where in the bytes of a request stream nghttp3_conn_read_bidi is. -/
namespace Nghttp3
namespace Bidi
open Http Qpack
open Conn (Unknown done_varint)

/-- where the reader is in a frame of which `tail` has been read -/
def At (r : Rst) (rv : RVInt) (left : Nat) (tail : Bytes) : Prop :=
  match r with
  | .frameType => left = 0 ∧ Unknown tail rv
  | .frameLen => left = 0 ∧ ∃ ty t t', Spec.IsVarint ty t ∧ tail = t ++ t' ∧ Unknown t' rv
  | .ignRest => False
  | _ => ∃ ty len t l part, Spec.IsVarint ty t ∧ Spec.IsVarint len l ∧ tail = t ++ l ++ part ∧ part.length + left = len

/-- complete frames, as far as `PayloadLeft` is concerned -/
def Closed (front : Bytes) : Prop := ∀ tail n, Spec.PayloadLeft tail n → Spec.PayloadLeft (front ++ tail) n

/-- the reader has processed the bytes `seen` of the stream -/
def Pos (s : Str) (seen : Bytes) : Prop := ∃ front tail, seen = front ++ tail ∧ Closed front ∧ At s.rst s.rv s.left tail

theorem closed_nil : Closed [] := fun _ _ h => h

theorem Closed.frame {front f payload : Bytes} {ty : Nat} (h : Closed front) (hf : Spec.IsFrame ty payload f) : Closed (front ++ f) := by
  intro tail n ht
  rw [List.append_assoc]
  exact h _ _ (.after ty payload f tail n hf ht)

theorem unknown_nil : Unknown [] {} := .inl ⟨rfl, rfl⟩

theorem varint_eq {a b : Nat} {t t' x x' : Bytes} (h : Spec.IsVarint a t) (h' : Spec.IsVarint b t') (e : t ++ x = t' ++ x') : a = b ∧ t = t' ∧ x = x' := by
  have h1 := getVarint_of_isVarint h x
  rw [e, getVarint_of_isVarint h' x'] at h1
  simp only [Option.some.injEq, Prod.mk.injEq] at h1
  obtain ⟨rfl, rfl⟩ := h1
  exact ⟨rfl, List.append_cancel_right e, rfl⟩

/-- what the reader has in `left` is what is missing -/
theorem Pos.left {s : Str} {seen : Bytes} (h : Pos s seen) : Spec.PayloadLeft seen s.left := by
  obtain ⟨front, tail, rfl, hc, ha⟩ := h
  apply hc
  have pay : (∃ ty len t l part, Spec.IsVarint ty t ∧ Spec.IsVarint len l ∧ tail = t ++ l ++ part ∧ part.length + s.left = len) → Spec.PayloadLeft tail s.left := by
    rintro ⟨ty, len, t, l, part, h1, h2, rfl, h3⟩
    by_cases h0 : s.left = 0
    · rw [h0]
      have := Spec.PayloadLeft.after ty part (t ++ l ++ part) [] 0 ⟨t, l, h1, by rw [← h3, h0, Nat.add_zero] at h2; exact h2, rfl⟩ (.header [] fun ty len t l rest k1 k2 e => by
        have := isVarint_pos k1
        have := congrArg List.length e
        simp only [List.length_append, List.length_nil] at this; omega)
      rwa [List.append_nil] at this
    · have : s.left = len - part.length := by omega
      rw [this]
      exact .inside ty len t l part h1 h2 (by omega)
  unfold At at ha
  generalize s.rst = r at ha
  cases r <;> dsimp only at ha
  · rw [ha.1]
    exact .header _ fun ty len t l rest k1 k2 e => ha.2.short k1 (by rw [e, List.append_assoc])
  · obtain ⟨h0, ty, t, t', h1, rfl, h2⟩ := ha
    rw [h0]
    refine .header _ fun ty' len t2 l rest k1 k2 e => ?_
    rw [List.append_assoc] at e
    obtain ⟨_, _, e3⟩ := varint_eq h1 k1 e
    exact h2.short k2 e3
  · exact pay ha
  · exact pay ha
  · exact pay ha

theorem Pos.same {s s' : Str} {seen : Bytes} (h : Pos s seen) (h1 : s'.rst = s.rst) (h2 : s'.rv = s.rv) (h3 : s'.left = s.left) : Pos s' seen := by
  unfold Pos at h ⊢
  rw [h1, h2, h3]
  exact h

/-- the reader rejected the message -/
def Gave (ev : List Ev) : Prop := Ev.resetStream 0x010e ∈ ev

/-- an integer, read in pieces -/
theorem Unknown.read {b x : Bytes} {rv : RVInt} (h : Unknown b rv) (hx : x ≠ []) (f : Bool) :
    match rd rv x f with
    | .part rv' => Unknown (b ++ x) rv'
    | .done v n => Spec.IsVarint v (b ++ x.take n) ∧ n ≤ x.length
    | _ => True := by
  have hg := Conn.Unknown.go h hx f

  have hbx : b ++ x ≠ [] := by simp [hx]
  rcases hr : rd rv x f with _ | _ | rv' | ⟨v, n⟩ <;> rw [hr] at hg <;> dsimp only [Rd.shift] at hg ⊢
  · have hs := rd_spec {} (b ++ x) f rvOk_idle hbx
    rw [hg] at hs
    rw [hs.1] at hg
    exact .inr ⟨hbx, hg⟩
  · obtain ⟨h1, h2⟩ := done_varint hbx hg
    rw [List.take_length_add_append] at h1
    exact ⟨h1, by rw [List.length_append] at h2; omega⟩

/-- a pass that starts with the end of the frame header -/
theorem frameHead_pos (s : Str) (d : Dec) (rest : Bytes) (n : Nat) :
    match frameHead s d rest n with
    | .cont s' _ rest' _ _ _ => rest' = rest ∧ (((s'.rst = .data ∨ s'.rst = .headers ∨ s'.rst = .ignFrame) ∧ s'.left = s.left) ∨ (s.left = 0 ∧ s'.rst = .frameType ∧ s'.rv = {} ∧ s'.left = 0))
    | .ret _ _ _ _ => False
    | .blocked _ _ _ _ _ => False
    | _ => True := by
  have hend : ∀ (s1 : Str) (e : Hev), s.left = 0 → match endFrame s1 d e rest [] n with
    | .cont s' _ rest' _ _ _ => rest' = rest ∧ (((s'.rst = .data ∨ s'.rst = .headers ∨ s'.rst = .ignFrame) ∧ s'.left = s.left) ∨ (s.left = 0 ∧ s'.rst = .frameType ∧ s'.rv = {} ∧ s'.left = 0))
    | .ret _ _ _ _ => False
    | .blocked _ _ _ _ _ => False
    | _ => True := by
    intro s1 e h0
    unfold endFrame
    cases transit s1.h s1.http e with
    | ok h => exact ⟨rfl, .inr ⟨h0, rfl, rfl, rfl⟩⟩
    | _ => trivial
  unfold frameHead
  by_cases h1 : s.ftype = FRAME_DATA
  · rw [if_pos h1]
    unfold transitOr
    rcases transit s.h s.http .dataBegin with _ | _ | _ | h' <;> dsimp only
    by_cases h0 : s.left = 0
    · rw [if_pos h0]; exact hend _ _ h0
    · rw [if_neg h0]; exact ⟨rfl, .inl ⟨.inl rfl, rfl⟩⟩
  rw [if_neg h1]
  by_cases h2 : s.ftype = FRAME_HEADERS
  · rw [if_pos h2]
    unfold transitOr
    rcases transit s.h s.http .headersBegin with _ | _ | _ | h' <;> dsimp only
    by_cases h0 : s.left = 0
    · rw [if_pos h0]
      by_cases h3 : emptyHeadersAllowed h' = true
      · rw [if_pos h3]; exact hend _ _ h0
      · rw [if_neg h3]; trivial
    · rw [if_neg h0]
      cases h' <;> first | trivial | exact ⟨rfl, .inl ⟨.inr (.inl rfl), rfl⟩⟩
  rw [if_neg h2]
  by_cases h3 : unexpectedType s.ftype = true
  · rw [if_pos h3]; trivial
  · rw [if_neg h3]; exact ⟨rfl, .inl ⟨.inr (.inr rfl), rfl⟩⟩

theorem sectionEnd_pos (c : Cfg) (last : Bool) (s : Str) (d : Dec) (rest : Bytes) (ev : List Ev) (n : Nat) :
    match sectionEnd c last s d rest ev n with
    | .cont s' _ rest' _ ev' _ => rest' = rest ∧ (Gave ev' ∨ (s'.rst = .frameType ∧ s'.rv = {} ∧ s'.left = 0))
    | .ret _ _ _ _ => False
    | .blocked _ _ _ _ _ => False
    | _ => True := by
  unfold sectionEnd
  rcases endSection s.h s.http with _ | http
  · exact ⟨rfl, .inl (by unfold Gave; simp)⟩
  dsimp only
  generalize s.h = hh
  cases hh <;> dsimp only <;> first | trivial | (unfold endFrame; generalize transit _ _ _ = o; cases o <;> first | trivial | exact ⟨rfl, .inr ⟨rfl, rfl, rfl⟩⟩)

/-- part of a payload -/
def Pay (left : Nat) (tail : Bytes) : Prop := ∃ ty len t l part, Spec.IsVarint ty t ∧ Spec.IsVarint len l ∧ tail = t ++ l ++ part ∧ part.length + left = len

theorem at_pay {r : Rst} (h : r = .data ∨ r = .headers ∨ r = .ignFrame) (rv : RVInt) (left : Nat) (tail : Bytes) : At r rv left tail = Pay left tail := by
  rcases h with rfl | rfl | rfl <;> rfl

theorem Pay.more {left : Nat} {tail : Bytes} (h : Pay left tail) (x : Bytes) (hx : x.length ≤ left) : Pay (left - x.length) (tail ++ x) := by
  obtain ⟨ty, len, t, l, part, h1, h2, rfl, h3⟩ := h
  exact ⟨ty, len, t, l, part ++ x, h1, h2, by rw [List.append_assoc (t ++ l)], by rw [List.length_append]; omega⟩

theorem Pay.done {front tail : Bytes} (h : Pay 0 tail) (hc : Closed front) : Closed (front ++ tail) := by
  obtain ⟨ty, len, t, l, part, h1, h2, rfl, h3⟩ := h
  exact hc.frame ⟨t, l, h1, by rw [← h3, Nat.add_zero] at h2; exact h2, rfl⟩

theorem pos_start {s : Str} {front : Bytes} (hc : Closed front) (h1 : s.rst = .frameType) (h2 : s.rv = {}) (h3 : s.left = 0) : Pos s front :=
  ⟨front, [], by rw [List.append_nil], hc, by rw [h1, h2, h3]; exact ⟨rfl, unknown_nil⟩⟩

/-- one pass -/
theorem step_pos (c : Cfg) (room fin : Bool) (s : Str) (d : Dec) (x seen : Bytes) (hp : Pos s seen) (hx : x ≠ [] ∨ s.rst = .ignFrame ∨ s.rst = .ignRest) :
    match step c room fin s d x with
    | .cont s' _ rest _ ev _ => ∃ p, x = p ++ rest ∧ (Gave ev ∨ Pos s' (seen ++ p))
    | .ret s' _ _ _ => Pos s' (seen ++ x)
    | .blocked s' _ rest _ _ => ∃ p, x = p ++ rest ∧ Pos s' (seen ++ p)
    | _ => True := by
  obtain ⟨front, tail, rfl, hc, ha⟩ := hp
  have hsplit : ∀ left : Nat, x = x.take left ++ x.drop (x.take left).length := by
    intro left
    conv => lhs; rw [← List.take_append_drop left x]
    congr 1
    rw [List.length_take]
    by_cases h : left ≤ x.length
    · rw [Nat.min_eq_left h]
    · rw [Nat.min_eq_right (by omega), List.drop_of_length_le (by omega), List.drop_of_length_le (Nat.le_refl _)]
  have hall : ∀ left : Nat, left - (x.take left).length ≠ 0 → x.take left = x := by
    intro left h
    rw [List.length_take] at h
    exact List.take_of_length_le (by omega)
  have htl : ∀ left : Nat, (x.take left).length ≤ left := fun left => by rw [List.length_take]; omega
  unfold step
  rcases hr : s.rst with _ | _ | _ | _ | _ | _ <;> rw [hr] at hx ha <;> dsimp only
  · have hx : x ≠ [] := by rcases hx with h | h | h <;> first | exact h | cases h
    have hs := Unknown.read ha.2 hx fin
    rcases hd : rd s.rv x fin with _ | _ | rv | ⟨v, k⟩ <;> rw [hd] at hs <;> dsimp only at hs ⊢
    · exact ⟨front, tail ++ x, List.append_assoc .., hc, by exact ⟨ha.1, hs⟩⟩
    · refine ⟨x.take k, (List.take_append_drop k x).symm, .inr ⟨front, tail ++ x.take k, List.append_assoc .., hc, ha.1, v, tail ++ x.take k, [], hs.1, (List.append_nil _).symm, unknown_nil⟩⟩
  · have hx : x ≠ [] := by rcases hx with h | h | h <;> first | exact h | cases h
    obtain ⟨h0, ty, t, t', h1, rfl, h2⟩ := ha
    have hs := Unknown.read h2 hx fin
    rcases hd : rd s.rv x fin with _ | _ | rv | ⟨v, k⟩ <;> rw [hd] at hs <;> dsimp only at hs ⊢
    · exact ⟨front, t ++ t' ++ x, List.append_assoc .., hc, by exact ⟨h0, ty, t, t' ++ x, h1, List.append_assoc .., hs⟩⟩
    · have hf := frameHead_pos { s with rst := .frameLen, rv := {}, left := v } d (x.drop k) k
      have hpay : Pay v (t ++ t' ++ x.take k) := ⟨ty, v, t, t' ++ x.take k, [], h1, hs.1, by rw [List.append_nil, List.append_assoc], by simp⟩
      generalize frameHead { s with rst := .frameLen, rv := {}, left := v } d (x.drop k) k = o at hf ⊢
      cases o with
      | crash => trivial
      | fail e => trivial
      | ret => exact hf.elim
      | blocked => exact hf.elim
      | cont s' d' rest b ev n =>
        dsimp only at hf ⊢
        obtain ⟨rfl, hf⟩ := hf
        refine ⟨x.take k, (List.take_append_drop k x).symm, .inr ?_⟩
        rcases hf with ⟨k1, k2⟩ | ⟨k0, k1, k2, k3⟩
        · exact ⟨front, t ++ t' ++ x.take k, List.append_assoc .., hc, by rw [at_pay k1, k2]; exact hpay⟩
        · rw [k0] at hpay
          rw [List.append_assoc]
          exact pos_start (hpay.done hc) k1 k2 k3
  · have ha : Pay s.left tail := ha
    have hm := ha.more _ (htl s.left)
    unfold dataStep
    dsimp only
    rcases onDataChunk s.http (x.take s.left).length with _ | http
    · trivial
    dsimp only
    by_cases h0 : s.left - (x.take s.left).length ≠ 0
    · rw [if_pos h0]
      rw [hall _ h0] at hm ⊢
      exact ⟨front, tail ++ x, List.append_assoc .., hc, by rw [at_pay (.inl hr)]; exact hm⟩
    · rw [if_neg h0]
      rw [Decidable.not_not.1 h0] at hm
      unfold endFrame
      dsimp only
      cases transit s.h http .dataEnd with
      | ok h => exact ⟨_, hsplit s.left, .inr (by rw [List.append_assoc]; exact pos_start (hm.done hc) rfl rfl rfl)⟩
      | _ => trivial
  · have ha : Pay s.left tail := ha
    have hm := ha.more _ (htl s.left)
    have hsuf := onHeaders_suffix c s.h d s.sc s.http (x.take s.left) (decide ((x.take s.left).length = s.left))
    have hrest : ∀ (d' : Dec) (sc : SCtx) http ev, match (if s.left - (x.take s.left).length ≠ 0 then
          BRes.ret { s with sc := sc, http := http, left := s.left - (x.take s.left).length } d' ev (x.take s.left).length
        else sectionEnd c (fin && decide (x.drop (x.take s.left).length = [])) { s with sc := sc, http := http, left := s.left - (x.take s.left).length } d'
          (x.drop (x.take s.left).length) ev (x.take s.left).length) with
      | .cont s' _ rest _ ev _ => ∃ p, x = p ++ rest ∧ (Gave ev ∨ Pos s' (front ++ tail ++ p))
      | .ret s' _ _ _ => Pos s' (front ++ tail ++ x)
      | .blocked s' _ rest _ _ => ∃ p, x = p ++ rest ∧ Pos s' (front ++ tail ++ p)
      | _ => True := by
      intro d' sc http ev
      by_cases h0 : s.left - (x.take s.left).length ≠ 0
      · rw [if_pos h0]
        have e := hall _ h0
        rw [e] at hm
        exact ⟨front, tail ++ x, List.append_assoc .., hc, by rw [at_pay (.inr (.inl hr))]; dsimp only; rw [e]; exact hm⟩
      · rw [if_neg h0]
        rw [Decidable.not_not.1 h0] at hm
        have hs := sectionEnd_pos c (fin && decide (x.drop (x.take s.left).length = [])) { s with sc := sc, http := http, left := s.left - (x.take s.left).length } d'
          (x.drop (x.take s.left).length) ev (x.take s.left).length
        generalize sectionEnd c _ _ d' (x.drop (x.take s.left).length) ev (x.take s.left).length = o at hs ⊢
        cases o with
        | crash => trivial
        | fail e => trivial
        | ret => exact hs.elim
        | blocked => exact hs.elim
        | cont s' d' rest b ev n =>
          dsimp only at hs ⊢
          obtain ⟨rfl, hs⟩ := hs
          refine ⟨_, hsplit s.left, hs.imp id fun k => ?_⟩
          rw [List.append_assoc]
          exact pos_start (hm.done hc) k.1 k.2.1 k.2.2
    unfold headersStep
    dsimp only
    rcases ho : onHeaders c s.h d s.sc s.http (x.take s.left) (decide ((x.take s.left).length = s.left)) with ⟨ev, _ | e | d' | ⟨d', sc, http⟩ | ⟨d', sc, http⟩ | ⟨d', sc, http, rest⟩⟩ <;> rw [ho] at hsuf <;> dsimp only at hsuf ⊢
    · exact ⟨[], rfl, .inl (by unfold Gave; simp)⟩
    · exact hrest _ _ _ _
    · exact hrest _ _ _ _
    · cases room
      · trivial
      · rw [if_pos rfl]
        obtain ⟨p, hp⟩ := hsuf
        have hl : p.length = (x.take s.left).length - rest.length := by rw [← hp, List.length_append]; omega
        refine ⟨p, by rw [← List.append_assoc, hp]; exact hsplit _, front, tail ++ p, List.append_assoc .., hc, ?_⟩
        rw [at_pay (.inr (.inl hr))]
        dsimp only
        rw [← hl]
        exact ha.more p (by have := htl s.left; omega)
  · have ha : Pay s.left tail := ha
    have hm := ha.more _ (htl s.left)
    by_cases h0 : s.left - (x.take s.left).length ≠ 0
    · rw [if_pos h0]
      have e := hall _ h0
      rw [e] at hm
      exact ⟨front, tail ++ x, List.append_assoc .., hc, by rw [at_pay (.inr (.inr rfl))]; dsimp only; rw [e]; exact hm⟩
    · rw [if_neg h0]
      rw [Decidable.not_not.1 h0] at hm
      exact ⟨_, hsplit s.left, .inr (by rw [List.append_assoc]; exact pos_start (hm.done hc) rfl rfl rfl)⟩
  · exact ha.elim

end Bidi
end Nghttp3
