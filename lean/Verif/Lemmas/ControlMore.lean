import Verif.Lemmas.ControlFrames
/-! Truncated payloads; where the reader may fail an assertion. -/
namespace Nghttp3

/-- `p` is a proper prefix of the encoding of an integer -/
def Trunc (p : List UInt8) : Prop := ∃ v t, Spec.IsVarint v (p ++ t) ∧ t ≠ []

theorem rd_trunc {p : List UInt8} (h : Trunc p) (hp : p ≠ []) (f : Bool) :
    if f then rd {} p f = .err else ∃ rv, rd {} p f = .part rv := by
  obtain ⟨v, t, hv, ht⟩ := h
  obtain ⟨b, p, rfl⟩ := List.exists_cons_of_ne_nil hp
  obtain ⟨c, r, he, hlen, -⟩ := preVal_of_isVarint hv
  rw [List.cons_append, List.cons.injEq] at he
  obtain ⟨rfl, rfl⟩ := he
  have ht' := List.length_pos_iff.2 ht
  have hn : ¬ getVarintLen b ≤ (b :: p).length := by
    rw [hlen]; simp only [List.length_cons, List.length_append]; omega
  cases f
  · rw [if_neg (by decide)]
    exact ⟨_, by rw [rd_start, if_neg hn, if_neg (by decide)]⟩
  · rw [if_pos rfl, rd_start, if_neg hn, if_pos rfl]

theorem rdl_trunc {p : List UInt8} (h : Trunc p) (hp : p ≠ []) (y : List UInt8) : rdl {} p.length (p ++ y) = .err := by
  unfold rdl
  rw [List.take_left, decide_eq_true (Nat.le_refl _)]
  have := rd_trunc h hp true
  simpa using this

theorem trunc_nil : Trunc [] := ⟨0, [0], ⟨0, by decide, by decide, by decide, by decide⟩, by simp⟩

namespace Control
open Spec.Control
variable {S : Type} {env : Env S}

/-- a failed assertion: the bytes of some first chunks end right after a prioritized element ID -/
theorem feed_crash_cmp (s : St S) (cs : List Bytes) (hne : ∀ c ∈ cs, c ≠ []) (hi : Inv Pnil s) (h : feed env s cs = .crash) :
    ∃ u v, cs.flatten = u ++ v ∧ ((∃ s', runI env s u = .ok s' ∧ s'.st = .priField) ∨
      ∃ c : Conn S, c.long = true ∧ runI env s u = .fail (0, c)) := by
  induction cs generalizing s with
  | nil => cases h
  | cons c cs ih =>
    have hc := hne c (by simp)
    unfold feed at h
    rcases read_cmp (env := env) s c hc hi with h1 | h1 | ⟨h1, c', hl, h'⟩
    · exact ⟨c, cs.flatten, rfl, read_crash_cmp s c hc hi h1⟩
    · rcases hr : runI env s c with _ | o | ⟨o, r⟩ | s' <;> rw [h1, hr] at h <;> dsimp only at h
      · exact absurd hr (runI_safe s c hi)
      · cases h
      · cases h
      · obtain ⟨u, v, e1, e2⟩ := ih s' (fun x hx => hne x (by simp [hx])) (runI_ok s c hi s' hr) h
        refine ⟨c ++ u, v, by rw [List.flatten_cons, e1, List.append_assoc], ?_⟩
        rw [runI_append s c u hi, hr]
        exact e2
    · exact ⟨c, cs.flatten, rfl, .inr ⟨c', hl, h'⟩⟩

/-- an incomplete pair of integers, not empty -/
def TruncPair (r : Bytes) : Prop := r ≠ [] ∧ (Trunc r ∨ ∃ i bi t, Spec.IsVarint i bi ∧ Trunc t ∧ r = bi ++ t)

theorem run_settings_bad {ivs : List (Nat × Nat)} {p r : Bytes} (h : Spec.IsSettings ivs p) (hr : TruncPair r) (c : Conn S) (ty sid : Nat)
    (rest : Bytes) :
    R env { conn := c, st := .settings, ty := ty, left := (p ++ r).length, sid := sid } (p ++ (r ++ rest)) false =
      match foldEntries c ivs with
      | .error o => .fail o
      | .ok c' => .fail (Err.H3_FRAME_ERROR, c') := by
  have hr0 := List.length_pos_iff.2 hr.1
  induction h generalizing c sid with
  | nil =>
    rw [foldEntries]
    dsimp only
    rw [List.nil_append, List.nil_append]
    have i1 : Inv Pnil ({ conn := c, st := .settings, ty := ty, left := r.length, sid := sid } : St S) :=
      ⟨rvOk_idle, fun _ => rfl, by simp, fun _ => hr0, fun _ => rfl, by simp⟩
    rw [R_next i1 (by simp) (.inl (by simp [hr.1])), ← step_eq_of_ne _ _ (by simp)]
    unfold step
    dsimp only
    rw [if_neg (by omega), if_neg (by simp [hr.1])]
    rcases hr.2 with ht | ⟨i, bi, t, hi, ht, rfl⟩
    · unfold inFrame
      dsimp only
      rw [rdl_trunc ht hr.1]
      rfl
    · have p1 := isVarint_pos hi
      rw [List.append_assoc, inFrame_varint hi _ rfl (by simp)]
      unfold gotId
      dsimp only
      have hl : (bi ++ t).length - bi.length = t.length := by simp
      rw [hl]
      by_cases h0 : t.length = 0
      · rw [if_pos h0]; rfl
      · rw [if_neg h0]
        have ht0 : t ≠ [] := fun h => h0 (by simp [h])
        have i2 : Inv Pnil ({ conn := c, st := .settingVal, ty := ty, left := t.length, sid := i } : St S) :=
          ⟨rvOk_idle, fun _ => rfl, by simp, fun _ => by dsimp only; omega, by simp, by simp⟩
        rw [show next env (.cont { conn := c, st := .settingVal, ty := ty, left := t.length, sid := i } (t ++ rest) false) =
          R env { conn := c, st := .settingVal, ty := ty, left := t.length, sid := i } (t ++ rest) false from rfl,
          R_next i2 (by simp) (.inl (by simp [ht0])), ← step_eq_of_ne _ _ (by simp)]
        unfold step inFrame
        dsimp only
        rw [rdl_trunc ht ht0]
        rfl
  | @cons i v bi bv ivs bs hi hv hs ih =>
    have p1 := isVarint_pos hi
    have p2 := isVarint_pos hv
    have hx : bi ++ bv ++ bs ++ (r ++ rest) = bi ++ (bv ++ (bs ++ (r ++ rest))) := by simp
    have hlen : (bi ++ bv ++ bs ++ r).length = bi.length + bv.length + (bs ++ r).length := by simp [Nat.add_assoc]
    have hlen2 : (bs ++ r).length = bs.length + r.length := by simp
    rw [hx]
    have i1 : Inv Pnil ({ conn := c, st := .settings, ty := ty, left := (bi ++ bv ++ bs ++ r).length, sid := sid } : St S) :=
      ⟨rvOk_idle, fun _ => rfl, by simp, fun _ => by dsimp only; omega, fun _ => rfl, by simp⟩
    rw [R_next i1 (by simp) (.inl (append_ne_nil_of_varint hi _)), ← step_eq_of_ne _ _ (by simp)]
    have e1 : step env { conn := c, st := .settings, ty := ty, left := (bi ++ bv ++ bs ++ r).length, sid := sid } (bi ++ (bv ++ (bs ++ (r ++ rest)))) =
        .cont { conn := c, st := .settingVal, ty := ty, left := bv.length + (bs ++ r).length, sid := i } (bv ++ (bs ++ (r ++ rest))) false := by
      unfold step
      dsimp only
      rw [if_neg (by omega), if_neg (append_ne_nil_of_varint hi _), inFrame_varint hi _ rfl (by dsimp only; omega)]
      unfold gotId
      dsimp only
      rw [if_neg (by omega), hlen]
      congr 2
      omega
    rw [e1]
    unfold next
    dsimp only
    have i2 : Inv Pnil ({ conn := c, st := .settingVal, ty := ty, left := bv.length + (bs ++ r).length, sid := i } : St S) :=
      ⟨rvOk_idle, fun _ => rfl, by simp, fun _ => by dsimp only; omega, by simp, by simp⟩
    rw [R_next i2 (by simp) (.inl (append_ne_nil_of_varint hv _)), ← step_eq_of_ne _ _ (by simp)]
    have e2 : step env { conn := c, st := .settingVal, ty := ty, left := bv.length + (bs ++ r).length, sid := i } (bv ++ (bs ++ (r ++ rest))) =
        gotVal env v { conn := c, st := .settingVal, ty := ty, left := (bs ++ r).length, sid := i } (bs ++ (r ++ rest)) := by
      unfold step
      dsimp only
      rw [inFrame_varint hv _ rfl (by dsimp only; omega)]
      congr 2
      dsimp only
      omega
    rw [e2]
    unfold gotVal
    dsimp only
    rw [foldEntries]
    rcases onEntry c i v with e | c'
    · rfl
    · dsimp only
      rw [if_pos (by omega)]
      exact ih c' i

def InSettings (s : St S) : Prop := s.st = .settings ∨ s.st = .settingId ∨ s.st = .settingVal

theorem inFrame_settings (s : St S) (x : Bytes) (k : Nat → St S → Bytes → Res S) (hi : RvOk s.rv) (hx : x ≠ []) (hin : InSettings s)
    (h : x.length < s.left)
    (hk : ∀ v n, 0 < n → n ≤ x.length → match k v { s with rv := {}, left := s.left - n } (x.drop n) with
      | .cont s' r _ => InSettings s' ∧ r = x.drop n ∧ s'.left = s.left - n
      | .ret _ => False
      | _ => True) :
    match inFrame s x k with
    | .cont s' r _ => InSettings s' ∧ r.length < s'.left
    | .ret s' => InSettings s'
    | _ => True := by
  have := rdl_spec s.rv s.left x hi (by omega) hx
  unfold inFrame
  rcases hr : rdl s.rv s.left x with _ | _ | rv | ⟨v, n⟩ <;> rw [hr] at this <;> dsimp only at this ⊢
  · exact hin
  · obtain ⟨h1, h2, h3, -⟩ := this
    have := hk v n h1 h2
    rcases hk' : k v { s with rv := {}, left := s.left - n } (x.drop n) with _ | o | ⟨o, r⟩ | ⟨s', r, b⟩ | s' <;> rw [hk'] at this <;>
      dsimp only at this ⊢
    · obtain ⟨a1, rfl, a3⟩ := this
      refine ⟨a1, ?_⟩
      rw [a3, List.length_drop]; omega

/-- inside a SETTINGS frame -/
theorem settings_left (f : Nat) (s : St S) (x : Bytes) (b : Bool) (hi : Inv Pnil s) (hb : b = true → vis s = true) (hin : InSettings s)
    (h : x.length < s.left) :
    match Machine.loop (stepI env) f s x b with
    | .ok s' => InSettings s'
    | _ => True := by
  induction f generalizing s x b with
  | zero => trivial
  | succ f ih =>
    unfold Machine.loop
    by_cases h0 : x = [] ∧ b = false
    · rw [if_pos h0]; exact hin
    rw [if_neg h0]
    have hb' : b = false := by
      cases b
      · rfl
      · have := hb rfl
        unfold vis at this
        rcases hin with h | h | h <;> simp [h] at this
    have hx : x ≠ [] := fun h1 => h0 ⟨h1, hb'⟩
    have hg := stepI_good env s x bufNil hi (.inl hx)
    have hst : match stepI env s x with
        | .cont s' r _ => InSettings s' ∧ r.length < s'.left
        | .ret s' => InSettings s'
        | _ => True := by
      have hnp : s.st ≠ .priField := by rcases hin with h | h | h <;> simp [h]
      rw [← step_eq_of_ne s x hnp]
      unfold step
      have kid : ∀ v n, 0 < n → n ≤ x.length → match gotId v { s with rv := {}, left := s.left - n, st := .settingId } (x.drop n) with
          | .cont s' r _ => InSettings s' ∧ r = x.drop n ∧ s'.left = s.left - n
          | .ret _ => False
          | _ => True := by
        intro v n h1 h2
        unfold gotId
        rw [if_neg (by dsimp only; omega)]
        exact ⟨.inr (.inr rfl), rfl, rfl⟩
      rcases hin with h1 | h1 | h1 <;> rw [h1] <;> dsimp only
      · rw [if_neg (by omega), if_neg hx]
        exact inFrame_settings _ x _ hi.rv hx (.inr (.inl rfl)) h kid
      · refine inFrame_settings _ x _ hi.rv hx (.inr (.inl h1)) h ?_
        have e : ({ s with st := .settingId } : St S) = s := by cases s; simp only at h1; subst h1; rfl
        intro v n h2 h3
        have := kid v n h2 h3
        rw [← e]
        exact this
      · refine inFrame_settings _ x _ hi.rv hx (.inr (.inr h1)) h ?_
        intro v n h2 h3
        unfold gotVal
        dsimp only
        rcases onEntry s.conn s.sid v with e | c
        · trivial
        · dsimp only
          rw [if_pos (by omega)]
          exact ⟨.inl rfl, rfl, rfl⟩
    rcases hr : stepI env s x with _ | o | ⟨o, r⟩ | ⟨s', r, b'⟩ | s' <;> rw [hr] at hg hst <;> dsimp only at hst ⊢
    · exact ih s' r b' hg.1 hg.2.1 hst.1 hst.2
    · exact hst

theorem runI_part (c : Conn S) {ty : Nat} {t u v : Bytes} (ht : Spec.IsVarint ty t) (h : t = u ++ v) (hv : v ≠ []) :
    ∃ s', runI env { conn := c } u = .ok s' ∧ s'.st = .frameType := by
  by_cases hu : u = []
  · subst hu
    exact ⟨_, R_nil, rfl⟩
  have hb := R_next (env := env) (b := false) (inv_idle bufNil c) (by simp) (.inl hu)
  have h1 := rd_trunc ⟨ty, v, by rw [← h]; exact ht, hv⟩ hu false
  simp only [Bool.false_eq_true, if_false] at h1
  obtain ⟨rv, hrv⟩ := h1
  rw [show runI env { conn := c } u = R env { conn := c } u false from rfl, hb, ← step_eq_of_ne _ _ (by simp)]
  unfold step
  dsimp only
  rw [hrv]
  exact ⟨_, rfl, rfl⟩

theorem runI_part_len (c : Conn S) {ty len : Nat} {t l u v : Bytes} (ht : Spec.IsVarint ty t) (hl : Spec.IsVarint len l) (h : l = u ++ v)
    (hv : v ≠ []) : ∃ s', runI env { conn := c } (t ++ u) = .ok s' ∧ s'.st = .frameLen := by
  have h1 := R_next (env := env) (b := false) (inv_idle bufNil c) (by simp) (.inl (append_ne_nil_of_varint ht u))
  have e1 : stepI env { conn := c } (t ++ u) = .cont { conn := c, ty := ty, st := .frameLen } u false := by
    rw [← step_eq_of_ne _ _ (by simp)]
    unfold step
    dsimp only
    rw [rd_varint ht]
    dsimp only
    rw [List.drop_left]
  have hi2 : Inv Pnil ({ conn := c, ty := ty, st := .frameLen } : St S) := ⟨rvOk_idle, fun _ => rfl, by simp, by simp, by simp, by simp⟩
  rw [show runI env { conn := c } (t ++ u) = R env { conn := c } (t ++ u) false from rfl, h1, e1]
  unfold next
  dsimp only
  by_cases hu : u = []
  · subst hu
    exact ⟨_, R_nil, rfl⟩
  rw [R_next hi2 (by simp) (.inl hu), ← step_eq_of_ne _ _ (by simp)]
  have h1 := rd_trunc ⟨len, v, by rw [← h]; exact hl, hv⟩ hu false
  simp only [Bool.false_eq_true, if_false] at h1
  obtain ⟨rv, hrv⟩ := h1
  unfold step
  dsimp only
  rw [hrv]
  exact ⟨_, rfl, rfl⟩

/-- reading part of the first SETTINGS frame never leads to the state that may fail an assertion -/
theorem settings_prefix (c : Conn S) (hr : c.settingsRecved = false) {p bs u v : Bytes} (hfr : Spec.IsFrame 4 p bs) (h : bs = u ++ v)
    (hv : v ≠ []) (s' : St S) (hs : runI env { conn := c } u = .ok s') : s'.st ≠ .priField := by
  obtain ⟨t, l, ht, hl, rfl⟩ := hfr
  rw [List.append_assoc] at h
  rcases List.append_eq_append_iff.1 h with ⟨a, e1, e2⟩ | ⟨a, e1, e2⟩
  · -- u = t ++ a
    rcases List.append_eq_append_iff.1 e2 with ⟨d, e3, e4⟩ | ⟨d, e3, e4⟩
    · -- a = l ++ d
      subst e1; subst e3
      have hd : d.length < p.length := by
        rw [e4, List.length_append]; have := List.length_pos_iff.2 hv; omega
      rw [run_hd c ht hl] at hs
      unfold header at hs
      dsimp only at hs
      rw [if_pos hr, if_neg (by decide)] at hs
      unfold dispatch at hs
      dsimp only at hs
      rw [if_pos (by rfl), if_neg (by omega)] at hs
      have := settings_left (env := env) (8 * d.length + rank (S := S) { conn := { c with settingsRecved := true }, st := .settings, ty := 4, left := p.length } + 1)
        { conn := { c with settingsRecved := true }, st := .settings, ty := 4, left := p.length } d false
        ⟨rvOk_idle, fun _ => rfl, by simp, fun _ => by dsimp only; omega, fun _ => rfl, by simp⟩ (by simp) (.inl rfl) hd
      have e : Machine.loop (stepI env) (8 * d.length + rank (S := S) { conn := { c with settingsRecved := true }, st := .settings, ty := 4, left := p.length } + 1)
        { conn := { c with settingsRecved := true }, st := .settings, ty := 4, left := p.length } d false = .ok s' := hs
      rw [e] at this
      dsimp only at this
      rcases this with h | h | h <;> rw [h] <;> decide
    · subst e1
      by_cases hd : d = []
      · subst hd
        rw [List.append_nil] at e3
        subst e3
        rw [show t ++ l = t ++ (l ++ []) by simp, run_hd c ht hl] at hs
        unfold header at hs
        dsimp only at hs
        rw [if_pos hr, if_neg (by decide)] at hs
        unfold dispatch at hs
        dsimp only at hs
        rw [if_pos (by rfl)] at hs
        have hp : 0 < p.length := by
          rw [List.nil_append] at e4
          rw [← e4]
          exact List.length_pos_iff.2 hv
        rw [if_neg (by omega)] at hs
        have e : R env { conn := { c with settingsRecved := true }, st := .settings, ty := 4, left := p.length } [] false = .ok s' := hs
        rw [R_nil] at e
        cases e
        simp
      · obtain ⟨s2, h1, h2⟩ := runI_part_len (env := env) c ht hl e3 hd
        rw [hs] at h1; cases h1
        rw [h2]; decide
  · by_cases ha : a = []
    · subst ha
      rw [List.append_nil] at e1
      subst e1
      obtain ⟨s2, h1, h2⟩ := runI_part_len (env := env) (u := []) (v := l) c ht hl (by simp) (by have := isVarint_pos hl; intro h; simp [h] at this)
      rw [List.append_nil, hs] at h1; cases h1
      rw [h2]; decide
    · obtain ⟨s2, h1, h2⟩ := runI_part (env := env) c ht e1 ha
      rw [hs] at h1; cases h1
      rw [h2]; decide

end Control
end Nghttp3
