import Verif.Model.QpackCtx
import Verif.Lemmas.QpackInt
import Verif.Props.Huffman
/-! The resumable reading of string literals: one pass of the loop on `x ++ y` is the pass on `x`, continued. -/
namespace Nghttp3
namespace Qpack
open QInt

def Ph.isValue : Ph → Bool
  | .valueHuff | .value => true
  | _ => false

def Ph.rank : Ph → Nat
  | .checkName | .nameLen => 4
  | .nameHuff | .name => 3
  | .checkValue | .valueLen => 2
  | .valueHuff | .value => 6

/-- name states, in which the value has not been started -/
def Ph.isName : Ph → Bool
  | .checkName | .nameLen | .nameHuff | .name => true
  | _ => false

/-- what holds of the read state in each string state -/
def StrWF (ph : Ph) (r : RState) : Prop :=
  0 < r.pfx ∧ r.pfx ≤ 8 ∧
  match ph with
  | .checkName | .checkValue => True
  | .nameLen | .valueLen => r.left = 0 → r.shift = 0
  | .nameHuff => r.name.length + 2 * r.left < r.ncap
  | .name => r.name.length + r.left < r.ncap
  | .valueHuff => r.value.length + 2 * r.left < r.vcap
  | .value => r.value.length + r.left < r.vcap

/-- the fields that the string states leave alone -/
def SameHead (r r' : RState) : Prop := r'.absidx = r.absidx ∧ r'.dynamic = r.dynamic ∧ r'.never = r.never

theorem SameHead.refl (r : RState) : SameHead r r := ⟨rfl, rfl, rfl⟩

theorem readPlain_spec (left hctx : Nat) (buf : Bytes) (cap : Nat) (x : Bytes) (h : buf.length + left < cap) :
    ∃ buf' left' rest, readPlain left hctx buf cap x = .ok buf' left' hctx rest ∧ buf'.length + left' < cap ∧
      rest.length ≤ x.length ∧
      (left' = 0 → ∀ y, readPlain left hctx buf cap (x ++ y) = .ok buf' 0 hctx (rest ++ y)) ∧
      (left' ≠ 0 → rest = [] ∧ ∀ y, readPlain left hctx buf cap (x ++ y) = readPlain left' hctx buf' cap y) := by
  unfold readPlain
  dsimp only
  have hm := Nat.min_le_right x.length left
  rw [if_neg (by omega)]
  refine ⟨_, _, _, rfl, by simp; omega, by simp, ?_, ?_⟩
  · intro h0 y
    have : left ≤ x.length := by omega
    rw [Nat.min_eq_right this, List.length_append, Nat.min_eq_right (by omega), if_neg (by omega)]
    simp [List.take_append_of_le_length this, List.drop_append_of_le_length this]
  · intro h0
    have : x.length < left := by omega
    rw [Nat.min_eq_left (by omega)]
    refine ⟨by simp, fun y => ?_⟩
    have e1 : min (x ++ y).length left = x.length + min y.length (left - x.length) := by
      rw [List.length_append]; omega
    have hm2 := Nat.min_le_right y.length (left - x.length)
    rw [e1, if_neg (by omega), if_neg (by simp; omega)]
    simp [List.take_append, List.drop_append, List.take_of_length_le, List.drop_of_length_le,
      show x.length ≤ x.length + min y.length (left - x.length) by omega]
    omega

theorem readHuff_eq (left hctx : Nat) (buf : Bytes) (cap : Nat) (src : Bytes) (h : buf.length + 2 * left < cap) :
    readHuff left hctx buf cap src =
      if (left ≤ src.length ∧ (Huff.decGo (src.take left) hctx).1 &&& Huff.ACCEPTED = 0) ∨
          (Huff.decGo (src.take left) hctx).1 = 0x100 then .fatal
      else .ok (buf ++ (Huff.decGo (src.take left) hctx).2) (left - src.length) (Huff.decGo (src.take left) hctx).1
        (src.drop left) := by
  have hlen : src.take (if decide (left ≤ src.length) = true then left else src.length) = src.take left := by
    split_ifs with hl
    · rfl
    · simp at hl; rw [List.take_of_length_le (Nat.le_refl _), List.take_of_length_le (by omega)]
  have hdrop : src.drop (if decide (left ≤ src.length) = true then left else src.length) = src.drop left := by
    split_ifs with hl
    · rfl
    · simp at hl; rw [List.drop_of_length_le (Nat.le_refl _), List.drop_of_length_le (by omega)]
  have hsub : left - (if decide (left ≤ src.length) = true then left else src.length) = left - src.length := by
    split_ifs with hl
    · simp at hl; omega
    · rfl
  have hd := Huff.decGo_len (src.take left) hctx
  have ht : (src.take left).length ≤ left := by simp
  unfold readHuff
  dsimp only
  rw [hlen, hdrop, hsub, if_neg (by omega)]
  unfold Huff.decode Huff.failureState
  dsimp only
  by_cases h1 : left ≤ src.length ∧ (Huff.decGo (src.take left) hctx).1 &&& Huff.ACCEPTED = 0
  · rw [if_pos (by simpa using h1), if_pos (Or.inl h1)]
  · rw [if_neg (by simpa using h1)]
    by_cases h2 : (Huff.decGo (src.take left) hctx).1 = 0x100
    · rw [if_pos (Or.inr h2)]; simp [h2]
    · rw [if_neg (by rintro (h | h); exacts [h1 h, h2 h])]; simp [h2]

theorem readHuff_spec (left hctx : Nat) (buf : Bytes) (cap : Nat) (x : Bytes) (h : buf.length + 2 * left < cap) :
    (∀ y, readHuff left hctx buf cap (x ++ y) = .fatal) ∨
    ∃ buf' left' hctx' rest, readHuff left hctx buf cap x = .ok buf' left' hctx' rest ∧
      buf'.length + 2 * left' < cap ∧ rest.length ≤ x.length ∧
      (left' = 0 → ∀ y, readHuff left hctx buf cap (x ++ y) = .ok buf' 0 hctx' (rest ++ y)) ∧
      (left' ≠ 0 → rest = [] ∧ ∀ y, readHuff left hctx buf cap (x ++ y) = readHuff left' hctx' buf' cap y) := by
  have hd := Huff.decGo_len (x.take left) hctx
  have ht : (x.take left).length = min left x.length := by simp
  by_cases hle : left ≤ x.length
  · -- the whole string is in `x`
    have key : ∀ y, readHuff left hctx buf cap (x ++ y) =
        if (Huff.decGo (x.take left) hctx).1 &&& Huff.ACCEPTED = 0 ∨ (Huff.decGo (x.take left) hctx).1 = 0x100 then .fatal
        else .ok (buf ++ (Huff.decGo (x.take left) hctx).2) 0 (Huff.decGo (x.take left) hctx).1 (x.drop left ++ y) := by
      intro y
      have hl : left ≤ (x ++ y).length := by simp; omega
      rw [readHuff_eq _ _ _ _ _ h, List.take_append_of_le_length hle, List.drop_append_of_le_length hle]
      simp only [hl, true_and]
      rw [show left - (x ++ y).length = 0 by omega]
    by_cases hf : (Huff.decGo (x.take left) hctx).1 &&& Huff.ACCEPTED = 0 ∨ (Huff.decGo (x.take left) hctx).1 = 0x100
    · left; intro y; rw [key, if_pos hf]
    · right
      have key0 := key []
      simp only [List.append_nil] at key0
      refine ⟨_, 0, _, _, by rw [key0, if_neg hf], by simp; omega, by simp, fun _ y => by rw [key, if_neg hf], by simp⟩
  · have hlt : x.length < left := by omega
    have htk : x.take left = x := List.take_of_length_le (by omega)
    have hdr : x.drop left = [] := List.drop_of_length_le (by omega)
    rw [htk] at hd
    by_cases hf : (Huff.decGo x hctx).1 = 0x100
    · left; intro y
      rw [readHuff_eq _ _ _ _ _ h, if_pos]
      right
      rw [List.take_append, htk, Huff.decGo_append, hf, Huff.decGo_failed]
    · right
      refine ⟨buf ++ (Huff.decGo x hctx).2, left - x.length, (Huff.decGo x hctx).1, [], ?_, by simp; omega, by simp,
        by omega, fun _ => ⟨rfl, fun y => ?_⟩⟩
      · rw [readHuff_eq _ _ _ _ _ h, htk, hdr, if_neg (by rintro (h | h); exacts [hle h.1, hf h])]
      · rw [readHuff_eq _ _ _ _ _ h, readHuff_eq _ _ _ _ _ (by simp; omega), List.take_append, htk, List.drop_append, hdr,
          Huff.decGo_append]
        dsimp only
        have e1 : left ≤ (x ++ y).length ↔ left - x.length ≤ y.length := by simp; omega
        have e2 : left - (x ++ y).length = left - x.length - y.length := by simp; omega
        rw [e2, List.nil_append, List.append_assoc]
        simp only [e1]

/-- what one pass in a string state does, for every continuation of the input -/
def StrGood (ph : Ph) (r : RState) (x : Bytes) : Prop :=
  match strStep ph r x with
  | .crash => False
  | .fatal => ∀ y, strStep ph r (x ++ y) = .fatal
  | .tooLarge => ∀ y, strStep ph r (x ++ y) = .tooLarge
  | .cont ph' r' rest b =>
    StrWF ph' r' ∧ SameHead r r' ∧ (b = true → ph'.isValue = true) ∧ (ph'.isName = true → ph.isName = true) ∧
      8 * rest.length + ph'.rank < 8 * x.length + ph.rank ∧
      ∀ y, strStep ph r (x ++ y) = .cont ph' r' (rest ++ y) b
  | .ret ph' r' rest =>
    rest = [] ∧ StrWF ph' r' ∧ SameHead r r' ∧ (ph'.isName = true → ph.isName = true) ∧
      ∀ y, y ≠ [] → strStep ph r (x ++ y) = strStep ph' r' y
  | .done r' rest =>
    SameHead r r' ∧ ph.isValue = true ∧ rest.length ≤ x.length ∧ ∀ y, strStep ph r (x ++ y) = .done r' (rest ++ y)

theorem readInt_app {pfx left shift : Nat} (hp : 0 < pfx) {x : Bytes} (hx : x ≠ []) (hs : left = 0 → shift = 0) :
    match readInt pfx left shift x with
    | .oob => False
    | .fatal => ∀ y, readInt pfx left shift (x ++ y) = .fatal
    | .part l s => 0 < l ∧ ∀ y, y ≠ [] → readInt pfx left shift (x ++ y) = readInt pfx l s y
    | .done l s rest => rest.length < x.length ∧ ∀ y, readInt pfx left shift (x ++ y) = .done l s (rest ++ y) := by
  have ha := fun y => readInt_append pfx left shift hp x y hx hs
  rcases hr : readInt pfx left shift x with _ | _ | ⟨l, s⟩ | ⟨l, s, rest⟩
  · exfalso
    have hnl : ∀ (x : Bytes) n sh, readLoop n sh x ≠ .oob := by
      intro x
      induction x with
      | nil => intro n sh h; simp [readLoop] at h
      | cons b t ih =>
        intro n sh h
        rw [readLoop_cons] at h
        split_ifs at h
        exact ih _ _ h
    unfold readInt at hr
    split_ifs at hr
    · cases x with
      | nil => exact hx rfl
      | cons b t =>
        dsimp only at hr
        split_ifs at hr
        cases t with
        | nil => simp at hr
        | cons c u => exact hnl _ _ _ hr
    · exact hnl _ _ _ hr
  · intro y; rw [ha, hr]
  · refine ⟨readInt_part_pos hp hr, fun y hy => ?_⟩
    rw [ha, hr]; simp [hy]
  · exact ⟨readInt_length hr, fun y => by rw [ha, hr]⟩

theorem nameLen_good (r : RState) (x : Bytes) (hp : 0 < r.pfx) (h8 : r.pfx ≤ 8) (hs : r.left = 0 → r.shift = 0)
    (hx : x ≠ []) : StrGood .nameLen r x := by
  have h := readInt_app hp hx hs
  unfold StrGood strStep nameLenStep
  dsimp only
  rcases hr : readInt r.pfx r.left r.shift x with _ | _ | ⟨l, s⟩ | ⟨l, s, rest⟩ <;> rw [hr] at h <;> dsimp only at h ⊢
  · intro y; rw [h]
  · refine ⟨rfl, ⟨hp, h8, fun h0 => ?_⟩, ⟨rfl, rfl, rfl⟩, id, fun y hy => by rw [h.2 y hy]⟩
    dsimp only at h0; omega
  · by_cases hl : 256 < l
    · rw [if_pos hl]; intro y; rw [h.2]; simp [hl]
    · rw [if_neg hl]
      by_cases hh : r.huff = true
      · rw [if_pos hh]
        exact ⟨⟨hp, h8, by simp; omega⟩, ⟨rfl, rfl, rfl⟩, by simp, fun _ => rfl, by simp [Ph.rank]; omega,
          fun y => by rw [h.2]; simp [hl, hh]⟩
      · rw [if_neg hh]
        exact ⟨⟨hp, h8, by simp⟩, ⟨rfl, rfl, rfl⟩, by simp, fun _ => rfl, by simp [Ph.rank]; omega,
          fun y => by rw [h.2]; simp [hl, hh]⟩

theorem valueLen_good (r : RState) (x : Bytes) (hp : 0 < r.pfx) (h8 : r.pfx ≤ 8) (hs : r.left = 0 → r.shift = 0)
    (hx : x ≠ []) : StrGood .valueLen r x := by
  have h := readInt_app hp hx hs
  unfold StrGood strStep valueLenStep
  dsimp only
  rcases hr : readInt r.pfx r.left r.shift x with _ | _ | ⟨l, s⟩ | ⟨l, s, rest⟩ <;> rw [hr] at h <;> dsimp only at h ⊢
  · intro y; rw [h]
  · refine ⟨rfl, ⟨hp, h8, fun h0 => ?_⟩, ⟨rfl, rfl, rfl⟩, id, fun y hy => by rw [h.2 y hy]⟩
    dsimp only at h0; omega
  · by_cases hl : 65536 < l
    · rw [if_pos hl]; intro y; rw [h.2]; simp [hl]
    · rw [if_neg hl]
      by_cases hh : r.huff = true
      · rw [if_pos hh]
        exact ⟨⟨hp, h8, by simp; omega⟩, ⟨rfl, rfl, rfl⟩, by simp [Ph.isValue], by simp [Ph.isName],
          by simp [Ph.rank]; omega, fun y => by rw [h.2]; simp [hl, hh]⟩
      · rw [if_neg hh]
        exact ⟨⟨hp, h8, by simp⟩, ⟨rfl, rfl, rfl⟩, by simp [Ph.isValue], by simp [Ph.isName],
          by simp [Ph.rank]; omega, fun y => by rw [h.2]; simp [hl, hh]⟩

theorem strStep_good (ph : Ph) (r : RState) (x : Bytes) (hw : StrWF ph r) (hx : x ≠ [] ∨ ph.isValue = true) :
    StrGood ph r x := by
  obtain ⟨hp, h8, hw⟩ := hw
  cases ph with
  | checkName =>
    rcases hx with hx | hx
    · cases x with
      | nil => exact absurd rfl hx
      | cons b t =>
        have := nameLen_good (checkHuff r b) (b :: t) hp h8 (fun _ => rfl) (by simp)
        unfold StrGood at this ⊢
        simp only [strStep, List.cons_append] at this ⊢
        exact this
    · simp [Ph.isValue] at hx
  | nameLen =>
    rcases hx with hx | hx
    · exact nameLen_good r x hp h8 hw hx
    · simp [Ph.isValue] at hx
  | checkValue =>
    rcases hx with hx | hx
    · cases x with
      | nil => exact absurd rfl hx
      | cons b t =>
        have := valueLen_good (checkHuff r b) (b :: t) hp h8 (fun _ => rfl) (by simp)
        unfold StrGood at this ⊢
        simp only [strStep, List.cons_append] at this ⊢
        exact this
    · simp [Ph.isValue] at hx
  | valueLen =>
    rcases hx with hx | hx
    · exact valueLen_good r x hp h8 hw hx
    · simp [Ph.isValue] at hx
  | nameHuff =>
    unfold StrGood strStep
    dsimp only at hw ⊢
    rcases readHuff_spec r.left r.hctx r.name r.ncap x hw with hf | ⟨buf, left, hctx, rest, he, hc, hrl, h0, h1⟩
    · have := hf []
      simp only [List.append_nil] at this
      rw [this]; intro y; rw [hf]; rfl
    · rw [he]
      unfold nameFin
      dsimp only
      by_cases hl : left = 0
      · subst hl
        simp only [ne_eq, not_true, if_false]
        rw [if_neg (by omega)]
        refine ⟨⟨by simp, by simp, trivial⟩, ⟨rfl, rfl, rfl⟩, by simp, by simp [Ph.isName], by simp [Ph.rank]; omega, fun y => ?_⟩
        rw [h0 rfl]; dsimp only; simp only [ne_eq, not_true, if_false]; rw [if_neg (by omega)]
      · simp only [ne_eq, hl, not_false_eq_true, if_true]
        refine ⟨(h1 hl).1, ⟨hp, h8, hc⟩, ⟨rfl, rfl, rfl⟩, id, fun y _ => ?_⟩
        rw [(h1 hl).2]
  | name =>
    unfold StrGood strStep
    dsimp only at hw ⊢
    obtain ⟨buf, left, rest, he, hc, hrl, h0, h1⟩ := readPlain_spec r.left r.hctx r.name r.ncap x hw
    rw [he]
    unfold nameFin
    dsimp only
    by_cases hl : left = 0
    · subst hl
      simp only [ne_eq, not_true, if_false]
      rw [if_neg (by omega)]
      refine ⟨⟨by simp, by simp, trivial⟩, ⟨rfl, rfl, rfl⟩, by simp, by simp [Ph.isName], by simp [Ph.rank]; omega, fun y => ?_⟩
      rw [h0 rfl]; dsimp only; simp only [ne_eq, not_true, if_false]; rw [if_neg (by omega)]
    · simp only [ne_eq, hl, not_false_eq_true, if_true]
      refine ⟨(h1 hl).1, ⟨hp, h8, hc⟩, ⟨rfl, rfl, rfl⟩, id, fun y _ => ?_⟩
      rw [(h1 hl).2]
  | valueHuff =>
    unfold StrGood strStep
    dsimp only at hw ⊢
    rcases readHuff_spec r.left r.hctx r.value r.vcap x hw with hf | ⟨buf, left, hctx, rest, he, hc, hrl, h0, h1⟩
    · have := hf []
      simp only [List.append_nil] at this
      rw [this]; intro y; rw [hf]; rfl
    · rw [he]
      unfold valueFin
      dsimp only
      by_cases hl : left = 0
      · subst hl
        simp only [ne_eq, not_true, if_false]
        rw [if_neg (by omega)]
        refine ⟨⟨rfl, rfl, rfl⟩, rfl, hrl, fun y => ?_⟩
        rw [h0 rfl]; dsimp only; simp only [ne_eq, not_true, if_false]; rw [if_neg (by omega)]
      · simp only [ne_eq, hl, not_false_eq_true, if_true]
        refine ⟨(h1 hl).1, ⟨hp, h8, hc⟩, ⟨rfl, rfl, rfl⟩, id, fun y _ => ?_⟩
        rw [(h1 hl).2]
  | value =>
    unfold StrGood strStep
    dsimp only at hw ⊢
    obtain ⟨buf, left, rest, he, hc, hrl, h0, h1⟩ := readPlain_spec r.left r.hctx r.value r.vcap x hw
    rw [he]
    unfold valueFin
    dsimp only
    by_cases hl : left = 0
    · subst hl
      simp only [ne_eq, not_true, if_false]
      rw [if_neg (by omega)]
      refine ⟨⟨rfl, rfl, rfl⟩, rfl, hrl, fun y => ?_⟩
      rw [h0 rfl]; dsimp only; simp only [ne_eq, not_true, if_false]; rw [if_neg (by omega)]
    · simp only [ne_eq, hl, not_false_eq_true, if_true]
      refine ⟨(h1 hl).1, ⟨hp, h8, hc⟩, ⟨rfl, rfl, rfl⟩, id, fun y _ => ?_⟩
      rw [(h1 hl).2]

end Qpack
end Nghttp3
