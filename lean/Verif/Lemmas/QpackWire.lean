import Verif.Spec.QpackWire
import Verif.Lemmas.QpackTransit
/-! The decoder against RFC 9204: the table, integers and strings on the wire, encoder instructions. -/
namespace Nghttp3
namespace Qpack
open Rfc9204 (IntAs StrAs Instr Table)

/-- what a table of the library is as a table of RFC 9204 -/
def Ctx.table (c : Ctx) : Table := ⟨c.maxCap, c.next, c.ents.map fun e => (e.name, e.value)⟩

theorem entrySize_eq (n v : Bytes) : Rfc9204.entrySize (n, v) = tableSpace n.length v.length := by
  unfold Rfc9204.entrySize tableSpace; dsimp only; omega

theorem keep_take (l : List Ent) (room n : Nat) (hn : n ≤ l.length) (h1 : spaces (l.take n) ≤ room)
    (h2 : ∀ m, n < m → m ≤ l.length → room < spaces (l.take m)) :
    Rfc9204.keep room (l.map fun e => (e.name, e.value)) = (l.take n).map fun e => (e.name, e.value) := by
  induction l generalizing room n with
  | nil => simp [Rfc9204.keep]
  | cons e t ih =>
    rw [List.map_cons, Rfc9204.keep, entrySize_eq]
    cases n with
    | zero =>
      have := h2 1 (by omega) (by simp)
      simp [Ent.space] at this
      rw [if_neg (by omega)]; rfl
    | succ n =>
      simp only [List.take_succ_cons, spaces_cons, Ent.space] at h1
      rw [if_pos (by omega), List.take_succ_cons, List.map_cons]
      congr 1
      refine ih _ n (by simpa using hn) (by omega) ?_
      intro m hm hl
      have := h2 (m + 1) (by omega) (by simpa using hl)
      simp only [List.take_succ_cons, spaces_cons, Ent.space] at this
      omega

theorem addChecked_table {c : Ctx} (h : CtxOk c) (name value : Bytes) (token : Option Nat) (ht : token = lookupToken name) :
    (c.table.insert (name, value) = none ∧ c.addChecked name value token = some none) ∨
    ∃ c', c.addChecked name value token = some (some c') ∧ c.table.insert (name, value) = some c'.table ∧ c'.hardMax = c.hardMax ∧
      c'.bad = c.bad := by
  unfold Ctx.addChecked Table.insert
  rw [entrySize_eq]
  by_cases hs : c.maxCap < tableSpace name.length value.length
  · left; rw [if_pos hs, if_neg (by simp [Ctx.table]; omega)]; exact ⟨rfl, rfl⟩
  · right
    obtain ⟨n, hn, ha, hle, hm⟩ := Ctx.add_spec h.toCtxB name value token 0 (by omega)
    rw [if_neg hs, ha, if_pos (by simp [Ctx.table]; omega)]
    refine ⟨_, rfl, ?_, rfl, rfl⟩
    unfold Ctx.pushed Ctx.table
    dsimp only
    rw [keep_take c.ents _ n hn (by omega) (fun m h1 h2 => by have := hm m h1 h2; omega)]
    rfl

theorem setCap_table {c : Ctx} (h : CtxOk c) (n : Nat) :
    (c.table.apply c.hardMax (.setCapacity n) = none ∧ c.setCap n = some none) ∨
    ∃ c', c.setCap n = some (some c') ∧ c.table.apply c.hardMax (.setCapacity n) = some c'.table ∧ c'.hardMax = c.hardMax ∧
      c'.bad = c.bad := by
  unfold Table.apply
  dsimp only
  by_cases hc : n ≤ c.hardMax
  · right
    obtain ⟨k, hk, ha, h1, h2⟩ := h.setCap n hc
    rw [ha, if_pos hc]
    refine ⟨_, rfl, ?_, rfl, rfl⟩
    unfold Ctx.table
    dsimp only
    rw [keep_take c.ents n k hk h1 h2]
  · left; rw [if_neg hc]; exact ⟨rfl, by unfold Ctx.setCap; rw [if_pos (by omega)]⟩

/-- a relative index of an instruction -/
theorem rel2abs_dyn {c : Ctx} (h : CtxOk c) (r : RState) (hd : r.dynamic = true) :
    (c.table.newest r.left = none ∧ rel2abs c r = none) ∨
    ∃ e, c.table.newest r.left = some (e.name, e.value) ∧ c.get (c.next - r.left - 1) = some e ∧ e ∈ c.ents ∧
      rel2abs c r = some { r with absidx := c.next - r.left - 1 } := by
  unfold Table.newest rel2abs Ctx.table
  dsimp only
  rw [if_pos hd, List.getElem?_map]
  have hl := h.len
  by_cases hlt : r.left < c.ents.length
  · right
    have hv : validateIndex c true (c.next - r.left - 1) = true := by simp [validateIndex]; omega
    rw [if_neg (by omega), if_pos hv]
    refine ⟨c.ents[r.left], by simp [hlt], ?_, List.getElem_mem _, rfl⟩
    unfold Ctx.get
    rw [if_pos (by omega), show c.next - (c.next - r.left - 1) - 1 = r.left by omega]
    simp [hlt]
  · left
    refine ⟨by simp; omega, ?_⟩
    by_cases h1 : c.next < r.left + 1
    · rw [if_pos h1]
    · rw [if_neg h1, if_neg]
      simp [validateIndex]; omega

theorem rel2abs_static (c : Ctx) (r : RState) (hd : r.dynamic = false) :
    (Rfc9204.staticEntry r.left = none ∧ rel2abs c r = none) ∨
    ∃ n v t, Rfc9204.staticEntry r.left = some (n, v) ∧ stableGet r.left = some (n, v, t) ∧ lookupToken n = some t ∧
      rel2abs c r = some { r with absidx := r.left } := by
  unfold rel2abs
  rw [if_neg (by simp [hd])]
  by_cases h : r.left < 99
  · right
    obtain ⟨n, v, t, h1, h2⟩ := stableGet_ok h
    refine ⟨n, v, t, ?_, h1, h2, ?_⟩
    · unfold Rfc9204.staticEntry; unfold stableGet at h1; rw [h1]; rfl
    · rw [if_pos]; simp [validateIndex, h]
  · left
    refine ⟨?_, ?_⟩
    · unfold Rfc9204.staticEntry
      have : stable.length = 99 := by decide +kernel
      rw [List.getElem?_eq_none (by omega)]; rfl
    · rw [if_neg]; simp [validateIndex]; omega

/-! ### integers and strings -/

theorem intAs_iff {p : Nat} (hp : p ≤ 8) (b : UInt8) (t : Bytes) (n : Nat) (rest : Bytes) :
    (∃ sh, QInt.readInt p 0 0 (b :: t) = .done n sh rest) ↔ ∃ enc, b :: t = enc ++ rest ∧ IntAs p (b.toNat / 2 ^ p) enc n := by
  rw [QInt.readInt_iff hp]
  constructor
  · rintro ⟨enc, h1, h2, h3, h4⟩
    refine ⟨enc, h1, ?_, h2, h3, h4⟩
    cases enc with
    | nil => exact h2.elim
    | cons x y => simp at h1; exact ⟨x, y, rfl, by rw [h1.1]⟩
  · rintro ⟨enc, h1, h2, h3, h4, h5⟩
    exact ⟨enc, h1, h3, h4, h5⟩

/-- one-shot reading of an integer -/
def rdInt (p : Nat) (x : Bytes) : Option (Nat × Bytes) :=
  match QInt.readInt p 0 0 x with
  | .done n _ rest => some (n, rest)
  | _ => none

theorem rdInt_iff {p : Nat} (hp : p ≤ 8) (b : UInt8) (t : Bytes) (n : Nat) (rest : Bytes) :
    rdInt p (b :: t) = some (n, rest) ↔ ∃ enc, b :: t = enc ++ rest ∧ IntAs p (b.toNat / 2 ^ p) enc n := by
  rw [← intAs_iff hp]
  unfold rdInt
  rcases QInt.readInt p 0 0 (b :: t) with _ | _ | _ | ⟨l, s, r⟩ <;> simp

/-- one-shot reading of a string -/
def rdStr (p lim : Nat) : Bytes → Option (Bytes × Bytes)
  | [] => none
  | b :: t =>
    match rdInt p (b :: t) with
    | none => none
    | some (l, rest) =>
      if lim < l ∨ rest.length < l then none
      else if b.toNat / 2 ^ p % 2 = 1 then ((Huff.decode Huff.ctxInit (rest.take l) true).2).map fun s => (s, rest.drop l)
      else some (rest.take l, rest.drop l)

theorem rdStr_iff {p lim : Nat} (hp : p ≤ 8) (b : UInt8) (t s rest : Bytes) :
    rdStr p lim (b :: t) = some (s, rest) ↔ ∃ enc, b :: t = enc ++ rest ∧ StrAs p (b.toNat / 2 ^ (p + 1)) lim enc s := by
  have hdiv : b.toNat / 2 ^ (p + 1) = b.toNat / 2 ^ p / 2 := by rw [Nat.pow_succ, Nat.div_div_eq_div_mul]
  rw [hdiv]
  generalize htop : b.toNat / 2 ^ p = top
  constructor
  · intro h
    unfold rdStr at h
    dsimp only at h
    rw [htop] at h
    rcases hr : rdInt p (b :: t) with _ | ⟨l, r⟩ <;> rw [hr] at h <;> dsimp only at h
    · simp at h
    · obtain ⟨enc, h1, h2⟩ := (rdInt_iff hp b t l r).1 hr
      rw [htop] at h2
      split_ifs at h with h3 h4
      · rw [Option.map_eq_some_iff] at h
        obtain ⟨s', h5, h6⟩ := h
        simp only [Prod.mk.injEq] at h6
        obtain ⟨rfl, rfl⟩ := h6
        refine ⟨enc ++ r.take l, by rw [h1, List.append_assoc, List.take_append_drop], enc, r.take l, rfl, by simp; omega, Or.inr ⟨?_, ?_⟩⟩
        · rw [List.length_take, Nat.min_eq_left (by omega), show 2 * (top / 2) + 1 = top by omega]; exact h2
        · exact (Huff.decode_iff _ _).1 h5
      · simp only [Option.some.injEq, Prod.mk.injEq] at h
        obtain ⟨rfl, rfl⟩ := h
        refine ⟨enc ++ r.take l, by rw [h1, List.append_assoc, List.take_append_drop], enc, r.take l, rfl, by simp; omega, Or.inl ⟨?_, rfl⟩⟩
        rw [List.length_take, Nat.min_eq_left (by omega), show 2 * (top / 2) = top by omega]; exact h2
  · rintro ⟨enc, h1, len, body, rfl, h3, h4⟩
    have hint : rdInt p (b :: t) = some (body.length, body ++ rest) := by
      refine (rdInt_iff hp b t _ _).2 ⟨len, by rw [h1, List.append_assoc], ?_⟩
      rcases h4 with ⟨⟨⟨b', t', e1, e2⟩, h5⟩, _⟩ | ⟨⟨⟨b', t', e1, e2⟩, h5⟩, _⟩ <;>
      · rw [e1] at h1; simp at h1
        refine ⟨⟨b', t', e1, by rw [h1.1]⟩, h5⟩
    unfold rdStr
    dsimp only
    rw [hint, htop]
    dsimp only
    rw [if_neg (by simp; omega)]
    simp only [List.take_left, List.drop_left]
    rcases h4 with ⟨⟨⟨b', t', e1, e2⟩, _⟩, rfl⟩ | ⟨⟨⟨b', t', e1, e2⟩, _⟩, h5⟩
    · rw [e1] at h1; simp at h1
      rw [← h1.1, htop] at e2
      rw [if_neg (by omega)]
    · rw [e1] at h1; simp at h1
      rw [← h1.1, htop] at e2
      rw [if_pos (by omega), (Huff.decode_iff _ _).2 h5]; rfl

theorem readHuff_full (l : Nat) (src : Bytes) (h : l ≤ src.length) :
    ∃ hc, readHuff l Huff.ctxInit [] (l * 2 + 1) src =
      match (Huff.decode Huff.ctxInit (src.take l) true).2 with
      | none => .fatal
      | some s => .ok s 0 hc (src.drop l) := by
  rw [readHuff_eq _ _ _ _ _ (by simp; omega)]
  unfold Huff.decode
  dsimp only
  refine ⟨(Huff.decGo (src.take l) Huff.ctxInit).1, ?_⟩
  generalize Huff.decGo (src.take l) Huff.ctxInit = g
  by_cases h1 : g.1 &&& Huff.ACCEPTED = 0
  · rw [if_pos (Or.inl ⟨h, h1⟩), if_pos (by simpa using h1)]
  · rw [if_neg, if_neg (by simpa using h1)]
    · simp; omega
    · rintro (h2 | h2)
      · exact h1 h2.2
      · rw [h2] at h1; exact h1 (by decide)

theorem readHuff_short (l : Nat) (src : Bytes) (h : src.length < l) :
    readHuff l Huff.ctxInit [] (l * 2 + 1) src = .fatal ∨
    ∃ buf left hc rest, left ≠ 0 ∧ readHuff l Huff.ctxInit [] (l * 2 + 1) src = .ok buf left hc rest := by
  rw [readHuff_eq _ _ _ _ _ (by simp; omega)]
  split_ifs
  · exact Or.inl rfl
  · exact Or.inr ⟨_, _, _, _, by omega, rfl⟩

/-- a step that does not lead on: an error, or the input ends -/
def SRes.Stuck (o : SRes) : Prop := o = .fatal ∨ o = .tooLarge ∨ ∃ ph r rest, o = .ret ph r rest

theorem checkHuff_huff (r : RState) (h : r.pfx ≤ 7) (b : UInt8) : (checkHuff r b).huff = decide (b.toNat / 2 ^ r.pfx % 2 = 1) := by
  have := testBit_byte b (p := r.pfx) (by omega)
  unfold checkHuff
  dsimp only
  by_cases hh : b.toNat / 2 ^ r.pfx % 2 = 1
  · simpa [hh] using this
  · simpa [hh] using this

theorem readInt_ne_oob {p : Nat} (hp : 0 < p) (b : UInt8) (t : Bytes) : QInt.readInt p 0 0 (b :: t) ≠ .oob := by
  have := readInt_app hp (x := b :: t) (by simp) (left := 0) (shift := 0) (fun _ => rfl)
  intro h; rw [h] at this; exact this

theorem name_rd (r : RState) (hp : 0 < r.pfx) (h7 : r.pfx ≤ 7) (b : UInt8) (t : Bytes) :
    match rdStr r.pfx 256 (b :: t) with
    | some (s, rest) => ∃ ph r1 body r2, strStep .checkName r (b :: t) = .cont ph r1 (body ++ rest) false ∧
        strStep ph r1 (body ++ rest) = .cont .checkValue r2 rest false ∧ SameHead r r2 ∧ r2.name = s ∧ r2.pfx = 7
    | none => (strStep .checkName r (b :: t)).Stuck ∨
        ∃ ph r1 x, strStep .checkName r (b :: t) = .cont ph r1 x false ∧ (strStep ph r1 x).Stuck := by
  have hh := checkHuff_huff r h7 b
  have ho := readInt_ne_oob hp b t
  unfold rdStr rdInt strStep nameLenStep
  dsimp only
  generalize hc : checkHuff r b = r0 at hh
  have e0 : r0.pfx = r.pfx ∧ r0.left = 0 ∧ r0.shift = 0 ∧ SameHead r r0 := by rw [← hc]; exact ⟨rfl, rfl, rfl, rfl, rfl, rfl⟩
  obtain ⟨e1, e2, e3, e4⟩ := e0
  rw [e1, e2, e3]
  rcases hr : QInt.readInt r.pfx 0 0 (b :: t) with _ | _ | ⟨l, sh⟩ | ⟨l, sh, rest⟩ <;> dsimp only
  · exact absurd hr ho
  · left; left; rfl
  · left; right; right; exact ⟨_, _, _, rfl⟩
  · by_cases hl : 256 < l
    · rw [if_pos (Or.inl hl), if_pos hl]
      left; right; left; rfl
    · rw [if_neg hl]
      by_cases hx : r0.huff = true
      · rw [if_pos hx]
        rw [hx] at hh
        have hodd : b.toNat / 2 ^ r.pfx % 2 = 1 := by simpa using hh.symm
        by_cases hs : rest.length < l
        · rw [if_pos (Or.inr hs)]
          right
          refine ⟨_, _, _, rfl, ?_⟩
          show (nameFin _ _ (readHuff l Huff.ctxInit [] (l * 2 + 1) rest)).Stuck
          rcases readHuff_short l rest hs with h | ⟨buf, left, hcx, rr, h1, h2⟩
          · rw [h]; left; rfl
          · rw [h2]; unfold nameFin; dsimp only; rw [if_pos h1]
            right; right; exact ⟨_, _, _, rfl⟩
        · rw [if_neg (by omega), if_pos hodd]
          obtain ⟨hcx, h⟩ := readHuff_full l rest (by omega)
          rcases hd : (Huff.decode Huff.ctxInit (rest.take l) true).2 with _ | s <;> rw [hd] at h <;> dsimp only [Option.map] at h ⊢
          · right
            refine ⟨_, _, _, rfl, ?_⟩
            show (nameFin _ _ (readHuff l Huff.ctxInit [] (l * 2 + 1) rest)).Stuck
            rw [h]; left; rfl
          · have hlen := Props.C10_decode_output_bounded _ _ _ _ hd
            rw [List.length_take, Nat.min_eq_left (by omega)] at hlen
            refine ⟨.nameHuff, _, rest.take l, { r0 with pfx := 7, left := 0, shift := sh, hctx := hcx, name := s, ncap := l * 2 + 1 }, by rw [List.take_append_drop], ?_⟩
            rw [List.take_append_drop]
            show nameFin _ _ (readHuff l Huff.ctxInit [] (l * 2 + 1) rest) = _ ∧ _
            rw [h]; unfold nameFin; dsimp only
            rw [if_neg (by simp), if_neg (by omega)]
            exact ⟨rfl, e4, rfl, rfl⟩
      · rw [if_neg hx]
        rw [show r0.huff = false by simpa using hx] at hh
        have hodd : ¬ b.toNat / 2 ^ r.pfx % 2 = 1 := by simpa using hh.symm
        by_cases hs : rest.length < l
        · rw [if_pos (Or.inr hs)]
          right
          refine ⟨_, _, _, rfl, ?_⟩
          show (nameFin _ _ (readPlain l r0.hctx [] (l + 1) rest)).Stuck
          unfold readPlain
          dsimp only
          rw [Nat.min_eq_left (by omega), if_neg (by simp; omega)]
          unfold nameFin; dsimp only; rw [if_pos (by omega)]
          right; right; exact ⟨_, _, _, rfl⟩
        · rw [if_neg (by omega), if_neg hodd]
          refine ⟨.name, _, rest.take l, { r0 with pfx := 7, left := l - l, shift := sh, name := rest.take l, ncap := l + 1 }, by rw [List.take_append_drop], ?_⟩
          rw [List.take_append_drop]
          show nameFin _ _ (readPlain l r0.hctx [] (l + 1) rest) = _ ∧ _
          unfold readPlain
          dsimp only
          rw [Nat.min_eq_right (by omega), if_neg (by simp)]
          unfold nameFin; dsimp only
          rw [if_neg (by omega), if_neg (by simp), List.nil_append]
          exact ⟨rfl, e4, rfl, rfl⟩

theorem value_rd (r : RState) (hp : 0 < r.pfx) (h7 : r.pfx ≤ 7) (b : UInt8) (t : Bytes) :
    match rdStr r.pfx 65536 (b :: t) with
    | some (s, rest) => ∃ ph r1 body r2, strStep .checkValue r (b :: t) = .cont ph r1 (body ++ rest) true ∧
        strStep ph r1 (body ++ rest) = .done r2 rest ∧ SameHead r r2 ∧ r2.value = s ∧ r2.name = r.name
    | none => (strStep .checkValue r (b :: t)).Stuck ∨
        ∃ ph r1 x, strStep .checkValue r (b :: t) = .cont ph r1 x true ∧ (strStep ph r1 x).Stuck := by
  have hh := checkHuff_huff r h7 b
  have ho := readInt_ne_oob hp b t
  unfold rdStr rdInt strStep valueLenStep
  dsimp only
  generalize hc : checkHuff r b = r0 at hh
  have e0 : r0.pfx = r.pfx ∧ r0.left = 0 ∧ r0.shift = 0 ∧ SameHead r r0 ∧ r0.name = r.name := by rw [← hc]; exact ⟨rfl, rfl, rfl, ⟨rfl, rfl, rfl⟩, rfl⟩
  obtain ⟨e1, e2, e3, e4, e5⟩ := e0
  rw [e1, e2, e3]
  rcases hr : QInt.readInt r.pfx 0 0 (b :: t) with _ | _ | ⟨l, sh⟩ | ⟨l, sh, rest⟩ <;> dsimp only
  · exact absurd hr ho
  · left; left; rfl
  · left; right; right; exact ⟨_, _, _, rfl⟩
  · by_cases hl : 65536 < l
    · rw [if_pos (Or.inl hl), if_pos hl]
      left; right; left; rfl
    · rw [if_neg hl]
      by_cases hx : r0.huff = true
      · rw [if_pos hx]
        rw [hx] at hh
        have hodd : b.toNat / 2 ^ r.pfx % 2 = 1 := by simpa using hh.symm
        by_cases hs : rest.length < l
        · rw [if_pos (Or.inr hs)]
          right
          refine ⟨_, _, _, rfl, ?_⟩
          show (valueFin _ _ (readHuff l Huff.ctxInit [] (l * 2 + 1) rest)).Stuck
          rcases readHuff_short l rest hs with h | ⟨buf, left, hcx, rr, h1, h2⟩
          · rw [h]; left; rfl
          · rw [h2]; unfold valueFin; dsimp only; rw [if_pos h1]
            right; right; exact ⟨_, _, _, rfl⟩
        · rw [if_neg (by omega), if_pos hodd]
          obtain ⟨hcx, h⟩ := readHuff_full l rest (by omega)
          rcases hd : (Huff.decode Huff.ctxInit (rest.take l) true).2 with _ | s <;> rw [hd] at h <;> dsimp only [Option.map] at h ⊢
          · right
            refine ⟨_, _, _, rfl, ?_⟩
            show (valueFin _ _ (readHuff l Huff.ctxInit [] (l * 2 + 1) rest)).Stuck
            rw [h]; left; rfl
          · have hlen := Props.C10_decode_output_bounded _ _ _ _ hd
            rw [List.length_take, Nat.min_eq_left (by omega)] at hlen
            refine ⟨.valueHuff, _, rest.take l, { r0 with pfx := r.pfx, left := 0, shift := sh, hctx := hcx, value := s, vcap := l * 2 + 1 }, by rw [List.take_append_drop], ?_⟩
            rw [List.take_append_drop]
            show valueFin _ _ (readHuff l Huff.ctxInit [] (l * 2 + 1) rest) = _ ∧ _
            rw [h]; unfold valueFin; dsimp only
            rw [if_neg (by simp), if_neg (by omega)]
            exact ⟨rfl, e4, rfl, e5⟩
      · rw [if_neg hx]
        rw [show r0.huff = false by simpa using hx] at hh
        have hodd : ¬ b.toNat / 2 ^ r.pfx % 2 = 1 := by simpa using hh.symm
        by_cases hs : rest.length < l
        · rw [if_pos (Or.inr hs)]
          right
          refine ⟨_, _, _, rfl, ?_⟩
          show (valueFin _ _ (readPlain l r0.hctx [] (l + 1) rest)).Stuck
          unfold readPlain
          dsimp only
          rw [Nat.min_eq_left (by omega), if_neg (by simp; omega)]
          unfold valueFin; dsimp only; rw [if_pos (by omega)]
          right; right; exact ⟨_, _, _, rfl⟩
        · rw [if_neg (by omega), if_neg hodd]
          refine ⟨.value, _, rest.take l, { r0 with pfx := r.pfx, left := l - l, shift := sh, value := rest.take l, vcap := l + 1 }, by rw [List.take_append_drop], ?_⟩
          rw [List.take_append_drop]
          show valueFin _ _ (readPlain l r0.hctx [] (l + 1) rest) = _ ∧ _
          unfold readPlain
          dsimp only
          rw [Nat.min_eq_right (by omega), if_neg (by simp)]
          unfold valueFin; dsimp only
          rw [if_neg (by omega), if_neg (by simp), List.nil_append]
          exact ⟨rfl, e4, rfl, e5⟩

end Qpack
end Nghttp3
