import Verif.Model.Map
import Mathlib.Tactic.SplitIfs
import Mathlib.Data.List.Perm.Subperm

namespace Nghttp3
namespace HMap
variable {V : Type}

/-- position `e` slots after `s` -/
def pos (n s e : Nat) : Nat := (s + e) % n

theorem pos_lt {n s e : Nat} (h : 0 < n) : pos n s e < n := Nat.mod_lt _ h

theorem next_eq (bits i : Nat) : next bits i = pos (2 ^ bits) i 1 := by
  unfold next pos; rw [Nat.and_two_pow_sub_one_eq_mod]

theorem pos_pos (n s a b : Nat) : pos n (pos n s a) b = pos n s (a + b) := by
  unfold pos; rw [Nat.mod_add_mod, Nat.add_assoc]

theorem pos_zero {n s : Nat} (h : s < n) : pos n s 0 = s := by
  unfold pos; exact Nat.mod_eq_of_lt (by omega)

theorem pos_inj {n s a b : Nat} (ha : a < n) (hb : b < n) (h : pos n s a = pos n s b) : a = b := by
  unfold pos at h
  rcases Nat.lt_or_ge a b with hab | hab
  · have : (b - a) % n = 0 := by
      have := Nat.sub_mod_eq_zero_of_mod_eq h.symm
      rwa [show s + b - (s + a) = b - a by omega] at this
    rw [Nat.mod_eq_of_lt (by omega)] at this; omega
  · have : (a - b) % n = 0 := by
      have := Nat.sub_mod_eq_zero_of_mod_eq h
      rwa [show s + a - (s + b) = a - b by omega] at this
    rw [Nat.mod_eq_of_lt (by omega)] at this; omega

theorem pos_surj {n s p : Nat} (hs : s < n) (hp : p < n) : ∃ e, e < n ∧ pos n s e = p := by
  by_cases h : s ≤ p
  · exact ⟨p - s, by omega, by unfold pos; rw [show s + (p - s) = p by omega]; exact Nat.mod_eq_of_lt hp⟩
  · refine ⟨n - s + p, by omega, ?_⟩
    unfold pos
    rw [show s + (n - s + p) = p + n by omega, Nat.add_mod_right]; exact Nat.mod_eq_of_lt hp

theorem pos_one_inj {n a b : Nat} (ha : a < n) (hb : b < n) (h : pos n a 1 = pos n b 1) : a = b := by
  obtain ⟨e, he, h1⟩ := pos_surj ha hb
  have h2 : pos n a (n - 1 + 1 + 0) = pos n a (n - 1 + 1 + e) := by
    have key : ∀ x, pos n a (n - 1 + 1 + x) = pos n (pos n (pos n a x) 1) (n - 1) := by
      intro x
      rw [pos_pos, pos_pos]; congr 1; omega
    rw [key, key, pos_zero ha, h1, h]
  have hn : n - 1 + 1 = n := by omega
  rw [hn] at h2
  have hm : ∀ x, pos n a (n + x) = pos n a x := by
    intro x; unfold pos; rw [show a + (n + x) = a + x + n by omega, Nat.add_mod_right]
  have h3 := hm 0
  rw [Nat.add_zero] at h3
  rw [h3, hm] at h2
  have : 0 = e := pos_inj (by omega) he h2
  rw [← h1, ← this, pos_zero ha]

section
variable (n : Nat) (h : Nat → Nat)

/-- probe order at slot `p` -/
def RHat (T : Tbl V) (p : Nat) : Prop :=
  ∀ x, T (pos n p 1) = some x → 0 < x.psl → ∃ c, T p = some c ∧ x.psl ≤ c.psl + 1

def RH (T : Tbl V) : Prop := ∀ p, p < n → RHat n T p

def WF (T : Tbl V) : Prop := ∀ p, p < n → ∀ b, T p = some b → p = pos n (h b.key) b.psl

def Uniq (T : Tbl V) : Prop :=
  ∀ p q, p < n → q < n → ∀ b c, T p = some b → T q = some c → b.key = c.key → p = q

def Has (T : Tbl V) (k : Nat) (v : V) : Prop := ∃ p, p < n ∧ ∃ b, T p = some b ∧ b.key = k ∧ b.data = v

structure Inv (T : Tbl V) : Prop where
  rh : RH n T
  wf : WF n h T
  uniq : Uniq n T
end

variable {n : Nat} {h : Nat → Nat}

theorem walk {T : Tbl V} (hrh : RH n T) (hn : 0 < n) {s : Nat} :
    ∀ (d : Nat) (b : Bkt V), T (pos n s d) = some b → d ≤ b.psl →
    ∀ e, e ≤ d → ∃ c, T (pos n s e) = some c ∧ e ≤ c.psl := by
  intro d
  induction d with
  | zero => intro b hb hd e he; exact ⟨b, by rw [show e = 0 by omega]; exact hb, by omega⟩
  | succ d ih =>
    intro b hb hd e he
    by_cases hed : e = d + 1
    · exact ⟨b, by rw [hed]; exact hb, by omega⟩
    · have h1 := hrh (pos n s d) (pos_lt hn) b (by rw [pos_pos]; exact hb) (by omega)
      obtain ⟨c, hc, hle⟩ := h1
      exact ih c hc (by omega) e (by omega)

/-- a present key is within reach of the probe, before any empty slot -/
theorem present {T : Tbl V} (hI : Inv n h T) (hn : 0 < n) {k : Nat} {v : V}
    (hk : Has n T k v) {t : Nat} (ht : t < n) (hz : T (pos n (h k) t) = none) :
    ∃ b, b.key = k ∧ b.data = v ∧ b.psl < t ∧ T (pos n (h k) b.psl) = some b ∧
      ∀ e, e < b.psl → ∃ c, T (pos n (h k) e) = some c ∧ e ≤ c.psl ∧ c.key ≠ k := by
  obtain ⟨p, hp, b, hb, rfl, rfl⟩ := hk
  have hw := hI.wf p hp b hb
  rw [hw] at hb
  have hwalk := walk hI.rh hn (s := h b.key) b.psl b hb (Nat.le_refl _)
  have hlt : b.psl < t := by
    rcases Nat.lt_or_ge b.psl t with h1 | h1
    · exact h1
    · obtain ⟨c, hc, -⟩ := hwalk t h1
      rw [hz] at hc; cases hc
  refine ⟨b, rfl, rfl, hlt, hb, fun e he => ?_⟩
  obtain ⟨c, hc, hle⟩ := hwalk e (by omega)
  refine ⟨c, hc, hle, fun hck => ?_⟩
  have := hI.uniq _ _ (pos_lt hn) (pos_lt hn) c b hc hb hck
  have := pos_inj (by omega) (by omega) this
  omega

theorem setB_same (T : Tbl V) (i : Nat) (b : Option (Bkt V)) : setB T i b i = b := if_pos rfl
theorem setB_ne (T : Tbl V) {i j : Nat} (b : Option (Bkt V)) (hne : j ≠ i) : setB T i b j = T j := if_neg hne

/-- insertion of an absent key -/
theorem insertLoop_absent {bits key : Nat} (hnb : n = 2 ^ bits) (hn : 1 < n) :
    ∀ (fuel t : Nat) (T : Tbl V) (idx : Nat) (b : Bkt V), Inv n h T → idx = pos n (h b.key) b.psl →
    (0 < b.psl → ∃ p c, p < n ∧ pos n p 1 = idx ∧ T p = some c ∧ b.psl ≤ c.psl + 1) →
    t < n → T (pos n idx t) = none →
    (∀ s, s ≤ t → ∀ c, T (pos n idx s) = some c → c.key ≠ key) →
    (∀ p, p < n → ∀ c, T p = some c → c.key ≠ b.key) → t < fuel →
    ∃ T', insertLoop bits key fuel T idx b = some (.ok, T') ∧ Inv n h T' ∧
      ∀ k v, Has n T' k v ↔ Has n T k v ∨ (k = b.key ∧ v = b.data) := by
  intro fuel
  induction fuel with
  | zero => intro t T idx b _ _ _ _ _ _ _ hf; omega
  | succ fuel ih =>
    intro t T idx b hI hidx hprev ht hz hnk hnb' hf
    have hn0 : 0 < n := by omega
    have hlt : idx < n := by rw [hidx]; exact pos_lt hn0
    unfold insertLoop
    cases hT : T idx with
    | none =>
      refine ⟨_, rfl, ⟨?_, ?_, ?_⟩, ?_⟩
      · intro p hp x hx h0
        by_cases h1 : pos n p 1 = idx
        · rw [h1, setB_same] at hx; cases hx
          obtain ⟨p', c, hp', hp1, hc, hle⟩ := hprev h0
          have : p' = p := pos_one_inj hp' hp (hp1.trans h1.symm)
          subst this
          have hne : p' ≠ idx := by rintro rfl; rw [hT] at hc; cases hc
          exact ⟨c, by rw [setB_ne _ _ hne]; exact hc, hle⟩
        · rw [setB_ne _ _ h1] at hx
          obtain ⟨c, hc, hle⟩ := hI.rh p hp x hx h0
          have hne : p ≠ idx := by rintro rfl; rw [hT] at hc; cases hc
          exact ⟨c, by rw [setB_ne _ _ hne]; exact hc, hle⟩
      · intro p hp c hc
        by_cases h1 : p = idx
        · subst h1; rw [setB_same] at hc; cases hc; exact hidx
        · rw [setB_ne _ _ h1] at hc; exact hI.wf p hp c hc
      · intro p q hp hq x y hx hy hxy
        by_cases h1 : p = idx <;> by_cases h2 : q = idx
        · omega
        · subst h1; rw [setB_same] at hx; cases hx
          rw [setB_ne _ _ h2] at hy
          exact absurd hxy.symm (hnb' q hq y hy)
        · subst h2; rw [setB_same] at hy; cases hy
          rw [setB_ne _ _ h1] at hx
          exact absurd hxy (hnb' p hp x hx)
        · rw [setB_ne _ _ h1] at hx; rw [setB_ne _ _ h2] at hy
          exact hI.uniq p q hp hq x y hx hy hxy
      · intro k v
        constructor
        · rintro ⟨p, hp, c, hc, rfl, rfl⟩
          by_cases h1 : p = idx
          · subst h1; rw [setB_same] at hc; cases hc; exact Or.inr ⟨rfl, rfl⟩
          · rw [setB_ne _ _ h1] at hc; exact Or.inl ⟨p, hp, c, hc, rfl, rfl⟩
        · rintro (⟨p, hp, c, hc, rfl, rfl⟩ | ⟨rfl, rfl⟩)
          · have hne : p ≠ idx := by rintro rfl; rw [hT] at hc; cases hc
            exact ⟨p, hp, c, by rw [setB_ne _ _ hne]; exact hc, rfl, rfl⟩
          · exact ⟨idx, hlt, b, setB_same _ _ _, rfl, rfl⟩
    | some bkt =>
      have ht0 : 0 < t := by
        rcases Nat.eq_zero_or_pos t with h0 | h0
        · subst h0; rw [pos_zero hlt, hT] at hz; cases hz
        · exact h0
      have hnx : next bits idx = pos n idx 1 := by rw [next_eq, ← hnb]
      have hshift : ∀ s, pos n (pos n idx 1) s = pos n idx (s + 1) := fun s => by
        rw [pos_pos]; congr 1; omega
      have hpne : ∀ s, 0 < s → s < n → pos n idx s ≠ idx := by
        intro s hs hsn he
        have := pos_inj (s := idx) hsn hn0 (he.trans (pos_zero hlt).symm)
        omega
      have hwfb : idx = pos n (h bkt.key) bkt.psl := hI.wf idx hlt bkt hT
      dsimp only
      rw [hnx]
      by_cases hgt : b.psl > bkt.psl
      · rw [if_pos hgt]
        have hbk : bkt.key ≠ b.key := hnb' idx hlt bkt hT
        have hrec := ih (t - 1) (setB T idx (some b)) (pos n idx 1) { bkt with psl := bkt.psl + 1 }
          ⟨?_, ?_, ?_⟩ ?_ ?_ (by omega) ?_ ?_ ?_ (by omega)
        · obtain ⟨T', h1, h2, h3⟩ := hrec
          refine ⟨T', h1, h2, fun k v => ?_⟩
          rw [h3]
          constructor
          · rintro (⟨p, hp, c, hc, rfl, rfl⟩ | ⟨rfl, rfl⟩)
            · by_cases h1 : p = idx
              · subst h1; rw [setB_same] at hc; cases hc; exact Or.inr ⟨rfl, rfl⟩
              · rw [setB_ne _ _ h1] at hc; exact Or.inl ⟨p, hp, c, hc, rfl, rfl⟩
            · exact Or.inl ⟨idx, hlt, bkt, hT, rfl, rfl⟩
          · rintro (⟨p, hp, c, hc, rfl, rfl⟩ | ⟨rfl, rfl⟩)
            · by_cases h1 : p = idx
              · subst h1; rw [hT] at hc; cases hc; exact Or.inr ⟨rfl, rfl⟩
              · exact Or.inl ⟨p, hp, c, by rw [setB_ne _ _ h1]; exact hc, rfl, rfl⟩
            · exact Or.inl ⟨idx, hlt, b, setB_same _ _ _, rfl, rfl⟩
        · intro p hp x hx h0
          by_cases h1 : pos n p 1 = idx
          · rw [h1, setB_same] at hx; cases hx
            obtain ⟨p', c, hp', hp1, hc, hle⟩ := hprev h0
            have : p' = p := pos_one_inj hp' hp (hp1.trans h1.symm)
            subst this
            by_cases h2 : p' = idx
            · exact absurd (h2 ▸ h1) (hpne 1 (by omega) (by omega))
            · exact ⟨c, by rw [setB_ne _ _ h2]; exact hc, hle⟩
          · rw [setB_ne _ _ h1] at hx
            obtain ⟨c, hc, hle⟩ := hI.rh p hp x hx h0
            by_cases h2 : p = idx
            · subst h2; rw [hT] at hc; cases hc
              exact ⟨b, setB_same _ _ _, by omega⟩
            · exact ⟨c, by rw [setB_ne _ _ h2]; exact hc, hle⟩
        · intro p hp c hc
          by_cases h1 : p = idx
          · subst h1; rw [setB_same] at hc; cases hc; exact hidx
          · rw [setB_ne _ _ h1] at hc; exact hI.wf p hp c hc
        · intro p q hp hq x y hx hy hxy
          by_cases h1 : p = idx <;> by_cases h2 : q = idx
          · omega
          · subst h1; rw [setB_same] at hx; cases hx
            rw [setB_ne _ _ h2] at hy
            exact absurd hxy.symm (hnb' q hq y hy)
          · subst h2; rw [setB_same] at hy; cases hy
            rw [setB_ne _ _ h1] at hx
            exact absurd hxy (hnb' p hp x hx)
          · rw [setB_ne _ _ h1] at hx; rw [setB_ne _ _ h2] at hy
            exact hI.uniq p q hp hq x y hx hy hxy
        · show pos n idx 1 = pos n (h bkt.key) (bkt.psl + 1)
          rw [hwfb, pos_pos]
        · intro _
          exact ⟨idx, b, hlt, rfl, setB_same _ _ _, by simp only; omega⟩
        · rw [hshift, setB_ne _ _ (hpne _ (by omega) (by omega)), show t - 1 + 1 = t by omega]; exact hz
        · intro s hs c hc
          rw [hshift, setB_ne _ _ (hpne _ (by omega) (by omega))] at hc
          exact hnk (s + 1) (by omega) c hc
        · intro p hp c hc
          by_cases h1 : p = idx
          · subst h1; rw [setB_same] at hc; cases hc; exact fun e => hbk e.symm
          · rw [setB_ne _ _ h1] at hc
            intro e
            exact h1 (hI.uniq p idx hp hlt c bkt hc hT e)
      · rw [if_neg hgt, if_neg (hnk 0 (by omega) bkt (by rw [pos_zero hlt]; exact hT))]
        have hrec := ih (t - 1) T (pos n idx 1) { b with psl := b.psl + 1 } hI
          (by show pos n idx 1 = pos n (h b.key) (b.psl + 1); rw [hidx, pos_pos])
          (fun _ => ⟨idx, bkt, hlt, rfl, hT, by simp only; omega⟩) (by omega)
          (by rw [hshift, show t - 1 + 1 = t by omega]; exact hz)
          (fun s hs c hc => hnk (s + 1) (by omega) c (by rw [← hshift]; exact hc))
          hnb' (by omega)
        exact hrec

/-- insertion of a present key: refused, table untouched -/
theorem insertLoop_present {bits key : Nat} (hnb : n = 2 ^ bits) {T : Tbl V} {b : Bkt V} {data : V} {s : Nat}
    (hkey : b.key = key) (hb : T (pos n s b.psl) = some b)
    (hw : ∀ e, e < b.psl → ∃ c, T (pos n s e) = some c ∧ e ≤ c.psl ∧ c.key ≠ key) :
    ∀ (fuel e : Nat), e ≤ b.psl → b.psl - e < fuel →
      insertLoop bits key fuel T (pos n s e) ⟨e, key, data⟩ = some (.invalidArgument, T) := by
  intro fuel
  induction fuel with
  | zero => intro e _ hf; omega
  | succ fuel ih =>
    intro e he hf
    unfold insertLoop
    by_cases heq : e = b.psl
    · rw [heq, hb]; dsimp only; rw [if_neg (by omega), if_pos hkey]
    · obtain ⟨c, hc, hle, hne⟩ := hw e (by omega)
      rw [hc]; dsimp only; rw [if_neg (by omega), if_neg hne, next_eq, ← hnb, pos_pos]
      exact ih (e + 1) (by omega) (by omega)

theorem findLoop_present {bits key : Nat} (hnb : n = 2 ^ bits) {T : Tbl V} {b : Bkt V} {s : Nat}
    (hkey : b.key = key) (hb : T (pos n s b.psl) = some b)
    (hw : ∀ e, e < b.psl → ∃ c, T (pos n s e) = some c ∧ e ≤ c.psl ∧ c.key ≠ key) :
    ∀ (fuel e : Nat), e ≤ b.psl → b.psl - e < fuel →
      findLoop bits key T fuel (pos n s e) e = some (some b.data) := by
  intro fuel
  induction fuel with
  | zero => intro e _ hf; omega
  | succ fuel ih =>
    intro e he hf
    unfold findLoop
    by_cases heq : e = b.psl
    · rw [heq, hb]; dsimp only; rw [if_neg (by omega), if_pos hkey]
    · obtain ⟨c, hc, hle, hne⟩ := hw e (by omega)
      rw [hc]; dsimp only; rw [if_neg (by omega), if_neg hne, next_eq, ← hnb, pos_pos]
      exact ih (e + 1) (by omega) (by omega)

theorem findLoop_absent {bits key : Nat} (hnb : n = 2 ^ bits) {T : Tbl V} {s t : Nat} (hz : T (pos n s t) = none)
    (hnk : ∀ e, ∀ c, T (pos n s e) = some c → c.key ≠ key) :
    ∀ (fuel e : Nat), e ≤ t → t - e < fuel → findLoop bits key T fuel (pos n s e) e = some none := by
  intro fuel
  induction fuel with
  | zero => intro e _ hf; omega
  | succ fuel ih =>
    intro e he hf
    unfold findLoop
    cases hT : T (pos n s e) with
    | none => rfl
    | some c =>
      dsimp only
      split_ifs with h1 h2
      · rfl
      · exact absurd h2 (hnk e c hT)
      · rw [next_eq, ← hnb, pos_pos]
        have : e ≠ t := by rintro rfl; rw [hz] at hT; cases hT
        exact ih (e + 1) (by omega) (by omega)

theorem removeLoop_absent {bits key : Nat} (hnb : n = 2 ^ bits) {T : Tbl V} {s t : Nat} (hz : T (pos n s t) = none)
    (hnk : ∀ e, ∀ c, T (pos n s e) = some c → c.key ≠ key) :
    ∀ (fuel e : Nat), e ≤ t → t - e < fuel → removeLoop bits key T fuel (pos n s e) e = some (.invalidArgument, T) := by
  intro fuel
  induction fuel with
  | zero => intro e _ hf; omega
  | succ fuel ih =>
    intro e he hf
    unfold removeLoop
    cases hT : T (pos n s e) with
    | none => rfl
    | some c =>
      dsimp only
      split_ifs with h1 h2
      · rfl
      · exact absurd h2 (hnk e c hT)
      · rw [next_eq, ← hnb, pos_pos]
        have : e ≠ t := by rintro rfl; rw [hz] at hT; cases hT
        exact ih (e + 1) (by omega) (by omega)

theorem removeLoop_present {bits key : Nat} (hnb : n = 2 ^ bits) {T : Tbl V} {b : Bkt V} {s : Nat}
    (hkey : b.key = key) (hb : T (pos n s b.psl) = some b)
    (hw : ∀ e, e < b.psl → ∃ c, T (pos n s e) = some c ∧ e ≤ c.psl ∧ c.key ≠ key) :
    ∀ (fuel e : Nat), e ≤ b.psl → b.psl - e < fuel →
      removeLoop bits key T fuel (pos n s e) e =
        (shiftLoop bits (n + 1) T (pos n s b.psl) (pos n (pos n s b.psl) 1)).map fun t' => (.ok, t') := by
  intro fuel
  induction fuel with
  | zero => intro e _ hf; omega
  | succ fuel ih =>
    intro e he hf
    unfold removeLoop
    by_cases heq : e = b.psl
    · rw [heq, hb]; dsimp only; rw [if_neg (by omega), if_pos hkey, next_eq, ← hnb]
    · obtain ⟨c, hc, hle, hne⟩ := hw e (by omega)
      rw [hc]; dsimp only; rw [if_neg (by omega), if_neg hne, next_eq, ← hnb, pos_pos]
      exact ih (e + 1) (by omega) (by omega)

theorem setB_setB_same (T : Tbl V) (i : Nat) (a c : Option (Bkt V)) : setB (setB T i a) i c = setB T i c := by
  funext j; unfold setB; split_ifs <;> rfl

theorem setB_comm (T : Tbl V) {i j : Nat} (a c : Option (Bkt V)) (hne : i ≠ j) :
    setB (setB T i a) j c = setB (setB T j c) i a := by
  funext k; unfold setB; split_ifs <;> first | rfl | omega

/-- the backward shift, for the table `L` with the hole at `b` considered empty -/
theorem shiftLoop_spec {bits : Nat} (hnb : n = 2 ^ bits) (hn : 2 < n) :
    ∀ (fuel t : Nat) (T L : Tbl V) (b : Nat), b < n → L = setB T b none →
    (∀ p, p < n → p ≠ b → RHat n L p) →
    (∀ x, L (pos n b 1) = some x → 2 ≤ x.psl → ∃ q c, q < n ∧ pos n q 1 = b ∧ L q = some c ∧ x.psl ≤ c.psl + 2) →
    WF n h L → Uniq n L → 1 ≤ t → t < n → L (pos n b t) = none → t ≤ fuel →
    ∃ T', shiftLoop bits fuel T b (pos n b 1) = some T' ∧ Inv n h T' ∧ ∀ k v, Has n T' k v ↔ Has n L k v := by
  intro fuel
  induction fuel with
  | zero => intro t T L b _ _ _ _ _ _ _ _ _ hf; omega
  | succ fuel ih =>
    intro t T L b hb hL hrh hgap hwf hun ht1 htn hz hf
    have hn0 : 0 < n := by omega
    have hpne : ∀ s, 0 < s → s < n → ∀ i, i < n → pos n i s ≠ i := by
      intro s hs hsn i hi he
      have := pos_inj (s := i) hsn hn0 (he.trans (pos_zero hi).symm)
      omega
    have hLi : T (pos n b 1) = L (pos n b 1) := by
      rw [hL, setB_ne _ _ (hpne 1 (by omega) (by omega) b hb)]
    have hdone : (∀ x, L (pos n b 1) = some x → x.psl = 0) → Inv n h L := by
      intro h0
      refine ⟨fun p hp => ?_, hwf, hun⟩
      by_cases hpb : p = b
      · subst hpb; intro x hx hpos; have := h0 x hx; omega
      · exact hrh p hp hpb
    unfold shiftLoop
    rw [hLi]
    cases hx : L (pos n b 1) with
    | none =>
      refine ⟨_, rfl, ?_, ?_⟩
      · rw [← hL]; exact hdone (fun x hx' => by rw [hx] at hx'; cases hx')
      · rw [← hL]; exact fun k v => Iff.rfl
    | some x =>
      dsimp only
      by_cases h0 : x.psl = 0
      · rw [if_pos h0]
        refine ⟨_, rfl, ?_, ?_⟩
        · rw [← hL]; exact hdone (fun y hy => by rw [hx] at hy; cases hy; exact h0)
        · rw [← hL]; exact fun k v => Iff.rfl
      · rw [if_neg h0]
        have ht2 : 2 ≤ t := by
          rcases Nat.lt_or_ge t 2 with h2 | h2
          · have : t = 1 := by omega
            subst this; rw [hx] at hz; cases hz
          · exact h2
        have hi : pos n b 1 < n := pos_lt hn0
        have hib : pos n b 1 ≠ b := hpne 1 (by omega) (by omega) b hb
        have hLb : L b = none := by rw [hL, setB_same]
        -- the next logical table
        let x' : Bkt V := { x with psl := x.psl - 1 }
        let L' : Tbl V := setB (setB L b (some x')) (pos n b 1) none
        have hL'eq : L' = setB (setB (setB T (pos n b 1) (some x')) b (some x')) (pos n b 1) none := by
          show setB (setB L b (some x')) (pos n b 1) none = _
          rw [hL, setB_setB_same, setB_comm T (some x') (some x') hib, setB_setB_same]
        have hL'b : L' b = some x' := by
          show setB (setB L b (some x')) (pos n b 1) none b = _
          rw [setB_ne _ _ hib.symm, setB_same]
        have hL'i : L' (pos n b 1) = none := setB_same _ _ _
        have hL'o : ∀ j, j ≠ b → j ≠ pos n b 1 → L' j = L j := by
          intro j h1 h2
          show setB (setB L b (some x')) (pos n b 1) none j = _
          rw [setB_ne _ _ h2, setB_ne _ _ h1]
        have hsub : ∀ p y, L' p = some y → p ≠ b → L p = some y ∧ p ≠ pos n b 1 := by
          intro p y hy hpb
          have hpi : p ≠ pos n b 1 := by rintro rfl; rw [hL'i] at hy; cases hy
          exact ⟨by rw [← hL'o p hpb hpi]; exact hy, hpi⟩
        have hshift : ∀ s, pos n (pos n b 1) s = pos n b (s + 1) := fun s => by
          rw [pos_pos]; congr 1; omega
        have hrec := ih (t - 1) (setB (setB T (pos n b 1) (some x')) b (some x')) L' (pos n b 1) hi hL'eq
          ?_ ?_ ?_ ?_ (by omega) (by omega) ?_ (by omega)
        · obtain ⟨T', h1, h2, h3⟩ := hrec
          rw [next_eq, ← hnb]
          refine ⟨T', h1, h2, fun k v => ?_⟩
          rw [h3]
          constructor
          · rintro ⟨p, hp, c, hc, rfl, rfl⟩
            by_cases hpb : p = b
            · subst hpb; rw [hL'b] at hc; cases hc
              exact ⟨_, hi, x, hx, rfl, rfl⟩
            · exact ⟨p, hp, c, (hsub p c hc hpb).1, rfl, rfl⟩
          · rintro ⟨p, hp, c, hc, rfl, rfl⟩
            by_cases hpi : p = pos n b 1
            · subst hpi; rw [hx] at hc; cases hc
              exact ⟨b, hb, x', hL'b, rfl, rfl⟩
            · have hpb : p ≠ b := by rintro rfl; rw [hLb] at hc; cases hc
              exact ⟨p, hp, c, by rw [hL'o p hpb hpi]; exact hc, rfl, rfl⟩
        · -- probe order away from the new hole
          intro p hp hpi y hy hy0
          by_cases hp1b : pos n p 1 = b
          · rw [hp1b, hL'b] at hy; cases hy
            have hx2 : 2 ≤ x.psl := by
              have : 0 < x.psl - 1 := hy0
              omega
            obtain ⟨q, c, hq, hq1, hc, hle⟩ := hgap x hx hx2
            have : q = p := pos_one_inj hq hp (hq1.trans hp1b.symm)
            subst this
            have hqb : q ≠ b := by rintro rfl; exact hpne 1 (by omega) (by omega) q hq hq1
            refine ⟨c, by rw [hL'o q hqb hpi]; exact hc, ?_⟩
            show x.psl - 1 ≤ c.psl + 1
            omega
          · obtain ⟨hy', hyi⟩ := hsub _ y hy hp1b
            have hpb : p ≠ b := by rintro rfl; exact hyi rfl
            obtain ⟨c, hc, hle⟩ := hrh p hp hpb y hy' hy0
            exact ⟨c, by rw [hL'o p hpb hpi]; exact hc, hle⟩
        · intro y hy hy2
          have hpp : pos n (pos n b 1) 1 ≠ b := by
            rw [hshift]
            exact hpne 2 (by omega) (by omega) b hb
          obtain ⟨hy', -⟩ := hsub _ y hy hpp
          obtain ⟨c, hc, hle⟩ := hrh (pos n b 1) hi hib y hy' (by omega)
          rw [hx] at hc; cases hc
          refine ⟨b, x', hb, rfl, hL'b, ?_⟩
          show y.psl ≤ x.psl - 1 + 2
          omega
        · intro p hp c hc
          by_cases hpb : p = b
          · subst hpb; rw [hL'b] at hc; cases hc
            have hw := hwf _ hi x hx
            show p = pos n (h x.key) (x.psl - 1)
            apply pos_one_inj hb (pos_lt hn0)
            rw [pos_pos, show x.psl - 1 + 1 = x.psl by omega]
            exact hw
          · exact hwf p hp c (hsub p c hc hpb).1
        · intro p q hp hq c d hc hd hcd
          by_cases hpb : p = b <;> by_cases hqb : q = b
          · omega
          · subst hpb; rw [hL'b] at hc; cases hc
            obtain ⟨hd', hqi⟩ := hsub q d hd hqb
            exact absurd (hun _ _ hi hq x d hx hd' hcd).symm hqi
          · subst hqb; rw [hL'b] at hd; cases hd
            obtain ⟨hc', hpi⟩ := hsub p c hc hpb
            exact absurd (hun _ _ hp hi c x hc' hx hcd) hpi
          · exact hun p q hp hq c d (hsub p c hc hpb).1 (hsub q d hd hqb).1 hcd
        · rw [hshift, show t - 1 + 1 = t by omega, hL'o _ (hpne t (by omega) htn b hb)]
          · exact hz
          · intro he
            have := pos_inj htn (by omega) he
            omega

end HMap
end Nghttp3
