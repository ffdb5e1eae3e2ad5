import Verif.Lemmas.ControlSettings
/-! Whole frames through the ideal control stream reader. -/
namespace Nghttp3
namespace Control
open Spec.Control

variable {S : Type} {env : Env S}

/-- the loop of the ideal reader -/
abbrev R (env : Env S) (s : St S) (x : Bytes) (b : Bool) : Machine.Out (St S) (Int × Conn S) := Machine.run (stepI env) rank s x b

/-- carry on after one visit of the loop body -/
def next (env : Env S) : Res S → Machine.Out (St S) (Int × Conn S)
  | .crash => .crash
  | .fail o => .fail o
  | .stop o r => .stop o r
  | .cont s r b => R env s r b
  | .ret s => .ok s

theorem R_next {s : St S} {x : Bytes} {b : Bool} (hi : Inv Pnil s) (hb : b = true → vis s = true) (h : x ≠ [] ∨ b = true) :
    R env s x b = next env (stepI env s x) := by
  have := Machine.run_eq (goodI env bufNil) (s := s) (x := x) (b := b) hi hb
  rw [if_neg (by rintro ⟨h1, h2⟩; rcases h with h | h; exact h h1; simp [h2] at h)] at this
  unfold R
  rw [this]
  cases stepI env s x <;> rfl

theorem R_nil {s : St S} : R env s [] false = .ok s := by
  unfold R Machine.run Machine.loop; simp

theorem inFrame_varint {v : Nat} {b : Bytes} (h : Spec.IsVarint v b) (s : St S) (hrv : s.rv = {}) (hl : b.length ≤ s.left) (y : Bytes)
    (k : Nat → St S → Bytes → Res S) : inFrame s (b ++ y) k = k v { s with left := s.left - b.length } y := by
  unfold inFrame
  rw [hrv, rdl_varint h _ hl]
  dsimp only
  rw [List.drop_left]

theorem append_ne_nil_of_varint {v : Nat} {b : Bytes} (h : Spec.IsVarint v b) (y : Bytes) : b ++ y ≠ [] := by
  intro h0
  have := isVarint_pos h
  rw [(List.append_eq_nil_iff.1 h0).1] at this
  simp at this

/-- frame header -/
theorem run_hd (c : Conn S) {ty len : Nat} {t l : Bytes} (ht : Spec.IsVarint ty t) (hl : Spec.IsVarint len l) (rest : Bytes) :
    runI env { conn := c } (t ++ (l ++ rest)) = next env (header env { conn := c, st := .frameLen, ty := ty, left := len } rest) := by
  have h1 := R_next (env := env) (b := false) (inv_idle bufNil c) (by simp) (.inl (append_ne_nil_of_varint ht (l ++ rest)))
  have e1 : stepI env { conn := c } (t ++ (l ++ rest)) = .cont { conn := c, ty := ty, st := .frameLen } (l ++ rest) false := by
    rw [← step_eq_of_ne _ _ (by simp)]
    unfold step
    dsimp only
    rw [rd_varint ht]
    dsimp only
    rw [List.drop_left]
  have hi2 : Inv Pnil ({ conn := c, ty := ty, st := .frameLen } : St S) := ⟨rvOk_idle, fun _ => rfl, by simp, by simp, by simp, by simp⟩
  have h2 := R_next (env := env) (b := false) hi2 (by simp) (.inl (append_ne_nil_of_varint hl rest))
  have e2 : stepI env { conn := c, ty := ty, st := .frameLen } (l ++ rest) =
      header env { conn := c, st := .frameLen, ty := ty, left := len } rest := by
    rw [← step_eq_of_ne _ _ (by simp)]
    unfold step
    dsimp only
    rw [rd_varint hl]
    dsimp only
    rw [List.drop_left]
  unfold runI
  rw [show Machine.run (stepI env) rank { conn := c } (t ++ (l ++ rest)) false = R env { conn := c } (t ++ (l ++ rest)) false from rfl,
    h1, e1]
  unfold next
  dsimp only
  rw [h2, e2]
  rfl

theorem run_frame (c : Conn S) {ty : Nat} {p bs : Bytes} (h : Spec.IsFrame ty p bs) (rest : Bytes) :
    runI env { conn := c } (bs ++ rest) = next env (header env { conn := c, st := .frameLen, ty := ty, left := p.length } (p ++ rest)) := by
  obtain ⟨t, l, ht, hl, rfl⟩ := h
  rw [← run_hd c ht hl]
  simp

theorem isSettings_nil_iff {ivs : List (Nat × Nat)} {p : Bytes} (h : Spec.IsSettings ivs p) : ivs = [] ↔ p.length = 0 := by
  cases h with
  | nil => simp
  | cons h1 h2 h3 =>
    have := isVarint_pos h1
    simp only [List.length_append]
    constructor
    · simp
    · omega

/-- after the last entry of a SETTINGS frame -/
def endSettings (env : Env S) (c : Conn S) (rest : Bytes) : Machine.Out (St S) (Int × Conn S) :=
  next env (report env { conn := c } c (.settings c.remote) rest)

theorem run_settings {ivs : List (Nat × Nat)} {p : Bytes} (h : Spec.IsSettings ivs p) (hne : ivs ≠ []) (c : Conn S) (ty sid : Nat)
    (rest : Bytes) :
    R env { conn := c, st := .settings, ty := ty, left := p.length, sid := sid } (p ++ rest) false =
      match foldEntries c ivs with
      | .error o => .fail o
      | .ok c' => endSettings env c' rest := by
  induction h generalizing c sid with
  | nil => exact absurd rfl hne
  | @cons i v bi bv ivs bs hi hv hs ih =>
    have p1 := isVarint_pos hi
    have p2 := isVarint_pos hv
    have hx : bi ++ bv ++ bs ++ rest = bi ++ (bv ++ (bs ++ rest)) := by simp
    have hlen : (bi ++ bv ++ bs).length = bi.length + bv.length + bs.length := by simp [Nat.add_assoc]
    rw [hx]
    have i1 : Inv Pnil ({ conn := c, st := .settings, ty := ty, left := (bi ++ bv ++ bs).length, sid := sid } : St S) :=
      ⟨rvOk_idle, fun _ => rfl, by simp, fun _ => by dsimp only; omega, fun _ => rfl, by simp⟩
    rw [R_next i1 (by simp) (.inl (append_ne_nil_of_varint hi _)), ← step_eq_of_ne _ _ (by simp)]
    have e1 : step env { conn := c, st := .settings, ty := ty, left := (bi ++ bv ++ bs).length, sid := sid } (bi ++ (bv ++ (bs ++ rest))) =
        .cont { conn := c, st := .settingVal, ty := ty, left := bv.length + bs.length, sid := i } (bv ++ (bs ++ rest)) false := by
      unfold step
      dsimp only
      rw [if_neg (by omega), if_neg (append_ne_nil_of_varint hi _), inFrame_varint hi _ rfl (by dsimp only; omega)]
      unfold gotId
      dsimp only
      rw [if_neg (by omega), hlen]
      congr 2
      omega
    rw [e1]
    unfold next
    dsimp only
    have i2 : Inv Pnil ({ conn := c, st := .settingVal, ty := ty, left := bv.length + bs.length, sid := i } : St S) :=
      ⟨rvOk_idle, fun _ => rfl, by simp, fun _ => by dsimp only; omega, by simp, by simp⟩
    rw [R_next i2 (by simp) (.inl (append_ne_nil_of_varint hv _)), ← step_eq_of_ne _ _ (by simp)]
    have e2 : step env { conn := c, st := .settingVal, ty := ty, left := bv.length + bs.length, sid := i } (bv ++ (bs ++ rest)) =
        gotVal env v { conn := c, st := .settingVal, ty := ty, left := bs.length, sid := i } (bs ++ rest) := by
      unfold step
      dsimp only
      rw [inFrame_varint hv _ rfl (by dsimp only; omega)]
      congr 2
      dsimp only
      omega
    rw [e2]
    unfold gotVal
    dsimp only
    rw [foldEntries]
    rcases onEntry c i v with e | c'
    · rfl
    · dsimp only
      by_cases hb : bs.length = 0
      · rw [if_neg (by omega)]
        have h0 := (isSettings_nil_iff hs).2 hb
        subst h0
        have hb' : bs = [] := List.length_eq_zero_iff.1 hb
        subst hb'
        rfl
      · rw [if_pos hb]
        have h0 : ivs ≠ [] := fun h => hb ((isSettings_nil_iff hs).1 h)
        exact ih h0 c' i

theorem run_ign (c : Conn S) (ty : Nat) (p rest : Bytes) :
    R env { conn := c, st := .ignFrame, ty := ty, left := p.length } (p ++ rest) true = runI env { conn := c } rest := by
  have hi : Inv Pnil ({ conn := c, st := .ignFrame, ty := ty, left := p.length } : St S) :=
    ⟨rvOk_idle, fun _ => rfl, by simp, by simp, fun _ => rfl, by simp⟩
  rw [R_next hi (by simp [vis]) (.inr rfl), ← step_eq_of_ne _ _ (by simp)]
  unfold step
  dsimp only
  unfold ignFrame
  dsimp only
  rw [Nat.min_eq_left (by rw [List.length_append]; omega), if_neg (by omega), List.drop_left]
  rfl

/-- the effect of a PRIORITY_UPDATE frame in an environment -/
abbrev priOf (env : Env S) : S → Nat → Bytes → Except Int S := priorityUpdate env.parsePri env.onPri

def toReport : Ev → Report
  | .settings s => .settings s
  | .shutdown id => .shutdown id

/-- the connection after the accepted frames `past` -/
structure View (server : Bool) (e0 : Qpack.Enc) (past : List Frame) (x : S) (c : Conn S) : Prop where
  sv : c.server = server
  recved : c.settingsRecved = decide (past ≠ [])
  fresh : past = [] → c.remote = defaultSettings ∧ c.enc = e0
  set : ∀ ivs t, past = .settings ivs :: t → c.remote = settingsOf server ivs ∧ c.enc = encAfter e0 ivs
  ev : c.ev.map toReport = reports server past
  ext : c.ext = x
  long : c.long = false
  goaway : ∀ id, id < 2 ^ 62 → (c.rxGoaway < id ↔ ∃ i, Frame.goaway i ∈ past ∧ i < id)
  push : ∀ id, id + 1 < c.maxPushes ↔ ∃ i, Frame.maxPushId i ∈ past ∧ id < i

theorem reports_snoc (server : Bool) (past : List Frame) (f : Frame) :
    reports server (past ++ [f]) = reports server past ++ reports server [f] := by
  unfold reports; rw [List.filterMap_append]

theorem isVarint_lt {n : Nat} {b : Bytes} (h : Spec.IsVarint n b) : n < 2 ^ 62 := by
  obtain ⟨e, he, _, hn, _⟩ := h
  refine Nat.lt_of_lt_of_le hn (Nat.pow_le_pow_right (by decide) ?_)
  have : e = 0 ∨ e = 1 ∨ e = 2 ∨ e = 3 := by omega
  rcases this with rfl | rfl | rfl | rfl <;> decide

/-- one frame -/
theorem run_one (hcb : ∀ l, env.cb l = true) {server : Bool} {e0 : Qpack.Enc} {past : List Frame} {x : S} {c : Conn S}
    (hv : View server e0 past x c) (hfirst : past ≠ [] → ∃ ivs t, past = .settings ivs :: t)
    {f : Frame} {bs : Bytes} (hf : Encodes f bs) (hshort : ∀ id fld, f = .priorityUpdate id fld → fld.length ≤ 8) (rest : Bytes) :
    match verdict server past f with
    | some e => ∃ c', runI env { conn := c } (bs ++ rest) = .fail (e, c') ∧ c'.ev.map toReport = reports server past ∧ c'.ext = x ∧ c'.long = false
    | none =>
      match f with
      | .priorityUpdate id fld =>
        match priOf env x id fld with
        | .error e => ∃ c', runI env { conn := c } (bs ++ rest) = .fail (e, c') ∧ c'.ev.map toReport = reports server past ∧ c'.ext = x ∧ c'.long = false
        | .ok x' => ∃ c', runI env { conn := c } (bs ++ rest) = runI env { conn := c' } rest ∧ View server e0 (past ++ [f]) x' c'
      | _ => ∃ c', runI env { conn := c } (bs ++ rest) = runI env { conn := c' } rest ∧ View server e0 (past ++ [f]) x c' := by
  -- frames other than the first
  have notfirst : past = [] → ∀ ty p, ty ≠ 4 → Spec.IsFrame ty p bs → runI env { conn := c } (bs ++ rest) = .fail (Err.H3_MISSING_SETTINGS, c) := by
    intro hp ty p hty hfr
    have hr : c.settingsRecved = false := by rw [hv.recved, hp]; rfl
    rw [run_frame c hfr]
    unfold header
    dsimp only
    rw [if_pos hr, if_pos (show ty ≠ FRAME_SETTINGS from hty)]
    rfl
  have later : past ≠ [] → ∀ ty p, ty ≠ 4 → Spec.IsFrame ty p bs → runI env { conn := c } (bs ++ rest) =
      next env (dispatch env { conn := c, st := .frameLen, ty := ty, left := p.length } (p ++ rest)) := by
    intro hp ty p hty hfr
    have hr : c.settingsRecved = true := by rw [hv.recved]; simp [hp]
    rw [run_frame c hfr]
    unfold header
    dsimp only
    rw [if_neg (by rw [hr]; decide), if_neg (show ¬ ty = FRAME_SETTINGS from hty)]
  have hset : ∀ f', f' ≠ [] → past ≠ [] → ∀ ivs t, past ++ f' = Frame.settings ivs :: t → c.remote = settingsOf server ivs ∧ c.enc = encAfter e0 ivs := by
    intro f' _ hp ivs t h
    obtain ⟨ivs', t', h'⟩ := hfirst hp
    rw [h'] at h
    simp only [List.cons_append, List.cons.injEq, Frame.settings.injEq] at h
    rw [← h.1]
    exact hv.set ivs' t' h'
  have mem_snoc : ∀ g, g ∈ past ++ [f] ↔ g ∈ past ∨ g = f := by intro g; simp
  cases f with
  | settings ivs =>
    obtain ⟨p, hp, hfr⟩ := hf
    unfold verdict
    dsimp only
    by_cases hpast : past = []
    · rw [if_neg (by simp [hpast])]
      obtain ⟨hrem, henc⟩ := hv.fresh hpast
      have hr : c.settingsRecved = false := by rw [hv.recved, hpast]; rfl
      let c1 : Conn S := { c with settingsRecved := true }
      have hrun : runI env { conn := c } (bs ++ rest) = match foldEntries c1 ivs with
          | .error o => .fail o
          | .ok c' => endSettings env c' rest := by
        rw [run_frame c hfr]
        unfold header
        dsimp only
        rw [if_pos hr, if_neg (by decide)]
        unfold dispatch
        dsimp only
        rw [if_pos (by rfl)]
        by_cases h0 : p.length = 0
        · rw [if_pos h0]
          have := (isSettings_nil_iff hp).2 h0
          subst this
          have hp0 : p = [] := List.length_eq_zero_iff.1 h0
          subst hp0
          rfl
        · rw [if_neg h0]
          have hne : ivs ≠ [] := fun h => h0 ((isSettings_nil_iff hp).1 h)
          exact run_settings hp hne c1 4 0 rest
      have hs := foldEntries_spec c1 hrem ivs
      have hsv : c1.server = server := hv.sv
      rw [hsv] at hs
      rcases hfe : foldEntries c1 ivs with ⟨e, c'⟩ | c' <;> rw [hfe] at hs hrun <;> dsimp only at hs hrun
      · obtain ⟨a1, a2, a3, a4, a5, a6⟩ := hs
        rw [if_neg a1]
        exact ⟨c', by rw [hrun, a2], by rw [a3]; exact hv.ev, by rw [a4]; exact hv.ext, by rw [a6]; exact hv.long⟩
      · obtain ⟨a1, rfl⟩ := hs
        rw [if_pos a1]
        dsimp only
        refine ⟨{ c1 with remote := settingsOf server ivs, enc := encAfter c1.enc ivs, ev := c.ev ++ [.settings (settingsOf server ivs)] }, ?_, ?_⟩
        · rw [hrun]
          unfold endSettings report
          dsimp only
          rw [if_pos (hcb _), show c1.server = server from hsv]
          rfl
        · have hg := hv.goaway
          have hpu := hv.push
          subst hpast
          refine ⟨hv.sv, ?_, by simp, ?_, ?_, hv.ext, hv.long, ?_, ?_⟩
          · simp [c1]
          · intro ivs' t h
            simp only [List.nil_append, List.cons.injEq, Frame.settings.injEq] at h
            rw [← h.1]
            exact ⟨rfl, by rw [show c1.enc = e0 from henc]⟩
          · rw [List.map_append, hv.ev, reports_snoc]; rfl
          · intro id hid
            rw [hg id hid]; simp
          · intro id
            rw [hpu id]; simp
    · rw [if_pos hpast]
      have hr : c.settingsRecved = true := by rw [hv.recved]; simp [hpast]
      refine ⟨c, ?_, hv.ev, hv.ext, hv.long⟩
      rw [run_frame c hfr]
      unfold header
      dsimp only
      rw [if_neg (by rw [hr]; decide), if_pos (by rfl)]
      rfl
  | goaway id =>
    obtain ⟨p, hp, hfr⟩ := hf
    have hid := isVarint_lt hp
    have hp1 := isVarint_pos hp
    unfold verdict
    dsimp only
    by_cases hpast : past = []
    · rw [if_pos hpast]
      exact ⟨c, notfirst hpast _ _ (by decide) hfr, hv.ev, hv.ext, hv.long⟩
    rw [if_neg hpast]
    have hrun : runI env { conn := c } (bs ++ rest) = next env (gotGoaway env id { conn := c, st := .goaway, ty := 7, left := 0 } rest) := by
      rw [later hpast _ _ (by decide) hfr]
      unfold dispatch
      dsimp only
      rw [if_neg (by decide), if_pos (by rfl), if_neg (by omega)]
      rw [show next env (.cont { conn := c, st := .goaway, ty := 7, left := p.length } (p ++ rest) false) =
        R env { conn := c, st := .goaway, ty := 7, left := p.length } (p ++ rest) false from rfl]
      have i1 : Inv Pnil ({ conn := c, st := .goaway, ty := 7, left := p.length } : St S) :=
        ⟨rvOk_idle, fun _ => rfl, by simp, fun _ => hp1, by simp, by simp⟩
      rw [R_next i1 (by simp) (.inl (append_ne_nil_of_varint hp _)), ← step_eq_of_ne _ _ (by simp)]
      unfold step
      dsimp only
      rw [inFrame_varint hp _ rfl (Nat.le_refl _)]
      dsimp only
      rw [Nat.sub_self]
    rw [hrun]
    unfold gotGoaway
    dsimp only
    rw [hv.sv]
    by_cases h1 : server = false ∧ id % 4 ≠ 0
    · rw [if_pos h1]
      exact ⟨c, by rw [if_pos h1]; rfl, hv.ev, hv.ext, hv.long⟩
    simp only [if_neg h1]
    by_cases h2 : ∃ i, Frame.goaway i ∈ past ∧ i < id
    · rw [if_pos h2]
      exact ⟨c, by rw [if_pos ((hv.goaway id hid).2 h2)]; rfl, hv.ev, hv.ext, hv.long⟩
    · rw [if_neg h2]
      have hle : ¬ c.rxGoaway < id := fun h => h2 ((hv.goaway id hid).1 h)
      simp only [if_neg hle]
      refine ⟨{ c with goawayRecved := true, rxGoaway := id, ev := c.ev ++ [.shutdown id] }, ?_, ?_⟩
      · unfold report
        dsimp only
        rw [if_pos (hcb _), hv.sv]
        rfl
      · refine ⟨hv.sv, ?_, by simp, hset [.goaway id] (by simp) hpast, ?_, hv.ext, hv.long, ?_, ?_⟩
        · dsimp only; rw [hv.recved]; simp [hpast]
        · rw [List.map_append, hv.ev, reports_snoc]; rfl
        · intro id' hid'
          dsimp only
          constructor
          · intro h; exact ⟨id, by simp, h⟩
          · rintro ⟨i, hi, hlt⟩
            rcases (mem_snoc _).1 hi with h | h
            · by_contra hc
              exact h2 ⟨i, h, by omega⟩
            · cases h; exact hlt
        · intro id'
          dsimp only
          rw [hv.push id']
          constructor
          · rintro ⟨i, hi, h⟩; exact ⟨i, by simp [hi], h⟩
          · rintro ⟨i, hi, h⟩
            rcases (mem_snoc _).1 hi with h' | h'
            · exact ⟨i, h', h⟩
            · cases h'
  | maxPushId id =>
    obtain ⟨p, hp, hfr⟩ := hf
    have hp1 := isVarint_pos hp
    unfold verdict
    dsimp only
    by_cases hpast : past = []
    · rw [if_pos hpast]
      exact ⟨c, notfirst hpast _ _ (by decide) hfr, hv.ev, hv.ext, hv.long⟩
    rw [if_neg hpast]
    have hrun := later hpast _ _ (by decide) hfr
    unfold dispatch at hrun
    dsimp only at hrun
    rw [if_neg (by decide), if_neg (by decide), if_pos (by rfl)] at hrun
    by_cases h1 : server = false
    · rw [if_pos h1]
      rw [if_pos (by rw [hv.sv]; exact h1)] at hrun
      exact ⟨c, hrun, hv.ev, hv.ext, hv.long⟩
    rw [if_neg h1]
    have hsv : c.server = true := by rw [hv.sv]; simpa using h1
    rw [if_neg (by rw [hsv]; decide), if_neg (by omega)] at hrun
    have hrun2 : runI env { conn := c } (bs ++ rest) = next env (gotMaxPush id { conn := c, st := .maxPush, ty := 0xd, left := 0 } rest) := by
      rw [hrun]
      rw [show next env (.cont { conn := c, st := .maxPush, ty := 0xd, left := p.length } (p ++ rest) false) =
        R env { conn := c, st := .maxPush, ty := 0xd, left := p.length } (p ++ rest) false from rfl]
      have i1 : Inv Pnil ({ conn := c, st := .maxPush, ty := 0xd, left := p.length } : St S) :=
        ⟨rvOk_idle, fun _ => rfl, by simp, fun _ => hp1, by simp, by simp [hsv]⟩
      rw [R_next i1 (by simp) (.inl (append_ne_nil_of_varint hp _)), ← step_eq_of_ne _ _ (by simp)]
      unfold step
      dsimp only
      rw [inFrame_varint hp _ rfl (Nat.le_refl _)]
      dsimp only
      rw [Nat.sub_self]
    unfold gotMaxPush at hrun2
    dsimp only at hrun2
    by_cases h2 : ∃ i, Frame.maxPushId i ∈ past ∧ id < i
    · rw [if_pos h2]
      rw [if_pos ((hv.push id).2 h2)] at hrun2
      exact ⟨c, hrun2, hv.ev, hv.ext, hv.long⟩
    · rw [if_neg h2]
      have hle : ¬ id + 1 < c.maxPushes := fun h => h2 ((hv.push id).1 h)
      rw [if_neg hle] at hrun2
      refine ⟨{ c with maxPushes := id + 1 }, hrun2, ?_⟩
      refine ⟨hv.sv, ?_, by simp, hset [.maxPushId id] (by simp) hpast, ?_, hv.ext, hv.long, ?_, ?_⟩
      · dsimp only; rw [hv.recved]; simp [hpast]
      · rw [reports_snoc, show reports server [.maxPushId id] = [] from rfl, List.append_nil]; exact hv.ev
      · intro id' hid'
        dsimp only
        rw [hv.goaway id' hid']
        constructor
        · rintro ⟨i, hi, h⟩; exact ⟨i, by simp [hi], h⟩
        · rintro ⟨i, hi, h⟩
          rcases (mem_snoc _).1 hi with h' | h'
          · exact ⟨i, h', h⟩
          · cases h'
      · intro id'
        dsimp only
        constructor
        · intro h; exact ⟨id, by simp, by omega⟩
        · rintro ⟨i, hi, hlt⟩
          rcases (mem_snoc _).1 hi with h | h
          · by_contra hc
            exact h2 ⟨i, h, by omega⟩
          · cases h; omega
  | priorityUpdate id fld =>
    obtain ⟨p, hp, hfr⟩ := hf
    have hp1 := isVarint_pos hp
    have hshort := hshort id fld rfl
    unfold verdict
    dsimp only
    by_cases hpast : past = []
    · rw [if_pos hpast]
      exact ⟨c, notfirst hpast _ _ (by decide) hfr, hv.ev, hv.ext, hv.long⟩
    rw [if_neg hpast]
    have hrun := later hpast _ _ (by decide) hfr
    unfold dispatch at hrun
    dsimp only at hrun
    rw [if_neg (by decide), if_neg (by decide), if_neg (by decide), if_pos (by rfl)] at hrun
    by_cases h1 : server = false
    · rw [if_pos h1]
      rw [if_pos (by rw [hv.sv]; exact h1)] at hrun
      exact ⟨c, hrun, hv.ev, hv.ext, hv.long⟩
    rw [if_neg h1]
    have hsv : c.server = true := by rw [hv.sv]; simpa using h1
    have hlen : (p ++ fld).length = p.length + fld.length := List.length_append
    rw [if_neg (by rw [hsv]; decide), if_neg (by omega)] at hrun
    have hrun2 : runI env { conn := c } (bs ++ rest) =
        next env (gotElem env id { conn := c, st := .elemId, ty := 0xf0700, left := fld.length } (fld ++ rest)) := by
      rw [hrun]
      rw [show next env (.cont { conn := c, st := .elemId, ty := 0xf0700, left := (p ++ fld).length } (p ++ fld ++ rest) false) =
        R env { conn := c, st := .elemId, ty := 0xf0700, left := (p ++ fld).length } (p ++ fld ++ rest) false from rfl]
      have i1 : Inv Pnil ({ conn := c, st := .elemId, ty := 0xf0700, left := (p ++ fld).length } : St S) :=
        ⟨rvOk_idle, fun _ => rfl, by simp, fun _ => by dsimp only; omega, by simp, by simp [hsv]⟩
      rw [List.append_assoc, R_next i1 (by simp) (.inl (append_ne_nil_of_varint hp _)), ← step_eq_of_ne _ _ (by simp)]
      unfold step
      dsimp only
      rw [inFrame_varint hp _ rfl (by dsimp only; omega)]
      dsimp only
      rw [hlen, Nat.add_sub_cancel_left]
    -- the update itself
    have hview : ∀ x' : S, View server e0 (past ++ [.priorityUpdate id fld]) x' { c with ext := x' } := by
      intro x'
      refine ⟨hv.sv, ?_, by simp, hset [.priorityUpdate id fld] (by simp) hpast, ?_, rfl, hv.long, ?_, ?_⟩
      · dsimp only; rw [hv.recved]; simp [hpast]
      · rw [reports_snoc, show reports server [.priorityUpdate id fld] = [] from rfl, List.append_nil]; exact hv.ev
      · intro id' hid'
        dsimp only
        rw [hv.goaway id' hid']
        constructor
        · rintro ⟨i, hi, h⟩; exact ⟨i, by simp [hi], h⟩
        · rintro ⟨i, hi, h⟩
          rcases (mem_snoc _).1 hi with h' | h'
          · exact ⟨i, h', h⟩
          · cases h'
      · intro id'
        dsimp only
        rw [hv.push id']
        constructor
        · rintro ⟨i, hi, h⟩; exact ⟨i, by simp [hi], h⟩
        · rintro ⟨i, hi, h⟩
          rcases (mem_snoc _).1 hi with h' | h'
          · exact ⟨i, h', h⟩
          · cases h'
    have happ : ∀ (s : St S) pr, s.conn = c → s.elem = id → next env (applyPri env s [] pr rest) =
        match env.onPri x id pr with
        | .error e => .fail (e, c)
        | .ok x' => runI env { conn := { c with ext := x' } } rest := by
      intro s pr h1 h2
      unfold applyPri
      rw [h1, h2, hv.ext]
      rcases env.onPri x id pr with e | x'
      · rfl
      · rfl
    dsimp only
    unfold priOf priorityUpdate
    unfold gotElem at hrun2
    dsimp only at hrun2
    by_cases h0 : fld = []
    · rw [if_pos h0]
      rw [h0] at hrun2
      rw [if_pos (by rfl), List.nil_append, happ _ _ rfl rfl] at hrun2
      rcases hon : env.onPri x id { urgency := 3, inc := false } with e | x' <;> rw [hon] at hrun2 <;> dsimp only at hrun2 ⊢
      · exact ⟨c, hrun2, hv.ev, hv.ext, hv.long⟩
      · exact ⟨_, hrun2, hview x'⟩
    · rw [if_neg h0]
      have h0' := List.length_pos_iff.2 h0
      rw [if_neg (by omega)] at hrun2
      have hrun3 : runI env { conn := c } (bs ++ rest) =
          next env (gotField env { conn := c, st := .priField, ty := 0xf0700, left := 0, elem := id, priBuf := fld } fld rest) := by
        rw [hrun2]
        rw [show next env (.cont { conn := c, st := .priField, ty := 0xf0700, left := fld.length, elem := id } (fld ++ rest) true) =
          R env { conn := c, st := .priField, ty := 0xf0700, left := fld.length, elem := id } (fld ++ rest) true from rfl]
        have i1 : Inv Pnil ({ conn := c, st := .priField, ty := 0xf0700, left := fld.length, elem := id } : St S) :=
          ⟨rvOk_idle, fun _ => rfl, by simp, fun _ => h0', fun _ => rfl, by simp [hsv]⟩
        rw [R_next i1 (by simp [vis]) (.inr rfl)]
        unfold stepI
        rw [if_pos rfl]
        unfold priFieldI
        dsimp only
        rw [List.length_append, if_neg (by unfold FIELDBUF; simp; omega), if_pos (by omega), List.take_left, List.drop_left]
        rfl
      unfold gotField at hrun3
      rcases hpp : env.parsePri fld with _ | pr <;> rw [hpp] at hrun3 <;> dsimp only at hrun3 ⊢
      · exact ⟨c, hrun3, hv.ev, hv.ext, hv.long⟩
      · rw [happ _ _ rfl rfl] at hrun3
        rcases hon : env.onPri x id pr with e | x' <;> rw [hon] at hrun3 <;> dsimp only at hrun3 ⊢
        · exact ⟨c, hrun3, hv.ev, hv.ext, hv.long⟩
        · exact ⟨_, hrun3, hview x'⟩
  | other type payload =>
    obtain ⟨n1, n2, n3, n4, hfr⟩ := hf
    unfold verdict
    dsimp only
    by_cases hpast : past = []
    · rw [if_pos hpast]
      exact ⟨c, notfirst hpast _ _ n1 hfr, hv.ev, hv.ext, hv.long⟩
    rw [if_neg hpast]
    have hrun := later hpast _ _ n1 hfr
    unfold dispatch at hrun
    dsimp only at hrun
    rw [if_neg (show ¬ type = FRAME_SETTINGS from n1), if_neg (show ¬ type = FRAME_GOAWAY from n2), if_neg (show ¬ type = FRAME_MAX_PUSH_ID from n3),
      if_neg (show ¬ type = FRAME_PRIORITY_UPDATE from n4)] at hrun
    by_cases h1 : type = 0x0f0701
    · rw [if_pos h1]
      rw [if_pos (show type = FRAME_PRIORITY_UPDATE_PUSH_ID from h1)] at hrun
      exact ⟨c, hrun, hv.ev, hv.ext, hv.long⟩
    rw [if_neg h1]
    rw [if_neg (show ¬ type = FRAME_PRIORITY_UPDATE_PUSH_ID from h1)] at hrun
    have hfb : refused type = true ↔ Forbidden type := by
      unfold refused Forbidden
      rw [decide_eq_true_iff]
      simp only [FRAME_CANCEL_PUSH, FRAME_DATA, FRAME_HEADERS, FRAME_PUSH_PROMISE, H2_FRAME_PRIORITY, H2_FRAME_PING,
        H2_FRAME_WINDOW_UPDATE, H2_FRAME_CONTINUATION, List.mem_cons, List.not_mem_nil, or_false]
      omega
    by_cases h2 : Forbidden type
    · rw [if_pos h2]
      rw [if_pos (hfb.2 h2)] at hrun
      exact ⟨c, hrun, hv.ev, hv.ext, hv.long⟩
    · rw [if_neg h2]
      rw [if_neg (fun h => h2 (hfb.1 h))] at hrun
      dsimp only
      refine ⟨c, ?_, ?_⟩
      · rw [hrun]
        exact run_ign c type payload rest
      · refine ⟨hv.sv, ?_, by simp, hset [.other type payload] (by simp) hpast, ?_, hv.ext, hv.long, ?_, ?_⟩
        · rw [hv.recved]; simp [hpast]
        · rw [reports_snoc, show reports server [.other type payload] = [] from rfl, List.append_nil]; exact hv.ev
        · intro id' hid'
          rw [hv.goaway id' hid']
          constructor
          · rintro ⟨i, hi, h⟩; exact ⟨i, by simp [hi], h⟩
          · rintro ⟨i, hi, h⟩
            rcases (mem_snoc _).1 hi with h' | h'
            · exact ⟨i, h', h⟩
            · cases h'
        · intro id'
          rw [hv.push id']
          constructor
          · rintro ⟨i, hi, h⟩; exact ⟨i, by simp [hi], h⟩
          · rintro ⟨i, hi, h⟩
            rcases (mem_snoc _).1 hi with h' | h'
            · exact ⟨i, h', h⟩
            · cases h'

/-- the frames accepted so far start with SETTINGS -/
theorem first_of_verdict {server : Bool} {past : List Frame} {f : Frame} (hfirst : past ≠ [] → ∃ ivs t, past = .settings ivs :: t)
    (h : verdict server past f = none) : ∃ ivs t, past ++ [f] = Frame.settings ivs :: t := by
  by_cases hp : past = []
  · subst hp
    cases f with
    | settings ivs => exact ⟨ivs, [], rfl⟩
    | _ => unfold verdict at h; simp at h
  · obtain ⟨ivs, t, rfl⟩ := hfirst hp
    exact ⟨ivs, t ++ [f], rfl⟩

/-- a sequence of frames -/
theorem run_all (hcb : ∀ l, env.cb l = true) {server : Bool} {e0 : Qpack.Enc} {fs : List Frame} {bs : Bytes} (h : EncodesAll fs bs)
    (hshort : ∀ id fld, Frame.priorityUpdate id fld ∈ fs → fld.length ≤ 8) (past : List Frame) (x : S) (c : Conn S)
    (hv : View server e0 past x c) (hfirst : past ≠ [] → ∃ ivs t, past = .settings ivs :: t) :
    match outcome server (priOf env) past x fs with
    | .accepted past' x' => ∃ c', runI env { conn := c } bs = .ok { conn := c' } ∧ View server e0 past' x' c'
    | .refused past' x' e => ∃ c', runI env { conn := c } bs = .fail (e, c') ∧ c'.ev.map toReport = reports server past' ∧ c'.ext = x' ∧ c'.long = false := by
  induction h generalizing past x c with
  | nil => exact ⟨c, R_nil, hv⟩
  | @cons f fs b bs hf hfs ih =>
    have h1 := run_one (env := env) hcb hv hfirst hf (fun id fld h => hshort id fld (by simp [h])) bs
    have hsh : ∀ id fld, Frame.priorityUpdate id fld ∈ fs → fld.length ≤ 8 := fun id fld h => hshort id fld (by simp [h])
    unfold outcome
    rcases hvd : verdict server past f with _ | e <;> rw [hvd] at h1 <;> dsimp only at h1 ⊢
    · have hf' := first_of_verdict hfirst hvd
      cases f with
      | priorityUpdate id fld =>
        dsimp only at h1 ⊢
        rcases hp : priOf env x id fld with e | x' <;> rw [hp] at h1 <;> dsimp only at h1 ⊢
        · exact h1
        · obtain ⟨c', hr, hv'⟩ := h1
          rw [hr]
          exact ih hsh _ _ _ hv' (fun _ => hf')
      | settings _ =>
        obtain ⟨c', hr, hv'⟩ := h1
        rw [hr]
        exact ih hsh _ _ _ hv' (fun _ => hf')
      | goaway _ =>
        obtain ⟨c', hr, hv'⟩ := h1
        rw [hr]
        exact ih hsh _ _ _ hv' (fun _ => hf')
      | maxPushId _ =>
        obtain ⟨c', hr, hv'⟩ := h1
        rw [hr]
        exact ih hsh _ _ _ hv' (fun _ => hf')
      | other _ _ =>
        obtain ⟨c', hr, hv'⟩ := h1
        rw [hr]
        exact ih hsh _ _ _ hv' (fun _ => hf')
    · exact h1

end Control
end Nghttp3
