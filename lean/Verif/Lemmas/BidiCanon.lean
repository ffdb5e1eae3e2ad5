import Verif.Lemmas.BidiHist
/-! A request stream, up to the way its buffers and events are cut into pieces. -/
namespace Nghttp3
namespace Bidi
open Http Qpack

def ARes.shift (o : List Obs) (k : Nat) : ARes → ARes
  | .ok s d o' n rest => .ok s d (o ++ o') (k + n) rest
  | r => r

def ARes.mapS (f : Str → Str) : ARes → ARes
  | .ok s d o n rest => .ok (f s) d o n rest
  | r => r

theorem norm_setf (s : Str) (q : List Buf) (sh e cl g : Bool) : (s.setf q sh e cl g).norm = s.norm.setf q sh e cl g := by
  unfold Str.norm
  by_cases h : s.rst = .ignRest
  · rw [if_pos (by exact h), if_pos h]; rfl
  · rw [if_neg (by exact h), if_neg h]

/-! ### runs -/

def chg (q : List Buf) (sh e cl g : Bool) (o : List Obs) (k : Nat) (m : M) : M := ⟨m.s.setf q sh e cl g, m.d, o ++ m.ev, k + m.n⟩
def chgStop (q : List Buf) (sh e cl g : Bool) (o : List Obs) (k : Nat) : Stop → Stop
  | .err x => .err x
  | .blocked m => .blocked (chg q sh e cl g o k m)

theorem mStep_chg (q : List Buf) (sh e cl g : Bool) (o : List Obs) (k : Nat) (c : Cfg) (room : Bool) (m : M) (x : Bytes) :
    mStep c room (chg q sh e cl g o k m) x = (mStep c room m x).map (chg q sh e cl g o k) (chgStop q sh e cl g o k) := by
  unfold mStep
  show view _ (step c room false (m.s.setf q sh e cl g) m.d x) = _
  rw [step_setf]
  rcases step c room false m.s m.d x with _ | _ | ⟨s', d', rest, b', ev', n'⟩ | ⟨s', d', ev', n'⟩ | ⟨s', d', rest, ev', n'⟩
  · rfl
  · rfl
  · dsimp only [BRes.mapS, view]
    rw [show (s'.setf q sh e cl g).rst = s'.rst from rfl]
    by_cases h : s'.rst = .ignRest
    · rw [if_pos h, if_pos h, norm_setf]
      simp only [Machine.Res.map, chg, List.append_assoc, Nat.add_assoc]
    · rw [if_neg h, if_neg h]
      simp only [Machine.Res.map, chg, List.append_assoc, Nat.add_assoc]
  · simp only [BRes.mapS, view, Machine.Res.map, chg, List.append_assoc, Nat.add_assoc]
  · simp only [BRes.mapS, view, Machine.Res.map, chgStop, chg, List.append_assoc, Nat.add_assoc]

abbrev bRun (c : Cfg) (room : Bool) (m : M) (x : Bytes) : Machine.Out M Stop := Machine.run (mStep c room) rank m x false

theorem run_chg (q : List Buf) (sh e cl g : Bool) (o : List Obs) (k : Nat) (c : Cfg) (room : Bool) (m : M) (x : Bytes) :
    bRun c room (chg q sh e cl g o k m) x = (bRun c room m x).map (chg q sh e cl g o k) (chgStop q sh e cl g o k) :=
  Machine.run_map _ _ (mStep_chg q sh e cl g o k c room) (fun _ => rfl) m x false

/-- facts about the end of a run -/
theorem run_facts (c : Cfg) (room : Bool) (s : Str) (d : Dec) (o : List Obs) (k : Nat) (x : Bytes) (hi : Inv s d) (hb : s.blocked = false) :
    match bRun c room ⟨s, d, o, k⟩ x with
    | .crash => False
    | .fail (.err _) => True
    | .fail (.blocked _) => False
    | .stop (.err _) _ => False
    | .stop (.blocked m) _ => Flags s m.s ∧ m.s.blocked = true ∧ m.s.rst = .headers
    | .ok m => Inv m.s m.d ∧ Flags s m.s ∧ m.s.blocked = false := by
  have g := bidi_good c room
  have hsafe := Machine.loop_safe g (8 * x.length + rank ⟨s, d, o, k⟩ + 1) ⟨s, d, o, k⟩ x false hi (by simp) (Nat.lt_succ_self _)
  change bRun c room ⟨s, d, o, k⟩ x ≠ .crash ∧ ∀ s', bRun c room ⟨s, d, o, k⟩ x = .ok s' → Inv s'.s s'.d at hsafe
  have hft : ∀ {a b c : Str}, Flags a b → Flags b c → Flags a c := by
    intro a b c h1 h2
    exact ⟨h2.1.trans h1.1, h2.2.1.trans h1.2.1, h2.2.2.1.trans h1.2.2.1, h2.2.2.2.1.trans h1.2.2.2.1, h2.2.2.2.2.trans h1.2.2.2.2⟩
  have hnf : ∀ {a : Str}, Flags a a.norm := by
    intro a; have := norm_flags a; exact ⟨this.1, this.2.2.1, this.2.2.2.1, this.2.2.2.2.1, this.2.2.2.2.2⟩
  have hk := Machine.run_keeps g (fun m => Flags s m.s ∧ m.s.blocked = false)
    (fun st => match st with | .err _ => True | .blocked m => Flags s m.s ∧ m.s.blocked = true ∧ m.s.rst = .headers) (by
      intro m x hi hx ⟨hf, hb⟩
      have hacc := step_acc c room false m.s m.d x hi (hx.imp id fun h => (vis_iff m).1 h)
      have hfl := step_flags c room false m.s m.d x
      unfold mStep
      rcases hs : step c room false m.s m.d x with _ | e | ⟨s', d', rest, b', ev', n'⟩ | ⟨s', d', ev', n'⟩ | ⟨s', d', rest, ev', n'⟩ <;> rw [hs] at hacc hfl <;> dsimp only [view] at hacc hfl ⊢
      · by_cases h : s'.rst = .ignRest
        · rw [if_pos h]
          exact ⟨hft (hft hf hfl) hnf, (norm_flags s').2.1.trans (hacc.2.2.1.trans hb)⟩
        · rw [if_neg h]
          exact ⟨hft hf hfl, hacc.2.2.1.trans hb⟩
      · exact ⟨hft hf hfl, hacc.2.1.trans hb⟩
      · exact ⟨hft hf hfl, hacc.2.1, hacc.2.2.2.2.2⟩) ⟨s, d, o, k⟩ x false hi (by simp) ⟨⟨rfl, rfl, rfl, rfl, rfl⟩, hb⟩
  -- the loop only fails with an error and only stops when blocked
  have hshape : ∀ f m x b, match Machine.loop (mStep c room) f m x b with
      | .fail (.blocked _) => False
      | .stop (.err _) _ => False
      | _ => True := by
    intro f
    induction f with
    | zero => intro m x b; trivial
    | succ f ih =>
      intro m x b
      unfold Machine.loop
      by_cases h0 : x = [] ∧ b = false
      · rw [if_pos h0]; trivial
      rw [if_neg h0]
      unfold mStep
      rcases hs : step c room false m.s m.d x with _ | e | ⟨s', d', rest, b', ev', n'⟩ | ⟨s', d', ev', n'⟩ | ⟨s', d', rest, ev', n'⟩ <;> dsimp only [view]
      by_cases h : s'.rst = .ignRest
      · rw [if_pos h]; trivial
      · rw [if_neg h]; exact ih _ _ _
  have hsh : match bRun c room ⟨s, d, o, k⟩ x with
      | .fail (.blocked _) => False
      | .stop (.err _) _ => False
      | _ => True := hshape _ _ _ _
  unfold bRun at hsafe hsh ⊢
  rcases hr : Machine.run (mStep c room) rank ⟨s, d, o, k⟩ x false with _ | (_ | _) | ⟨_ | _, _⟩ | m <;> rw [hr] at hk hsh <;> dsimp only at hk hsh ⊢
  · exact hsafe.1 hr
  · exact hk
  · exact ⟨hsafe.2 m hr, hk⟩

/-! ### one call -/

def aFinish (fin : Bool) : Machine.Out M Stop → ARes
  | .crash => .crash
  | .fail (.err e) => .fail e
  | .fail (.blocked _) => .crash
  | .stop (.err _) _ => .crash
  | .stop (.blocked m) rest => .ok { m.s.norm with inq := pack rest } m.d m.ev m.n []
  | .ok m => aDone fin m

def aBidi (c : Cfg) (room fin : Bool) (s : Str) (d : Dec) (x : Bytes) : ARes := aFinish fin (bRun c room ⟨s, d, [], 0⟩ x)

theorem aDone_shift (fin : Bool) (s : Str) (d : Dec) (o o' : List Obs) (k k' : Nat) :
    aDone fin ⟨s, d, o ++ o', k + k'⟩ = (aDone fin ⟨s, d, o', k'⟩).shift o k := by
  unfold aDone
  dsimp only
  cases fin
  · rfl
  simp only [if_true]
  generalize s.rst = r
  cases r <;> dsimp only <;> try rfl
  by_cases h0 : s.rv.left ≠ 0
  · rw [if_pos h0, if_pos h0]; rfl
  · rw [if_neg h0, if_neg h0]
    rcases transit s.h s.http .msgEnd with _ | _ | _ | h' <;> dsimp only [ARes.shift]
    rw [List.append_assoc]

theorem aFinish_shift (fin : Bool) (c : Cfg) (room : Bool) (s : Str) (d : Dec) (o : List Obs) (k : Nat) (x : Bytes) (hi : Inv s d) (hb : s.blocked = false) :
    aFinish fin (bRun c room ⟨s, d, o, k⟩ x) = (aBidi c room fin s d x).shift o k := by
  have h := run_chg s.inq s.shutRd s.eof s.closed s.gone o k c room ⟨s, d, [], 0⟩ x
  have e : chg s.inq s.shutRd s.eof s.closed s.gone o k ⟨s, d, [], 0⟩ = ⟨s, d, o, k⟩ := by
    unfold chg; dsimp only; rw [setf_self, List.append_nil, Nat.add_zero]
  rw [e] at h
  rw [h]
  unfold aBidi
  have hf := run_facts c room s d [] 0 x hi hb
  have hset : ∀ s' : Str, Flags s s' → s'.setf s.inq s.shutRd s.eof s.closed s.gone = s' := by
    intro s' hf; unfold Str.setf; rw [← hf.1, ← hf.2.1, ← hf.2.2.1, ← hf.2.2.2.1, ← hf.2.2.2.2]
  rcases hr : bRun c room ⟨s, d, [], 0⟩ x with _ | (_ | _) | ⟨_ | m, rest⟩ | m <;> rw [hr] at hf <;> dsimp only at hf <;> dsimp only [Machine.Out.map, chgStop, aFinish]
  · rfl
  · unfold chg; dsimp only; rw [hset _ hf.1]; rfl
  · unfold chg; rw [hset _ hf.2.1, aDone_shift]

theorem aBidi_norm (c : Cfg) (room fin : Bool) (s : Str) (d : Dec) (x : Bytes) : aBidi c room fin s.norm d x = aBidi c room fin s d x := by
  by_cases h : s.rst = .ignRest
  · have hst : ∀ s : Str, s.rst = .ignRest → bRun c room ⟨s, d, [], 0⟩ x = .ok ⟨s, d, [], x.length⟩ := by
      intro s h
      unfold bRun Machine.run Machine.loop
      by_cases hx : x = []
      · subst hx; simp
      · rw [if_neg (by simp [hx])]
        have : mStep c room ⟨s, d, [], 0⟩ x = .ret ⟨s, d, [], x.length⟩ := by
          unfold mStep step; dsimp only; rw [h]; dsimp only [view]; rw [Nat.zero_add]; rfl
        rw [this]
    unfold aBidi
    rw [hst s h, hst _ (by rw [norm_rst]; exact h)]
    exact aDone_norm fin s d [] x.length
  · rw [norm_of_ne h]

theorem aFinish_false_ok {m : M} : aFinish false (.ok m) = .ok m.s.norm m.d m.ev m.n [] := rfl

theorem Flags.norm {s s' : Str} (h : Flags s s') : Flags s s'.norm := by
  have := norm_flags s'
  exact ⟨this.1.trans h.1, this.2.2.1.trans h.2.1, this.2.2.2.1.trans h.2.2.1, this.2.2.2.2.1.trans h.2.2.2.1, this.2.2.2.2.2.trans h.2.2.2.2⟩

theorem Inv.norm {s : Str} {d : Dec} (h : Inv s d) : Inv s.norm d := by
  by_cases hr : s.rst = .ignRest
  · exact norm_inv h.ctx hr
  · rw [norm_of_ne hr]; exact h

theorem buffered_pack (s : Str) (x : Bytes) : buffered { s with inq := pack x } = x := (pack_flat x).1

/-- two pieces -/
theorem aBidi_append (c : Cfg) (room fin : Bool) (s : Str) (d : Dec) (x y : Bytes) (hi : Inv s d) (hb : s.blocked = false) :
    aBidi c room fin s d (x ++ y) =
      match aBidi c room false s d x with
      | .ok s' d' o n _ => (if s'.blocked then .ok { s' with inq := pack (buffered s' ++ y) } d' [] 0 [] else aBidi c room fin s' d' y).shift o n
      | r => r := by
  have hf := run_facts c room s d [] 0 x hi hb
  have ha := Machine.run_append' (bidi_good c room) ⟨s, d, [], 0⟩ x y false hi (by simp)
  conv_lhs => unfold aBidi bRun
  rw [ha]
  conv_rhs => unfold aBidi bRun
  unfold bRun at hf
  rcases hr : Machine.run (mStep c room) rank ⟨s, d, [], 0⟩ x false with _ | (_ | _) | ⟨_ | m, rest⟩ | m <;> rw [hr] at hf <;> dsimp only at hf ⊢
  · rfl
  · dsimp only [aFinish]
    rw [if_pos (by rw [(norm_flags m.s).2.1]; exact hf.2.1), buffered_pack]
    simp only [ARes.shift, List.append_nil, Nat.add_zero]
  · rw [aFinish_false_ok]
    dsimp only
    rw [if_neg (by rw [(norm_flags m.s).2.1, hf.2.2]; simp), show aFinish fin (Machine.run (mStep c room) rank m y false) = aFinish fin (bRun c room ⟨m.s, m.d, m.ev, m.n⟩ y) from rfl,
      aFinish_shift fin c room m.s m.d m.ev m.n y hf.1 hf.2.2]
    rw [show aFinish fin (Machine.run (mStep c room) rank ⟨m.s.norm, m.d, [], 0⟩ y false) = aBidi c room fin m.s.norm m.d y from rfl, aBidi_norm]

theorem aBidi_safe (c : Cfg) (room fin : Bool) (s : Str) (d : Dec) (x : Bytes) (hi : Inv s d) (hb : s.blocked = false) :
    aBidi c room fin s d x ≠ .crash := by
  have hf := run_facts c room s d [] 0 x hi hb
  unfold aBidi
  rcases hr : bRun c room ⟨s, d, [], 0⟩ x with _ | (_ | _) | ⟨_ | m, rest⟩ | m <;> rw [hr] at hf <;> dsimp only at hf <;> dsimp only [aFinish]
  · simp
  · simp
  · unfold aDone
    cases fin
    · simp
    simp only [if_true]
    have hk := hf.1.hok
    rcases hrr : m.s.rst with _ | _ | _ | _ | _ | _ <;> dsimp only <;> try simp
    by_cases h0 : m.s.rv.left = 0
    · rw [if_pos h0]
      rw [hrr] at hk
      have := (transit_begin (Or.inl rfl) hk m.s.http).1 .msgEnd (Or.inr (Or.inr rfl))
      rcases ht : transit m.s.h m.s.http .msgEnd with _ | _ | _ | h' <;> simp
      exact this ht
    · rw [if_neg h0]; simp

/-- the fields a call does not look at -/
theorem aDone_setf (q : List Buf) (sh e cl g : Bool) (fin : Bool) (s : Str) (d : Dec) (o : List Obs) (k : Nat) :
    aDone fin ⟨s.setf q sh e cl g, d, o, k⟩ = (aDone fin ⟨s, d, o, k⟩).mapS (·.setf q sh e cl g) := by
  unfold aDone
  dsimp only
  cases fin
  · simp only [Bool.false_eq_true, if_false, ARes.mapS]; rw [norm_setf]
  simp only [if_true]
  rw [show (s.setf q sh e cl g).rst = s.rst from rfl]
  generalize s.rst = r
  cases r <;> dsimp only <;> try rfl
  · rw [show (s.setf q sh e cl g).rv = s.rv from rfl, show (s.setf q sh e cl g).h = s.h from rfl, show (s.setf q sh e cl g).http = s.http from rfl]
    by_cases h0 : s.rv.left ≠ 0
    · rw [if_pos h0, if_pos h0]; rfl
    · rw [if_neg h0, if_neg h0]
      rcases transit s.h s.http .msgEnd with _ | _ | _ | h' <;> dsimp only [ARes.mapS]
      rw [← norm_setf]; rfl
  · rw [norm_setf]; rfl

theorem aBidi_eof (c : Cfg) (room fin : Bool) (s : Str) (d : Dec) (x : Bytes) (e : Bool) (hi : Inv s d) (hb : s.blocked = false) :
    aBidi c room fin { s with eof := e } d x = (aBidi c room fin s d x).mapS fun s => { s with eof := e } := by
  have h := run_chg s.inq s.shutRd e s.closed s.gone [] 0 c room ⟨s, d, [], 0⟩ x
  have e1 : chg s.inq s.shutRd e s.closed s.gone [] 0 ⟨s, d, [], 0⟩ = ⟨{ s with eof := e }, d, [], 0⟩ := rfl
  rw [e1] at h
  unfold aBidi
  rw [h]
  have hset : ∀ s' : Str, Flags s s' → s'.setf s.inq s.shutRd e s.closed s.gone = { s' with eof := e } := by
    intro s' hf; unfold Str.setf; rw [← hf.1, ← hf.2.1, ← hf.2.2.2.1, ← hf.2.2.2.2]
  have hf := run_facts c room s d [] 0 x hi hb
  rcases hr : bRun c room ⟨s, d, [], 0⟩ x with _ | (_ | _) | ⟨_ | m, rest⟩ | m <;> rw [hr] at hf <;> dsimp only at hf <;> dsimp only [Machine.Out.map, chgStop, aFinish]
  · rfl
  · unfold chg; dsimp only [ARes.mapS]; rw [norm_setf, hset _ hf.1.norm, List.nil_append, Nat.zero_add]
  · unfold chg
    rw [aDone_setf, List.nil_append, Nat.zero_add]
    have : (aDone fin m).mapS (·.setf s.inq s.shutRd e s.closed s.gone) = (aDone fin m).mapS fun s => { s with eof := e } := by
      have hd : match aDone fin m with
          | .ok s' _ _ _ _ => Flags s s'
          | _ => True := by
        unfold aDone
        cases fin
        · exact hf.2.1.norm
        simp only [if_true]
        rcases m.s.rst with _ | _ | _ | _ | _ | _ <;> dsimp only <;> try trivial
        · split_ifs
          · trivial
          · rcases transit m.s.h m.s.http .msgEnd with _ | _ | _ | h' <;> dsimp only
            exact Flags.norm (s' := { m.s with h := h', rst := .frameType }) ⟨hf.2.1.1, hf.2.1.2⟩
        · exact hf.2.1.norm
      rcases hq : aDone fin m with _ | _ | ⟨s', d', o', n', r'⟩ <;> rw [hq] at hd <;> dsimp only at hd <;> dsimp only [ARes.mapS]
      rw [hset _ hd]
    exact this

end Bidi
end Nghttp3
