import Verif.Model.Bidi
import Verif.Props.QpackDec
/-! Reading a field section piece by piece through nghttp3_conn_on_headers. -/
namespace Nghttp3
namespace Bidi
open Http Qpack

/-! ### the QPACK decoder -/

theorem rsLoop_blocked_len (d : Dec) (f : Nat) (s : SCtx) (x : Bytes) (b fin : Bool) :
    (∀ d' s' rest, rsLoop f d s x b fin = .blocked d' s' rest → rest.length ≤ x.length ∧ s'.state = .blocked) := by
  induction f generalizing s x b with
  | zero => intro d' s' rest h; simp [rsLoop] at h
  | succ f ih =>
    intro d' s' rest h
    unfold rsLoop at h
    by_cases h0 : x = [] ∧ b = false
    · rw [if_pos h0] at h
      unfold almostOk at h
      split_ifs at h
      rcases hw : d.writeSectionAck s with _ | d'' <;> rw [hw] at h <;> cases h
    · rw [if_neg h0] at h
      have hm := rsStep_more d.ctx s x
      rcases hr : rsStep d.ctx s x with _ | e | ⟨s1, r1, b1⟩ | ⟨s1, r1⟩ | ⟨s1, nv, r1⟩ | ⟨s1, r1⟩ <;> rw [hr] at h hm <;> dsimp only at h hm
      · cases h
      · cases h
      · have := ih s1 r1 b1 d' s' rest h
        exact ⟨Nat.le_trans this.1 hm.2, this.2⟩
      · exfalso
        unfold almostOk at h
        split_ifs at h
        rcases hw : d.writeSectionAck s1 with _ | d'' <;> rw [hw] at h <;> cases h
      · cases h
      · cases h; exact ⟨hm.2.1, hm.2.2.1⟩

theorem readRequest_blocked_len {d d' : Dec} {s s' : SCtx} {x rest : Bytes} {fin : Bool} (h : d.readRequest s x fin = .blocked d' s' rest) :
    rest.length ≤ x.length ∧ s'.state = .blocked := by
  unfold Dec.readRequest at h
  split_ifs at h
  exact rsLoop_blocked_len d _ s x false fin d' s' rest h

theorem rsLoop_stop (d : Dec) (f : Nat) (s : SCtx) (x : Bytes) (b : Bool) :
    (∀ d' s', rsLoop f d s x b false ≠ .final d' s') ∧ (∀ d' s', rsLoop f d s x b true ≠ .more d' s') := by
  have ha : (∀ s d' s', almostOk d s false ≠ .final d' s') ∧ (∀ s d' s', almostOk d s true ≠ .more d' s') := by
    constructor
    · intro s d' s' h; unfold almostOk at h; simp at h
    · intro s d' s' h; unfold almostOk at h
      split_ifs at h
      · rcases hw : d.writeSectionAck s with _ | d'' <;> rw [hw] at h <;> cases h
      · exact absurd rfl (by assumption)
  induction f generalizing s x b with
  | zero => exact ⟨by simp [rsLoop], by simp [rsLoop]⟩
  | succ f ih =>
    unfold rsLoop
    by_cases h0 : x = [] ∧ b = false
    · simp only [h0, and_self, if_true]; exact ⟨ha.1 s, ha.2 s⟩
    · rw [if_neg h0, if_neg h0]
      rcases hr : rsStep d.ctx s x with _ | e | ⟨s1, r1, b1⟩ | ⟨s1, r1⟩ | ⟨s1, nv, r1⟩ | ⟨s1, r1⟩ <;> dsimp only
      · simp
      · simp
      · exact ih _ _ _
      · exact ⟨ha.1 s1, ha.2 s1⟩
      · simp
      · simp

/-- facts about a piece of a section -/
theorem secLoop_safe {d : Dec} (hc : CtxOk d.ctx) (fin : Bool) (f : Nat) (s : SCtx) (x : Bytes) (acc : List QNv) (hw : SWF s) (hi : Idle s)
    (hf : x.length < f) :
    match (secLoop f d s x fin acc).2 with
    | .crash => False
    | .fail _ _ => True
    | .more d' s' => d' = d ∧ SWF s' ∧ Idle s' 
    | .final d' _ => d'.ctx = d.ctx ∧ fin = true
    | .emit _ _ _ _ => False
    | .blocked d' s' rest => d' = d ∧ SWF s' ∧ Idle s' ∧ d.ctx.next < s'.ricnt ∧ rest.length ≤ x.length ∧ s'.state = .blocked := by
  induction f generalizing s x acc with
  | zero => omega
  | succ f ih =>
    unfold secLoop
    have hs := readRequest_safe hc s hw hi x fin
    rcases hr : d.readRequest s x fin with _ | ⟨d', e⟩ | ⟨d', s'⟩ | ⟨d', s'⟩ | ⟨d', s', nv, rest⟩ | ⟨d', s', rest⟩ <;> rw [hr] at hs <;> dsimp only at hs ⊢
    · exact hs
    · refine ⟨hs.1.1, ?_⟩
      cases fin with
      | true => rfl
      | false =>
        exfalso
        unfold Dec.readRequest at hr
        split_ifs at hr
        exact (rsLoop_stop d _ s x false).1 _ _ hr
    · obtain ⟨rfl, h1, h2, h3⟩ := hs
      by_cases hl : rest.length = x.length
      · rw [if_pos hl]; exact ⟨rfl, h1, h2⟩
      · rw [if_neg hl]
        have := ih s' rest (acc ++ [nv]) h1 h2 (by omega)
        rcases hq : (secLoop f d' s' rest fin (acc ++ [nv])).2 with _ | _ | _ | _ | _ | ⟨d2, s2, r2⟩ <;> rw [hq] at this <;> dsimp only at this ⊢
        · exact this
        · exact this
        · exact ⟨this.1, this.2.1, this.2.2.1, this.2.2.2.1, by omega, this.2.2.2.2.2⟩
    · obtain ⟨rfl, h1, h2, h3⟩ := hs
      have := readRequest_blocked_len hr
      exact ⟨rfl, h1, h2, h3, this.1, this.2⟩

theorem secLoop_acc (d : Dec) (fin : Bool) (f : Nat) (s : SCtx) (x : Bytes) (a acc : List QNv) :
    secLoop f d s x fin (a ++ acc) = (a ++ (secLoop f d s x fin acc).1, (secLoop f d s x fin acc).2) := by
  induction f generalizing d s x acc with
  | zero => rfl
  | succ f ih =>
    unfold secLoop
    rcases hr : d.readRequest s x fin with _ | ⟨d', e⟩ | ⟨d', s'⟩ | ⟨d', s'⟩ | ⟨d', s', nv, rest⟩ | ⟨d', s', rest⟩ <;> dsimp only
    by_cases hl : rest.length = x.length
    · rw [if_pos hl, if_pos hl]
    · rw [if_neg hl, if_neg hl, List.append_assoc]
      exact ih _ _ _ _

/-- two pieces of a section -/
theorem readSection_append {d : Dec} (hc : CtxOk d.ctx) (hbad : d.ctx.bad = false) (s : SCtx) (hw : SWF s) (hi : Idle s) (x y : Bytes)
    (fin : Bool) :
    match d.readSection s x false with
    | (nvs, .fail _ e) => ∃ d', d.readSection s (x ++ y) fin = (nvs, .fail d' e)
    | (nvs, .blocked _ s' rest) => d.readSection s (x ++ y) fin = (nvs, .blocked d s' (rest ++ y))
    | (nvs, .more _ s') =>
      d.readSection s (x ++ y) fin = (nvs ++ (d.readSection s' y fin).1, (d.readSection s' y fin).2)
    | _ => False := by
  have g := rsM_good hc
  rw [readSection_run hc hbad s x false hw hi, readSection_run hc hbad s _ fin hw hi,
    show rsRun d.ctx (s, []) (x ++ y) false = _ from Machine.run_append g (s, []) x _ false hw (by simp)]
  have hsafe := Machine.loop_safe g (8 * x.length + s.state.rank + 1) (s, []) x false hw (by simp) (by simp)
  have hidle := rsRun_idle (c := d.ctx) (8 * x.length + s.state.rank + 1) (s, []) x false (Or.inl hi)
  have hshape := Props.rsRun_shape (c := d.ctx) (8 * x.length + s.state.rank + 1) (s, []) x false
  change rsRun d.ctx (s, []) x false ≠ _ ∧ ∀ s', rsRun d.ctx (s, []) x false = _ → _ at hsafe
  change ∀ p', rsRun d.ctx (s, []) x false = _ → _ at hidle
  change (∀ s' acc, rsRun d.ctx (s, []) x false ≠ _) ∧ (∀ e acc r, rsRun d.ctx (s, []) x false ≠ _) at hshape
  rw [show Machine.run (rsM d.ctx) (fun p => p.1.state.rank) (s, []) x false = rsRun d.ctx (s, []) x false from rfl]
  rcases hx : rsRun d.ctx (s, []) x false with _ | ⟨_ | _⟩ | ⟨_ | _, r⟩ | ⟨s', acc⟩
  · exact absurd hx hsafe.1
  · exact ⟨_, rfl⟩
  · exact absurd hx (hshape.1 _ _)
  · exact absurd hx (hshape.2 _ _ _)
  · rfl
  · have hw' : SWF s' := hsafe.2 _ hx
    have hi' : Idle s' := hidle _ hx
    have : secOut d false (.ok (s', acc)) = (acc, .more d s') := rfl
    rw [this]
    dsimp only
    rw [readSection_run hc hbad s' _ fin hw' hi']
    by_cases hy : y = []
    · rw [if_pos hy, hy]
      have : rsRun d.ctx (s', []) [] false = .ok (s', []) := by
        rw [rsRun, Machine.run_eq g hw' (by simp)]; simp
      rw [this]
      simp [secOut]
    · rw [if_neg hy]
      have hsafe' := Machine.loop_safe g (8 * y.length + s'.state.rank + 1) (s', []) y false hw' (by simp) (by simp)
      have hshape' := Props.rsRun_shape (c := d.ctx) (8 * y.length + s'.state.rank + 1) (s', []) y false
      have := rsRun_pre d.ctx acc s' y false
      unfold rsRun at this
      rw [this]
      exact Props.secOut_pre d fin acc (rsRun d.ctx (s', []) y false) hsafe'.1 hshape'.1 hshape'.2

/-! ### with the HTTP layer -/

/-- the fields of a list, one by one; `none`: malformed -/
def fields (c : Cfg) (h : Hs) (http : State) : List QNv → List Ev × Option State
  | [] => ([], some http)
  | nv :: t =>
    match fieldRes c h http nv with
    | .malformed => ([], none)
    | .remove http' => fields c h http' t
    | .ok http' => (fieldEv h nv :: (fields c h http' t).1, (fields c h http' t).2)

theorem fields_cons (c : Cfg) (h : Hs) (http : State) (nv : QNv) (t : List QNv) :
    fields c h http (nv :: t) =
      match fieldRes c h http nv with
      | .malformed => ([], none)
      | .remove http' => fields c h http' t
      | .ok http' => (fieldEv h nv :: (fields c h http' t).1, (fields c h http' t).2) := rfl

theorem fields_append (c : Cfg) (h : Hs) (http : State) (a b : List QNv) :
    fields c h http (a ++ b) =
      match (fields c h http a).2 with
      | none => fields c h http a
      | some http' => ((fields c h http a).1 ++ (fields c h http' b).1, (fields c h http' b).2) := by
  induction a generalizing http with
  | nil => rfl
  | cons nv t ih =>
    rw [List.cons_append, fields_cons, fields_cons]
    rcases fieldRes c h http nv with _ | http' | http' <;> dsimp only
    · exact ih http'
    · rw [ih http']
      rcases hq : (fields c h http' t).2 with _ | http'' <;> dsimp only
      · rw [hq]
      · rw [List.cons_append]

/-- the end of a section with a given message state -/
def mkRes (http : State) : ROut → DRes
  | .crash => .crash
  | .fail _ e => .fail (qerr e)
  | .more d s => .more d s http
  | .final d s => .done d (SCtx.init s.streamId) http
  | .blocked d s rest => .blocked d s http rest
  | .emit _ _ _ _ => .crash

/-- decoding first and handing the fields to the HTTP layer afterwards -/
def post (c : Cfg) (h : Hs) (d : Dec) (http : State) (p : List QNv × ROut) : List Ev × DRes :=
  match fields c h http p.1 with
  | (ev, none) => (ev, .malformed d)
  | (ev, some http') => (ev, mkRes http' p.2)

theorem decLoop_post (c : Cfg) (h : Hs) {d : Dec} (hc : CtxOk d.ctx) (fin : Bool) (f : Nat) (s : SCtx) (http : State) (x : Bytes) (acc : List Ev)
    (hw : SWF s) (hi : Idle s) (hf : x.length < f) :
    decLoop c h f d s http x fin acc =
      (acc ++ (post c h d http (secLoop f d s x fin [])).1, (post c h d http (secLoop f d s x fin [])).2) := by
  induction f generalizing s http x acc with
  | zero => omega
  | succ f ih =>
    unfold decLoop secLoop
    have hs := readRequest_safe hc s hw hi x fin
    rcases hr : d.readRequest s x fin with _ | ⟨d', e⟩ | ⟨d', s'⟩ | ⟨d', s'⟩ | ⟨d', s', nv, rest⟩ | ⟨d', s', rest⟩ <;> rw [hr] at hs <;> dsimp only at hs ⊢
    · simp [post, fields, mkRes]
    · simp [post, fields, mkRes]
    · simp [post, fields, mkRes]
    · obtain ⟨rfl, h1, h2, h3⟩ := hs
      by_cases hl : rest.length = x.length
      · rw [if_pos hl, if_pos hl]; simp [post, fields, mkRes]
      · rw [if_neg hl, if_neg hl, show ([] : List QNv) ++ [nv] = [nv] ++ [] from rfl, secLoop_acc]
        unfold post
        dsimp only
        rw [List.cons_append, List.nil_append, fields]
        rcases fieldRes c h http nv with _ | http' | http' <;> dsimp only
        · simp
        · rw [ih s' http' rest acc h1 h2 (by omega)]; rfl
        · rw [ih s' http' rest _ h1 h2 (by omega)]
          unfold post
          rcases hq : fields c h http' (secLoop f d' s' rest fin []).1 with ⟨ev, _ | h2⟩ <;> simp
    · simp [post, fields, mkRes]

theorem onHeaders_post (c : Cfg) (h : Hs) {d : Dec} (hc : CtxOk d.ctx) (fin : Bool) (s : SCtx) (http : State) (x : Bytes)
    (hw : SWF s) (hi : Idle s) (hx : ¬ (x = [] ∧ fin = false)) :
    onHeaders c h d s http x fin = post c h d http (d.readSection s x fin) := by
  unfold onHeaders
  rw [if_neg hx, decLoop_post c h hc fin _ s http x [] hw hi (by omega), List.nil_append]
  rfl

/-- facts about one call -/
theorem onHeaders_safe (c : Cfg) (h : Hs) {d : Dec} (hc : CtxOk d.ctx) (fin : Bool) (s : SCtx) (http : State) (x : Bytes)
    (hw : SWF s) (hi : Idle s) :
    match (onHeaders c h d s http x fin).2 with
    | .crash => False
    | .fail _ => True
    | .malformed d' => d' = d
    | .more d' s' _ => d' = d ∧ SWF s' ∧ Idle s'
    | .done d' s' _ => d'.ctx = d.ctx ∧ SWF s' ∧ Idle s' ∧ fin = true
    | .blocked d' s' _ rest => d' = d ∧ SWF s' ∧ Idle s' ∧ d.ctx.next < s'.ricnt ∧ rest.length ≤ x.length ∧ s'.state = .blocked := by
  by_cases hx : x = [] ∧ fin = false
  · unfold onHeaders; rw [if_pos hx]; exact ⟨rfl, hw, hi⟩
  · rw [onHeaders_post c h hc fin s http x hw hi hx]
    have := secLoop_safe hc fin (x.length + 1) s x [] hw hi (by omega)
    change match (d.readSection s x fin).2 with
      | .crash => False
      | .fail _ _ => True
      | .more d' s' => d' = d ∧ SWF s' ∧ Idle s' 
      | .final d' _ => d'.ctx = d.ctx ∧ fin = true
      | .emit _ _ _ _ => False
      | .blocked d' s' rest => d' = d ∧ SWF s' ∧ Idle s' ∧ d.ctx.next < s'.ricnt ∧ rest.length ≤ x.length ∧ s'.state = .blocked at this
    unfold post
    rcases hq : fields c h http (d.readSection s x fin).1 with ⟨ev, _ | h2⟩ <;> dsimp only
    rcases hr : (d.readSection s x fin).2 with _ | _ | _ | ⟨d', s'⟩ | _ | _ <;> rw [hr] at this <;> dsimp only at this <;> simp only [mkRes]
    · exact this
    · exact ⟨this.1, SWF.init _, (fun g => by cases g), this.2⟩
    · exact this

/-- two pieces of a section with the HTTP layer -/
theorem onHeaders_append (c : Cfg) (h : Hs) {d : Dec} (hc : CtxOk d.ctx) (s : SCtx) (http : State) (hw : SWF s) (hi : Idle s) (x y : Bytes)
    (fin : Bool) (hx : x ≠ []) :
    match onHeaders c h d s http x false with
    | (_, .crash) => False
    | (_, .fail e) => ∃ ev', onHeaders c h d s http (x ++ y) fin = (ev', .fail e)
    | (ev, .malformed _) => onHeaders c h d s http (x ++ y) fin = (ev, .malformed d)
    | (ev, .more _ s' http') => onHeaders c h d s http (x ++ y) fin =
        (ev ++ (onHeaders c h d s' http' y fin).1, (onHeaders c h d s' http' y fin).2)
    | (_, .done _ _ _) => False
    | (ev, .blocked _ s' http' rest) => onHeaders c h d s http (x ++ y) fin = (ev, .blocked d s' http' (rest ++ y)) := by
  have hsafe := onHeaders_safe c h hc false s http x hw hi
  have hx1 : ¬ (x = [] ∧ false = false) := by simp [hx]
  have hx2 : ¬ (x ++ y = [] ∧ fin = false) := by simp [hx]
  rw [onHeaders_post c h hc _ s http _ hw hi hx2]
  rw [onHeaders_post c h hc _ s http _ hw hi hx1] at hsafe ⊢
  by_cases hb : d.ctx.bad = true
  · have hx : ∀ x fin, d.readSection s x fin = ([], .fail d .fatal) := by
      intro x fin
      unfold Dec.readSection secLoop Dec.readRequest
      rw [if_pos hb]
    rw [hx, hx]
    exact ⟨_, rfl⟩
  have ha := readSection_append hc (by simpa using hb) s hw hi x y fin
  have hsec := secLoop_safe hc false (x.length + 1) s x [] hw hi (by omega)
  change match (d.readSection s x false).2 with
      | .crash => False
      | .fail _ _ => True
      | .more d' s' => d' = d ∧ SWF s' ∧ Idle s' 
      | .final d' _ => d'.ctx = d.ctx ∧ false = true
      | .emit _ _ _ _ => False
      | .blocked d' s' rest => d' = d ∧ SWF s' ∧ Idle s' ∧ d.ctx.next < s'.ricnt ∧ rest.length ≤ x.length ∧ s'.state = .blocked at hsec
  rcases hr : d.readSection s x false with ⟨nvs, o⟩
  rw [hr] at ha hsafe hsec
  unfold post at hsafe ⊢
  dsimp only at hsafe hsec ⊢
  rcases hq : fields c h http nvs with ⟨ev, _ | http'⟩ <;> rw [hq] at hsafe <;> dsimp only at hsafe ⊢
  · rcases o with _ | _ | ⟨d', s'⟩ | _ | _ | _ <;> dsimp only at ha
    · obtain ⟨d', ha⟩ := ha; rw [ha]; dsimp only; rw [hq]
    · rw [ha]; dsimp only
      rw [fields_append, hq]
    · rw [ha]; dsimp only; rw [hq]
  · rcases o with _ | _ | ⟨d', s'⟩ | _ | _ | _ <;> dsimp only at ha hsec hsafe <;> simp only [mkRes]
    · obtain ⟨d', ha⟩ := ha; rw [ha]; dsimp only; rw [hq]; exact ⟨_, rfl⟩
    · obtain ⟨rfl, hw', hi'⟩ := hsec
      rw [ha]; dsimp only
      rw [fields_append, hq]
      dsimp only
      by_cases hy : y = [] ∧ fin = false
      · obtain ⟨rfl, rfl⟩ := hy
        have h1 : onHeaders c h d' s' http' [] false = ([], .more d' s' http') := by simp [onHeaders]
        have h2 : d'.readSection s' [] false = ([], .more d' s') := by
          unfold Dec.readSection secLoop Dec.readRequest
          simp only [Bool.not_eq_true] at hb
          rw [hb]
          simp [rsFuel, rsLoop, almostOk]
        rw [h1, h2]
        simp [fields]
      · rw [onHeaders_post c h hc fin s' http' y hw' hi' hy]
        unfold post
        rcases hq2 : fields c h http' (d'.readSection s' y fin).1 with ⟨ev2, _ | h2⟩ <;> simp [mkRes]
    · rw [ha]; dsimp only; rw [hq]

end Bidi
end Nghttp3
