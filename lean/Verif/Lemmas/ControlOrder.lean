import Verif.Lemmas.ControlFeed
/-! The order of the callbacks of the control stream: recv_settings once and first. -/
namespace Nghttp3
namespace Control

variable {S : Type} {env : Env S}

def Cst.set : Cst → Bool
  | .settings => true
  | .settingId => true
  | .settingVal => true
  | _ => false

def Cst.first : Cst → Bool
  | .frameType => true
  | .frameLen => true
  | _ => false

/-- the callbacks made so far -/
inductive Phase (recved : Bool) (ev : List Ev) (go : Bool) (rem : Settings) (st : Cst) : Prop
  | before (a : recved = false) (b : ev = []) (g : go = false) (d : st.first = true)
  | within (a : recved = true) (b : ev = []) (g : go = false) (d : st.set = true)
  | after (a : recved = true) (x : Settings) (ids : List Nat) (b : ev = .settings x :: ids.map .shutdown) (g : go = true ↔ ids ≠ []) (d : st.set = false) (z : x = rem)

def Ph (s : St S) : Prop := Phase s.conn.settingsRecved s.conn.ev s.conn.goawayRecved s.conn.remote s.st

/-- the new state, if there is one -/
def All (Q : St S → Prop) : Res S → Prop
  | .cont s _ _ => Q s
  | .ret s => Q s
  | _ => True

theorem Ph.moved {s : St S} (h : Ph s) {t : St S} (hc : t.conn.settingsRecved = s.conn.settingsRecved ∧ t.conn.ev = s.conn.ev ∧ t.conn.goawayRecved = s.conn.goawayRecved ∧ t.conn.remote = s.conn.remote)
    (h1 : t.st.set = s.st.set) (h2 : s.st.first = true → t.st.first = true) : Ph t := by
  unfold Ph at h ⊢
  rw [hc.1, hc.2.1, hc.2.2.1, hc.2.2.2]
  rcases h with ⟨a, b, g, d⟩ | ⟨a, b, g, d⟩ | ⟨a, x, ids, b, g, d, z⟩
  · exact .before a b g (h2 d)
  · exact .within a b g (h1.trans d)
  · exact .after a x ids b g (h1.trans d) z

theorem report_settings {s : St S} {c : Conn S} (h : c.settingsRecved = true) (h1 : c.ev = []) (h2 : c.goawayRecved = false) (rest : Bytes) :
    All Ph (report env s c (.settings c.remote) rest) := by
  unfold report
  dsimp only
  split_ifs
  · exact .after h c.remote [] (by show c.ev ++ _ = _; rw [h1]; rfl) (by show c.goawayRecved = true ↔ _; simp [h2]) rfl rfl
  · trivial

theorem header_ph {s : St S} (h : Ph s) (hst : s.st = .frameLen) (rest : Bytes) : All Ph (header env s rest) := by
  unfold header
  unfold Ph at h
  rw [hst] at h
  rcases h with ⟨a, b, g, d⟩ | ⟨a, b, g, d⟩ | ⟨a, x, ids, b, g, d, z⟩
  · rw [if_pos a]
    split_ifs with h1
    · trivial
    · unfold dispatch
      dsimp only
      rw [if_pos (by simpa using h1)]
      split_ifs
      · exact report_settings (c := { s.conn with settingsRecved := true }) rfl b g rest
      · exact .within rfl b g rfl
  · cases d
  · rw [if_neg (by rw [a]; simp)]
    split_ifs with h1
    · trivial
    · unfold dispatch
      dsimp only
      rw [if_neg h1]
      split_ifs
      all_goals first | trivial | exact .after a x ids b g rfl z

theorem inFrame_all {Q : St S → Prop} (s : St S) (x : Bytes) (k : Nat → St S → Bytes → Res S) (h : ∀ t : St S, t.conn = s.conn → t.st = s.st → Q t)
    (hk : ∀ v t r, t.conn = s.conn → t.st = s.st → All Q (k v t r)) : All Q (inFrame s x k) := by
  unfold inFrame
  rcases rdl s.rv s.left x with _ | _ | rv | ⟨v, n⟩
  · trivial
  · trivial
  · exact h _ rfl rfl
  · exact hk _ _ _ rfl rfl

theorem ph_of {s t : St S} (h : Ph s) (hc : t.conn = s.conn) (hs : t.st = s.st) : Ph t := h.moved (by rw [hc]; exact ⟨rfl, rfl, rfl, rfl⟩) (by rw [hs]) (fun k => by rw [hs]; exact k)

theorem Ph.mid {s : St S} (h : Ph s) (hs : s.st.set = true) : s.conn.settingsRecved = true ∧ s.conn.ev = [] ∧ s.conn.goawayRecved = false := by
  rcases h with ⟨a, b, g, d⟩ | ⟨a, b, g, d⟩ | ⟨a, x, ids, b, g, d, z⟩
  · exfalso; rcases hq : s.st <;> rw [hq] at hs d <;> first | (cases hs; done) | (cases d; done)
  · exact ⟨a, b, g⟩
  · rw [d] at hs; cases hs

theorem Ph.late {s : St S} (h : Ph s) (hs : s.st.set = false) (hf : s.st.first = false) :
    s.conn.settingsRecved = true ∧ ∃ x, ∃ ids : List Nat, s.conn.ev = .settings x :: ids.map .shutdown ∧ (s.conn.goawayRecved = true ↔ ids ≠ []) ∧ x = s.conn.remote := by
  rcases h with ⟨a, b, g, d⟩ | ⟨a, b, g, d⟩ | ⟨a, x, ids, b, g, d, z⟩
  · rw [hf] at d; cases d
  · rw [hs] at d; cases d
  · exact ⟨a, x, ids, b, g, z⟩

theorem Ph.go {s : St S} (h : Ph s) (hs : s.st.set = false) (hf : s.st.first = false) {t : St S}
    (hc : t.conn.settingsRecved = s.conn.settingsRecved ∧ t.conn.ev = s.conn.ev ∧ t.conn.goawayRecved = s.conn.goawayRecved ∧ t.conn.remote = s.conn.remote) (ht : t.st.set = false) : Ph t := by
  obtain ⟨a, x, ids, b, g, z⟩ := h.late hs hf
  exact .after (hc.1.trans a) x ids (hc.2.1.trans b) (by rw [hc.2.2.1]; exact g) ht (z.trans hc.2.2.2.symm)

theorem applyPri_ph {s : St S} (h : Ph s) (hs : s.st.set = false) (hf : s.st.first = false) (buf : Bytes) (p : Http.Pri) (rest : Bytes) : All Ph (applyPri env s buf p rest) := by
  unfold applyPri
  rcases env.onPri s.conn.ext s.elem p with e | x
  · trivial
  · exact h.go hs hf ⟨rfl, rfl, rfl, rfl⟩ rfl

theorem gotField_ph {s : St S} (h : Ph s) (hs : s.st.set = false) (hf : s.st.first = false) (f rest : Bytes) : All Ph (gotField env s f rest) := by
  unfold gotField
  rcases env.parsePri f with _ | p
  · trivial
  · exact applyPri_ph h hs hf _ _ _

theorem onEntry_ph {c c' : Conn S} {i v : Nat} (h : onEntry c i v = .ok c') : c'.settingsRecved = c.settingsRecved ∧ c'.ev = c.ev ∧ c'.goawayRecved = c.goawayRecved := by
  unfold onEntry at h
  split_ifs at h
  all_goals
    injection h with h
    subst h
    exact ⟨rfl, rfl, rfl⟩

theorem step_ph {s : St S} (x : Bytes) (h : Ph s) : All Ph (step env s x) := by
  unfold step
  rcases hst : s.st with _ | _ | _ | _ | _ | _ | _ | _ | _ | _ <;> dsimp only
  · rcases rd s.rv x false with _ | _ | rv | ⟨v, n⟩
    · trivial
    · trivial
    · exact ph_of h rfl hst.symm
    · exact h.moved ⟨rfl, rfl, rfl, rfl⟩ (by rw [hst]; rfl) (fun _ => rfl)
  · rcases rd s.rv x false with _ | _ | rv | ⟨v, n⟩
    · trivial
    · trivial
    · exact ph_of h rfl hst.symm
    · refine header_ph ?_ rfl _
      exact ph_of h rfl hst.symm
  · obtain ⟨m1, m2, m3⟩ := h.mid (by rw [hst]; rfl)
    split_ifs
    · exact report_settings m1 m2 m3 _
    · exact h
    · refine inFrame_all _ _ _ (fun t hc ht => h.moved (by rw [hc]; exact ⟨rfl, rfl, rfl, rfl⟩) (by rw [ht, hst]; rfl) (fun k => by rw [hst] at k; cases k)) fun v t r hc ht => ?_
      unfold gotId
      split_ifs
      · trivial
      · exact .within (by show t.conn.settingsRecved = true; rw [hc]; exact m1) (by show t.conn.ev = _; rw [hc]; exact m2) (by show t.conn.goawayRecved = _; rw [hc]; exact m3) rfl
  · obtain ⟨m1, m2, m3⟩ := h.mid (by rw [hst]; rfl)
    refine inFrame_all _ _ _ (fun t hc ht => ph_of h hc ht) fun v t r hc ht => ?_
    unfold gotId
    split_ifs
    · trivial
    · exact .within (by show t.conn.settingsRecved = true; rw [hc]; exact m1) (by show t.conn.ev = _; rw [hc]; exact m2) (by show t.conn.goawayRecved = _; rw [hc]; exact m3) rfl
  · obtain ⟨m1, m2, m3⟩ := h.mid (by rw [hst]; rfl)
    refine inFrame_all _ _ _ (fun t hc ht => ph_of h hc ht) fun v t r hc ht => ?_
    unfold gotVal
    rcases he : onEntry t.conn t.sid v with e | c
    · trivial
    · obtain ⟨k1, k2, k3⟩ := onEntry_ph he
      rw [hc] at k1 k2 k3
      rw [m1] at k1; rw [m2] at k2; rw [m3] at k3
      dsimp only
      split_ifs
      · exact .within k1 k2 k3 rfl
      · exact report_settings k1 k2 k3 _
  · refine inFrame_all _ _ _ (fun t hc ht => ph_of h hc ht) fun v t r hc ht => ?_
    unfold gotGoaway
    split_ifs
    · trivial
    · trivial
    · unfold report
      dsimp only
      obtain ⟨a, x, ids, b, g, z⟩ := h.late (by rw [hst]; rfl) (by rw [hst]; rfl)
      split_ifs
      · exact .after (by show t.conn.settingsRecved = true; rw [hc]; exact a) x (ids ++ [v]) (by show t.conn.ev ++ _ = _; rw [hc, b]; simp) (by show true = true ↔ _; simp) rfl (by show x = t.conn.remote; rw [hc]; exact z)
      · trivial
  · refine inFrame_all _ _ _ (fun t hc ht => ph_of h hc ht) fun v t r hc ht => ?_
    unfold gotMaxPush
    split_ifs
    · trivial
    · exact h.go (by rw [hst]; rfl) (by rw [hst]; rfl) (by rw [← hc]; exact ⟨rfl, rfl, rfl, rfl⟩) rfl
  · refine inFrame_all _ _ _ (fun t hc ht => ph_of h hc ht) fun v t r hc ht => ?_
    unfold gotElem
    dsimp only
    have ht' : Ph t := ph_of h hc ht
    split_ifs
    · exact applyPri_ph (s := { t with elem := v }) ht' (by show t.st.set = _; rw [ht, hst]; rfl) (by show t.st.first = _; rw [ht, hst]; rfl) _ _ _
    · exact h.go (by rw [hst]; rfl) (by rw [hst]; rfl) (by rw [← hc]; exact ⟨rfl, rfl, rfl, rfl⟩) rfl
  · unfold priField tooLong
    dsimp only
    have h1 : s.st.set = false := by rw [hst]; rfl
    have h2 : s.st.first = false := by rw [hst]; rfl
    split_ifs
    · trivial
    · exact h.go h1 h2 ⟨rfl, rfl, rfl, rfl⟩ rfl
    · exact gotField_ph (ph_of h rfl rfl) h1 h2 _ _
    · exact h.go h1 h2 ⟨rfl, rfl, rfl, rfl⟩ rfl
    · exact gotField_ph (ph_of h rfl rfl) h1 h2 _ _
    · exact ph_of h rfl rfl
  · unfold ignFrame
    dsimp only
    split_ifs
    · exact ph_of h rfl rfl
    · exact h.go (by rw [hst]; rfl) (by rw [hst]; rfl) ⟨rfl, rfl, rfl, rfl⟩ rfl

theorem loop_ph (f : Nat) (s : St S) (x : Bytes) (b : Bool) (h : Ph s) {s' : St S} (e : Machine.loop (step env) f s x b = .ok s') : Ph s' := by
  induction f generalizing s x b with
  | zero => cases e
  | succ f ih =>
    unfold Machine.loop at e
    split_ifs at e with h0
    · cases e; exact h
    · have := step_ph (env := env) x h
      rcases hr : step env s x with _ | o | ⟨o, r⟩ | ⟨s1, r, b'⟩ | s1 <;> rw [hr] at this e
      · cases e
      · cases e
      · cases e
      · exact ih _ _ _ this e
      · cases e; exact this

theorem feed_ph (s : St S) (cs : List Bytes) (h : Ph s) {s' : St S} (e : feed env s cs = .ok s') : Ph s' := by
  induction cs generalizing s with
  | nil => cases e; exact h
  | cons c cs ih =>
    unfold feed at e
    rcases hr : read env s c with _ | o | ⟨o, r⟩ | s1 <;> rw [hr] at e
    · cases e
    · cases e
    · cases e
    · refine ih s1 ?_ e
      unfold read at hr
      split_ifs at hr
      exact loop_ph _ _ _ _ h hr

end Control
end Nghttp3
