import Verif.Lemmas.ConnSent3
/-! What the calls do to the QPACK encoder. -/
namespace Nghttp3
namespace Conn
open PQ (upd upd_same upd_ne)
open Outq (R Frent Ans Bytes St)

variable {E F : Type} {w v : Prop} {c c' : Conn E F} {id : Nat} {s0 s : Strm F} {encode : Encode E F} {Q : E → Prop}

/-- encoding keeps the property -/
def Keeps (encode : Encode E F) (Q : E → Prop) : Prop := ∀ e f e' p r eb, Q e → encode e f = some (e', p, r, eb) → Q e'

theorem fillLoop_enc (hQ : Keeps encode Q) (l : List (Frent F)) (e : E) (o q : St F) (as : List Ans) (em : List Outq.Emit) (h : Q e)
    {x : E × St F × St F × List Outq.Emit} (g : Outq.fillLoop encode l e o q as em = .ok x) : Q x.1 := by
  induction l generalizing e o q as em with
  | nil => obtain rfl := R.ok.inj g; exact h
  | cons f t ih =>
    unfold Outq.fillLoop at g
    by_cases h0 : o.unsent ≥ Outq.MIN_UNSENT_BYTES
    · rw [if_pos h0] at g; obtain rfl := R.ok.inj g; exact h
    rw [if_neg h0] at g
    cases f with
    | settings st =>
      dsimp only at g
      obtain ⟨_, _, g2⟩ := bind_ok g
      exact ih _ _ _ _ _ h g2
    | headers nva =>
      dsimp only at g
      rcases he : encode e nva with _ | ⟨e', p, r, eb⟩ <;> rw [he] at g <;> dsimp only at g
      · cases g
      · obtain ⟨_, _, g2⟩ := bind_ok g
        obtain ⟨_, _, g3⟩ := bind_ok g2
        exact ih _ _ _ _ _ (hQ _ _ _ _ _ _ h he) g3
    | data =>
      dsimp only at g
      obtain ⟨⟨o', eof⟩, _, g2⟩ := bind_ok g
      dsimp only at g2
      split_ifs at g2
      · obtain rfl := R.ok.inj g2; exact h
      · obtain rfl := R.ok.inj g2; exact h
      · exact ih _ _ _ _ _ h g2
    | goaway id =>
      dsimp only at g
      obtain ⟨_, _, g2⟩ := bind_ok g
      exact ih _ _ _ _ _ h g2
    | priorityUpdate a b v =>
      dsimp only at g
      obtain ⟨_, _, g2⟩ := bind_ok g
      exact ih _ _ _ _ _ h g2

theorem fillStream_enc (hQ : Keeps encode Q) {as : List Ans} (h : Q c.enc) (e : fillStream encode c id s as = .ok c') : Q c'.enc := by
  unfold fillStream at e
  by_cases hu : streamUni id = true
  · rw [if_pos hu] at e
    obtain ⟨r, _, e2⟩ := bind_ok e
    obtain rfl := R.ok.inj e2; exact h
  · rw [if_neg hu] at e
    split at e
    · split_ifs at e
      obtain rfl := R.ok.inj e; exact h
    · split at e
      · cases e
      · obtain ⟨r, e1, e2⟩ := bind_ok e
        obtain rfl := R.ok.inj e2
        exact fillLoop_enc hQ _ _ _ _ _ _ h e1

theorem connWritev_enc (hQ : Keeps encode Q) {k : Nat} {as : List Ans} {rr : Option (Nat × Bool × List Bytes)} (h : Q c.enc)
    (e : connWritev encode c id k as = .ok (c', rr)) : Q c'.enc := by
  rcases h0 : c.str id with _ | s
  · unfold connWritev at e; rw [h0] at e; cases e
  obtain ⟨⟨hb, rfl⟩ | ⟨hb, e1⟩, _⟩ := connWritev_parts h0 e
  · exact h
  · exact fillStream_enc hQ h e1

theorem critical_enc (hQ : Keeps encode Q) {k : Nat} {sid : Option Nat} {pre : St F → R (St F)} {rr : Option (Nat × Bool × List Bytes)} (h : Q c.enc)
    (e : critical encode c k sid pre = .ok (c', rr)) : Q c'.enc := by
  unfold critical at e
  cases sid with
  | none => obtain ⟨rfl, _⟩ := Prod.mk.inj (R.ok.inj e); exact h
  | some id =>
    dsimp only at e
    split at e
    · cases e
    · split_ifs at e
      · obtain ⟨rfl, _⟩ := Prod.mk.inj (R.ok.inj e); exact h
      · obtain ⟨o, _, e2⟩ := bind_ok e
        obtain ⟨⟨c1, r1⟩, e3, e4⟩ := bind_ok e2
        obtain ⟨rfl, _⟩ := Prod.mk.inj (R.ok.inj e4)
        exact connWritev_enc hQ (c := c.set id _) h e3

theorem unschedule_enc (e : unscheduleStream c id s = .ok c') : c'.enc = c.enc := by
  obtain ⟨a, b, d, f, rfl⟩ := one_unschedule e; rfl

theorem writeRequest_enc (hQ : Keeps encode Q) {k : Nat} {as : List Ans} {r : Ret} (h : Q c.enc) (e : writeRequest encode c k as = .ok (c', r)) : Q c'.enc := by
  unfold writeRequest at e
  split at e
  · obtain ⟨rfl, _⟩ := Prod.mk.inj (R.ok.inj e); exact h
  · obtain ⟨⟨c1, r1⟩, e1, e2⟩ := bind_ok e
    have h1 := connWritev_enc hQ h e1
    dsimp only at e2
    split at e2
    · cases e2
    · split_ifs at e2
      · obtain ⟨c2, e3, e4⟩ := bind_ok e2
        obtain ⟨rfl, _⟩ := Prod.mk.inj (R.ok.inj e4)
        rw [unschedule_enc e3]; exact h1
      · obtain ⟨rfl, _⟩ := Prod.mk.inj (R.ok.inj e2); exact h1

theorem writevStream_enc (hQ : Keeps encode Q) {k : Nat} {db : Bytes} {as : List Ans} {r : Ret} (h : Q c.enc) (e : writevStream encode c k db as = .ok (c', r)) : Q c'.enc := by
  unfold writevStream at e
  by_cases hk : k = 0
  · rw [if_pos hk] at e; obtain ⟨rfl, _⟩ := Prod.mk.inj (R.ok.inj e); exact h
  rw [if_neg hk] at e
  obtain ⟨⟨c1, r1⟩, e1, e⟩ := bind_ok e
  have h1 := critical_enc hQ h e1
  dsimp only at e
  cases r1 with
  | some x => obtain ⟨rfl, _⟩ := Prod.mk.inj (R.ok.inj e); exact h1
  | none =>
    dsimp only at e
    obtain ⟨⟨c2, r2⟩, e2, e⟩ := bind_ok e
    have h2 := critical_enc hQ h1 e2
    dsimp only at e
    cases r2 with
    | some x => obtain ⟨rfl, _⟩ := Prod.mk.inj (R.ok.inj e); exact h2
    | none =>
      dsimp only at e
      obtain ⟨⟨c3, r3⟩, e3, e⟩ := bind_ok e
      have h3 := critical_enc hQ h2 e3
      dsimp only at e
      cases r3 with
      | some x => obtain ⟨rfl, _⟩ := Prod.mk.inj (R.ok.inj e); exact h3
      | none => exact writeRequest_enc hQ h3 e

/-- calls other than nghttp3_conn_writev_stream do not encode -/
theorem step_enc_same {o : Op F} {r : Ret} (h3 : ∀ k db as, o ≠ .writev k db as) (e : step encode c o = .ok (c', r)) : c'.enc = c.enc := by
  by_cases h1 : ∃ id, o = .bindControl id
  · obtain ⟨id, rfl⟩ := h1
    change Conn.bindControl c id = _ at e
    unfold Conn.bindControl at e
    split_ifs at e
    · obtain ⟨rfl, _⟩ := Prod.mk.inj (R.ok.inj e); rfl
    · obtain ⟨rfl, _⟩ := Prod.mk.inj (R.ok.inj e); rfl
    · obtain ⟨o, _, e2⟩ := Conn.bind_ok e
      obtain ⟨rfl, _⟩ := Prod.mk.inj (R.ok.inj e2); rfl
  by_cases h2 : ∃ a b, o = .bindQpack a b
  · obtain ⟨a, b, rfl⟩ := h2
    change Conn.bindQpack c a b = _ at e
    unfold Conn.bindQpack at e
    split_ifs at e
    · obtain ⟨rfl, _⟩ := Prod.mk.inj (R.ok.inj e); rfl
    · obtain ⟨rfl, _⟩ := Prod.mk.inj (R.ok.inj e); rfl
    · obtain ⟨o, _, e2⟩ := Conn.bind_ok e
      dsimp only at e2
      split_ifs at e2
      · obtain ⟨rfl, _⟩ := Prod.mk.inj (R.ok.inj e2); rfl
      · obtain ⟨o, _, e3⟩ := Conn.bind_ok e2
        obtain ⟨rfl, _⟩ := Prod.mk.inj (R.ok.inj e3); rfl
  exact (Conn.step_out (fun id g => h1 ⟨id, g⟩) (fun a b g => h2 ⟨a, b, g⟩) h3 e).1

theorem step_enc (hQ : Keeps encode Q) {o : Op F} {r : Ret} (h : Q c.enc) (e : step encode c o = .ok (c', r)) : Q c'.enc := by
  by_cases h3 : ∃ k db as, o = .writev k db as
  · obtain ⟨k, db, as, rfl⟩ := h3
    exact writevStream_enc hQ h e
  · rw [step_enc_same (fun k db as g => h3 ⟨k, db, as, g⟩) e]; exact h

end Conn
end Nghttp3
