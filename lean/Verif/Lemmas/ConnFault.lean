import Verif.Lemmas.ConnArrive
import Verif.Spec.Fault
/-! The errors of nghttp3_conn_read_uni, by the bytes of the stream. -/
namespace Nghttp3
namespace Conn
open Outq (R)

variable {E F : Type} {c c' : Conn E F} {id : Nat}

theorem Begins.append {v : Nat} {b : List UInt8} (h : Begins v b) (x : List UInt8) : Begins v (b ++ x) := by
  obtain ⟨p, r, h1, rfl⟩ := h
  exact ⟨p, r ++ x, h1, by rw [List.append_assoc]⟩

/-- why nghttp3_conn_read_uni returns an error; `b` are the bytes that arrived before -/
inductive UniFault (c : Conn E F) (b src : List UInt8) (fin : Bool) : Int → Prop
  | cut : fin = true → b ++ src ≠ [] → (∀ v, ¬ Begins v (b ++ src)) → UniFault c b src fin Err.H3_GENERAL_PROTOCOL_ERROR
  | push : Begins 1 (b ++ src) → UniFault c b src fin Err.H3_STREAM_CREATION_ERROR
  | second (v : Nat) (t : Ty) : uniType v = some t → Begins v (b ++ src) → ¬ Begins v b → flagOf c t = true → UniFault c b src fin Err.H3_STREAM_CREATION_ERROR
  | ended (v : Nat) (t : Ty) : uniType v = some t → Begins v (b ++ src) → fin = true → UniFault c b src fin Err.H3_CLOSED_CRITICAL_STREAM

theorem deliver_fault {t : Ty} {x : List UInt8} {fin : Bool} {z : Int} (h : deliverUni t x fin = .code z) : z = Err.H3_CLOSED_CRITICAL_STREAM ∧ fin = true ∧ t ≠ .unknown := by
  unfold deliverUni at h
  split at h
  · cases h
  · rename_i g
    split at h
    · rename_i gf
      cases h
      exact ⟨rfl, gf, g⟩
    · cases h

theorem known_not_begins {b : List UInt8} {rv : RVInt} (h : Unknown b rv) (v : Nat) : ¬ Begins v b := by
  rintro ⟨p, y, h1, h2⟩
  exact h.short h1 h2

theorem uni_fault {b src : List UInt8} {fin : Bool} {z : Int} (hb : UState b (c.str id)) (e : readUni c id src fin = .ok (c', .code z)) (hz : z ≠ 0) : UniFault c b src fin z := by
  unfold readUni at e
  by_cases h1 : ((c.server && !clientUni id) || (!c.server && !serverUni id)) = true
  · rw [if_pos h1] at e; cases e
  rw [if_neg h1] at e
  rcases h0 : c.str id with _ | s0 <;> rw [h0] at e hb
  · cases e
  dsimp only at e
  obtain ⟨hq, hk, hn⟩ := hb
  by_cases h2 : (src.isEmpty && !fin) = true
  · rw [if_pos h2] at e; cases e; exact absurd rfl hz
  rw [if_neg h2] at e
  by_cases h3 : s0.ident = true
  · rw [if_pos h3] at e
    injection e with e; injection e with _ e
    obtain ⟨rfl, hf, ht⟩ := deliver_fault e
    obtain ⟨v, p, y, a1, a2, a3⟩ := hk h3
    rcases a2 with a2 | ⟨_, a2⟩
    · exact .ended v _ a2 (Begins.append ⟨p, y, a1, a3⟩ src) hf
    · exact absurd a2 ht
  rw [if_neg h3] at e
  have hi : s0.ident = false := by simpa using h3
  have hU := hn hi
  by_cases h4 : src.isEmpty = true
  · rw [if_pos h4] at e
    rw [isEmpty_iff] at h4
    subst h4
    have hf : fin = true := by cases fin <;> simp at h2 ⊢
    split_ifs at e with h5
    · injection e with e; injection e with _ e; injection e with e
      subst e
      refine .cut hf ?_ ?_
      · rintro k
        rw [List.append_nil] at k
        rcases hU with ⟨_, k2⟩ | ⟨k1, _⟩
        · rw [k2] at h5; exact h5 rfl
        · exact k1 k
      · intro v; rw [List.append_nil]; exact known_not_begins hU v
    · obtain ⟨c1, e1, e2⟩ := bind_ok e
      injection e2 with e2; injection e2 with _ e2; cases e2
  rw [if_neg h4] at e
  have hne : src ≠ [] := fun k => h4 (isEmpty_iff.2 k)
  have hbn : b ++ src ≠ [] := fun k => hne (List.append_eq_nil_iff.1 k).2
  have hgo := hU.go hne fin
  rcases hrd : rd s0.rv src fin with _ | _ | rv | ⟨v, n⟩ <;> rw [hrd] at e hgo <;> dsimp only at e
  · cases e
  · injection e with e; injection e with _ e; injection e with e
    subst e
    have hsp := rd_spec s0.rv src fin hU.ok hne
    rw [hrd] at hsp
    have hf : fin = true := by
      revert hsp
      cases fin
      · intro hsp; simp at hsp
      · intro _; rfl
    refine .cut hf hbn ?_
    rintro v ⟨p, y, k1, k2⟩
    have := rd_varint k1 y fin
    rw [← k2, hgo] at this
    cases this
  · injection e with e; injection e with _ e; cases e
  · have hgo' : rd {} (b ++ src) fin = .done v (b.length + n) := by rw [hgo]; simp [Rd.shift, Nat.add_comm]
    obtain ⟨hv, hle⟩ := done_varint hbn hgo'
    have hB : Begins v (b ++ src) := ⟨_, (b ++ src).drop (b.length + n), hv, (List.take_append_drop _ _).symm⟩
    rcases ht : setUniType c s0 v with er | ⟨c1, s1⟩ <;> rw [ht] at e <;> dsimp only at e
    · injection e with e; injection e with _ e; injection e with e
      subst e
      unfold setUniType at ht
      dsimp only at ht
      have hc : ∀ t, uniType v = some t → flagOf c t = true → UniFault c b src fin Err.H3_STREAM_CREATION_ERROR := fun t h1 h2 => .second v t h1 hB (known_not_begins hU v) h2
      split_ifs at ht with q1 q2 q3 q4 q5 q6 q7
      all_goals (injection ht with ht; subst ht)
      · subst q1; exact hc .control rfl q2
      · subst q3; exact .push hB
      · subst q4; exact hc .qenc rfl q5
      · subst q6; exact hc .qdec rfl q7
    · obtain ⟨t, rfl, htt, hc1⟩ := setUniType_typ ht
      by_cases h5 : n = src.length
      · rw [if_pos h5] at e
        injection e with e; injection e with _ e; cases e
      · rw [if_neg h5] at e
        rcases hd : deliverUni t (src.drop n) fin with z' | _ | _ | _ <;> rw [show deliverUni _ _ _ = _ from hd] at e <;> dsimp only at e
        · injection e with e; injection e with _ e; injection e with e
          subst e
          obtain ⟨rfl, hf, hu⟩ := deliver_fault hd
          rcases htt with htt | ⟨_, htt⟩
          · exact .ended v t htt hB hf
          · exact absurd htt hu
        all_goals (injection e with e; injection e with _ e; cases e)

end Conn
end Nghttp3

namespace Nghttp3
namespace Conn
open Outq (R)
variable {E F : Type} {c c' : Conn E F} {id : Nat}

/-- the type of the stream becomes known -/
theorem uni_type {b src : List UInt8} {fin : Bool} {rv : RVInt} (hU : Unknown b rv) {v : Nat} {p y : List UInt8} (hv : Spec.IsVarint v p) (ha : b ++ src = p ++ y) (hne : src ≠ []) :
    ∃ n, rd rv src fin = .done v n ∧ src.drop n = y ∧ n ≤ src.length := by
  have h1 := rd_varint hv y fin
  rw [← ha, hU.go hne] at h1
  rcases hr : rd rv src fin with _ | _ | _ | ⟨w, n⟩ <;> rw [hr] at h1
  · cases h1
  · cases h1
  · cases h1
  · unfold Rd.shift at h1
    injection h1 with h2 h3
    subst h2
    refine ⟨n, rfl, ?_, ?_⟩
    · have := congrArg (List.drop p.length) ha
      rw [List.drop_left, ← h3, List.drop_append] at this
      rw [List.drop_eq_nil_of_le (as := b) (by omega), List.nil_append, Nat.add_sub_cancel_left] at this
      exact this
    · have := congrArg List.length ha
      rw [List.length_append, List.length_append] at this
      omega

/-- one side sees the streams of the other -/
theorem peer_guard (hp : peerUni c.server id) : ¬ ((c.server && !clientUni id) || (!c.server && !serverUni id)) = true := by
  unfold peerUni at hp
  cases hs : c.server <;> rw [hs] at hp
  · rw [if_neg (by simp)] at hp
    simp [serverUni, hp]
  · rw [if_pos rfl] at hp
    simp [clientUni, hp]

theorem uni_refused {b src : List UInt8} {fin : Bool} {s : Strm F} (hp : peerUni c.server id) (h0 : c.str id = some s) (hb : UState b (some s)) (hi : s.ident = false)
    (hne : src ≠ []) {v : Nat} (hv : Begins v (b ++ src)) (ht : v = 1 ∨ ∃ t, uniType v = some t ∧ flagOf c t = true) :
    readUni c id src fin = .ok (c, .code Err.H3_STREAM_CREATION_ERROR) := by
  obtain ⟨p, y, hv, ha⟩ := hv
  obtain ⟨n, h1, _, _⟩ := uni_type (fin := fin) (hb.2.2 hi) hv ha hne
  unfold readUni
  rw [if_neg (peer_guard hp), h0]
  dsimp only
  rw [if_neg (by cases src <;> simp at hne ⊢), hi, if_neg (by simp), if_neg (by cases src <;> simp at hne ⊢), h1]
  dsimp only
  have hc := setUniType_cases c s v
  have : setUniType c s v = .error Err.H3_STREAM_CREATION_ERROR := by
    rcases ht with ht | ⟨t, h1, h2⟩
    · exact hc.2.2.1 ht
    · exact hc.2.1 t h1 h2
  rw [this]

/-- what is done with the bytes after the type -/
theorem uni_deliver {b src : List UInt8} {fin : Bool} {s : Strm F} (hp : peerUni c.server id) (h0 : c.str id = some s) (hb : UState b (some s)) (hi : s.ident = false)
    (hne : src ≠ []) {v : Nat} {p y : List UInt8} (hv : Spec.IsVarint v p) (ha : b ++ src = p ++ y) {t : Ty} (ht : uniType v = some t) (hf : flagOf c t = false) (hy : y ≠ []) :
    ∃ c1, readUni c id src fin = .ok (c1, deliverUni t y fin) := by
  obtain ⟨n, h1, h2, h3⟩ := uni_type (fin := fin) (hb.2.2 hi) hv ha hne
  obtain ⟨c1, h4, _⟩ := (setUniType_cases c s v).1 t ht hf
  unfold readUni
  rw [if_neg (peer_guard hp), h0]
  dsimp only
  rw [if_neg (by cases src <;> simp at hne ⊢), hi, if_neg (by simp), if_neg (by cases src <;> simp at hne ⊢), h1]
  dsimp only
  rw [h4]
  dsimp only
  rw [if_neg (fun k => hy (by rw [← h2, k, List.drop_length])), h2]
  rcases deliverUni t y fin with _ | _ | _ | _ <;> exact ⟨_, rfl⟩

/-- the type was known -/
theorem uni_known {src : List UInt8} {fin : Bool} {s : Strm F} (hp : peerUni c.server id) (h0 : c.str id = some s) (hi : s.ident = true)
    (hne : (src.isEmpty && !fin) = false) : readUni c id src fin = .ok (c, deliverUni s.ty src fin) := by
  unfold readUni
  rw [if_neg (peer_guard hp), h0]
  dsimp only
  rw [hne, if_neg (by simp), if_pos hi]

end Conn
end Nghttp3
