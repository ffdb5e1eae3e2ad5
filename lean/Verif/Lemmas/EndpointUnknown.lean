import Verif.Lemmas.EndpointFault4
/-! Streams of unknown type in a whole connection. -/
namespace Nghttp3
namespace Conn
open Outq (R)
variable {E F : Type} {c c' : Conn E F} {id : Nat}

/-- the type becomes known, but it is none that the library knows -/
theorem uni_unknown {b src : List UInt8} {fin : Bool} {s : Strm F} (hp : peerUni c.server id) (h0 : c.str id = some s) (hb : UState b (some s)) (hi : s.ident = false)
    (hne : src ≠ []) {v : Nat} {p y : List UInt8} (hv : Spec.IsVarint v p) (ha : b ++ src = p ++ y) (ht : 3 < v) :
    readUni c id src fin = .ok (c.set id { s with ty := .unknown, ident := true, rv := {} }, if y = [] then .route none else .discard y.length (!fin)) := by
  obtain ⟨n, h1, h2, h3⟩ := uni_type (fin := fin) (hb.2.2 hi) hv ha hne
  have h4 : setUniType c s v = .ok (c, { s with ty := .unknown, ident := true, rv := {} }) := by
    unfold setUniType
    dsimp only
    rw [if_neg (by omega), if_neg (by omega), if_neg (by omega), if_neg (by omega)]
  unfold readUni
  rw [if_neg (peer_guard hp), h0]
  dsimp only
  rw [if_neg (by cases src <;> simp at hne ⊢), hi, if_neg (by simp), if_neg (by cases src <;> simp at hne ⊢), h1]
  dsimp only
  rw [h4]
  dsimp only
  by_cases h5 : n = src.length
  · rw [if_pos h5, if_pos (by rw [← h2, h5, List.drop_length])]
  · rw [if_neg h5, if_neg (fun k => h5 ?_), h2]
    · rfl
    · have := congrArg List.length h2
      rw [k, List.length_drop, List.length_nil] at this
      omega

end Conn

namespace Endpoint
open Outq (R)
open Conn (clientBidi streamUni UState IsUni Ty Typ Begins)

variable {P : Par} {server : Bool} {st : Settings}

theorem but_set (a : CC) (id : Nat) (s : Conn.Strm Fld) : But a (a.set id s) id := ⟨some s, rfl⟩

/-- what arrives on a stream of unknown type is dropped -/
theorem drop_unknown (hP : ParOk P) (hst : SettingsOk st) {l : Log} {ep : Ep} (h : Hist P server st l ep) {id v : Nat} {src : Bytes} {fin : Bool}
    (hid : id < 2 ^ 62) (hpu : Conn.peerUni server id) (hv : 3 < v) {p y : Bytes} (hp : Spec.IsVarint v p) (ha : l.arrived id ++ src = p ++ y) (hne : src ≠ [] ∨ fin = true) :
    ∃ o, read P ep id src fin = .ok { ep with c := { ep.c with str := PQ.upd ep.c.str id o } } (.code src.length)
      (if src ≠ [] ∧ y ≠ [] ∧ fin = false then [.str id (.stopSending 0x0103)] else []) := by
  have hne' : src ≠ [] ∨ (fin = true ∧ l.arrived id ≠ []) := by
    rcases hne with g | g
    · exact .inl g
    by_cases hs : src = []
    · refine .inr ⟨g, ?_⟩
      rw [hs, List.append_nil] at ha
      rw [ha]
      have := isVarint_pos hp
      intro k
      rw [List.append_eq_nil_iff] at k
      rw [k.1] at this; simp at this
    · exact .inl hs
  obtain ⟨c', s, k1, k2, k3, k4, k5, k6, k7⟩ := enter_uni hP hst h (fin := fin) hid hpu hne'
  rw [k1] at k5
  rcases hid0 : s.ident with _ | _
  · have hs : src ≠ [] := by
      rintro rfl
      rw [List.append_nil] at ha
      exact Conn.known_not_begins (k5.2.2 hid0) v ⟨p, y, hp, ha⟩
    have hr := Conn.uni_unknown (fin := fin) k2 k1 k5 hid0 hs hp ha hv
    obtain ⟨o, hb⟩ := k7.trans (but_set _ id { s with ty := .unknown, ident := true, rv := {} })
    refine ⟨o, ?_⟩
    rw [k6]
    unfold readUni
    rw [show Conn.readUni _ id src fin = _ from hr]
    dsimp only [lift]
    rw [← hb]
    by_cases hy : y = []
    · rw [if_pos hy, if_neg (by simp [hy])]
      rfl
    · rw [if_neg hy]
      cases fin <;> simp [Res.after, hs, hy]
  · obtain ⟨v', p', y', m1, m2, m3⟩ := k5.2.1 hid0
    have : v' = v := begins_same ⟨p', y', m1, m3⟩ ⟨p, y, hp, ha⟩
    subst this
    have hty : s.ty = .unknown := by
      rcases m2 with m2 | ⟨_, m2⟩
      · unfold Conn.uniType at m2
        split at m2 <;> first | omega | cases m2
      · exact m2
    have hr := Conn.uni_known (src := src) (fin := fin) k2 k1 hid0 (by
      rcases hne with g1 | g1
      · cases src <;> simp at g1 ⊢
      · rw [g1]; simp)
    have hy : src ≠ [] → y ≠ [] := by
      rintro hs rfl
      rw [List.append_nil, m3] at ha
      have := (Props.isVarint_unique m1 hp (r := y' ++ src) (r' := []) (by rw [List.append_nil, ← ha, List.append_assoc])).2.2
      exact hs (List.append_eq_nil_iff.1 this).2
    obtain ⟨o, hb⟩ := k7
    refine ⟨o, ?_⟩
    rw [k6]
    unfold readUni
    rw [show Conn.readUni _ id src fin = _ from hr, hty]
    dsimp only [lift, Conn.deliverUni]
    rw [← hb]
    by_cases hs : src = []
    · have hf : fin = true := by rcases hne with g | g; exact absurd hs g; exact g
      subst hf; simp [Res.after]
    · cases fin <;> simp [Res.after, hs, hy hs]

end Endpoint
end Nghttp3
