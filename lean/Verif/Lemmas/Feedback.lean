import Verif.Spec.Feedback
import Verif.Lemmas.BidiHist
import Verif.Props.QpackLoop
import Verif.Lemmas.QpackSec
/-! The field sections that a decoder completes, one by one. -/
namespace Nghttp3
namespace Qpack
open QInt (readInt)

/-- past the prefix of the section -/
def RSt.past : RSt → Bool
  | .opcode | .readIndex | .str _ => true
  | _ => false

/-- the context belongs to the stream, and field lines are read only when what they may refer to has arrived -/
structure Half (id next : Nat) (s : SCtx) : Prop where
  sid : s.streamId = id
  past : s.state.past = true → s.ricnt ≤ next

structure Able (id next : Nat) (s : SCtx) : Prop extends Half id next s where
  idle : Idle s

theorem able_init (id next : Nat) : Able id next (SCtx.init id) := ⟨⟨rfl, fun h => by cases h⟩, fun h => by cases h⟩

theorem Able.mono {id n n' : Nat} {s : SCtx} (h : Able id n s) (hn : n ≤ n') : Able id n' s := ⟨⟨h.sid, fun g => Nat.le_trans (h.past g) hn⟩, h.idle⟩

/-- the parts of a result that are contexts -/
def RRes.All (P : SCtx → Prop) : RRes → Prop
  | .cont s' _ _ => P s'
  | .part s' _ => P s'
  | .emit s' _ _ => P s'
  | .blocked s' _ => P s'
  | _ => True

theorem rsStep_half (c : Ctx) {id : Nat} {s : SCtx} (x : Bytes) (h : Half id c.next s) : (rsStep c s x).All (Half id c.next) := by
  have hbase : ∀ s : SCtx, s.streamId = id → s.state = .dbase → (rsBase c s x).All (Half id c.next) := by
    intro s hs hst
    unfold rsBase
    rcases hr : readInt s.rs.pfx s.rs.left s.rs.shift x with _ | _ | ⟨l, sh⟩ | ⟨l, sh, rest⟩
    · trivial
    · trivial
    · exact ⟨hs, fun g => by dsimp only at g; rw [hst] at g; cases g⟩
    · dsimp only
      unfold rsBaseDone
      dsimp only
      by_cases h1 : (s.sign && decide (s.ricnt ≤ l)) = true
      · rw [if_pos h1]; trivial
      · rw [if_neg h1]
        by_cases h2 : c.next < s.ricnt
        · rw [if_pos h2]; exact ⟨hs, fun g => by cases g⟩
        · rw [if_neg h2]; exact ⟨hs, fun _ => Nat.not_lt.1 h2⟩
  have hemit : ∀ (s1 : SCtx) rest (o : Option QNv), s1.streamId = id → s1.ricnt ≤ c.next → (emitRes s1 rest o).All (Half id c.next) := by
    intro s1 rest o h1 h2
    cases o with
    | none => trivial
    | some nv => exact ⟨h1, fun _ => h2⟩
  have hbr : ∀ {s1 s2 : SCtx}, brel2abs c s1 = some s2 → s2.streamId = s1.streamId ∧ s2.ricnt = s1.ricnt := by
    intro s1 s2 e
    unfold brel2abs at e
    dsimp only at e
    split_ifs at e <;> (cases e; exact ⟨rfl, rfl⟩)
  have hpb : ∀ {s1 s2 : SCtx}, pbrel2abs c s1 = some s2 → s2.streamId = s1.streamId ∧ s2.ricnt = s1.ricnt := by
    intro s1 s2 e
    unfold pbrel2abs at e
    dsimp only at e
    split_ifs at e <;> (cases e; exact ⟨rfl, rfl⟩)
  unfold rsStep
  cases hst : s.state with
  | ricnt =>
    dsimp only
    rcases hr : readInt s.rs.pfx s.rs.left s.rs.shift x with _ | _ | ⟨l, sh⟩ | ⟨l, sh, rest⟩
    · trivial
    · trivial
    · exact ⟨h.sid, fun g => by cases g⟩
    · dsimp only
      rcases reconstructRicnt c l with _ | n
      · trivial
      · exact ⟨h.sid, fun g => by cases g⟩
  | dbaseSign =>
    cases x with
    | nil => trivial
    | cons b t => exact hbase _ h.sid rfl
  | dbase => exact hbase s h.sid hst
  | opcode =>
    have hp := h.past (by rw [hst]; rfl)
    dsimp only
    split_ifs
    · trivial
    cases x with
    | nil => trivial
    | cons b t =>
      show Half id c.next (rsOpcode s b)
      unfold rsOpcode
      dsimp only
      split_ifs <;> exact ⟨h.sid, fun _ => hp⟩
  | readIndex =>
    have hp := h.past (by rw [hst]; rfl)
    dsimp only
    rcases hr : readInt s.rs.pfx s.rs.left s.rs.shift x with _ | _ | ⟨l, sh⟩ | ⟨l, sh, rest⟩
    · trivial
    · trivial
    · exact ⟨h.sid, fun _ => hp⟩
    · dsimp only
      unfold rsIndexDone
      dsimp only
      rcases s.op with _ | _ | _ | _ | _ <;> dsimp only
      all_goals first
        | trivial
        | (generalize hb : brel2abs c _ = o
           rcases o with _ | s2
           · trivial
           · obtain ⟨g1, g2⟩ := hbr hb
             first
               | exact hemit s2 rest _ (g1.trans h.sid) (by rw [g2]; exact hp)
               | exact ⟨g1.trans h.sid, fun _ => by dsimp only; rw [g2]; exact hp⟩)
        | (generalize hb : pbrel2abs c _ = o
           rcases o with _ | s2
           · trivial
           · obtain ⟨g1, g2⟩ := hpb hb
             first
               | exact hemit s2 rest _ (g1.trans h.sid) (by rw [g2]; exact hp)
               | exact ⟨g1.trans h.sid, fun _ => by dsimp only; rw [g2]; exact hp⟩)
  | str ph =>
    have hp := h.past (by rw [hst]; rfl)
    dsimp only
    rcases strStep ph s.rs x with _ | _ | _ | ⟨ph', r, rest, busy⟩ | ⟨ph', r, rest⟩ | ⟨r, rest⟩ <;> dsimp only
    · trivial
    · trivial
    · trivial
    · exact ⟨h.sid, fun _ => hp⟩
    · exact ⟨h.sid, fun _ => hp⟩
    · unfold rsValueDone
      dsimp only
      rcases s.op with _ | _ | _ | _ | _ <;> dsimp only
      all_goals first
        | trivial
        | exact hemit _ rest _ h.sid hp
        | (generalize emitIndexedName c r = o
           rcases o with _ | _ | nv
           · trivial
           · trivial
           · exact hemit _ rest _ h.sid hp)
  | blocked =>
    dsimp only
    split_ifs with h2
    · exact ⟨h.sid, fun g => by rw [hst] at g; cases g⟩
    · exact ⟨h.sid, fun _ => Nat.not_lt.1 h2⟩

/-- a field section of the stream, with Required Insert Count `r`, is complete -/
structure Cmpl (id : Nat) (d : Dec) (r : Nat) (d' : Dec) : Prop where
  le : r ≤ d.ctx.next
  same : Bidi.SameEnc d d'
  buf : d'.dbuf = d.dbuf ++ (if r = 0 then [] else DIns.bytes (.ack, id))
  wr : d'.writtenIcnt = max d.writtenIcnt r

def ROut.Fits (id : Nat) (d : Dec) (n : Nat) (fin : Bool) : ROut → Prop
  | .more d' s' => d' = d ∧ Able id d.ctx.next s' ∧ fin = false
  | .final d' s' => fin = true ∧ s'.streamId = id ∧ Cmpl id d s'.ricnt d'
  | .emit d' s' _ rest => d' = d ∧ Able id d.ctx.next s' ∧ rest.length < n
  | .blocked d' s' _ => d' = d ∧ Able id d.ctx.next s'
  | _ => True

theorem almostOk_fits {id : Nat} {d : Dec} {s : SCtx} (n : Nat) (fin : Bool) (h : Half id d.ctx.next s) (hi : Idle s) : (almostOk d s fin).Fits id d n fin := by
  unfold almostOk
  cases fin
  · exact ⟨rfl, ⟨h, hi⟩, rfl⟩
  rw [if_pos rfl]
  by_cases h1 : s.state ≠ .opcode
  · rw [if_pos h1]; trivial
  rw [if_neg h1]
  have hst : s.state = .opcode := by simpa using h1
  have hp := h.past (by rw [hst]; rfl)
  by_cases h2 : s.ricnt ≠ 0
  · rw [if_pos h2]
    unfold Dec.writeSectionAck
    by_cases h3 : d.dbufOverflow = true
    · rw [if_pos h3]; trivial
    · rw [if_neg h3]
      refine ⟨rfl, h.sid, hp, ⟨rfl, rfl, rfl, rfl⟩, ?_, ?_⟩
      · dsimp only; rw [if_neg h2, h.sid]; rfl
      · dsimp only; split_ifs <;> omega
  · rw [if_neg h2]
    have h2 : s.ricnt = 0 := by simpa using h2
    refine ⟨rfl, h.sid, hp, ⟨rfl, rfl, rfl, rfl⟩, ?_, ?_⟩
    · rw [if_pos h2, List.append_nil]
    · dsimp only; omega

theorem rsLoop_fits {id : Nat} {d : Dec} (n : Nat) (fin : Bool) (f : Nat) {s : SCtx} {x : Bytes} {b : Bool} (h : Half id d.ctx.next s)
    (hi : Idle s ∨ b = true) (hn : (Idle s ∧ x.length ≤ n) ∨ x.length < n) : (rsLoop f d s x b fin).Fits id d n fin := by
  induction f generalizing s x b with
  | zero => trivial
  | succ f ih =>
    unfold rsLoop
    by_cases h0 : x = [] ∧ b = false
    · rw [if_pos h0]
      exact almostOk_fits n fin h (hi.resolve_right (by rw [h0.2]; simp))
    rw [if_neg h0]
    have h1 := rsStep_half d.ctx x h
    have h2 := rsStep_more d.ctx s x
    rcases hrs : rsStep d.ctx s x with _ | e | ⟨s', rest, b'⟩ | ⟨s', rest⟩ | ⟨s', nv, rest⟩ | ⟨s', rest⟩ <;> rw [hrs] at h1 h2 <;> dsimp only at h2 ⊢
    · trivial
    · trivial
    · by_cases hv : s'.state.vis = true
      · obtain ⟨k1, k2⟩ := h2.1 hv
        exact ih h1 (.inr k1) (.inr (by omega))
      · have hid : Idle s' := fun g => absurd g hv
        refine ih h1 (.inl hid) ?_
        rcases hn with ⟨_, hn⟩ | hn
        · exact .inl ⟨hid, by omega⟩
        · exact .inr (by omega)
    · exact almostOk_fits n fin h1 h2
    · refine ⟨rfl, ⟨h1, h2.2.2⟩, ?_⟩
      rcases hn with ⟨k, hn⟩ | hn
      · have := h2.1 k; omega
      · omega
    · exact ⟨rfl, h1, h2.1⟩

theorem readRequest_fits {id : Nat} {d : Dec} {s : SCtx} (h : Able id d.ctx.next s) (x : Bytes) (fin : Bool) : (d.readRequest s x fin).Fits id d x.length fin := by
  unfold Dec.readRequest
  split_ifs
  · trivial
  · exact rsLoop_fits _ _ _ h.toHalf (.inl h.idle) (.inl ⟨h.idle, Nat.le_refl _⟩)

end Qpack

namespace Bidi
open Http Qpack

/-- sections are completed, one after the other -/
inductive Secs (id : Nat) : Dec → List Nat → Dec → Prop where
  | nil (d : Dec) : Secs id d [] d
  | cons {d e d' : Dec} {r : Nat} {t : List Nat} : Cmpl id d r e → Secs id e t d' → Secs id d (r :: t) d'

theorem Secs.one {id : Nat} {d d' : Dec} {r : Nat} (h : Cmpl id d r d') : Secs id d [r] d' := .cons h (.nil _)

theorem Secs.append {id : Nat} {a b c : Dec} {t u : List Nat} (h : Secs id a t b) (h' : Secs id b u c) : Secs id a (t ++ u) c := by
  induction h with
  | nil => exact h'
  | cons h1 _ ih => exact .cons h1 (ih h')

theorem Secs.same {id : Nat} {a b : Dec} {t : List Nat} (h : Secs id a t b) : SameEnc a b := by
  induction h with
  | nil => exact .refl _
  | cons h1 _ ih => exact h1.same.trans ih

/-- how often -/
def num (f : Ev → Bool) (ev : List Ev) : Nat := (ev.filter f).length

theorem num_append (f : Ev → Bool) (a b : List Ev) : num f (a ++ b) = num f a + num f b := by
  unfold num; rw [List.filter_append, List.length_append]

/-- as many sections were completed as were reported or given up -/
structure Tells (t : List Nat) (ev : List Ev) : Prop where
  up : t.length ≤ num Endpoint.sectionEnds ev + num Endpoint.sectionBad ev
  dn : num Endpoint.sectionEnds ev ≤ t.length

theorem Tells.append {t u : List Nat} {a b : List Ev} (h : Tells t a) (h' : Tells u b) : Tells (t ++ u) (a ++ b) := by
  have := h.up; have := h'.up; have := h.dn; have := h'.dn
  refine ⟨?_, ?_⟩ <;> simp only [num_append, List.length_append] <;> omega

theorem Tells.quiet {ev : List Ev} (h : num Endpoint.sectionEnds ev = 0) : Tells [] ev := ⟨by simp, by rw [h]; exact Nat.zero_le _⟩

/-- what is done to decoder and context -/
structure Told (id : Nat) (s : Str) (d : Dec) (s' : Str) (d' : Dec) (ev : List Ev) (t : List Nat) : Prop where
  secs : Secs id d t d'
  able : Able id d'.ctx.next s'.sc
  shut : s'.shutRd = s.shutRd
  tells : Tells t ev

def Heard (id : Nat) (s : Str) (d : Dec) (s' : Str) (d' : Dec) (ev : List Ev) : Prop := ∃ t, Told id s d s' d' ev t

theorem Heard.none {id : Nat} {s s' : Str} {d : Dec} {ev : List Ev} (h : Able id d.ctx.next s'.sc) (hs : s'.shutRd = s.shutRd) (he : num Endpoint.sectionEnds ev = 0) : Heard id s d s' d ev :=
  ⟨[], .nil _, h, hs, .quiet he⟩

theorem Heard.append {id : Nat} {s s1 s2 : Str} {d d1 d2 : Dec} {a b : List Ev} (h : Heard id s d s1 d1 a) (h' : Heard id s1 d1 s2 d2 b) : Heard id s d s2 d2 (a ++ b) := by
  obtain ⟨t, h1, h2, hs, h3⟩ := h
  obtain ⟨u, k1, k2, ks, k3⟩ := h'
  exact ⟨t ++ u, h1.append k1, k2, ks.trans hs, h3.append k3⟩

def DRes.Fits (id : Nat) (d : Dec) (fin : Bool) : DRes → Prop
  | .malformed d' => d' = d
  | .more d' s' _ => d' = d ∧ Able id d.ctx.next s' ∧ fin = false
  | .done d' s' _ => fin = true ∧ s' = SCtx.init id ∧ ∃ r, Cmpl id d r d'
  | .blocked d' s' _ _ => d' = d ∧ Able id d.ctx.next s'
  | _ => True

theorem fieldEv_num (h : Hs) (nv : QNv) : num Endpoint.sectionEnds [fieldEv h nv] = 0 ∧ num Endpoint.sectionBad [fieldEv h nv] = 0 := by
  unfold fieldEv
  split_ifs <;> exact ⟨rfl, rfl⟩

theorem onHeaders_fits (c : Cfg) (h : Hs) {id : Nat} {d : Dec} {s : SCtx} (http : State) (x : Bytes) (fin : Bool) (ha : Able id d.ctx.next s) :
    (onHeaders c h d s http x fin).2.Fits id d fin ∧ num Endpoint.sectionEnds (onHeaders c h d s http x fin).1 = 0 := by
  unfold onHeaders
  by_cases h0 : x = [] ∧ fin = false
  · rw [if_pos h0]; exact ⟨⟨rfl, ha, h0.2⟩, rfl⟩
  rw [if_neg h0]
  clear h0
  generalize x.length + 1 = f
  have hacc : num Endpoint.sectionEnds ([] : List Ev) = 0 := rfl
  generalize ([] : List Ev) = acc at hacc ⊢
  induction f generalizing s http x acc with
  | zero => exact ⟨trivial, hacc⟩
  | succ f ih =>
    unfold decLoop
    have hs := readRequest_fits ha x fin
    rcases hr : d.readRequest s x fin with _ | ⟨d', e⟩ | ⟨d', s'⟩ | ⟨d', s'⟩ | ⟨d', s', nv, rest⟩ | ⟨d', s', rest⟩ <;> rw [hr] at hs <;> dsimp only at hs ⊢
    · exact ⟨trivial, hacc⟩
    · exact ⟨trivial, hacc⟩
    · exact ⟨hs, hacc⟩
    · obtain ⟨g1, g2, g3⟩ := hs
      exact ⟨⟨g1, by rw [g2], _, g3⟩, hacc⟩
    · obtain ⟨rfl, g2, g3⟩ := hs
      rw [if_neg (by omega)]
      rcases fieldRes c h http nv with _ | _ | _ <;> dsimp only
      · exact ⟨rfl, hacc⟩
      · exact ih _ _ g2 _ hacc
      · exact ih _ _ g2 _ (by rw [num_append, hacc, (fieldEv_num h nv).1])
    · exact ⟨hs, hacc⟩

end Bidi
end Nghttp3
