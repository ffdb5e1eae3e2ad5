import Verif.Lemmas.ConnSent5
import Verif.Lemmas.NetStep
import Verif.Spec.Duo
/-! Two endpoints: the items of a stream and the message they make. -/
namespace Nghttp3
namespace Duo
open Http Qpack Bidi
open Outq (R Frent Ans Emit EmitOk itemsBytes itemBytes dataAnswers EncodeOk)
open Sent (Book Ledger Made Serve Serves)
open Net (SFrame)

/-- the frames of request streams -/
def IsReq (x : Nat) : Frent Fld → Prop
  | .headers f => f.1 = x
  | .data => True
  | _ => False

/-- what was served before is served again in the same way -/
theorem serves_ext {x : Nat} {S S' rest rest' : List (Frent Fld)} {ks ks' : List (Made Fld)} {it it' : List Emit} {us : List Ans} (h : Serves S ks it rest) :
    (∀ f ∈ S, IsReq x f) → Serves (S ++ S') (ks ++ ks') it' rest' → dataAnswers it' = dataAnswers it ++ us →
    ∃ new, it' = it ++ new ∧ Serves (rest ++ S') ks' new rest' ∧ dataAnswers new = us := by
  induction h generalizing it' with
  | done rest => intro _ h' ha; exact ⟨it', rfl, h', ha⟩
  | settings _ _ => intro hS; exact (hS _ (List.mem_cons_self ..)).elim
  | goaway _ _ => intro hS; exact (hS _ (List.mem_cons_self ..)).elim
  | priorityUpdate _ _ => intro hS; exact (hS _ (List.mem_cons_self ..)).elim
  | @headers m fs ks em rest _ ih =>
    intro hS h' ha
    generalize hk : (m :: ks) ++ ks' = kk at h'
    generalize hs : (Frent.headers m.nva :: fs) ++ S' = ss at h'
    cases h' with
    | done => cases hk
    | settings g => cases hs
    | goaway g => cases hs
    | priorityUpdate g => cases hs
    | dataMore g => cases hs
    | dataEnd g => cases hs
    | @headers m' fs' kk' em' rr g =>
      simp only [List.cons_append, List.cons.injEq, Frent.headers.injEq] at hk hs
      obtain ⟨rfl, rfl⟩ := hk
      obtain ⟨_, rfl⟩ := hs
      obtain ⟨new, n1, n2, n3⟩ := ih (fun f hf => hS f (List.mem_cons_of_mem _ hf)) g ha
      exact ⟨new, by rw [n1]; rfl, n2, n3⟩
  | @dataMore v noEnd fs ks em rest _ ih =>
    intro hS h' ha
    generalize hs : (Frent.data :: fs) ++ S' = ss at h'
    generalize ks ++ ks' = kk at h' ih
    cases h' with
    | done => simp [dataAnswers] at ha
    | settings g => cases hs
    | goaway g => cases hs
    | priorityUpdate g => cases hs
    | headers g => cases hs
    | @dataMore v' n' fs' kk' em' rr g =>
      simp only [dataAnswers, List.cons_append, List.cons.injEq, Ans.vecs.injEq, true_and] at ha hs
      obtain ⟨⟨rfl, rfl⟩, ha⟩ := ha
      subst hs
      obtain ⟨new, n1, n2, n3⟩ := ih hS g ha
      exact ⟨new, by rw [n1]; rfl, n2, n3⟩
    | @dataEnd v' n' fs' kk' em' rr g => simp [dataAnswers] at ha
  | @dataEnd v noEnd fs ks em rest _ ih =>
    intro hS h' ha
    generalize hs : (Frent.data :: fs) ++ S' = ss at h'
    generalize ks ++ ks' = kk at h' ih
    cases h' with
    | done => simp [dataAnswers] at ha
    | settings g => cases hs
    | goaway g => cases hs
    | priorityUpdate g => cases hs
    | headers g => cases hs
    | @dataEnd v' n' fs' kk' em' rr g =>
      simp only [dataAnswers, List.cons_append, List.cons.injEq, Ans.vecs.injEq, true_and] at ha hs
      obtain ⟨⟨rfl, rfl⟩, ha⟩ := ha
      subst hs
      obtain ⟨new, n1, n2, n3⟩ := ih (fun f hf => hS f (List.mem_cons_of_mem _ hf)) g ha
      exact ⟨new, by rw [n1]; rfl, n2, n3⟩
    | @dataMore v' n' fs' kk' em' rr g => simp [dataAnswers] at ha

/-- nothing is served without field sections and answers -/
theorem serves_none {x : Nat} {S rest : List (Frent Fld)} {it : List Emit} (h : Serves S [] it rest) (hS : ∀ f ∈ S, IsReq x f) (ha : dataAnswers it = []) :
    it = [] ∧ rest = S := by
  generalize hk : ([] : List (Made Fld)) = kk at h
  cases h with
  | done => exact ⟨rfl, rfl⟩
  | settings g => exact (hS _ (List.mem_cons_self ..)).elim
  | goaway g => exact (hS _ (List.mem_cons_self ..)).elim
  | priorityUpdate g => exact (hS _ (List.mem_cons_self ..)).elim
  | headers g => cases hk
  | dataMore g => simp [dataAnswers] at ha
  | dataEnd g => simp [dataAnswers] at ha

theorem serves_mem {S rest : List (Frent Fld)} {ks : List (Made Fld)} {it : List Emit} (h : Serves S ks it rest) :
    (∀ f ∈ rest, f ∈ S) ∧ ∀ m ∈ ks, Frent.headers m.nva ∈ S := by
  induction h with
  | done => exact ⟨fun f hf => hf, fun m hm => by cases hm⟩
  | settings _ ih => exact ⟨fun f hf => List.mem_cons_of_mem _ (ih.1 f hf), fun m hm => List.mem_cons_of_mem _ (ih.2 m hm)⟩
  | headers _ ih =>
    refine ⟨fun f hf => List.mem_cons_of_mem _ (ih.1 f hf), fun m hm => ?_⟩
    rcases List.mem_cons.1 hm with rfl | hm
    · exact List.mem_cons_self ..
    · exact List.mem_cons_of_mem _ (ih.2 m hm)
  | dataMore _ ih => exact ih
  | dataEnd _ ih => exact ⟨fun f hf => List.mem_cons_of_mem _ (ih.1 f hf), fun m hm => List.mem_cons_of_mem _ (ih.2 m hm)⟩
  | goaway _ ih => exact ⟨fun f hf => List.mem_cons_of_mem _ (ih.1 f hf), fun m hm => List.mem_cons_of_mem _ (ih.2 m hm)⟩
  | priorityUpdate _ ih => exact ⟨fun f hf => List.mem_cons_of_mem _ (ih.1 f hf), fun m hm => List.mem_cons_of_mem _ (ih.2 m hm)⟩

theorem serves_nil {rest : List (Frent Fld)} {ks : List (Made Fld)} {it : List Emit} (h : Serves [] ks it rest) : it = [] ∧ ks = [] ∧ rest = [] := by
  cases h; exact ⟨rfl, rfl, rfl⟩

/-- the frames of a message that an item makes, given the field sections encoded -/
def frames : List (Made Fld) → List Emit → List SFrame
  | _, [] => []
  | ks, .headers _ _ _ :: t => (ks.take 1).map (fun m => .headers m.nva.2) ++ frames ks.tail t
  | ks, .data v _ _ :: t => piece v ++ frames ks t
  | ks, .settings _ :: t => frames ks t
  | ks, .streamType _ :: t => frames ks t
  | ks, .goaway _ :: t => frames ks t
  | ks, .priorityUpdate _ _ _ :: t => frames ks t
  | ks, .raw _ :: t => frames ks t

theorem frames_append {S rest : List (Frent Fld)} {k1 k2 : List (Made Fld)} {a : List Emit} (h : Serves S k1 a rest) (b : List Emit) :
    frames (k1 ++ k2) (a ++ b) = frames k1 a ++ frames k2 b := by
  induction h with
  | done => simp [frames]
  | settings _ ih => simpa [frames] using ih
  | headers _ ih => simpa [frames] using ih
  | dataMore _ ih => simpa [frames] using ih
  | dataEnd _ ih => simpa [frames] using ih
  | goaway _ ih => simpa [frames] using ih
  | priorityUpdate _ ih => simpa [frames] using ih

theorem bodyOf_data {v : List Bidi.Bytes} {n : Bool} {t : List Ans} : bodyOf (.vecs v true n :: t) = (piece v, t, true) := by
  rw [bodyOf, if_pos rfl]

theorem bodyOf_more {v : List Bidi.Bytes} {n : Bool} {t : List Ans} : bodyOf (.vecs v false n :: t) = (piece v ++ (bodyOf t).1, (bodyOf t).2.1, (bodyOf t).2.2) := by
  rw [bodyOf, if_neg (by decide)]

/-- the items make the message -/
theorem message_serves {x : Nat} {S rest : List (Frent Fld)} {ks : List (Made Fld)} {it : List Emit} (h : Serves S ks it rest) (hS : ∀ f ∈ S, IsReq x f) :
    message S ks.length (dataAnswers it) = (frames ks it, rest.isEmpty) := by
  induction h with
  | done rest =>
    cases rest with
    | nil => rfl
    | cons f t =>
      cases f with
      | headers f => rfl
      | data => rfl
      | settings _ => exact (hS _ (List.mem_cons_self ..)).elim
      | goaway _ => exact (hS _ (List.mem_cons_self ..)).elim
      | priorityUpdate _ _ _ => exact (hS _ (List.mem_cons_self ..)).elim
  | settings _ _ => exact (hS _ (List.mem_cons_self ..)).elim
  | goaway _ _ => exact (hS _ (List.mem_cons_self ..)).elim
  | priorityUpdate _ _ => exact (hS _ (List.mem_cons_self ..)).elim
  | headers _ ih =>
    have := ih (fun f hf => hS f (List.mem_cons_of_mem _ hf))
    rw [message, if_neg (by simp), List.length_cons, Nat.add_sub_cancel, dataAnswers, this, frames]
    · rfl
    · intro _ _ _ g; cases g
  | dataMore _ ih =>
    have := ih hS
    rw [message] at this ⊢
    rw [dataAnswers, bodyOf_more]
    dsimp only
    rw [frames]
    split_ifs at this ⊢ with hc
    · obtain ⟨g1, g2⟩ := Prod.mk.inj this
      rw [List.append_assoc, g1, g2]
    · obtain ⟨g1, g2⟩ := Prod.mk.inj this
      rw [g1, g2]
  | dataEnd _ ih =>
    have := ih (fun f hf => hS f (List.mem_cons_of_mem _ hf))
    rw [message, dataAnswers, bodyOf_data, frames]
    dsimp only
    rw [if_pos rfl, this]

end Duo
end Nghttp3
