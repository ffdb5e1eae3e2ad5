import Verif.Lemmas.HttpRequest
import Verif.Lemmas.Message
import Verif.Lemmas.QpackInt
import Verif.Model.QpackDec
/-! C36: the priority that a request asks for in its header section; C69: the length of what the decoder has to send. -/
namespace Nghttp3
namespace Props
open Http Spec Qpack

/-- The priority that the `priority` fields of a header section ask for, by a parser of one value into a given priority: each value is parsed into what the ones before it gave, the first one
into urgency 3, not incremental (RFC 9218 section 4); there is none if there is no such field, or if one of them cannot be parsed or is no field value. -/
def askedPriority (pp : Pri → List UInt8 → Option Pri) (fs : List Field) : Option Pri :=
  let vs := (fs.filter fun f => f.name == ascii "priority").map Field.value
  if vs = [] then none else vs.foldlM (fun p v => if isFieldValue v then pp p v else none) ⟨3, false⟩

/-- the same, from a state in the middle of a section -/
structure PriInv (pp : Pri → List UInt8 → Option Pri) (vs : List (List UInt8)) (s : State) : Prop where
  good : ∀ p, vs.foldlM (fun p v => if isFieldValue v then pp p v else none) (⟨3, false⟩ : Pri) = some p → s.badPriority = false ∧ s.pri = p ∧ (s.priority = true ↔ vs ≠ [])
  bad : vs.foldlM (fun p v => if isFieldValue v then pp p v else none) (⟨3, false⟩ : Pri) = none → s.badPriority = true ∧ s.priority = false

theorem PriInv.same {pp : Pri → List UInt8 → Option Pri} {vs : List (List UInt8)} {s s' : State} (h : PriInv pp vs s) (h1 : s'.badPriority = s.badPriority) (h2 : s'.pri = s.pri)
    (h3 : s'.priority = s.priority) : PriInv pp vs s' := by
  constructor
  · intro p hp; rw [h1, h2, h3]; exact h.good p hp
  · intro hp; rw [h1, h3]; exact h.bad hp

theorem foldlM_snoc {α β : Type} (g : β → α → Option β) (b : β) (l : List α) (a : α) : (l ++ [a]).foldlM g b = (l.foldlM g b).bind fun x => g x a := by
  rw [List.foldlM_append]
  cases l.foldlM g b <;> simp

/-- a field that is not `priority` leaves the priority alone -/
def KeepsPri (s : State) : Res → Prop
  | .malformed => True
  | .remove s' => s'.badPriority = s.badPriority ∧ s'.pri = s.pri ∧ s'.priority = s.priority
  | .ok s' => s'.badPriority = s.badPriority ∧ s'.pri = s.pri ∧ s'.priority = s.priority

theorem other_keeps (pp : Pri → List UInt8 → Option Pri) (s : State) (f : Field) (cp : Bool) (hn : nmOf f.name ≠ .priority) :
    KeepsPri s (requestOnHeader pp s f (lookupToken f.name) false cp) := by
  rw [requestOnHeader_eq]
  cases hk : nmOf f.name <;> dsimp only <;> first | (exact absurd hk hn; done) | skip
  all_goals (try split_ifs) <;> first | exact trivial | exact ⟨rfl, rfl, rfl⟩ | skip
  unfold recordMethod
  split_ifs <;> exact ⟨rfl, rfl, rfl⟩

theorem runFields_pri (pp : Pri → List UInt8 → Option Pri) (cp : Bool) (fs : List Field) (vs : List (List UInt8)) (s : State) (hs : PriInv pp vs s) (out : List Field) (s' : State)
    (h : runFields pp true false cp s fs = (out, some s')) : PriInv pp (vs ++ (fs.filter fun f => f.name == ascii "priority").map Field.value) s' := by
  induction fs generalizing vs s out with
  | nil => cases h; simpa using hs
  | cons f t ih =>
    have hname : f.name = ascii "priority" ↔ nmOf f.name = .priority := nm_iff .priority _ rfl f.name
    have next : ∀ s1 vs1, PriInv pp vs1 s1 → vs1 = vs ++ (if f.name = ascii "priority" then [f.value] else []) →
        (∃ o, runFields pp true false cp s1 t = (o, some s')) → PriInv pp (vs ++ ((f :: t).filter fun f => f.name == ascii "priority").map Field.value) s' := by
      rintro s1 vs1 h1 rfl ⟨o, ho⟩
      have := ih _ s1 h1 o ho
      rw [List.append_assoc] at this
      by_cases hf : f.name = ascii "priority"
      · rw [if_pos hf] at this
        simpa [List.filter_cons, hf] using this
      · rw [if_neg hf] at this
        simpa [List.filter_cons, hf] using this
    have tail : ∀ r s1, runFields pp true false cp s (f :: t) = (out, some s') → onHeader pp s f (lookupToken f.name) true false cp = r → (r = .remove s1 ∨ r = .ok s1) →
        ∃ o, runFields pp true false cp s1 t = (o, some s') := by
      intro r s1 hr hon hor
      rw [runFields, hon] at hr
      rcases hor with rfl | rfl <;> dsimp only at hr
      · exact ⟨_, hr⟩
      · obtain ⟨_, h2⟩ := Prod.mk.inj hr
        exact ⟨_, Prod.ext rfl h2⟩
    by_cases hf : f.name = ascii "priority"
    · -- the field is read by http_request_on_header
      have hon : onHeader pp s f (lookupToken f.name) true false cp = requestOnHeader pp { s with pseudoDisallowed := true } f (lookupToken f.name) false cp := by
        unfold onHeader
        rw [hf, if_neg (by decide), if_neg (by decide)]
        dsimp only
        rw [if_neg (by decide +kernel), if_neg (by decide +kernel), if_pos rfl]
      have hreq := requestOnHeader_eq pp { s with pseudoDisallowed := true } f false cp
      rw [hname.1 hf] at hreq
      dsimp only at hreq
      have hvs : (if f.name = ascii "priority" then [f.value] else []) = [f.value] := if_pos hf
      by_cases hv : isFieldValue f.value = false
      · rw [if_pos hv] at hreq
        refine next _ (vs ++ [f.value]) ?_ (by rw [hvs]) (tail _ _ h (hon.trans hreq) (.inl rfl))
        have hno : (vs ++ [f.value]).foldlM (fun p v => if isFieldValue v then pp p v else none) (⟨3, false⟩ : Pri) = none := by
          rw [foldlM_snoc]
          cases vs.foldlM (fun p v => if isFieldValue v then pp p v else none) (⟨3, false⟩ : Pri) <;> simp [hv]
        exact ⟨fun p hp => (by rw [hno] at hp; cases hp), fun _ => ⟨rfl, rfl⟩⟩
      · rw [if_neg hv] at hreq
        have hv' : isFieldValue f.value = true := by simpa using hv
        rcases hb : vs.foldlM (fun p v => if isFieldValue v then pp p v else none) (⟨3, false⟩ : Pri) with _ | p
        · obtain ⟨b1, b2⟩ := hs.bad hb
          rw [if_pos (by simpa using b1)] at hreq
          refine next _ (vs ++ [f.value]) ?_ (by rw [hvs]) (tail _ _ h (hon.trans hreq) (.inr rfl))
          have hno : (vs ++ [f.value]).foldlM (fun p v => if isFieldValue v then pp p v else none) (⟨3, false⟩ : Pri) = none := by
            rw [foldlM_snoc, hb]; rfl
          exact ⟨fun p hp => (by rw [hno] at hp; cases hp), fun _ => ⟨b1, b2⟩⟩
        · obtain ⟨b1, b2, _⟩ := hs.good p hb
          rw [if_neg (by simp [b1])] at hreq
          subst b2
          have hstep : (vs ++ [f.value]).foldlM (fun p v => if isFieldValue v then pp p v else none) (⟨3, false⟩ : Pri) = pp s.pri f.value := by
            rw [foldlM_snoc, hb]; simp [hv']
          rcases hp : pp s.pri f.value with _ | q <;> rw [hp] at hreq hstep <;> dsimp only at hreq
          · refine next _ (vs ++ [f.value]) ⟨fun q hq => ?_, fun _ => ⟨rfl, rfl⟩⟩ (by rw [hvs]) (tail _ _ h (hon.trans hreq) (.inr rfl))
            rw [hstep] at hq; cases hq
          · refine next _ (vs ++ [f.value]) ⟨fun q' hq => ?_, fun hq => ?_⟩ (by rw [hvs]) (tail _ _ h (hon.trans hreq) (.inr rfl))
            · rw [hstep] at hq; cases hq
              exact ⟨b1, rfl, by simp⟩
            · rw [hstep] at hq; cases hq
    · have hk : ∀ s0 : State, KeepsPri s0 (requestOnHeader pp s0 f (lookupToken f.name) false cp) := fun s0 => other_keeps pp s0 f cp (fun g => hf (hname.2 g))
      have k2 : ∀ X, KeepsPri { s with pseudoDisallowed := true } X → KeepsPri s X := by intro X hX; cases X <;> exact hX
      have hon : KeepsPri s (onHeader pp s f (lookupToken f.name) true false cp) := by
        unfold onHeader
        dsimp only
        split_ifs <;> first | exact trivial | exact ⟨rfl, rfl, rfl⟩ | exact hk s | exact absurd rfl ‹¬ true = true› | exact k2 _ (hk { s with pseudoDisallowed := true })
      rcases hr : onHeader pp s f (lookupToken f.name) true false cp with _ | s1 | s1 <;> rw [hr] at hon
      · rw [runFields, hr] at h; cases h
      · exact next s1 vs (hs.same hon.1 hon.2.1 hon.2.2) (by rw [if_neg hf, List.append_nil]) (tail _ s1 h hr (.inl rfl))
      · exact next s1 vs (hs.same hon.1 hon.2.1 hon.2.2) (by rw [if_neg hf, List.append_nil]) (tail _ s1 h hr (.inr rfl))

/-- C36.  When the fields of the header section of a request have been accepted, a priority is taken over from it exactly if its `priority` fields ask for one, and it is that one. -/
theorem C36_header (pp : Pri → List UInt8 → Option Pri) (cp : Bool) (fs out : List Field) (s : State) (h : runFields pp true false cp {} fs = (out, some s)) :
    (if s.priority then some s.pri else none) = askedPriority pp fs := by
  have hi := runFields_pri pp cp fs [] {} ⟨fun p hp => by cases hp; exact ⟨rfl, rfl, by simp⟩, fun hp => by cases hp⟩ out s h
  rw [List.nil_append] at hi
  unfold askedPriority
  dsimp only
  generalize (fs.filter fun f => f.name == ascii "priority").map Field.value = vs at hi
  rcases hb : vs.foldlM (fun p v => if isFieldValue v then pp p v else none) (⟨3, false⟩ : Pri) with _ | p
  · obtain ⟨_, b⟩ := hi.bad hb
    rw [b]; simp
  · obtain ⟨_, b1, b2⟩ := hi.good p hb
    by_cases hv : vs = []
    · rw [if_pos hv, if_neg (fun g => b2.1 g hv)]
    · rw [if_neg hv, if_pos (b2.2 hv), b1]

/-- a request whose first `priority` field says urgency 1 and whose second, parsed into what the first gave, says incremental -/
example : ∃ out s, runFields (fun p v => if v = ascii "u=1" then some ⟨1, p.inc⟩ else some ⟨p.urgency, true⟩) true false false {}
    [⟨ascii ":method", ascii "GET"⟩, ⟨ascii ":scheme", ascii "https"⟩, ⟨ascii ":authority", ascii "a"⟩, ⟨ascii ":path", ascii "/"⟩, ⟨ascii "priority", ascii "u=1"⟩, ⟨ascii "a", []⟩,
      ⟨ascii "priority", ascii "i"⟩] = (out, some s) ∧ s.priority = true ∧ s.pri = ⟨1, true⟩ := by
  exact ⟨_, _, rfl, by decide +kernel, by decide +kernel⟩

/-- C69.  nghttp3_qpack_decoder_get_decoder_streamlen says how much nghttp3_qpack_decoder_write_decoder writes; and then there is nothing left. -/
theorem C69_length (d : Dec) : d.streamLen = d.writeDecoder.2.length ∧ d.writeDecoder.1.streamLen = 0 := by
  unfold Dec.streamLen Dec.writeDecoder
  by_cases h : d.writtenIcnt < d.ctx.next
  · rw [if_pos h, if_pos h]
    simp [QInt.put_length]
  · rw [if_neg h, if_neg h]
    simp [h]

/-- an acknowledgment and three entries that have not been reported: two bytes -/
example : ({ Dec.init 4096 1 with dbuf := [0x84], ctx := { (Dec.init 4096 1).ctx with next := 3 } } : Dec).streamLen = 2 := by decide +kernel

end Props
end Nghttp3
