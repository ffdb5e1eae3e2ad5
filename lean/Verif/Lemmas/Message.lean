import Verif.Model.Message
import Verif.Lemmas.HttpTrailers
/-! Whole messages. -/
namespace Nghttp3
namespace Http
open Spec

/-- recv_data -/
def fits (s : State) (n : Nat) : Prop := s.contentLength = -1 ∨ s.recvContentLength + n ≤ s.contentLength

instance (s : State) (n : Nat) : Decidable (fits s n) := by unfold fits; exact inferInstance

def addRecv (s : State) (n : Nat) : State := { s with recvContentLength := s.recvContentLength + n }

theorem onData_eq (s : State) (ps : List Nat) (hf : s.expectFinal = false) (h0 : fits s 0) :
    (fits s ps.sum → onData s ps = (ps.map .data, some (addRecv s ps.sum))) ∧
    (¬ fits s ps.sum → (onData s ps).2 = none) := by
  induction ps generalizing s with
  | nil =>
    refine ⟨fun _ => ?_, fun h => absurd h0 h⟩
    unfold onData addRecv
    simp
  | cons n t ih =>
    unfold onData
    have hc : onDataChunk s n = if fits s n then some (addRecv s n) else none := by
      unfold onDataChunk fits addRecv
      simp only [hf, Bool.false_or]
      by_cases h1 : s.contentLength = -1
      · simp [h1]
      · by_cases h2 : s.recvContentLength + n ≤ s.contentLength
        · have : ¬ s.recvContentLength + n > s.contentLength := by omega
          simp [h2, this]
        · have : s.recvContentLength + n > s.contentLength := by omega
          simp [h1, h2, this]
    rw [hc]
    have hsum : (n :: t).sum = n + t.sum := by simp
    have hmono : fits s (n :: t).sum → fits s n := by
      rw [hsum]; unfold fits
      rintro (h | h)
      · exact Or.inl h
      · right; push_cast at h; omega
    by_cases h1 : fits s n
    · rw [if_pos h1]
      dsimp only
      have h0' : fits (addRecv s n) 0 := by
        unfold fits addRecv at *; dsimp only; rcases h1 with h | h
        · exact Or.inl h
        · right; simpa using h
      have heq : fits (addRecv s n) t.sum ↔ fits s (n :: t).sum := by
        rw [hsum]; unfold fits addRecv; dsimp only; push_cast
        constructor <;> (rintro (h | h); · exact Or.inl h
                         · right; omega)
      have := ih (addRecv s n) hf h0'
      constructor
      · intro h
        rw [this.1 (heq.2 h), hsum]
        unfold addRecv
        simp only [List.map_cons, Prod.mk.injEq, true_and, Option.some.injEq]
        congr 1
        push_cast; omega
      · intro h
        exact this.2 (fun h' => h (heq.1 h'))
    · rw [if_neg h1]
      exact ⟨fun h => absurd (hmono h) h1, fun _ => rfl⟩

/-- trailers -/
theorem trailers_run (pp : Pri → List UInt8 → Option Pri) (req ext : Bool) (s : State) (fs : List Field) :
    match (runFields pp req true ext s fs).2 with
    | none => ¬ TrailersOk req s.host (fs.map fl)
    | some s' => TrailersOk req s.host (fs.map fl) ∧ s'.contentLength = s.contentLength ∧ s'.recvContentLength = s.recvContentLength ∧
        s'.expectFinal = s.expectFinal ∧ (runFields pp req true ext s fs).1 = fs.filter (fun f => deliverTrailer req (fl f)) := by
  cases req with
  | true =>
    have := tr_run pp ext s fs [] s (trGood_nil _) (trInv_init _)
    rw [List.nil_append] at this
    rw [trailersOk_request]
    cases h : (runFields pp true true ext s fs).2 with
    | none => rw [h] at this; exact this
    | some s' =>
      rw [h] at this
      exact ⟨this.1, this.2.1.cl, this.2.1.recv, this.2.1.final, this.2.2⟩
  | false =>
    have hrule : ruleOf s true = .dropped := rfl
    have := resp_run pp true ext s fs [] s (Or.inl rfl) ⟨by simp, trivial⟩ rfl
    rw [List.nil_append, hrule] at this
    rw [trailersOk_response]
    cases h : (runFields pp false true ext s fs).2 with
    | none => rw [h] at this; exact this
    | some s' =>
      rw [h] at this
      obtain ⟨h1, h2, h3⟩ := this
      refine ⟨h1, ?_, ?_, ?_, ?_⟩
      · rw [h2]; rfl
      · rw [h2]
      · rw [h2]
      · rw [h3]
        apply List.filter_congr
        intro f hf
        rw [deliverTrailer_response]
        exact (h1.regular (fl f) (List.mem_map_of_mem hf)).1

/-- the states of one direction -/
structure Dir (he db de tb te en : Hs) (noTr : State → Prop) : Prop where
  dataEnd : ∀ s, transit db s .dataEnd = .ok de
  deData : ∀ s, transit de s .dataBegin = .ok db
  deHeaders : ∀ s, transit de s .headersBegin = .unexpected ∧ noTr s ∨ transit de s .headersBegin = .ok tb ∧ ¬ noTr s
  deEnd : ∀ s, transit de s .msgEnd = trEnd s en
  tbEnd : ∀ s, transit tb s .headersEnd = .ok te
  teOther : ∀ s e, e ≠ .msgEnd → transit te s e = .unexpected
  teEnd : ∀ s, transit te s .msgEnd = trEnd s en
  empty : emptyHeadersAllowed tb = true
  trailers : isTrailers tb = true
  endSec : ∀ s, endSection tb s = some s

/-- what the application is told about trailers -/
def trailerCbs (req : Bool) : Option (List Field) → List Cb
  | none => []
  | some fs => .beginTrailers :: (fs.filter (fun f => deliverTrailer req (fl f))).map .trailer ++ [.endTrailers]

theorem trEnd_ok (s : State) (en : Hs) (hf : s.expectFinal = false) :
    (s.contentLength = -1 ∨ s.contentLength = s.recvContentLength → trEnd s en = .ok en) ∧
    (¬ (s.contentLength = -1 ∨ s.contentLength = s.recvContentLength) → trEnd s en = .malformed) := by
  unfold trEnd onRemoteEndStream
  rw [hf]
  constructor
  · rintro (h | h) <;> simp [h]
  · intro h
    have h1 : ¬ s.contentLength = -1 := fun e => h (Or.inl e)
    have h2 : ¬ s.contentLength = s.recvContentLength := fun e => h (Or.inr e)
    simp [h1, h2]

/-- the accepted continuations after the header section -/
structure Tail (req : Bool) (s : State) (noTr : Prop) (rest : List Frm) (cb : List Cb) (ds : List (List Nat))
    (tr : Option (Option (List Field))) : Prop where
  frames : rest = ds.map .data ++ tr.toList.map .headers
  trailers : ∀ t, tr = some t → ¬ noTr ∧ ∀ fs, t = some fs → TrailersOk req s.host (fs.map fl)
  length : s.contentLength = -1 ∨ s.contentLength = s.recvContentLength + (ds.flatten.sum : Nat)
  cbs : cb = ds.flatten.map .data ++ (tr.elim [] (trailerCbs req)) ++ [.endStream]

theorem tail_iff (pp : Pri → List UInt8 → Option Pri) (ext : Bool) {he db de tb te en : Hs} {noTr : State → Prop}
    (hd : Dir he db de tb te en noTr) (hno : ∀ s n, noTr (addRecv s n) ↔ noTr s)
    (h : Hs) (s : State) (hf : s.expectFinal = false) (h0 : fits s 0)
    (t1 : transit h s .dataBegin = .ok db)
    (t2 : transit h s .headersBegin = .unexpected ∧ noTr s ∨ transit h s .headersBegin = .ok tb ∧ ¬ noTr s)
    (t3 : transit h s .msgEnd = trEnd s en) (rest : List Frm) (cb : List Cb) :
    (∃ m, onMessage pp ext ⟨h, s⟩ rest = (cb, .ok m)) ↔ ∃ ds tr, Tail (isRequest tb) s (noTr s) rest cb ds tr := by
  induction rest generalizing h s cb with
  | nil =>
    unfold onMessage onFrames onEnd
    dsimp only
    rw [t3]
    have htr := trEnd_ok s en hf
    by_cases hl : s.contentLength = -1 ∨ s.contentLength = s.recvContentLength
    · rw [htr.1 hl]
      unfold Tr.bind
      dsimp only
      constructor
      · rintro ⟨m, hm⟩
        have hcb : cb = [.endStream] := by
          have := (Prod.mk.inj hm).1; rw [← this]; rfl
        exact ⟨[], none, rfl, (by simp), (by simpa using hl), hcb⟩
      · rintro ⟨ds, tr, h1⟩
        have hfr := h1.frames
        have hds : ds = [] := by
          have := congrArg List.length hfr; simp at this; exact List.length_eq_zero_iff.1 (by omega)
        have htr : tr = none := by
          have := congrArg List.length hfr; cases tr with
          | none => rfl
          | some => simp at this
        refine ⟨⟨en, s⟩, ?_⟩
        rw [h1.cbs, hds, htr]; rfl
    · rw [htr.2 hl]
      unfold Tr.bind
      dsimp only
      constructor
      · rintro ⟨m, hm⟩; cases (Prod.mk.inj hm).2
      · rintro ⟨ds, tr, h1⟩
        have hfr := h1.frames
        have hds : ds = [] := by
          have := congrArg List.length hfr; simp at this; exact List.length_eq_zero_iff.1 (by omega)
        have := h1.length
        rw [hds] at this
        exact absurd (by simpa using this) hl
  | cons f rest ih =>
    cases f with
    | data ps =>
      have hstep : onFrame pp ext ⟨h, s⟩ (.data ps) =
          match onData s ps with
          | (cb, none) => (cb, .malformedMessaging)
          | (cb, some s') => (cb ++ [], .ok ⟨de, s'⟩) := by
        unfold onFrame
        dsimp only
        rw [t1]
        unfold Tr.bind
        dsimp only
        rcases onData s ps with ⟨c, _ | s'⟩
        · rfl
        · dsimp only; rw [hd.dataEnd]
      have hod := onData_eq s ps hf h0
      by_cases hfit : fits s ps.sum
      · rw [hod.1 hfit] at hstep
        dsimp only at hstep
        rw [List.append_nil] at hstep
        have hmsg : onMessage pp ext ⟨h, s⟩ (.data ps :: rest) =
            (ps.map .data ++ (onMessage pp ext ⟨de, addRecv s ps.sum⟩ rest).1, (onMessage pp ext ⟨de, addRecv s ps.sum⟩ rest).2) := by
          unfold onMessage
          rw [onFrames, hstep]
          dsimp only
          rcases onFrames pp ext ⟨de, addRecv s ps.sum⟩ rest with ⟨c, _ | _ | _ | _ | m'⟩ <;> simp
        have hfit' : fits (addRecv s ps.sum) 0 := by
          unfold fits addRecv at *; dsimp only; rcases hfit with h | h
          · exact Or.inl h
          · right; simpa using h
        have := fun cb => ih de (addRecv s ps.sum) hf hfit' (hd.deData _) (hd.deHeaders _) (hd.deEnd _) cb
        rw [hmsg]
        constructor
        · rintro ⟨m, hm⟩
          obtain ⟨hm1, hm2⟩ := Prod.mk.inj hm
          obtain ⟨ds, tr, ht⟩ := (this (onMessage pp ext ⟨de, addRecv s ps.sum⟩ rest).1).1 ⟨m, Prod.ext rfl hm2⟩
          refine ⟨ps :: ds, tr, ?_, ?_, ?_, ?_⟩
          · rw [ht.frames]; simp
          · intro t htr
            have := ht.trailers t htr
            rw [hno] at this
            exact this
          · have := ht.length
            unfold addRecv at this
            dsimp only at this
            simp only [List.flatten_cons, List.sum_append]
            push_cast
            omega
          · rw [← hm1, ht.cbs]; simp
        · rintro ⟨ds, tr, ht⟩
          have hfr := ht.frames
          cases ds with
          | nil =>
            cases tr with
            | none => cases hfr
            | some t => cases hfr
          | cons d ds' =>
            rw [List.map_cons, List.cons_append] at hfr
            obtain ⟨e1, e2⟩ := List.cons.inj hfr
            have e1' : ps = d := by injection e1
            subst e1'
            obtain ⟨m, hm⟩ := (this (ds'.flatten.map .data ++ (tr.elim [] (trailerCbs (isRequest tb))) ++ [.endStream])).2
              ⟨ds', tr, e2, by intro t htr; rw [hno]; exact ht.trailers t htr, by
                have := ht.length
                simp only [List.flatten_cons, List.sum_append] at this
                push_cast at this
                unfold addRecv; dsimp only; omega, rfl⟩
            refine ⟨m, ?_⟩
            rw [hm, ht.cbs]
            simp
      · have h2 := hod.2 hfit
        have hbad : ∃ c, onMessage pp ext ⟨h, s⟩ (.data ps :: rest) = (c, .malformedMessaging) := by
          unfold onMessage
          rw [onFrames, hstep]
          rcases hq : onData s ps with ⟨c, o⟩
          rw [hq] at h2
          dsimp only at h2
          subst h2
          exact ⟨c, rfl⟩
        obtain ⟨c, hc⟩ := hbad
        rw [hc]
        constructor
        · rintro ⟨m, hm⟩; cases (Prod.mk.inj hm).2
        · rintro ⟨ds, tr, ht⟩
          exfalso
          have hfr := ht.frames
          cases ds with
          | nil =>
            cases tr with
            | none => cases hfr
            | some t => cases hfr
          | cons d ds' =>
            rw [List.map_cons, List.cons_append] at hfr
            obtain ⟨e1, e2⟩ := List.cons.inj hfr
            have e1' : ps = d := by injection e1
            subst e1'
            apply hfit
            have := ht.length
            simp only [List.flatten_cons, List.sum_append] at this
            push_cast at this
            unfold fits
            omega
    | headers o =>
      have hshape : ∀ ds tr, Tail (isRequest tb) s (noTr s) (.headers o :: rest) cb ds tr → ds = [] ∧ tr = some o ∧ rest = [] := by
        intro ds tr ht
        have hfr := ht.frames
        cases ds with
        | cons d ds' => cases hfr
        | nil =>
          cases tr with
          | none => cases hfr
          | some t =>
            simp only [List.map_nil, List.nil_append, Option.toList_some, List.map_cons] at hfr
            obtain ⟨e1, e2⟩ := List.cons.inj hfr
            have e1' : o = t := by injection e1
            exact ⟨rfl, by rw [e1'], e2⟩
      rcases t2 with ⟨t2, hn⟩ | ⟨t2, hn⟩
      · have hbad : onMessage pp ext ⟨h, s⟩ (.headers o :: rest) = ([], .unexpected) := by
          unfold onMessage
          have : onFrame pp ext ⟨h, s⟩ (.headers o) = ([], .unexpected) := by
            cases o <;> (unfold onFrame; dsimp only; rw [t2]; rfl)
          rw [onFrames, this]
        rw [hbad]
        constructor
        · rintro ⟨m, hm⟩; cases (Prod.mk.inj hm).2
        · rintro ⟨ds, tr, ht⟩
          obtain ⟨_, h2, _⟩ := hshape ds tr ht
          exact absurd hn (ht.trailers o h2).1
      · -- the frame itself
        have hfrm : (∀ fs, o = some fs → ¬ TrailersOk (isRequest tb) s.host (fs.map fl)) ∧ o ≠ none ∧
              (∃ c, onFrame pp ext ⟨h, s⟩ (.headers o) = (c, .malformedHeader)) ∨
            (∀ fs, o = some fs → TrailersOk (isRequest tb) s.host (fs.map fl)) ∧
              ∃ s', s'.contentLength = s.contentLength ∧ s'.recvContentLength = s.recvContentLength ∧ s'.expectFinal = s.expectFinal ∧
              onFrame pp ext ⟨h, s⟩ (.headers o) = (trailerCbs (isRequest tb) o, .ok ⟨te, s'⟩) := by
          cases o with
          | none =>
            right
            refine ⟨by simp, s, rfl, rfl, rfl, ?_⟩
            unfold onFrame
            dsimp only
            rw [t2]
            unfold Tr.bind
            dsimp only
            rw [hd.empty, if_pos rfl, hd.tbEnd]
            rfl
          | some fs =>
            have hr := trailers_run pp (isRequest tb) ext s fs
            have hon : onFrame pp ext ⟨h, s⟩ (.headers (some fs)) =
                match (runFields pp (isRequest tb) true ext s fs).2 with
                | none => (.beginTrailers :: (runFields pp (isRequest tb) true ext s fs).1.map .trailer, .malformedHeader)
                | some s' => (.beginTrailers :: (runFields pp (isRequest tb) true ext s fs).1.map .trailer ++ [.endTrailers], .ok ⟨te, s'⟩) := by
              unfold onFrame
              dsimp only
              rw [t2]
              unfold Tr.bind
              dsimp only
              rw [hd.trailers]
              rcases (runFields pp (isRequest tb) true ext s fs).2 with _ | s'
              · rfl
              · simp only [Option.bind_some, hd.endSec, hd.tbEnd, if_true]
            cases hq : (runFields pp (isRequest tb) true ext s fs).2 with
            | none =>
              rw [hq] at hr hon
              left
              exact ⟨fun fs' e => by cases e; exact hr, by simp, _, hon⟩
            | some s' =>
              rw [hq] at hr hon
              right
              refine ⟨fun fs' e => by cases e; exact hr.1, s', hr.2.1, hr.2.2.1, hr.2.2.2.1, ?_⟩
              rw [hon, hr.2.2.2.2]
              rfl
        rcases hfrm with ⟨hb, hne, c, hc⟩ | ⟨hg, s', q1, q2, q3, hon⟩
        · have : onMessage pp ext ⟨h, s⟩ (.headers o :: rest) = (c, .malformedHeader) := by
            unfold onMessage; rw [onFrames, hc]
          rw [this]
          constructor
          · rintro ⟨m, hm⟩; cases (Prod.mk.inj hm).2
          · rintro ⟨ds, tr, ht⟩
            obtain ⟨_, h2, _⟩ := hshape ds tr ht
            cases o with
            | none => exact absurd rfl hne
            | some fs => exact absurd ((ht.trailers _ h2).2 fs rfl) (hb fs rfl)
        · cases rest with
          | cons f' r' =>
            have : ∃ c, onMessage pp ext ⟨h, s⟩ (.headers o :: f' :: r') = (c, .unexpected) := by
              unfold onMessage
              rw [onFrames, hon]
              dsimp only
              have hx : onFrame pp ext ⟨te, s'⟩ f' = ([], .unexpected) := by
                cases f' with
                | data ps => unfold onFrame; dsimp only; rw [hd.teOther _ _ (by simp)]; rfl
                | headers o' => cases o' <;> (unfold onFrame; dsimp only; rw [hd.teOther _ _ (by simp)]; rfl)
              rw [onFrames, hx]
              exact ⟨_, rfl⟩
            obtain ⟨c, hc⟩ := this
            rw [hc]
            constructor
            · rintro ⟨m, hm⟩; cases (Prod.mk.inj hm).2
            · rintro ⟨ds, tr, ht⟩
              cases (hshape ds tr ht).2.2
          | nil =>
            have hmsg : onMessage pp ext ⟨h, s⟩ [.headers o] =
                (trailerCbs (isRequest tb) o ++ (onEnd ⟨te, s'⟩).1, (onEnd ⟨te, s'⟩).2) := by
              unfold onMessage
              rw [onFrames, hon]
              dsimp only
              unfold onFrames
              simp
            rw [hmsg]
            unfold onEnd
            dsimp only
            rw [hd.teEnd]
            have htr := trEnd_ok s' en (by rw [q3]; exact hf)
            rw [q1, q2] at htr
            by_cases hl : s.contentLength = -1 ∨ s.contentLength = s.recvContentLength
            · rw [htr.1 hl]
              unfold Tr.bind
              dsimp only
              constructor
              · rintro ⟨m, hm⟩
                refine ⟨[], some o, by simp, ?_, by simpa using hl, ?_⟩
                · intro t e; cases e; exact ⟨hn, hg⟩
                · rw [← (Prod.mk.inj hm).1]; simp
              · rintro ⟨ds, tr, ht⟩
                obtain ⟨e1, e2, _⟩ := hshape ds tr ht
                refine ⟨⟨en, s'⟩, ?_⟩
                rw [ht.cbs, e1, e2]; simp
            · rw [htr.2 hl]
              unfold Tr.bind
              dsimp only
              constructor
              · rintro ⟨m, hm⟩; cases (Prod.mk.inj hm).2
              · rintro ⟨ds, tr, ht⟩
                obtain ⟨e1, _, _⟩ := hshape ds tr ht
                have := ht.length
                rw [e1] at this
                exact absurd (by simpa using this) hl

end Http
end Nghttp3

namespace Nghttp3
namespace Http
open Spec

theorem dir_req : Dir .reqHeadersEnd .reqDataBegin .reqDataEnd .reqTrailersBegin .reqTrailersEnd .reqEnd (fun s => s.methConnect = true) where
  dataEnd _ := rfl
  deData _ := rfl
  deHeaders s := by unfold transit; dsimp only; cases s.methConnect <;> simp
  deEnd _ := rfl
  tbEnd _ := rfl
  teOther s e h := by unfold transit; dsimp only; rw [if_pos h]
  teEnd _ := rfl
  empty := rfl
  trailers := rfl
  endSec _ := rfl

theorem dir_resp : Dir .respHeadersEnd .respDataBegin .respDataEnd .respTrailersBegin .respTrailersEnd .respEnd
    (fun s => s.methConnect = true ∧ Int.tdiv s.statusCode 100 = 2) where
  dataEnd _ := rfl
  deData _ := rfl
  deHeaders s := by
    unfold transit; dsimp only
    by_cases h : s.methConnect = true ∧ Int.tdiv s.statusCode 100 = 2
    · rw [if_pos h]; exact Or.inl ⟨rfl, h⟩
    · rw [if_neg h]; exact Or.inr ⟨rfl, h⟩
  deEnd _ := rfl
  tbEnd _ := rfl
  teOther s e h := by unfold transit; dsimp only; rw [if_pos h]
  teEnd _ := rfl
  empty := rfl
  trailers := rfl
  endSec _ := rfl

/-- continue a message after one accepted frame -/
theorem onMessage_cons (pp : Pri → List UInt8 → Option Pri) (ext : Bool) (m : Msg) (f : Frm) (rest : List Frm) :
    onMessage pp ext m (f :: rest) =
      match onFrame pp ext m f with
      | (cb, .ok m') => (cb ++ (onMessage pp ext m' rest).1, (onMessage pp ext m' rest).2)
      | r => r := by
  unfold onMessage
  rw [onFrames]
  rcases onFrame pp ext m f with ⟨c, _ | _ | _ | _ | m'⟩
  · rfl
  · rfl
  · rfl
  · rfl
  · dsimp only
    rcases onFrames pp ext m' rest with ⟨c', _ | _ | _ | _ | m''⟩ <;> simp

/-- a header section of a request as a frame -/
theorem req_frame (pp : Pri → List UInt8 → Option Pri) (ext : Bool) (fs : List Field) :
    (¬ RequestOk ext (fs.map fl) ∧ ∃ c, onFrame pp ext ⟨.reqInitial, {}⟩ (.headers (some fs)) = (c, .malformedHeader)) ∨
    (RequestOk ext (fs.map fl) ∧ ∃ s, onFrame pp ext ⟨.reqInitial, {}⟩ (.headers (some fs)) =
        (.beginHeaders :: (fs.filter (fun f => deliverRequest (fl f))).map .header ++ [.endHeaders], .ok ⟨.reqHeadersEnd, s⟩) ∧
      s.expectFinal = false ∧ s.recvContentLength = 0 ∧ s.host = decide (hosts (fs.map fl) ≠ []) ∧
      (s.methConnect = true ↔ hasValue ":method" "CONNECT" (fs.map fl)) ∧
      s.contentLength = (match requestLength (fs.map fl) with | none => -1 | some k => (k : Int))) := by
  have hrun := req_run pp ext fs [] {} (reqGood_nil ext) reqInv_init
  rw [List.nil_append] at hrun
  have hon : onFrame pp ext ⟨.reqInitial, {}⟩ (.headers (some fs)) =
      match (runFields pp true false ext {} fs).2.bind onRequestHeaders with
      | none => (.beginHeaders :: (runFields pp true false ext {} fs).1.map .header, .malformedHeader)
      | some s => (.beginHeaders :: (runFields pp true false ext {} fs).1.map .header ++ [.endHeaders], .ok ⟨.reqHeadersEnd, s⟩) := by
    unfold onFrame
    have : transit .reqInitial {} .headersBegin = .ok .reqHeadersBegin := rfl
    dsimp only
    rw [this]
    unfold Tr.bind
    dsimp only
    have e1 : isTrailers .reqHeadersBegin = false := rfl
    have e2 : isRequest .reqHeadersBegin = true := rfl
    have e3 : endSection .reqHeadersBegin = onRequestHeaders := rfl
    rw [e1, e2, e3]
    rcases (runFields pp true false ext {} fs).2.bind onRequestHeaders with _ | s
    · rfl
    · rfl
  cases hq : (runFields pp true false ext {} fs).2 with
  | none =>
    rw [hq] at hrun hon
    left
    refine ⟨fun h => hrun ((requestOk_iff _ _).1 h).1, _, hon⟩
  | some s =>
    rw [hq] at hrun hon
    obtain ⟨h1, h2, h3⟩ := hrun
    have hend := req_end ext _ s h1 h2
    simp only [Option.bind_some] at hon
    cases hq2 : onRequestHeaders s with
    | none =>
      rw [hq2] at hend hon
      exact Or.inl ⟨hend, _, hon⟩
    | some s' =>
      rw [hq2] at hend hon
      right
      obtain ⟨e1, e2⟩ := hend
      refine ⟨e1, s', ?_, ?_, ?_, ?_, ?_, ?_⟩
      · rw [hon, h3]
      · rw [e2]; exact h2.final
      · rw [e2]; exact h2.recv
      · rw [e2]
        show s.host = _
        rw [h2.host, hosts_eq]
        cases hostVals (fs.map fl) <;> simp
      · rw [e2]
        show s.methConnect = true ↔ _
        rw [h2.connect, any_beq, hasValue_eq .method _ "CONNECT" rfl]
        simp
      · rw [e2]
        show (if _ then _ else _) = _
        unfold requestLength
        have hv : valuesOf ":protocol" (fs.map fl) = vals .protocol (fs.map fl) := valuesOf_eq .protocol _ rfl _
        have hm : ((ascii ":method", ascii "CONNECT") ∈ fs.map fl) ↔ ascii "CONNECT" ∈ vals .method (fs.map fl) :=
          hasValue_eq .method ":method" "CONNECT" rfl _
        have hc : valuesOf "content-length" (fs.map fl) = vals .cl (fs.map fl) := valuesOf_eq .cl _ rfl _
        rw [hv, hc]
        simp only [hm]
        by_cases hcc : ascii "CONNECT" ∈ vals Nm.method (fs.map fl) ∧ vals Nm.protocol (fs.map fl) = []
        · rw [if_pos hcc, if_pos hcc]
        · rw [if_neg hcc, if_neg hcc, h2.cl]
          cases vals .cl (fs.map fl) <;> rfl

/-- a header section of a response as a frame -/
structure FreshResp (s : State) : Prop where
  status : s.status = false
  pseudo : s.pseudoDisallowed = false
  cl : s.contentLength = -1
  code : s.statusCode = -1
  recv : s.recvContentLength = 0

theorem resp_frame (pp : Pri → List UInt8 → Option Pri) (ext : Bool) (h : Hs) (s0 : State) (hf : FreshResp s0)
    (hh : h = .respInitial ∨ h = .respHeadersEnd) (fs : List Field) :
    ((∀ st, ¬ ResponseOk s0.methConnect st (fs.map fl)) ∧ ∃ c, onFrame pp ext ⟨h, s0⟩ (.headers (some fs)) = (c, .malformedHeader)) ∨
    (∃ st s, ResponseOk s0.methConnect st (fs.map fl) ∧ onFrame pp ext ⟨h, s0⟩ (.headers (some fs)) =
        (.beginHeaders :: (fs.filter (fun f => deliverResponse (lengthRule s0.methConnect st) (fl f))).map .header ++ [.endHeaders],
          .ok ⟨.respHeadersEnd, s⟩) ∧
      s.methConnect = s0.methConnect ∧ s.methHead = s0.methHead ∧
      ((st / 100 = 1 ∧ FreshResp s ∧ s.expectFinal = true) ∨
       (st / 100 ≠ 1 ∧ s.expectFinal = false ∧ s.recvContentLength = 0 ∧ s.statusCode = (st : Int) ∧
        s.contentLength = if s0.methHead = true ∨ st = 304 ∨ st = 204 then 0 else if s0.methConnect = true then -1
          else match vals .cl (fs.map fl) with | [] => -1 | v :: _ => (decimal v : Int)))) := by
  have hrun := resp_section pp ext s0 hf.status hf.pseudo hf.cl fs
  have hon : onFrame pp ext ⟨h, s0⟩ (.headers (some fs)) =
      match (runFields pp false false ext s0 fs).2.bind onResponseHeaders with
      | none => (.beginHeaders :: (runFields pp false false ext s0 fs).1.map .header, .malformedHeader)
      | some s => (.beginHeaders :: (runFields pp false false ext s0 fs).1.map .header ++ [.endHeaders], .ok ⟨.respHeadersEnd, s⟩) := by
    unfold onFrame
    have : transit h s0 .headersBegin = .ok .respHeadersBegin := by
      rcases hh with rfl | rfl
      · rfl
      · unfold transit; dsimp only; rw [if_pos hf.code]
    dsimp only
    rw [this]
    unfold Tr.bind
    dsimp only
    have e1 : isTrailers .respHeadersBegin = false := rfl
    have e2 : isRequest .respHeadersBegin = false := rfl
    have e3 : endSection .respHeadersBegin = onResponseHeaders := rfl
    rw [e1, e2, e3]
    rcases (runFields pp false false ext s0 fs).2.bind onResponseHeaders with _ | s
    · rfl
    · rfl
  cases hq : (runFields pp false false ext s0 fs).2.bind onResponseHeaders with
  | none =>
    rw [hq] at hrun hon
    exact Or.inl ⟨hrun, _, hon⟩
  | some s =>
    rw [hq] at hrun hon
    obtain ⟨st, b, h1, h2, h3⟩ := hrun
    right
    refine ⟨st, s, h1, ?_, ?_⟩
    · rw [hon, h2]
    · have htd : Int.tdiv (st : Int) 100 = ((st / 100 : Nat) : Int) := by
        rw [Int.tdiv_eq_ediv_of_nonneg (by omega)]; rfl
      unfold onResponseHeaders at h3
      dsimp only at h3
      rw [if_neg (by simp), htd] at h3
      by_cases hi : st / 100 = 1
      · rw [if_pos (by rw [hi]; rfl)] at h3
        cases h3
        exact ⟨rfl, rfl, Or.inl ⟨hi, ⟨rfl, rfl, rfl, rfl, hf.recv⟩, rfl⟩⟩
      · rw [if_neg (by omega)] at h3
        unfold expectResponseBody at h3
        dsimp only at h3
        rw [htd] at h3
        by_cases hc : s0.methHead = true ∨ st = 304 ∨ st = 204
        · have hx : (!(!s0.methHead && decide (((st / 100 : Nat) : Int) ≠ 1) && ((st : Int) != 304) && ((st : Int) != 204))) = true := by
            rcases hc with hc | hc | hc
            · rw [hc]; rfl
            · subst hc; simp
            · subst hc; simp
          rw [if_pos hx] at h3
          cases h3
          exact ⟨rfl, rfl, Or.inr ⟨hi, rfl, hf.recv, rfl, by rw [if_pos hc]⟩⟩
        · have hx : ¬ (!(!s0.methHead && decide (((st / 100 : Nat) : Int) ≠ 1) && ((st : Int) != 304) && ((st : Int) != 204))) = true := by
            have a1 : s0.methHead = false := by
              cases hm : s0.methHead
              · rfl
              · exact absurd (Or.inl hm) hc
            have a2 : ¬ (st : Int) = 304 := fun e => hc (Or.inr (Or.inl (by omega)))
            have a3 : ¬ (st : Int) = 204 := fun e => hc (Or.inr (Or.inr (by omega)))
            have a4 : ¬ ((st / 100 : Nat) : Int) = 1 := by omega
            simp only [a1, bne_iff_ne, ne_eq, a2, a3, a4, Bool.not_false, not_false_eq_true, decide_true, Bool.and_self]
            simp [a2, a3]
          rw [if_neg hx] at h3
          cases hm : s0.methConnect
          · rw [hm] at h3
            simp only [Bool.false_eq_true, if_false] at h3
            cases h3
            refine ⟨rfl, rfl, Or.inr ⟨hi, rfl, hf.recv, rfl, ?_⟩⟩
            rw [if_neg hc]
            simp only [Bool.false_eq_true, if_false]
            have hr : lengthRule false st = .number := by
              unfold lengthRule
              rw [if_neg (fun e => hc (Or.inr (Or.inr e))), if_neg]
              rintro (e | e)
              · exact hi e
              · simp at e
            rw [hr]
            cases vals .cl (fs.map fl) <;> rfl
          · rw [hm] at h3
            simp only [if_true] at h3
            cases h3
            refine ⟨rfl, rfl, Or.inr ⟨hi, rfl, hf.recv, rfl, ?_⟩⟩
            rw [if_neg hc]; simp

theorem recordRequestMethod_eq (req : List Field) : ∃ c h, recordRequestMethod {} req = { methConnect := c, methHead := h } ∧
    (c = true ↔ methodOf (req.map fl) = some (ascii "CONNECT")) ∧ (h = true ↔ methodOf (req.map fl) = some (ascii "HEAD")) := by
  have e1 : ascii "HEAD" = sHEAD := by decide
  have e2 : ascii "CONNECT" = sCONNECT := by decide
  have e3 : ascii ":method" = sMethod := by decide
  unfold methodOf valuesOf
  rw [e1, e2, e3]
  induction req with
  | nil => exact ⟨false, false, rfl, by simp, by simp⟩
  | cons f t ih =>
    unfold recordRequestMethod
    rw [List.map_cons, List.filter_cons]
    by_cases hn : f.name = sMethod
    · rw [if_neg (fun h => h hn)]
      have : ((fl f).1 == sMethod) = true := by simpa [fl] using hn
      rw [if_pos this]
      simp only [List.map_cons, List.head?_cons, Option.some.injEq]
      have hv : (fl f).2 = f.value := rfl
      rw [hv]
      by_cases h1 : f.value = sCONNECT
      · rw [if_pos h1]
        refine ⟨true, false, rfl, by simp [h1], ?_⟩
        rw [h1]; simp [sCONNECT, sHEAD]
      · rw [if_neg h1]
        by_cases h2 : f.value = sHEAD
        · rw [if_pos h2]
          exact ⟨false, true, rfl, by simp [h1], by simp [h2]⟩
        · rw [if_neg h2]
          exact ⟨false, false, rfl, by simp [h1], by simp [h2]⟩
    · rw [if_pos hn]
      have : ((fl f).1 == sMethod) = false := by simpa [fl] using hn
      rw [this]
      exact ih

end Http
end Nghttp3
