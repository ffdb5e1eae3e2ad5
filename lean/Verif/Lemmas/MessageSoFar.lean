import Verif.Spec.SoFar
import Verif.Lemmas.NetRun
/-! Messages in progress. -/
namespace Nghttp3
namespace Http
open Spec

variable {pp : Pri → List UInt8 → Option Pri} {ext : Bool}

def declInt : Option Nat → Int
  | none => -1
  | some k => k

theorem fits_decl {s : State} {L : Option Nat} (hl : s.contentLength = declInt L) (hr : s.recvContentLength = 0) (n : Nat) : fits s n ↔ withinLength L n := by
  unfold fits withinLength
  rw [hl, hr]
  cases L with
  | none => simp [declInt]
  | some k => simp [declInt]

/-- between frames, after the header section, which left the state `s0` -/
inductive TailAt (req : Bool) (s0 : State) (he de te : Hs) (noTr : State → Prop) (L : Option Nat) : List Cb → Msg → Prop
  | body (ds : List Nat) (h : Hs) (hh : h = he ∨ h = de) (hl : withinLength L ds.sum) : TailAt req s0 he de te noTr L (ds.map .data) ⟨h, addRecv s0 ds.sum⟩
  | trailers (ds : List Nat) (ts : Option (List Field)) (s : State) (hl : withinLength L ds.sum) (hn : ¬ noTr s0)
      (ht : ∀ fs, ts = some fs → TrailersOk req s0.host (fs.map fl)) : TailAt req s0 he de te noTr L (ds.map .data ++ trailerCbs req ts) ⟨te, s⟩

theorem addRecv_addRecv (s : State) (a b : Nat) : addRecv (addRecv s a) b = addRecv s (a + b) := by
  unfold addRecv
  dsimp only
  congr 1
  push_cast; ring

theorem TailAt.so {req hs : Bool} {s0 : State} {he de te : Hs} {noTr : State → Prop} {L : Option Nat} {cb : List Cb} {m : Msg} (hh : s0.host = hs ∨ req = false)
    (h : TailAt req s0 he de te noTr L cb m) : RestSoFar req hs (noTr s0) L cb := by
  cases h with
  | body ds h hh hl => exact .body ds hl
  | trailers ds ts s hl hn ht =>
    refine .trailers ds ts hl hn fun fs g => ?_
    have := ht fs g
    rcases hh with rfl | rfl
    · exact this
    · exact ⟨this.noPseudo, this.regular, fun g => by cases g⟩

/-- a frame after the header section -/
theorem tail_step {he db de tb te en : Hs} {noTr : State → Prop} (hd : Dir he db de tb te en noTr) (hno : ∀ s n, noTr (addRecv s n) ↔ noTr s) {s0 : State}
    (hf : s0.expectFinal = false) (hr0 : s0.recvContentLength = 0) {L : Option Nat} (hL : s0.contentLength = declInt L)
    (he1 : ∀ n, transit he (addRecv s0 n) .dataBegin = .ok db)
    (he2 : ∀ n, transit he (addRecv s0 n) .headersBegin = .unexpected ∧ noTr s0 ∨ transit he (addRecv s0 n) .headersBegin = .ok tb ∧ ¬ noTr s0)
    {cb : List Cb} {m : Msg} (h : TailAt (isRequest tb) s0 he de te noTr L cb m) :
    (∀ h', transit m.h m.s .dataBegin = .ok h' → h' = db ∧ ∃ (ds : List Nat) (n : Nat), cb = ds.map .data ∧ n = ds.sum ∧ m.s = addRecv s0 n ∧ withinLength L n) ∧
    (∀ h', transit m.h m.s .headersBegin = .ok h' → h' = tb ∧ ¬ noTr s0 ∧ ∃ (ds : List Nat) (n : Nat), cb = ds.map .data ∧ n = ds.sum ∧ m.s = addRecv s0 n ∧ withinLength L n) := by
  cases h with
  | body ds h hh hl =>
    dsimp only
    have h1 : transit h (addRecv s0 ds.sum) .dataBegin = .ok db := by
      rcases hh with rfl | rfl
      · exact he1 _
      · exact hd.deData _
    have h2 : transit h (addRecv s0 ds.sum) .headersBegin = .unexpected ∧ noTr s0 ∨ transit h (addRecv s0 ds.sum) .headersBegin = .ok tb ∧ ¬ noTr s0 := by
      rcases hh with rfl | rfl
      · exact he2 _
      · rw [← hno s0 ds.sum]; exact hd.deHeaders _
    refine ⟨fun h' g => ?_, fun h' g => ?_⟩
    · rw [h1] at g; cases g
      exact ⟨rfl, ds, _, rfl, rfl, rfl, hl⟩
    · rcases h2 with ⟨h2, _⟩ | ⟨h2, h3⟩ <;> rw [h2] at g <;> cases g
      exact ⟨rfl, h3, ds, _, rfl, rfl, rfl, hl⟩
  | trailers ds ts s hl hn ht =>
    refine ⟨fun h' g => ?_, fun h' g => ?_⟩
    · dsimp only at g; rw [hd.teOther _ _ (by simp)] at g; cases g
    · dsimp only at g; rw [hd.teOther _ _ (by simp)] at g; cases g

/-- what a frame leads to -/
def TailRes (req : Bool) (s0 : State) (he de te : Hs) (noTr : State → Prop) (L : Option Nat) (cb : List Cb) : List Cb × MRes → Prop
  | (cb', .ok m) => TailAt req s0 he de te noTr L (cb ++ cb') m
  | (cb', .malformedHeader) => ∃ (ds : List Nat) (out : List Field), withinLength L ds.sum ∧ ¬ noTr s0 ∧ cb ++ cb' = ds.map .data ++ .beginTrailers :: out.map .trailer
  | _ => True

theorem tail_frame {he db de tb te en : Hs} {noTr : State → Prop} (hd : Dir he db de tb te en noTr) (hno : ∀ s n, noTr (addRecv s n) ↔ noTr s) {s0 : State}
    (hf : s0.expectFinal = false) (hr0 : s0.recvContentLength = 0) {L : Option Nat} (hL : s0.contentLength = declInt L)
    (he1 : ∀ n, transit he (addRecv s0 n) .dataBegin = .ok db)
    (he2 : ∀ n, transit he (addRecv s0 n) .headersBegin = .unexpected ∧ noTr s0 ∨ transit he (addRecv s0 n) .headersBegin = .ok tb ∧ ¬ noTr s0)
    {cb : List Cb} {m : Msg} (h : TailAt (isRequest tb) s0 he de te noTr L cb m) (f : Frm) : TailRes (isRequest tb) s0 he de te noTr L cb (onFrame pp ext m f) := by
  obtain ⟨k1, k2⟩ := tail_step hd hno hf hr0 hL he1 he2 h
  cases f with
  | data ps =>
    unfold onFrame
    rcases ht : transit m.h m.s .dataBegin with _ | _ | _ | h' <;> dsimp only [Tr.bind]
    all_goals first | trivial | skip
    obtain ⟨rfl, ds, n, rfl, hn, hm, hl⟩ := k1 h' ht
    have h0 : fits m.s 0 := by
      have := (fits_decl hL hr0 n).2 hl
      rw [hm]
      unfold fits addRecv at *
      dsimp only at *
      omega
    have hod := onData_eq m.s ps (by rw [hm]; exact hf) h0
    by_cases hfit : fits m.s ps.sum
    · rw [hod.1 hfit]
      dsimp only
      rw [hd.dataEnd]
      dsimp only [Tr.bind]
      rw [List.append_nil]
      show TailAt _ _ _ _ _ _ _ (ds.map .data ++ ps.map .data) _
      rw [← List.map_append, hm, addRecv_addRecv, hn, ← List.sum_append]
      refine .body _ _ (.inr rfl) ?_
      rw [List.sum_append, ← hn]
      refine (fits_decl hL hr0 _).1 ?_
      rw [hm] at hfit
      unfold fits addRecv at *
      dsimp only at *
      push_cast
      omega
    · have hnone := hod.2 hfit
      rcases ho : onData m.s ps with ⟨b, _ | s⟩
      · trivial
      · rw [ho] at hnone; cases hnone
  | headers o =>
    cases o with
    | none =>
      unfold onFrame
      rcases ht : transit m.h m.s .headersBegin with _ | _ | _ | h' <;> dsimp only [Tr.bind]
      all_goals first | trivial | skip
      obtain ⟨rfl, hnt, ds, n, rfl, hn, hm, hl⟩ := k2 h' ht
      rw [if_pos hd.empty, hd.tbEnd]
      dsimp only
      exact .trailers ds none _ (by rw [← hn]; exact hl) hnt (fun fs g => by cases g)
    | some fs =>
      unfold onFrame
      rcases ht : transit m.h m.s .headersBegin with _ | _ | _ | h' <;> dsimp only [Tr.bind]
      all_goals first | trivial | skip
      obtain ⟨rfl, hnt, ds, n, rfl, hn, hm, hl⟩ := k2 h' ht
      rw [hd.trailers]
      simp only [if_true]
      have htr := trailers_run pp (isRequest h') ext m.s fs
      have hes : endSection h' = some := funext hd.endSec
      rw [hes]
      rcases hrf : runFields pp (isRequest h') true ext m.s fs with ⟨out, _ | s⟩ <;> rw [hrf] at htr <;> dsimp only [Option.bind] at htr ⊢
      · exact ⟨ds, out, by rw [← hn]; exact hl, hnt, rfl⟩
      · rw [hd.tbEnd]
        dsimp only
        obtain ⟨t1, _, _, _, t5⟩ := htr
        rw [t5]
        refine .trailers ds (some fs) _ (by rw [← hn]; exact hl) hnt fun fs' g => ?_
        cases g
        rw [hm] at t1
        exact t1

/-! ### requests -/

inductive ReqAt (ext : Bool) : List Cb → Msg → Prop
  | start : ReqAt ext [] ⟨.reqInitial, {}⟩
  | rest (fs : List Field) (s0 : State) (r : List Cb) (m : Msg) (h : RequestOk ext (fs.map fl)) (hf : s0.expectFinal = false) (hr0 : s0.recvContentLength = 0)
      (hh : s0.host = decide (hosts (fs.map fl) ≠ [])) (hc : s0.methConnect = true ↔ hasValue ":method" "CONNECT" (fs.map fl))
      (hL : s0.contentLength = declInt (requestLength (fs.map fl)))
      (hr : TailAt true s0 .reqHeadersEnd .reqDataEnd .reqTrailersEnd (fun s => s.methConnect = true) (requestLength (fs.map fl)) r m) :
      ReqAt ext (.beginHeaders :: (fs.filter (fun f => deliverRequest (fl f))).map .header ++ .endHeaders :: r) m

theorem RestSoFar.congr {req hs : Bool} {p q : Prop} {L : Option Nat} {cb : List Cb} (h : RestSoFar req hs p L cb) (e : p ↔ q) : RestSoFar req hs q L cb := by
  rwa [← propext e]

theorem ReqAt.so {cb : List Cb} {m : Msg} (h : ReqAt ext cb m) : RequestSoFar ext cb := by
  cases h with
  | start => exact .start
  | rest fs s0 r _ h hf hr0 hh hc hL hr => exact .rest fs r h ((hr.so (.inl hh)).congr hc)

def ReqRes (ext : Bool) (cb : List Cb) : List Cb × MRes → Prop
  | (cb', .ok m) => ReqAt ext (cb ++ cb') m
  | (cb', .malformedHeader) => RequestSoFar ext (cb ++ cb')
  | _ => True

theorem req_he2 (s0 : State) (n : Nat) : transit .reqHeadersEnd (addRecv s0 n) .headersBegin = .unexpected ∧ s0.methConnect = true ∨
    transit .reqHeadersEnd (addRecv s0 n) .headersBegin = .ok .reqTrailersBegin ∧ ¬ s0.methConnect = true := by
  unfold transit addRecv; dsimp only; cases s0.methConnect <;> simp

theorem req_first {f : Frm} (hf : ∀ fs, f ≠ .headers (some fs)) : ∃ cb r, onFrame pp ext ⟨.reqInitial, {}⟩ f = (cb, r) ∧ (r = .unexpected ∨ r = .malformedMessaging) := by
  cases f with
  | data ps => exact ⟨_, _, rfl, .inl rfl⟩
  | headers o =>
    cases o with
    | none => exact ⟨_, _, rfl, .inr rfl⟩
    | some fs => exact absurd rfl (hf fs)

theorem bad_section {m : Msg} {h : Hs} {fs : List Field} {cb : List Cb} (ht : transit m.h m.s .headersBegin = .ok h) (e : onFrame pp ext m (.headers (some fs)) = (cb, .malformedHeader)) :
    ∃ out : List Field, cb = (if isTrailers h then .beginTrailers else .beginHeaders) :: out.map (if isTrailers h then .trailer else .header) := by
  unfold onFrame at e
  rw [ht] at e
  dsimp only [Tr.bind] at e
  generalize (runFields pp (isRequest h) (isTrailers h) ext m.s fs).2.bind (endSection h) = o at e
  rcases o with _ | s
  · exact ⟨_, (Prod.mk.inj e).1.symm⟩
  · have := (Prod.mk.inj e).2
    generalize transit h s .headersEnd = o at this
    rcases o with _ | _ | _ | h' <;> cases this

theorem req_frame_res {cb : List Cb} {m : Msg} (h : ReqAt ext cb m) (f : Frm) : ReqRes ext cb (onFrame pp ext m f) := by
  cases h with
  | start =>
    by_cases hf : ∃ fs, f = .headers (some fs)
    · obtain ⟨fs, rfl⟩ := hf
      rcases req_frame pp ext fs with ⟨_, c, h2⟩ | ⟨h1, s, h2, h3, h4, h5, h6, h7⟩
      · rw [h2]
        obtain ⟨out, rfl⟩ := bad_section (m := ⟨.reqInitial, {}⟩) (h := .reqHeadersBegin) rfl h2
        exact .inHeaders out
      · rw [h2]
        have := ReqAt.rest (ext := ext) fs s [] ⟨.reqHeadersEnd, s⟩ h1 h3 h4 h5 h6 (by rw [h7]; cases requestLength (fs.map fl) <;> rfl) (by
          have := TailAt.body (req := true) (s0 := s) (he := .reqHeadersEnd) (de := .reqDataEnd) (te := .reqTrailersEnd) (noTr := fun s => s.methConnect = true)
            (L := requestLength (fs.map fl)) [] .reqHeadersEnd (.inl rfl) (fun k _ => Nat.zero_le k)
          have e : addRecv s 0 = s := by unfold addRecv; simp
          simpa [e] using this)
        exact this
    · obtain ⟨cb', r, h1, rfl | rfl⟩ := req_first (pp := pp) (ext := ext) (f := f) fun fs g => hf ⟨fs, g⟩
      · rw [h1]; trivial
      · rw [h1]; trivial
  | rest fs s0 r m h hf hr0 hh hc hL hr =>
    have := tail_frame (pp := pp) (ext := ext) dir_req (fun _ _ => Iff.rfl) hf hr0 hL (fun _ => rfl) (req_he2 s0) hr f
    rcases hof : onFrame pp ext m f with ⟨cb', _ | _ | _ | _ | m'⟩ <;> rw [hof] at this <;> try trivial
    · obtain ⟨ds, out, g1, g2, g3⟩ := this
      show RequestSoFar _ _
      rw [List.append_assoc, List.cons_append, List.cons_append, g3]
      exact .rest fs _ h (.inTrailers ds out g1 (fun g => g2 (hc.2 g)))
    · show ReqAt _ _ _
      rw [List.append_assoc, List.cons_append]
      exact .rest fs s0 _ _ h hf hr0 hh hc hL (show TailAt _ _ _ _ _ _ _ _ _ from this)

theorem onFrames_snoc' {m : Msg} {frs : List Frm} (f : Frm) :
    onFrames pp ext m (frs ++ [f]) =
      match onFrames pp ext m frs with
      | (cb, .ok m') => (cb ++ (onFrame pp ext m' f).1, (onFrame pp ext m' f).2)
      | r => r := by
  rw [Net.onFrames_append]
  rcases onFrames pp ext m frs with ⟨cb, _ | _ | _ | _ | m'⟩ <;> dsimp only
  rw [onFrames]
  rcases onFrame pp ext m' f with ⟨cb', _ | _ | _ | _ | m2⟩ <;> dsimp only
  rw [onFrames, List.append_nil]

theorem req_so (frs : List Frm) : ReqRes ext [] (onFrames pp ext ⟨.reqInitial, {}⟩ frs) := by
  induction frs using List.reverseRecOn with
  | nil => exact .start
  | append_singleton frs f ih =>
    rw [onFrames_snoc']
    generalize onFrames pp ext ⟨.reqInitial, {}⟩ frs = o at ih ⊢
    rcases o with ⟨cb, _ | _ | _ | _ | m'⟩ <;> try exact ih
    have := req_frame_res (pp := pp) (show ReqAt ext cb m' from ih) f
    dsimp only
    generalize onFrame pp ext m' f = o at this ⊢
    rcases o with ⟨cb', _ | _ | _ | _ | m2⟩ <;> exact this

/-- in a header or trailer section of a request -/
theorem req_headers {cb : List Cb} {m : Msg} (h : ReqAt ext cb m) {h' : Hs} (ht : transit m.h m.s .headersBegin = .ok h') (out : List Field) :
    RequestSoFar ext (cb ++ (if isTrailers h' then .beginTrailers else .beginHeaders) :: out.map (if isTrailers h' then .trailer else .header)) := by
  cases h with
  | start => cases ht; exact .inHeaders out
  | rest fs s0 r _ h hf hr0 hh hc hL hr =>
    obtain ⟨rfl, g1, ds, n, rfl, g3, g4, g5⟩ := (tail_step dir_req (fun _ _ => Iff.rfl) hf hr0 hL (fun _ => rfl) (req_he2 s0) hr).2 h' ht
    rw [List.append_assoc, List.cons_append, List.cons_append]
    exact .rest fs _ h (.inTrailers ds out (by rw [← g3]; exact g5) (fun g => g1 (hc.2 g)))

/-! ### responses -/

/-- the declared length of the final response -/
def respLen (c hd : Bool) (st : Nat) (fs : List Field) : Option Nat :=
  if hd = true ∨ st = 204 ∨ st = 304 then some 0 else if c = true then none else ((valuesOf "content-length" (fs.map fl)).head?).map decimal

inductive RespAt (c hd : Bool) : List Cb → Msg → Prop
  | interim (is : List (Nat × List Field)) (h : InterimOk c is) (m : Msg) (hf : FreshResp m.s) (hh : m.h = .respInitial ∨ (m.h = .respHeadersEnd ∧ m.s.expectFinal = true))
      (hc : m.s.methConnect = c) (hhd : m.s.methHead = hd) : RespAt c hd (interimCbs c is) m
  | rest (is : List (Nat × List Field)) (h : InterimOk c is) (st : Nat) (fs : List Field) (s0 : State) (r : List Cb) (m : Msg) (hs : ResponseOk c st (fs.map fl))
      (hst : st / 100 ≠ 1) (hf : s0.expectFinal = false) (hr0 : s0.recvContentLength = 0) (hc : s0.methConnect = c) (hcode : s0.statusCode = (st : Int))
      (hL : s0.contentLength = declInt (respLen c hd st fs))
      (hr : TailAt false s0 .respHeadersEnd .respDataEnd .respTrailersEnd (fun s => s.methConnect = true ∧ Int.tdiv s.statusCode 100 = 2) (respLen c hd st fs) r m) :
      RespAt c hd (interimCbs c is ++ sectionCbs c st fs ++ r) m

/-- the callbacks of a response in progress, without reference to the request -/
inductive RespSo (c hd : Bool) : List Cb → Prop
  | interim (is : List (Nat × List Field)) (h : InterimOk c is) : RespSo c hd (interimCbs c is)
  | inHeaders (is : List (Nat × List Field)) (out : List Field) (h : InterimOk c is) : RespSo c hd (interimCbs c is ++ .beginHeaders :: out.map .header)
  | rest (is : List (Nat × List Field)) (st : Nat) (fs : List Field) (r : List Cb) (h : InterimOk c is) (hs : ResponseOk c st (fs.map fl)) (hf : st / 100 ≠ 1)
      (hr : RestSoFar false false (c = true ∧ st / 100 = 2) (respLen c hd st fs) r) : RespSo c hd (interimCbs c is ++ sectionCbs c st fs ++ r)

theorem no_trailers {c : Bool} {st : Nat} {s : State} (hc : s.methConnect = c) (hcode : s.statusCode = (st : Int)) :
    (s.methConnect = true ∧ Int.tdiv s.statusCode 100 = 2) ↔ (c = true ∧ st / 100 = 2) := by
  have htd : Int.tdiv (st : Int) 100 = ((st / 100 : Nat) : Int) := by
    rw [Int.tdiv_eq_ediv_of_nonneg (by omega)]; rfl
  rw [hc, hcode, htd]
  exact and_congr_right fun _ => ⟨fun h => by omega, fun h => by rw [h]; rfl⟩

theorem RespAt.so {c hd : Bool} {cb : List Cb} {m : Msg} (h : RespAt c hd cb m) : RespSo c hd cb := by
  cases h with
  | interim is h => exact .interim is h
  | rest is h st fs s0 r m hs hst hf hr0 hc hcode hL hr => exact .rest is st fs r h hs hst ((hr.so (.inr rfl)).congr (no_trailers hc hcode))

def RespRes (c hd : Bool) (cb : List Cb) : List Cb × MRes → Prop
  | (cb', .ok m) => RespAt c hd (cb ++ cb') m
  | (cb', .malformedHeader) => RespSo c hd (cb ++ cb')
  | _ => True

theorem resp_he2 {st : Nat} {s0 : State} (hcode : s0.statusCode = (st : Int)) (n : Nat) :
    transit .respHeadersEnd (addRecv s0 n) .headersBegin = .unexpected ∧ (s0.methConnect = true ∧ Int.tdiv s0.statusCode 100 = 2) ∨
    transit .respHeadersEnd (addRecv s0 n) .headersBegin = .ok .respTrailersBegin ∧ ¬ (s0.methConnect = true ∧ Int.tdiv s0.statusCode 100 = 2) := by
  unfold transit addRecv
  dsimp only
  rw [if_neg (by rw [hcode]; omega)]
  by_cases hz : s0.methConnect = true ∧ Int.tdiv s0.statusCode 100 = 2
  · rw [if_pos hz]; exact .inl ⟨rfl, hz⟩
  · rw [if_neg hz]; exact .inr ⟨rfl, hz⟩

theorem resp_he1 {s0 : State} (hf : s0.expectFinal = false) (n : Nat) : transit .respHeadersEnd (addRecv s0 n) .dataBegin = .ok .respDataBegin := by
  unfold transit addRecv; dsimp only; rw [hf]; rfl

theorem resp_begin {m : Msg} (hf : FreshResp m.s) (hh : m.h = .respInitial ∨ (m.h = .respHeadersEnd ∧ m.s.expectFinal = true)) :
    transit m.h m.s .headersBegin = .ok .respHeadersBegin := by
  rcases hh with hh | ⟨hh, _⟩ <;> rw [hh]
  · rfl
  · unfold transit; dsimp only; rw [if_pos hf.code]

theorem resp_first {m : Msg} (hf : FreshResp m.s) (hh : m.h = .respInitial ∨ (m.h = .respHeadersEnd ∧ m.s.expectFinal = true)) {f : Frm} (hf0 : ∀ fs, f ≠ .headers (some fs)) :
    ∃ cb r, onFrame pp ext m f = (cb, r) ∧ (r = .unexpected ∨ r = .malformedMessaging) := by
  cases f with
  | data ps =>
    refine ⟨[], .unexpected, ?_, .inl rfl⟩
    unfold onFrame
    rcases hh with hh | ⟨hh, he⟩ <;> rw [hh]
    · rfl
    · unfold transit; dsimp only; rw [he]; rfl
  | headers o =>
    cases o with
    | some fs => exact absurd rfl (hf0 fs)
    | none =>
      refine ⟨[], .malformedMessaging, ?_, .inr rfl⟩
      unfold onFrame
      rw [resp_begin hf hh]
      rfl

theorem interim_snoc {c : Bool} {is : List (Nat × List Field)} (h : InterimOk c is) {st : Nat} {fs : List Field} (hs : ResponseOk c st (fs.map fl)) (hi : st / 100 = 1) :
    InterimOk c (is ++ [(st, fs)]) ∧ interimCbs c (is ++ [(st, fs)]) = interimCbs c is ++ sectionCbs c st fs := by
  refine ⟨fun i g => ?_, ?_⟩
  · rcases List.mem_append.1 g with g | g
    · exact h i g
    · rw [List.mem_singleton.1 g]; exact ⟨hs, hi⟩
  · unfold interimCbs
    rw [List.flatMap_append]
    simp

theorem resp_frame_res {c hd : Bool} {cb : List Cb} {m : Msg} (h : RespAt c hd cb m) (f : Frm) : RespRes c hd cb (onFrame pp ext m f) := by
  cases h with
  | interim is h m hf hh hc hhd =>
    by_cases hf0 : ∃ fs, f = .headers (some fs)
    · obtain ⟨fs, rfl⟩ := hf0
      rcases resp_frame pp ext m.h m.s hf (hh.imp_right And.left) fs with ⟨_, c', h2⟩ | ⟨st, s, g1, g2, g3, g4, g5⟩
      · rw [show (⟨m.h, m.s⟩ : Msg) = m from rfl] at h2
        rw [h2]
        obtain ⟨out, rfl⟩ := bad_section (resp_begin hf hh) h2
        exact .inHeaders is out h
      · rw [show (⟨m.h, m.s⟩ : Msg) = m from rfl] at g2
        rw [g2]
        rw [hc] at g1 g3 ⊢
        rw [hhd] at g4
        show RespAt _ _ _ _
        rcases g5 with ⟨hi, hfr, hex⟩ | ⟨hni, hex, hrecv, hcode, hcl⟩
        · obtain ⟨k1, k2⟩ := interim_snoc h g1 hi
          have := RespAt.interim (hd := hd) _ k1 ⟨.respHeadersEnd, s⟩ hfr (.inr ⟨rfl, hex⟩) g3 g4
          rw [k2] at this
          exact this
        · have hL : s.contentLength = declInt (respLen c hd st fs) := by
            have hv : valuesOf "content-length" (fs.map fl) = vals .cl (fs.map fl) := valuesOf_eq .cl _ rfl _
            unfold respLen
            rw [hcl, hc, hhd, hv]
            by_cases a : hd = true ∨ st = 304 ∨ st = 204
            · have a' : hd = true ∨ st = 204 ∨ st = 304 := by tauto
              rw [if_pos a, if_pos a']; rfl
            · have a' : ¬ (hd = true ∨ st = 204 ∨ st = 304) := by tauto
              rw [if_neg a, if_neg a']
              cases c
              · simp only [Bool.false_eq_true, if_false]
                cases vals .cl (fs.map fl) <;> rfl
              · rfl
          have := RespAt.rest is h st fs s [] ⟨.respHeadersEnd, s⟩ g1 hni hex hrecv g3 hcode hL (by
            have := TailAt.body (req := false) (s0 := s) (he := .respHeadersEnd) (de := .respDataEnd) (te := .respTrailersEnd)
              (noTr := fun s => s.methConnect = true ∧ Int.tdiv s.statusCode 100 = 2) (L := respLen c hd st fs) [] .respHeadersEnd (.inl rfl) (fun k _ => Nat.zero_le k)
            have e : addRecv s 0 = s := by unfold addRecv; simp
            simpa [e] using this)
          rw [List.append_nil] at this
          exact this
    · obtain ⟨cb', r, h1, rfl | rfl⟩ := resp_first (pp := pp) (ext := ext) hf hh (f := f) fun fs g => hf0 ⟨fs, g⟩
      · rw [h1]; trivial
      · rw [h1]; trivial
  | rest is h st fs s0 r m hs hst hf hr0 hc hcode hL hr =>
    have := tail_frame (pp := pp) (ext := ext) dir_resp (fun _ _ => Iff.rfl) hf hr0 hL (resp_he1 hf) (resp_he2 hcode) hr f
    rcases hof : onFrame pp ext m f with ⟨cb', _ | _ | _ | _ | m'⟩ <;> rw [hof] at this <;> try trivial
    · obtain ⟨ds, out, g1, g2, g3⟩ := this
      show RespSo _ _ _
      rw [List.append_assoc, g3]
      exact .rest is st fs _ h hs hst (.inTrailers ds out g1 (fun g => g2 ((no_trailers hc hcode).2 g)))
    · show RespAt _ _ _ _
      rw [List.append_assoc]
      exact .rest is h st fs s0 _ _ hs hst hf hr0 hc hcode hL (show TailAt _ _ _ _ _ _ _ _ _ from this)

theorem resp_headers {c hd : Bool} {cb : List Cb} {m : Msg} (h : RespAt c hd cb m) {h' : Hs} (ht : transit m.h m.s .headersBegin = .ok h') (out : List Field) :
    RespSo c hd (cb ++ (if isTrailers h' then .beginTrailers else .beginHeaders) :: out.map (if isTrailers h' then .trailer else .header)) := by
  cases h with
  | interim is h m hf hh hc hhd =>
    rw [resp_begin hf hh] at ht
    cases ht
    exact .inHeaders is out h
  | rest is h st fs s0 r m hs hst hf hr0 hc hcode hL hr =>
    obtain ⟨rfl, g1, ds, n, rfl, g3, g4, g5⟩ := (tail_step dir_resp (fun _ _ => Iff.rfl) hf hr0 hL (resp_he1 hf) (resp_he2 hcode) hr).2 h' ht
    rw [List.append_assoc]
    exact .rest is st fs _ h hs hst (.inTrailers ds out (by rw [← g3]; exact g5) (fun g => g1 ((no_trailers hc hcode).2 g)))

theorem resp_so (c hd : Bool) (frs : List Frm) : RespRes c hd [] (onFrames pp ext ⟨.respInitial, { methConnect := c, methHead := hd }⟩ frs) := by
  induction frs using List.reverseRecOn with
  | nil => exact .interim [] (fun _ g => by cases g) _ ⟨rfl, rfl, rfl, rfl, rfl⟩ (.inl rfl) rfl rfl
  | append_singleton frs f ih =>
    rw [onFrames_snoc']
    generalize onFrames pp ext ⟨.respInitial, { methConnect := c, methHead := hd }⟩ frs = o at ih ⊢
    rcases o with ⟨cb, _ | _ | _ | _ | m'⟩ <;> try exact ih
    have := resp_frame_res (pp := pp) (ext := ext) (show RespAt c hd cb m' from ih) f
    dsimp only
    generalize onFrame pp ext m' f = o at this ⊢
    rcases o with ⟨cb', _ | _ | _ | _ | m2⟩ <;> exact this

theorem RespSo.spec {method : Option (List UInt8)} {c hd : Bool} (h1 : c = true ↔ method = some (ascii "CONNECT")) (h2 : hd = true ↔ method = some (ascii "HEAD")) {cb : List Cb}
    (h : RespSo c hd cb) : ResponseSoFar method cb := by
  have hc : c = decide (method = some (ascii "CONNECT")) := by
    cases c
    · symm; rw [decide_eq_false_iff_not]; intro hm; cases h1.2 hm
    · symm; rw [decide_eq_true_iff]; exact h1.1 rfl
  have hl : ∀ st fs, respLen c hd st fs = responseLength method st (fs.map fl) := by
    intro st fs
    unfold respLen responseLength
    simp only [h1, h2]
  cases h with
  | interim is h => rw [hc] at h ⊢; exact .interim is h
  | inHeaders is out h => rw [hc] at h ⊢; exact .inHeaders is out h
  | rest is st fs r h hs hf hr =>
    rw [hl] at hr
    have hr := hr.congr (and_congr_left fun _ => h1)
    rw [hc] at h hs ⊢
    exact .rest is st fs r h hs hf hr

end Http
end Nghttp3
