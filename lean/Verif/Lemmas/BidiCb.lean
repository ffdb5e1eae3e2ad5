import Verif.Spec.BidiCb
import Mathlib.Tactic.SplitIfs
/-! Callbacks that fail: the callbacks of a call are those of the run in which none fails, up to the first one that fails. -/
namespace Nghttp3
namespace BidiCb
open Http Qpack Bidi

/-- make the calls in order until one fails -/
def perform (cb : Cb) : List Ev → List Ev → List Ev × Bool
  | h, [] => (h, true)
  | h, e :: t => if isCb e = true ∧ cb h e = false then (h ++ [e], false) else perform cb (h ++ [e]) t

/-- what becomes of a run if the callbacks behave as `cb` says -/
def cut {α : Type} (cb : Cb) (h : List Ev) (x : List Ev × Res α) : List Ev × Res α :=
  match perform cb h x.1 with
  | (h', true) => (h', x.2)
  | (h', false) => (h', .fail Err.CALLBACK_FAILURE)

theorem perform_top (h l : List Ev) : perform top h l = (h ++ l, true) := by
  induction l generalizing h with
  | nil => simp [perform]
  | cons e t ih => rw [perform, if_neg (by simp [top]), ih]; simp

theorem cut_top {α : Type} (h : List Ev) (x : List Ev × Res α) : cut top h x = (h ++ x.1, x.2) := by
  unfold cut; rw [perform_top]

theorem perform_append (cb : Cb) (h l l' : List Ev) :
    perform cb h (l ++ l') = if (perform cb h l).2 = true then perform cb (perform cb h l).1 l' else perform cb h l := by
  induction l generalizing h with
  | nil => simp [perform]
  | cons e t ih =>
    rw [List.cons_append, perform, perform]
    split_ifs with hc h1 h2
    · simp at h1
    · rfl
    · rw [ih, if_pos h2]
    · rw [ih, if_neg h2]

/-- `m` behaves under `cb` as in the run without failures, cut off at the first failure; that run does not report a failed callback -/
def Good (P : Cb → Prop) {α : Type} (m : M α) : Prop :=
  (∀ cb, P cb → ∀ h, m cb h = cut cb h (m top [])) ∧ (m top []).2 ≠ .fail Err.CALLBACK_FAILURE

section
variable {P : Cb → Prop} {α β : Type}

theorem good_ret (a : α) : Good P (M.ret a) := ⟨fun _ _ _ => rfl, by simp [M.ret]⟩
theorem good_crash : Good P (M.crash : M α) := ⟨fun _ _ _ => rfl, by simp [M.crash]⟩
theorem good_fail (e : Int) (he : e ≠ Err.CALLBACK_FAILURE) : Good P (M.fail e : M α) := ⟨fun _ _ _ => rfl, by simp [M.fail, he]⟩

theorem good_call (e : Ev) (he : isCb e = true) : Good P (M.call e) := by
  refine ⟨fun cb _ h => ?_, by simp [M.call, top]⟩
  simp only [M.call, top, cut, perform, he, true_and, List.nil_append]
  cases cb h e <;> simp

theorem good_mark (e : Ev) (he : isCb e = false) : Good P (M.mark e) := by
  refine ⟨fun cb _ h => ?_, by simp [M.mark]⟩
  simp [M.mark, cut, perform, he]

theorem top_run {m : M α} (ht : P top) (hm : Good P m) (h : List Ev) : m top h = (h ++ (m top []).1, (m top []).2) := by
  rw [hm.1 top ht h, cut_top]

theorem good_bind {m : M α} {k : α → M β} (ht : P top) (hm : Good P m) (hk : ∀ a, Good P (k a)) : Good P (M.bind m k) := by
  constructor
  · intro cb hc h
    unfold M.bind
    rw [hm.1 cb hc h]
    have hn := hm.2
    generalize m top [] = x at hn ⊢
    obtain ⟨l, r⟩ := x
    cases r with
    | crash => unfold cut; dsimp only; generalize perform cb h l = p; obtain ⟨h', b⟩ := p; cases b <;> rfl
    | fail e => unfold cut; dsimp only; generalize perform cb h l = p; obtain ⟨h', b⟩ := p; cases b <;> rfl
    | ok a =>
      dsimp only
      rw [top_run ht (hk a) l]
      unfold cut
      dsimp only
      rw [perform_append]
      generalize hp : perform cb h l = p; obtain ⟨h', b⟩ := p
      cases b
      · rfl
      · dsimp only
        rw [(hk a).1 cb hc h', if_pos rfl]
        rfl
  · unfold M.bind
    have hn := hm.2
    generalize m top [] = x at hn ⊢
    obtain ⟨l, r⟩ := x
    cases r with
    | crash => simp
    | fail e => simpa using hn
    | ok a => dsimp only; rw [top_run ht (hk a) l]; exact (hk a).2

theorem qerr_ne (e : Qpack.Err) : qerr e ≠ Err.CALLBACK_FAILURE := by cases e <;> decide

theorem good_decLoop (ht : P top) (c : Cfg) (h : Hs) (f : Nat) (d : Dec) (s : SCtx) (http : State) (src : Bidi.Bytes) (fin : Bool) :
    Good P (decLoop c h f d s http src fin) := by
  induction f generalizing d s http src with
  | zero => exact good_crash
  | succ f ih =>
    unfold decLoop
    split
    · exact good_crash
    · exact good_fail _ (qerr_ne _)
    · exact good_ret _
    · exact good_ret _
    · exact good_ret _
    · split
      · exact good_ret _
      · split
        · exact good_ret _
        · exact ih ..
        · refine good_bind ht (good_call _ ?_) fun _ => ih ..
          unfold fieldEv; split <;> rfl

theorem good_onHeaders (ht : P top) (c : Cfg) (h : Hs) (d : Dec) (s : SCtx) (http : State) (src : Bidi.Bytes) (fin : Bool) :
    Good P (onHeaders c h d s http src fin) := by
  unfold onHeaders; split
  · exact good_ret _
  · exact good_decLoop ht ..

theorem good_transitOr (s : Str) (e : Hev) (k : Str → M Pass) (hk : ∀ s, Good P (k s)) : Good P (transitOr s e k) := by
  unfold transitOr; split
  · exact good_crash
  · exact good_fail _ (by decide)
  · exact good_fail _ (by decide)
  · exact hk _

theorem good_endFrame (s : Str) (d : Dec) (e : Hev) (rest : Bidi.Bytes) (n : Nat) : Good P (endFrame s d e rest n) := by
  unfold endFrame; split
  · exact good_ret _
  · exact good_crash

theorem good_frameHead (ht : P top) (s : Str) (d : Dec) (rest : Bidi.Bytes) (n : Nat) : Good P (frameHead s d rest n) := by
  unfold frameHead; split
  · refine good_transitOr _ _ _ fun s => ?_
    split
    · exact good_endFrame ..
    · exact good_ret _
  · split
    · refine good_transitOr _ _ _ fun s => ?_
      split
      · split
        · exact good_endFrame ..
        · exact good_fail _ (by decide)
      · split
        · exact good_bind ht (good_call _ rfl) fun _ => good_ret _
        · exact good_bind ht (good_call _ rfl) fun _ => good_ret _
        · exact good_bind ht (good_call _ rfl) fun _ => good_ret _
        · exact good_bind ht (good_call _ rfl) fun _ => good_ret _
        · exact good_crash
    · split
      · exact good_fail _ (by decide)
      · exact good_ret _

theorem good_dataStep (ht : P top) (s : Str) (d : Dec) (src : Bidi.Bytes) : Good P (dataStep s d src) := by
  unfold dataStep
  dsimp only
  split
  · exact good_fail _ (by decide)
  · refine good_bind ht (good_call _ rfl) fun _ => ?_
    split
    · exact good_ret _
    · exact good_endFrame ..

theorem good_headerError (ht : P top) (s : Str) (d : Dec) (rest : Bidi.Bytes) (n : Nat) : Good P (headerError s d rest n) :=
  good_bind ht (good_call _ rfl) fun _ => good_bind ht (good_call _ rfl) fun _ => good_ret _

theorem good_sectionEnd (ht : P top) (c : Cfg) (last : Bool) (s : Str) (d : Dec) (rest : Bidi.Bytes) (n : Nat) :
    Good P (sectionEnd c last s d rest n) := by
  unfold sectionEnd
  split
  · exact good_headerError ht ..
  · dsimp only
    split
    · refine good_bind ht ?_ fun _ => good_bind ht (good_call _ rfl) fun _ => good_endFrame ..
      split
      · exact good_mark _ rfl
      · exact good_ret _
    · exact good_bind ht (good_call _ rfl) fun _ => good_endFrame ..
    · exact good_bind ht (good_call _ rfl) fun _ => good_endFrame ..
    · exact good_bind ht (good_call _ rfl) fun _ => good_endFrame ..
    · exact good_crash

theorem good_headersStep (ht : P top) (c : Cfg) (room fin : Bool) (s : Str) (d : Dec) (src : Bidi.Bytes) :
    Good P (headersStep c room fin s d src) := by
  unfold headersStep
  dsimp only
  refine good_bind ht (good_onHeaders ht ..) fun r => ?_
  cases r with
  | malformed d' => exact good_headerError ht ..
  | blocked d' sc http rest =>
    dsimp only; split
    · exact good_ret _
    · exact good_fail _ (by decide)
  | more d' sc http =>
    dsimp only; split
    · exact good_ret _
    · exact good_sectionEnd ht ..
  | done d' sc http =>
    dsimp only; split
    · exact good_ret _
    · exact good_sectionEnd ht ..

theorem good_step (ht : P top) (c : Cfg) (room fin : Bool) (s : Str) (d : Dec) (src : Bidi.Bytes) : Good P (step c room fin s d src) := by
  unfold step
  split
  · split
    · exact good_crash
    · exact good_fail _ (by decide)
    · exact good_ret _
    · exact good_ret _
  · split
    · exact good_crash
    · exact good_fail _ (by decide)
    · exact good_ret _
    · exact good_frameHead ht ..
  · exact good_dataStep ht ..
  · exact good_headersStep ht ..
  · dsimp only; split
    · exact good_ret _
    · exact good_ret _
  · exact good_ret _

theorem good_almostDone (ht : P top) (fin : Bool) (s : Str) (d : Dec) (n : Nat) : Good P (almostDone fin s d n) := by
  unfold almostDone
  split
  · split
    · split
      · exact good_fail _ (by decide)
      · split
        · exact good_crash
        · exact good_fail _ (by decide)
        · exact good_fail _ (by decide)
        · exact good_bind ht (good_call _ rfl) fun _ => good_ret _
    · exact good_ret _
    · exact good_fail _ (by decide)
  · exact good_ret _

theorem good_loop (ht : P top) (c : Cfg) (room fin : Bool) (f : Nat) (s : Str) (d : Dec) (src : Bidi.Bytes) (busy : Bool) (n : Nat) :
    Good P (loop c room fin f s d src busy n) := by
  induction f generalizing s d src busy n with
  | zero => exact good_crash
  | succ f ih =>
    unfold loop
    split
    · exact good_almostDone ht ..
    · refine good_bind ht (good_step ht ..) fun p => ?_
      cases p with
      | cont => exact ih ..
      | ret => exact good_almostDone ht ..
      | blocked => exact good_ret _

theorem good_readBidi (ht : P top) (c : Cfg) (room fin : Bool) (s : Str) (d : Dec) (src : Bidi.Bytes) :
    Good P (readBidi c room fin s d src) := by
  unfold readBidi
  split
  · exact good_ret _
  · split
    · split
      · exact good_ret _
      · exact good_ret _
    · exact good_loop ht ..

theorem good_readStream (ht : P top) (c : Cfg) (room fin : Bool) (s : Str) (d : Dec) (src : Bidi.Bytes) :
    Good P (readStream c room fin s d src) := by
  unfold readStream
  split
  · exact good_ret _
  · exact good_readBidi ht ..

theorem good_deferred (n : Nat) : Good P (deferred n) := by
  unfold deferred; split
  · exact good_ret _
  · exact good_call _ rfl

theorem good_delete (ht : P top) (s : Str) : Good P (delete s) :=
  good_bind ht (good_deferred _) fun _ => good_bind ht (good_call _ rfl) fun _ => good_ret _

theorem good_closeStream (ht : P top) (s : Str) (d : Dec) : Good P (closeStream s d) := by
  unfold closeStream; split
  · exact good_ret _
  · exact good_bind ht (good_delete ht _) fun _ => good_ret _

theorem deferOk_top : DeferOk top := fun _ _ => rfl

theorem deferredOr_eq {cb : Cb} (hc : DeferOk cb) (n : Nat) (a : α) (k : M α) (h : List Ev) :
    deferredOr n a k cb h = M.bind (deferred n) (fun _ => k) cb h := by
  unfold deferredOr M.bind deferred
  by_cases hn : n = 0
  · rw [if_pos hn]; rfl
  · rw [if_neg hn]; simp [M.call, hc h n]

theorem good_deferredOr (n : Nat) (a : α) (k : M α) (hk : Good DeferOk k) : Good DeferOk (deferredOr n a k) := by
  have h := good_bind deferOk_top (good_deferred (P := DeferOk) n) fun _ => hk
  constructor
  · intro cb hc hs
    rw [deferredOr_eq hc, deferredOr_eq deferOk_top]
    exact h.1 cb hc hs
  · rw [deferredOr_eq deferOk_top]; exact h.2

theorem good_procLoop (c : Cfg) (room : Bool) (f : Nat) (s : Str) (d : Dec) : Good DeferOk (procLoop c room f s d) := by
  induction f generalizing s d with
  | zero => exact good_crash
  | succ f ih =>
    unfold procLoop
    split
    · exact good_ret _
    · refine good_bind deferOk_top (good_readBidi deferOk_top ..) fun v => ?_
      dsimp only
      refine good_deferredOr _ _ _ ?_
      split
      · exact good_ret _
      · exact ih ..

theorem good_processBlocked (c : Cfg) (room : Bool) (s : Str) (d : Dec) : Good DeferOk (processBlocked c room s d) := by
  refine good_bind deferOk_top (good_procLoop ..) fun p => ?_
  split
  · exact good_bind deferOk_top (good_delete deferOk_top _) fun _ => good_ret _
  · exact good_ret _

theorem good_wake (c : Cfg) (room : Bool) (s : Str) (d : Dec) : Good DeferOk (wake c room s d) := by
  unfold wake; split
  · exact good_processBlocked ..
  · exact good_ret _

end

/-! ### If no callback fails: Model/Bidi.lean -/

/-- the records of Model/Bidi.lean: a field section -/
def packD : List Ev × Res Sec → List Ev × DRes
  | (l, .crash) => (l, .crash)
  | (l, .fail e) => (l, .fail e)
  | (l, .ok (.malformed d)) => (l, .malformed d)
  | (l, .ok (.more d s h)) => (l, .more d s h)
  | (l, .ok (.done d s h)) => (l, .done d s h)
  | (l, .ok (.blocked d s h r)) => (l, .blocked d s h r)

/-- … a pass through the loop -/
def packB : List Ev × Res Pass → BRes
  | (_, .crash) => .crash
  | (_, .fail e) => .fail e
  | (l, .ok (.cont s d r b n)) => .cont s d r b l n
  | (l, .ok (.ret s d n)) => .ret s d l n
  | (l, .ok (.blocked s d r n)) => .blocked s d r l n

theorem decLoop_eq (c : Cfg) (h : Hs) (f : Nat) (d : Dec) (s : SCtx) (http : State) (src : Bidi.Bytes) (fin : Bool) (acc : List Ev) :
    Bidi.decLoop c h f d s http src fin acc = packD (decLoop c h f d s http src fin top acc) := by
  induction f generalizing d s http src acc with
  | zero => rfl
  | succ f ih =>
    unfold Bidi.decLoop decLoop
    cases d.readRequest s src fin with
    | crash => rfl
    | fail => rfl
    | more => rfl
    | final => rfl
    | blocked => rfl
    | emit d' s' nv rest =>
      dsimp only
      by_cases hl : rest.length = src.length
      · rw [if_pos hl, if_pos hl]; rfl
      · rw [if_neg hl, if_neg hl]
        cases fieldRes c h http nv with
        | malformed => rfl
        | remove http' => exact ih ..
        | ok http' => exact ih ..

theorem onHeaders_eq (c : Cfg) (h : Hs) (d : Dec) (s : SCtx) (http : State) (src : Bidi.Bytes) (fin : Bool) :
    Bidi.onHeaders c h d s http src fin = packD (onHeaders c h d s http src fin top []) := by
  unfold Bidi.onHeaders onHeaders
  split
  · rfl
  · exact decLoop_eq ..

theorem transitOr_eq (s : Str) (e : Hev) (k : Str → BRes) (k' : Str → M Pass) (hk : ∀ s, k s = packB (k' s top [])) :
    Bidi.transitOr s e k = packB (transitOr s e k' top []) := by
  unfold Bidi.transitOr transitOr
  cases transit s.h s.http e with
  | ok h => exact hk _
  | _ => rfl

theorem endFrame_eq (s : Str) (d : Dec) (e : Hev) (rest : Bidi.Bytes) (ev : List Ev) (n : Nat) :
    Bidi.endFrame s d e rest ev n = packB (endFrame s d e rest n top ev) := by
  unfold Bidi.endFrame endFrame
  cases transit s.h s.http e <;> rfl

theorem frameHead_eq (s : Str) (d : Dec) (rest : Bidi.Bytes) (n : Nat) :
    Bidi.frameHead s d rest n = packB (frameHead s d rest n top []) := by
  unfold Bidi.frameHead frameHead
  split
  · refine transitOr_eq _ _ _ _ fun s => ?_
    split
    · exact endFrame_eq ..
    · rfl
  · split
    · refine transitOr_eq _ _ _ _ fun s => ?_
      split
      · split
        · exact endFrame_eq ..
        · rfl
      · cases s.h <;> rfl
    · split <;> rfl

theorem dataStep_eq (s : Str) (d : Dec) (src : Bidi.Bytes) : Bidi.dataStep s d src = packB (dataStep s d src top []) := by
  unfold Bidi.dataStep dataStep
  dsimp only
  cases onDataChunk s.http (src.take s.left).length with
  | none => rfl
  | some http =>
    simp only [M.bind, M.call, top, if_true]
    split
    · rfl
    · exact endFrame_eq ..

theorem sectionEnd_eq (c : Cfg) (last : Bool) (s : Str) (d : Dec) (rest : Bidi.Bytes) (ev : List Ev) (n : Nat) :
    Bidi.sectionEnd c last s d rest ev n = packB (sectionEnd c last s d rest n top ev) := by
  unfold Bidi.sectionEnd sectionEnd
  cases endSection s.h s.http with
  | none => simp [headerError, Bidi.headerError, M.bind, M.call, top, M.ret, packB]
  | some http =>
    dsimp only
    cases s.h with
    | reqHeadersBegin =>
      dsimp only
      split
      · exact endFrame_eq ..
      · rw [List.append_nil]; exact endFrame_eq ..
    | respHeadersBegin => exact endFrame_eq ..
    | reqTrailersBegin => exact endFrame_eq ..
    | respTrailersBegin => exact endFrame_eq ..
    | _ => rfl

theorem headersStep_eq (c : Cfg) (room fin : Bool) (s : Str) (d : Dec) (src : Bidi.Bytes) :
    Bidi.headersStep c room fin s d src = packB (headersStep c room fin s d src top []) := by
  unfold Bidi.headersStep headersStep
  dsimp only
  rw [onHeaders_eq]
  unfold M.bind
  generalize onHeaders c s.h d s.sc s.http (src.take s.left) (decide ((src.take s.left).length = s.left)) top [] = x
  obtain ⟨l, r⟩ := x
  cases r with
  | crash => rfl
  | fail e => rfl
  | ok r =>
    cases r with
    | malformed d' => simp [packD, headerError, Bidi.headerError, M.bind, M.call, top, M.ret, packB]
    | blocked d' sc http rest => cases room <;> rfl
    | more d' sc http =>
      dsimp only [packD]
      split
      · rfl
      · exact sectionEnd_eq ..
    | done d' sc http =>
      dsimp only [packD]
      split
      · rfl
      · exact sectionEnd_eq ..

theorem step_eq (c : Cfg) (room fin : Bool) (s : Str) (d : Dec) (src : Bidi.Bytes) :
    Bidi.step c room fin s d src = packB (step c room fin s d src top []) := by
  unfold Bidi.step step
  cases s.rst with
  | frameType => dsimp only; cases rd s.rv src fin <;> rfl
  | frameLen =>
    dsimp only
    cases rd s.rv src fin with
    | done v n => exact frameHead_eq ..
    | _ => rfl
  | data => exact dataStep_eq ..
  | headers => exact headersStep_eq ..
  | ignFrame => dsimp only; split <;> rfl
  | ignRest => rfl

theorem almostDone_eq (fin : Bool) (s : Str) (d : Dec) (ev : List Ev) (n : Nat) :
    Bidi.almostDone fin s d ev n = toOut (almostDone fin s d n top ev) := by
  unfold Bidi.almostDone almostDone
  split
  · cases s.rst with
    | frameType =>
      dsimp only
      split
      · rfl
      · cases transit s.h s.http .msgEnd <;> rfl
    | _ => rfl
  · rfl

/-- every callback may fail -/
def Any (_ : Cb) : Prop := True

theorem loop_eq (c : Cfg) (room fin : Bool) (f : Nat) (s : Str) (d : Dec) (src : Bidi.Bytes) (busy : Bool) (ev : List Ev) (n : Nat) :
    Bidi.loop c room fin f s d src busy ev n = toOut (loop c room fin f s d src busy n top ev) := by
  induction f generalizing s d src busy ev n with
  | zero => rfl
  | succ f ih =>
    unfold Bidi.loop loop
    split
    · exact almostDone_eq ..
    · rw [step_eq]
      unfold M.bind
      rw [top_run (P := Any) trivial (good_step trivial c room fin s d src) ev]
      generalize step c room fin s d src top [] = x
      obtain ⟨l, r⟩ := x
      cases r with
      | crash => rfl
      | fail e => rfl
      | ok p =>
        cases p with
        | cont => exact ih ..
        | ret => exact almostDone_eq ..
        | blocked => rfl

theorem readBidi_eq (c : Cfg) (room fin : Bool) (s : Str) (d : Dec) (src : Bidi.Bytes) :
    Bidi.readBidi c room fin s d src = toOut (readBidi c room fin s d src top []) := by
  unfold Bidi.readBidi readBidi
  split
  · rfl
  · split
    · split <;> rfl
    · exact loop_eq ..

theorem readStream_eq (c : Cfg) (room fin : Bool) (s : Str) (d : Dec) (src : Bidi.Bytes) :
    Bidi.readStream c room fin s d src = toOut (readStream c room fin s d src top []) := by
  unfold Bidi.readStream readStream
  split
  · rfl
  · exact readBidi_eq ..

theorem deferred_eq (n : Nat) (ev : List Ev) : deferred n top ev = (ev ++ Bidi.deferred n, .ok ()) := by
  unfold deferred Bidi.deferred
  split
  · simp [M.ret]
  · simp [M.call, top]

theorem delete_eq (s : Str) (ev : List Ev) : delete s top ev = ((Bidi.delete s ev).2, .ok (Bidi.delete s ev).1) := by
  unfold delete Bidi.delete M.bind
  rw [deferred_eq]
  simp [M.call, top, M.ret]

theorem closeStream_eq (s : Str) (d : Dec) : Bidi.closeStream s d = toOut (closeStream s d top []) := by
  unfold Bidi.closeStream closeStream
  split
  · rfl
  · unfold M.bind; rw [delete_eq]; rfl

/-- the result of the loop over the buffers -/
def toOutP : List Ev × Res (Val × Bool) → Out
  | (_, .crash) => .crash
  | (_, .fail e) => .fail e
  | (l, .ok (v, _)) => .ok v.s v.d l v.n v.rest

theorem procLoop_eq (c : Cfg) (room : Bool) (f : Nat) (s : Str) (d : Dec) (ev : List Ev) :
    Bidi.procLoop c room f s d ev = toOutP (procLoop c room f s d top ev) ∧
      ∀ l v b, procLoop c room f s d top ev = (l, .ok (v, b)) → b = true := by
  induction f generalizing s d ev with
  | zero => exact ⟨rfl, by intro l v b h; cases h⟩
  | succ f ih =>
    unfold Bidi.procLoop procLoop
    cases s.inq with
    | nil => exact ⟨rfl, by intro l v b h; cases h; rfl⟩
    | cons b t =>
      dsimp only
      rw [readBidi_eq]
      unfold M.bind
      rw [top_run (P := Any) trivial (good_readBidi trivial c room (decide (t = []) && s.eof) s d b.data) ev]
      generalize readBidi c room (decide (t = []) && s.eof) s d b.data top [] = x
      obtain ⟨l, r⟩ := x
      cases r with
      | crash => exact ⟨rfl, by intro l v b h; cases h⟩
      | fail e => exact ⟨rfl, by intro l v b h; cases h⟩
      | ok v =>
        dsimp only [toOut]
        unfold deferredOr
        rw [deferred_eq]
        dsimp only
        by_cases hb : v.s.blocked = true
        · rw [if_pos hb, if_pos hb]
          exact ⟨rfl, by intro l v b h; cases h; rfl⟩
        · rw [if_neg hb, if_neg hb]
          exact ih ..

theorem bind_ok {α β : Type} {m : M α} {k : α → M β} {cb : Cb} {h h' : List Ev} {a : α} (e : m cb h = (h', .ok a)) :
    M.bind m k cb h = k a cb h' := by unfold M.bind; rw [e]

theorem bind_crash {α β : Type} {m : M α} {k : α → M β} {cb : Cb} {h h' : List Ev} (e : m cb h = (h', .crash)) :
    M.bind m k cb h = (h', .crash) := by unfold M.bind; rw [e]

theorem bind_fail {α β : Type} {m : M α} {k : α → M β} {cb : Cb} {h h' : List Ev} {x : Int} (e : m cb h = (h', .fail x)) :
    M.bind m k cb h = (h', .fail x) := by unfold M.bind; rw [e]

theorem processBlocked_eq (c : Cfg) (room : Bool) (s : Str) (d : Dec) :
    Bidi.processBlocked c room s d = toOut (processBlocked c room s d top []) := by
  unfold Bidi.processBlocked processBlocked
  obtain ⟨h1, h2⟩ := procLoop_eq c room (s.inq.length + 1) s d []
  rw [h1]
  generalize hx : procLoop c room (s.inq.length + 1) s d top [] = x at h2 ⊢
  obtain ⟨l, r⟩ := x
  cases r with
  | crash => rw [bind_crash hx]; rfl
  | fail e => rw [bind_fail hx]; rfl
  | ok p =>
    obtain ⟨v, b⟩ := p
    have := h2 l v b rfl
    subst this
    rw [bind_ok hx]
    dsimp only [toOutP]
    by_cases hc : v.s.blocked = false ∧ v.s.closed = true
    · rw [if_pos hc, if_pos ⟨rfl, hc⟩, bind_ok (delete_eq ..)]; rfl
    · rw [if_neg hc, if_neg fun g => hc g.2]; rfl

theorem wake_eq (c : Cfg) (room : Bool) (s : Str) (d : Dec) : Bidi.wake c room s d = toOut (wake c room s d top []) := by
  unfold Bidi.wake wake
  split
  · exact processBlocked_eq ..
  · rfl

/-! ### Histories -/

theorem shut_code (c : Cfg) (s : Str) (d : Dec) (e : Int) (h : shutdownRead c s d = .fail e) : e ≠ Err.CALLBACK_FAILURE := by
  unfold shutdownRead at h
  split at h
  · cases h
  · split at h
    · cases h; decide
    · cases h

theorem good_exec (c : Cfg) (w : World) (op : Bidi.Op) : Good DeferOk (exec c w op) := by
  cases op with
  | recv x fin room =>
    unfold exec; dsimp only; split
    · exact good_ret _
    · exact good_bind deferOk_top (good_readStream deferOk_top ..) fun _ => good_ret _
  | env o =>
    unfold exec; dsimp only; split
    · exact good_crash
    · exact good_ret _
  | wake room =>
    unfold exec; dsimp only; split
    · exact good_ret _
    · exact good_bind deferOk_top (good_wake ..) fun _ => good_ret _
  | shutdownRead =>
    unfold exec; dsimp only; split
    · exact good_ret _
    · split
      · exact good_ret _
      · next h => exact good_fail _ (shut_code _ _ _ _ h)
      · exact good_crash
  | close =>
    unfold exec; dsimp only; split
    · exact good_ret _
    · exact good_bind deferOk_top (good_closeStream deferOk_top ..) fun _ => good_ret _
  | priority => exact good_ret _

theorem good_hist (c : Cfg) (w : World) (ops : List Bidi.Op) : Good DeferOk (hist c w ops) := by
  induction ops generalizing w with
  | nil => exact good_ret _
  | cons op ops ih => exact good_bind deferOk_top (good_exec ..) fun w' => ih w'

theorem after_eq (w : World) (got : Nat) (m : M Val) (o : Out) (ho : o = toOut (m top [])) (hm : Good DeferOk m) :
    Bidi.after w got o = toW (M.bind m (fun v => .ret (after w got v)) top w.ev) := by
  subst ho
  unfold M.bind
  rw [top_run deferOk_top hm w.ev]
  generalize m top [] = x
  obtain ⟨l, r⟩ := x
  cases r <;> rfl

theorem exec_eq (c : Cfg) (w : World) (op : Bidi.Op) : Bidi.exec c w op = toW (exec c w op top w.ev) := by
  cases op with
  | recv x fin room =>
    unfold Bidi.exec exec; dsimp only; split
    · rfl
    · exact after_eq _ _ _ _ (readStream_eq ..) (good_readStream deferOk_top ..)
  | env o =>
    unfold Bidi.exec exec; dsimp only
    cases (DSys.mk w.d w.oth).step o <;> rfl
  | wake room =>
    unfold Bidi.exec exec; dsimp only; split
    · rfl
    · exact after_eq _ _ _ _ (wake_eq ..) (good_wake ..)
  | shutdownRead =>
    unfold Bidi.exec exec; dsimp only; split
    · rfl
    · have hev : ∀ s d ev n r, shutdownRead c w.s w.d = .ok s d ev n r → ev = [] := by
        intro s d ev n r h
        unfold shutdownRead at h
        split at h
        · cases h; rfl
        · split at h <;> cases h; rfl
      generalize shutdownRead c w.s w.d = o at hev ⊢
      cases o with
      | crash => rfl
      | fail e => rfl
      | ok s d ev n r =>
        have := hev s d ev n r rfl
        subst this
        simp [Bidi.after, after, toW, M.ret]
  | close =>
    unfold Bidi.exec exec; dsimp only; split
    · rfl
    · exact after_eq _ _ _ _ (closeStream_eq ..) (good_closeStream deferOk_top ..)
  | priority => rfl

/-- `exec` does not look at the recorded callbacks -/
theorem exec_ev (c : Cfg) (w : World) (l : List Ev) (op : Bidi.Op) (cb : Cb) (h : List Ev) :
    toW (exec c { w with ev := l } op cb h) = toW (exec c w op cb h) := by
  cases op with
  | recv x fin room =>
    unfold exec; dsimp only; split
    · rfl
    · rfl
  | env o =>
    unfold exec; dsimp only; cases (DSys.mk w.d w.oth).step o <;> rfl
  | wake room =>
    unfold exec; dsimp only; split <;> rfl
  | shutdownRead =>
    unfold exec; dsimp only; split
    · rfl
    · cases shutdownRead c w.s w.d <;> rfl
  | close =>
    unfold exec; dsimp only; split <;> rfl
  | priority => rfl

theorem foldl_stop (c : Cfg) (r : WRes) (ops : List Bidi.Op) (h : ∀ w, r ≠ .ok w) : ops.foldl (exec' c) r = r := by
  induction ops with
  | nil => rfl
  | cons op ops ih =>
    rw [List.foldl_cons]
    have : exec' c r op = r := by
      cases r with
      | ok w => exact absurd rfl (h w)
      | _ => rfl
    rw [this, ih]

theorem hist_eq (c : Cfg) (w : World) (ops : List Bidi.Op) (l : List Ev) :
    Bidi.hist c { w with ev := l } ops = toW (hist c w ops top l) := by
  induction ops generalizing w l with
  | nil => rfl
  | cons op ops ih =>
    unfold Bidi.hist hist
    rw [List.foldl_cons]
    show ops.foldl (exec' c) (Bidi.exec c { w with ev := l } op) = _
    rw [exec_eq, exec_ev]
    dsimp only
    generalize hx : exec c w op top l = x
    obtain ⟨l', r⟩ := x
    cases r with
    | crash => rw [bind_crash hx]; exact foldl_stop _ _ _ (by intro w h; cases h)
    | fail e => rw [bind_fail hx]; exact foldl_stop _ _ _ (by intro w h; cases h)
    | ok w' => rw [bind_ok hx]; exact ih w' l'

/-! ### What the application sees -/

theorem perform_seen (cb : Cb) (h l : List Ev) :
    (perform cb h l = (h ++ l, true) ∧ NoneFails cb h l) ∨
    ∃ p e, perform cb h l = (h ++ p ++ [e], false) ∧ p ++ [e] <+: l ∧ NoneFails cb h p ∧ Fails cb (h ++ p) e := by
  have hnil : NoneFails cb h [] := by intro pre e post hp; simp at hp
  induction l generalizing h with
  | nil => exact .inl ⟨by simp [perform], hnil⟩
  | cons e t ih =>
    by_cases hf : isCb e = true ∧ cb h e = false
    · refine .inr ⟨[], e, ?_, ⟨t, by simp⟩, hnil, ?_⟩
      · rw [perform, if_pos hf]; simp
      · simpa [Fails] using hf
    · have hok : isCb e = true → cb h e = true := by
        intro hi
        cases hb : cb h e
        · exact absurd ⟨hi, hb⟩ hf
        · rfl
      have hcons : ∀ q, NoneFails cb (h ++ [e]) q → NoneFails cb h (e :: q) := by
        intro q hq pre e' post hp hi
        cases pre with
        | nil =>
          simp only [List.nil_append, List.cons.injEq] at hp
          rw [← hp.1] at hi ⊢
          simpa using hok hi
        | cons a pre =>
          simp only [List.cons_append, List.cons.injEq] at hp
          have := hq pre e' post hp.2 hi
          rw [← hp.1]
          simpa using this
      rw [perform, if_neg hf]
      rcases ih (h ++ [e]) (by intro pre e post hp; simp at hp) with ⟨h1, h2⟩ | ⟨p, e', h1, h2, h3, h4⟩
      · exact .inl ⟨by rw [h1]; simp, hcons _ h2⟩
      · refine .inr ⟨e :: p, e', by rw [h1]; simp, ?_, hcons _ h3, by simpa [Fails] using h4⟩
        obtain ⟨u, hu⟩ := h2
        exact ⟨u, by rw [← hu]; simp⟩

theorem good_seen {P : Cb → Prop} {α : Type} {m : M α} (hm : Good P m) (cb : Cb) (hc : P cb) (h : List Ev) :
    Seen cb h (m top []).1 (m top []).2 (m cb h).1 (m cb h).2 := by
  rw [hm.1 cb hc h]
  unfold cut
  rcases perform_seen cb h (m top []).1 with ⟨h1, h2⟩ | ⟨p, e, h1, h2, h3, h4⟩
  · rw [h1]; exact .inl ⟨rfl, h2, rfl⟩
  · rw [h1]; exact .inr ⟨p, e, rfl, h2, h3, h4, rfl⟩

/-- the code is NGHTTP3_ERR_CALLBACK_FAILURE if and only if the last callback failed -/
theorem good_code {P : Cb → Prop} {α : Type} {m : M α} (hm : Good P m) (cb : Cb) (hc : P cb) (h : List Ev) :
    (m cb h).2 = .fail Err.CALLBACK_FAILURE ↔ ∃ l e, (m cb h).1 = h ++ l ++ [e] ∧ Fails cb (h ++ l) e := by
  rcases good_seen hm cb hc h with ⟨h1, h2, h3⟩ | ⟨l, e, h1, _, _, h4, h5⟩
  · constructor
    · intro g; exact absurd (h3 ▸ g) hm.2
    · rintro ⟨l, e, g1, g2⟩
      rw [h1, List.append_assoc, List.append_cancel_left_eq] at g1
      have := h2 l e [] g1 g2.1
      exact absurd (this.symm.trans g2.2) (by decide)
  · exact ⟨fun _ => ⟨l, e, h1, h4⟩, fun _ => h5⟩

end BidiCb
end Nghttp3
