import Verif.Lemmas.BidiCb
import Verif.Props.Bidi
/-! C68: callbacks that fail. -/
namespace Nghttp3
namespace Props
open BidiCb

/-- **C68.** nghttp3_conn_read_stream on a request stream, in any state, with any input and any behaviour of the callbacks (which may depend
on all earlier callbacks, `h`): the callbacks are those of the run in which none fails, in the same order with the same content, up to
and including the first one that fails; then the call returns NGHTTP3_ERR_CALLBACK_FAILURE.  If none fails, the outcome is that of
Model/Bidi.lean, which the other properties of request streams are about. -/
theorem C68_read (cb : Cb) (h : List Bidi.Ev) (c : Bidi.Cfg) (room fin : Bool) (s : Bidi.Str) (d : Qpack.Dec) (src : Bidi.Bytes) :
    ∃ (all : List Bidi.Ev) (r : Res Val), toOut (all, r) = Bidi.readStream c room fin s d src ∧
      Seen cb h all r (readStream c room fin s d src cb h).1 (readStream c room fin s d src cb h).2 :=
  ⟨_, _, (readStream_eq c room fin s d src).symm, good_seen (P := Any) (good_readStream trivial c room fin s d src) cb trivial h⟩

/-- NGHTTP3_ERR_CALLBACK_FAILURE is returned exactly if a callback failed, which then is the last one made. -/
theorem C68_code (cb : Cb) (h : List Bidi.Ev) (c : Bidi.Cfg) (room fin : Bool) (s : Bidi.Str) (d : Qpack.Dec) (src : Bidi.Bytes) :
    (readStream c room fin s d src cb h).2 = .fail Err.CALLBACK_FAILURE ↔
      ∃ l e, (readStream c room fin s d src cb h).1 = h ++ l ++ [e] ∧ Fails cb (h ++ l) e :=
  good_code (P := Any) (good_readStream trivial c room fin s d src) cb trivial h

/-- The same for nghttp3_conn_close_stream. -/
theorem C68_close (cb : Cb) (h : List Bidi.Ev) (s : Bidi.Str) (d : Qpack.Dec) :
    ∃ (all : List Bidi.Ev) (r : Res Val), toOut (all, r) = Bidi.closeStream s d ∧
      Seen cb h all r (closeStream s d cb h).1 (closeStream s d cb h).2 :=
  ⟨_, _, (closeStream_eq s d).symm, good_seen (P := Any) (good_closeStream trivial s d) cb trivial h⟩

/-- The same for the whole life of a request stream on a new connection: reads, releases of a blocked stream, shutdown, close and everything
that other streams do to the QPACK decoder, if the deferred_consume callback does not fail (`C68_deferred_unreported`): up to the first
callback that fails the application sees what it would see if none failed, and with that failure the history ends. -/
theorem C68_history (cb : Cb) (hd : DeferOk cb) (c : Bidi.Cfg) (hardMax maxBlocked : Nat) (ops : List Bidi.Op) :
    ∃ (all : List Bidi.Ev) (r : Res Bidi.World), toW (all, r) = Bidi.hist c (Bidi.World.start c hardMax maxBlocked) ops ∧
      Seen cb [] all r (hist c (Bidi.World.start c hardMax maxBlocked) ops cb []).1 (hist c (Bidi.World.start c hardMax maxBlocked) ops cb []).2 :=
  ⟨_, _, (hist_eq c (Bidi.World.start c hardMax maxBlocked) ops []).symm, good_seen (good_hist c _ ops) cb hd []⟩

/-- No behaviour of the callbacks makes an assertion fail. -/
theorem C68_safe (cb : Cb) (hd : DeferOk cb) (c : Bidi.Cfg) (hardMax maxBlocked : Nat) (ops : List Bidi.Op) :
    (hist c (Bidi.World.start c hardMax maxBlocked) ops cb []).2 ≠ .crash := by
  obtain ⟨all, r, h1, h2⟩ := C68_history cb hd c hardMax maxBlocked ops
  have hn := C51_never_fails_an_assertion c hardMax maxBlocked ops
  rcases h2 with ⟨_, _, h3⟩ | ⟨_, _, _, _, _, _, h3⟩
  · rw [h3]
    intro g
    subst g
    exact hn h1.symm
  · rw [h3]; intro g; cases g

/-- After a successful history in which no callback failed nothing is different: the callbacks of a history that succeeds are those of
`Bidi.hist`, all returned 0, and conversely. -/
theorem C68_success (cb : Cb) (hd : DeferOk cb) (c : Bidi.Cfg) (hardMax maxBlocked : Nat) (ops : List Bidi.Op) (w : Bidi.World) :
    toW (hist c (Bidi.World.start c hardMax maxBlocked) ops cb []) = .ok w ↔
      Bidi.hist c (Bidi.World.start c hardMax maxBlocked) ops = .ok w ∧ NoneFails cb [] w.ev := by
  have hall := hist_eq c (Bidi.World.start c hardMax maxBlocked) ops []
  have hs := good_seen (good_hist c (Bidi.World.start c hardMax maxBlocked) ops) cb hd []
  have h0 : ({ Bidi.World.start c hardMax maxBlocked with ev := [] } : Bidi.World) = Bidi.World.start c hardMax maxBlocked := rfl
  rw [h0] at hall
  rw [hall]
  generalize hist c (Bidi.World.start c hardMax maxBlocked) ops top [] = x at hs ⊢
  generalize hist c (Bidi.World.start c hardMax maxBlocked) ops cb [] = y at hs ⊢
  obtain ⟨l, r⟩ := x
  obtain ⟨l', r'⟩ := y
  rcases hs with ⟨h1, h2, h3⟩ | ⟨p, e, h1, h2, h3, h4, h5⟩
  · dsimp only [List.nil_append] at h1 h2 h3
    subst h1; subst h3
    constructor
    · intro g
      refine ⟨g, ?_⟩
      cases r' with
      | ok w' => cases g; exact h2
      | _ => cases g
    · intro g; exact g.1
  · dsimp only at h5; subst h5
    constructor
    · intro g; cases g
    · rintro ⟨g1, g2⟩
      cases r with
      | ok w' =>
        cases g1
        obtain ⟨q, hq⟩ := h2
        have := g2 p e q (by dsimp only; dsimp only at hq; rw [← hq]; simp) h4.1
        exact absurd (this.symm.trans h4.2) (by decide)
      | _ => cases g1

/-- The requirement on deferred_consume is needed: a stream was closed while it waited for the QPACK encoder stream; when it is released and
the callback fails, the call returns success, stream_close is not called and the stream is never deleted. -/
theorem C68_deferred_unreported :
    (let cb : Cb := fun _ e => match e with | .deferredConsume _ => false | _ => true
     let ops : List Bidi.Op := [.recv response true true, .close, .shutdownRead, .env (.enc insertion), .wake true]
     (match hist client (Bidi.World.start client 4096 1) ops cb [] with
      | (l, .ok w) => some (l, w.s.gone)
      | _ => none) = some ([.beginHeaders, .deferredConsume 6], false) ∧
     (match hist client (Bidi.World.start client 4096 1) ops top [] with
      | (l, .ok w) => some (l, w.s.gone)
      | _ => none) = some ([.beginHeaders, .deferredConsume 6, .streamClose], true)) := by
  constructor <;> decide +kernel

/-- a response is released; recv_data fails: neither end_stream nor deferred_consume follow -/
theorem C68_example :
    (let cb : Cb := fun _ e => match e with | .data _ => false | _ => true
     let ops : List Bidi.Op := [.recv response true true, .env (.enc insertion), .wake true]
     DeferOk cb ∧
     (match hist client (Bidi.World.start client 4096 1) ops cb [] with
      | (l, .fail e) => some (l.filter fun e => !isHdr e, e)
      | _ => none) = some ([.beginHeaders, .endHeaders false, .data [97, 98, 99]], Err.CALLBACK_FAILURE)) := by
  constructor
  · intro _ _; rfl
  · decide +kernel

end Props
end Nghttp3
