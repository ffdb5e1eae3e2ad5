import Verif.Model.BidiCb
import Verif.Spec.BidiHist
/-! The life of a request stream (Spec/BidiHist.lean) if callbacks may fail. -/
namespace Nghttp3
namespace BidiCb
open Http Qpack Bidi

/-- everything that is recorded is a callback, except the change of the priority -/
def isCb : Ev → Bool
  | .priority _ => false
  | _ => true

/-- all callbacks return 0 -/
def top : Cb := fun _ _ => true

/-- the callbacks `l`, made in this order after `h`, all return 0 -/
def NoneFails (cb : Cb) (h l : List Ev) : Prop :=
  ∀ pre e post, l = pre ++ e :: post → isCb e = true → cb (h ++ pre) e = true

/-- the callback `e` is made after `h` and does not return 0 -/
def Fails (cb : Cb) (h : List Ev) (e : Ev) : Prop := isCb e = true ∧ cb h e = false

/-- the deferred_consume callback does not fail -/
def DeferOk (cb : Cb) : Prop := ∀ h n, cb h (.deferredConsume n) = true

/-- What an application whose callbacks behave as `cb` sees of code which would make the calls `all` and end with `r` if no callback failed;
`h`: the calls made before.  Either no callback fails: the calls are made in this order, and the code ends with `r`.  Or the calls are made
in this order up to the first one that fails, and the code ends with NGHTTP3_ERR_CALLBACK_FAILURE. -/
def Seen {α : Type} (cb : Cb) (h : List Ev) (all : List Ev) (r : Res α) (made : List Ev) (r' : Res α) : Prop :=
  (made = h ++ all ∧ NoneFails cb h all ∧ r' = r) ∨
  ∃ l e, made = h ++ l ++ [e] ∧ l ++ [e] <+: all ∧ NoneFails cb h l ∧ Fails cb (h ++ l) e ∧ r' = .fail Err.CALLBACK_FAILURE

/-- the records of Model/Bidi.lean: a call -/
def toOut : List Ev × Res Val → Out
  | (_, .crash) => .crash
  | (_, .fail e) => .fail e
  | (l, .ok v) => .ok v.s v.d l v.n v.rest

/-- `Bidi.after`; the callbacks are recorded elsewhere -/
def after (w : World) (got : Nat) (v : Val) : World :=
  { s := v.s, d := v.d, oth := w.oth, ev := [], got := w.got + got, used := w.used + v.n }

/-- `Bidi.exec` -/
def exec (c : Cfg) (w : World) : Bidi.Op → M World
  | .recv x fin room => if w.s.gone then .ret w else M.bind (readStream c room fin w.s w.d x) fun v => .ret (after w x.length v)
  | .env o =>
    match (DSys.mk w.d w.oth).step o with
    | none => .crash
    | some st => .ret { w with d := st.d, oth := st.sc }
  | .wake room => if w.s.gone then .ret w else M.bind (wake c room w.s w.d) fun v => .ret (after w 0 v)
  | .shutdownRead =>
    if w.s.gone then .ret w
    else
      match shutdownRead c w.s w.d with
      | .ok s d _ n r => .ret (after w 0 ⟨s, d, n, r⟩)
      | .fail e => .fail e
      | .crash => .crash
  | .close => if w.s.gone then .ret w else M.bind (closeStream w.s w.d) fun v => .ret (after w 0 v)
  | .priority => .ret { w with s := { w.s with priFixed := true } }

/-- `Bidi.hist` -/
def hist (c : Cfg) : World → List Bidi.Op → M World
  | w, [] => .ret w
  | w, op :: ops => M.bind (exec c w op) fun w' => hist c w' ops

/-- the records of Spec/BidiHist.lean: a history -/
def toW : List Ev × Res World → WRes
  | (_, .crash) => .crash
  | (_, .fail e) => .fail e
  | (l, .ok w) => .ok { w with ev := l }

end BidiCb
end Nghttp3
