import Verif.Lemmas.BidiExec
import Mathlib.Data.List.Induction
/-! C31, C42, C51: request streams, byte by byte -/
namespace Nghttp3
namespace Props
open Bidi Http Qpack

/-- what has been reached is a state of the invariant, whatever happened -/
theorem bidi_reach (c : Cfg) (hardMax maxBlocked : Nat) (ops : List Op) :
    WSim (aHist c (World.start c hardMax maxBlocked).abs ops) (hist c (World.start c hardMax maxBlocked) ops) :=
  hist_sim c _ (winv_start c hardMax maxBlocked) ops

theorem not_crash (c : Cfg) (hardMax maxBlocked : Nat) (ops : List Op) :
    hist c (World.start c hardMax maxBlocked) ops ≠ .crash := by
  intro h
  have hr := bidi_reach c hardMax maxBlocked ops
  rw [h] at hr
  generalize aHist c (World.start c hardMax maxBlocked).abs ops = a at hr
  rcases a with _ | e | a
  · exact hr
  · cases (show WRes.crash = .fail e from hr)
  · obtain ⟨w, h1, _⟩ := hr; cases h1

theorem sameView_of {a : AWRes} {r r' : WRes} (h : WSim a r) (h' : WSim a r') : SameView r r' := by
  rcases a with _ | e | a
  · exact h.elim
  · have h1 : r = .fail e := h
    have h2 : r' = .fail e := h'
    rw [h1, h2]; rfl
  · obtain ⟨w, rfl, h1, h2⟩ := h
    obtain ⟨w', rfl, h3, h4⟩ := h'
    have e : w.abs = w'.abs := h1.trans h3.symm
    unfold World.abs at e
    injection e with e1 e2 e3 e4 e5 e6
    have f := canon_flags w.s
    have f' := canon_flags w'.s
    rw [e1] at f
    have hb : buffered w.s = buffered w'.s := f.2.2.2.2.2.1.symm.trans f'.2.2.2.2.2.1
    refine ⟨e4, e2, e3, e5, ?_, e6, hb, f.1.symm.trans f'.1, f.2.2.2.2.1.symm.trans f'.2.2.2.2.1⟩
    have s1 := h2.sum
    have s2 := h4.sum
    rw [hb] at s1
    omega

theorem hist_append_aux (c : Cfg) (w : World) (pre suf : List Op) :
    hist c w (pre ++ suf) = match hist c w pre with
      | .ok w' => hist c w' suf
      | r => r := by
  induction pre generalizing w with
  | nil => rfl
  | cons op pre ih =>
    rw [List.cons_append, hist_cons, hist_cons]
    rcases exec c w op with _ | e | w' <;> dsimp only
    exact ih w'

/-! ### C31 -/

/-- **C31.** At any point of the life of a request stream, and whatever happens before and after (other streams, the QPACK encoder stream,
blocking and unblocking, shutdown, close), giving the bytes `x ++ y` in one call or in two is the same for the application, for the peer
and for flow control. -/
theorem C31_two_calls (c : Cfg) (hardMax maxBlocked : Nat) (pre suf : List Op) (x y : Bidi.Bytes) (fin room : Bool) :
    SameView (hist c (World.start c hardMax maxBlocked) (pre ++ ([.recv x false room, .recv y fin room] ++ suf)))
      (hist c (World.start c hardMax maxBlocked) (pre ++ (oneCall (x ++ y) fin room ++ suf))) := by
  rw [hist_append_aux, hist_append_aux]
  have h := bidi_reach c hardMax maxBlocked pre
  rcases ha : aHist c (World.start c hardMax maxBlocked).abs pre with _ | e | a <;> rw [ha] at h
  · exact h.elim
  · have h1 : hist c (World.start c hardMax maxBlocked) pre = .fail e := h
    rw [h1]; rfl
  · obtain ⟨w, h1, h2, h3⟩ := h
    rw [h1]
    dsimp only
    have s1 := hist_sim c w h3 (.recv x false room :: .recv y fin room :: suf)
    have s2 := hist_sim c w h3 (.recv (x ++ y) fin room :: suf)
    rw [aExec_append c room fin w h3 x y suf] at s1
    exact sameView_of s1 s2

theorem sameView_trans {r1 r2 r3 : WRes} (h : SameView r1 r2) (h' : SameView r2 r3) : SameView r1 r3 := by
  rcases r1 with _ | e1 | w1 <;> rcases r2 with _ | e2 | w2 <;> rcases r3 with _ | e3 | w3 <;> first | exact h.elim | exact h'.elim | skip
  · exact Eq.trans h h'
  · obtain ⟨a1, a2, a3, a4, a5, a6, a7, a8, a9⟩ := h
    obtain ⟨b1, b2, b3, b4, b5, b6, b7, b8, b9⟩ := h'
    exact ⟨a1.trans b1, a2.trans b2, a3.trans b3, a4.trans b4, a5.trans b5, a6.trans b6, a7.trans b7, a8.trans b8, a9.trans b9⟩

theorem sameView_symm {r1 r2 : WRes} (h : SameView r1 r2) : SameView r2 r1 := by
  rcases r1 with _ | e1 | w1 <;> rcases r2 with _ | e2 | w2 <;> first | exact h.elim | skip
  · exact Eq.symm h
  · obtain ⟨a1, a2, a3, a4, a5, a6, a7, a8, a9⟩ := h
    exact ⟨a1.symm, a2.symm, a3.symm, a4.symm, a5.symm, a6.symm, a7.symm, a8.symm, a9.symm⟩

/-- any number of calls -/
theorem C31_many_calls (c : Cfg) (hardMax maxBlocked : Nat) (pre suf : List Op) (xs : List Bidi.Bytes) (last : Bidi.Bytes) (fin room : Bool) :
    SameView (hist c (World.start c hardMax maxBlocked) (pre ++ (manyCalls xs last fin room ++ suf)))
      (hist c (World.start c hardMax maxBlocked) (pre ++ (oneCall (xs.flatten ++ last) fin room ++ suf))) := by
  induction xs using List.reverseRecOn generalizing last with
  | nil =>
    have h2 := not_crash c hardMax maxBlocked (pre ++ (oneCall last fin room ++ suf))
    show SameView (hist c (World.start c hardMax maxBlocked) (pre ++ (oneCall last fin room ++ suf))) (hist c (World.start c hardMax maxBlocked) (pre ++ (oneCall last fin room ++ suf)))
    generalize hist c (World.start c hardMax maxBlocked) (pre ++ (oneCall last fin room ++ suf)) = r at h2
    rcases r with _ | e | w
    · exact h2 rfl
    · exact (rfl : e = e)
    · exact ⟨rfl, rfl, rfl, rfl, rfl, rfl, rfl, rfl, rfl⟩
  | append_singleton xs y ih =>
    have e1 : pre ++ (manyCalls (xs ++ [y]) last fin room ++ suf) =
        (pre ++ xs.map (fun x => .recv x false room)) ++ ([.recv y false room, .recv last fin room] ++ suf) := by
      simp [manyCalls, List.append_assoc]
    have e2 : pre ++ (manyCalls xs (y ++ last) fin room ++ suf) =
        (pre ++ xs.map (fun x => .recv x false room)) ++ (oneCall (y ++ last) fin room ++ suf) := by
      simp [manyCalls, oneCall, List.append_assoc]
    have h := C31_two_calls c hardMax maxBlocked (pre ++ xs.map (fun x => .recv x false room)) suf y last fin room
    rw [← e1, ← e2] at h
    have h2 := ih (y ++ last)
    rw [show (xs ++ [y]).flatten ++ last = xs.flatten ++ (y ++ last) by simp [List.append_assoc]]
    exact sameView_trans h h2

/-- so any two ways of cutting the same bytes into calls agree -/
theorem C31_any_cut (c : Cfg) (hardMax maxBlocked : Nat) (pre suf : List Op) (xs ys : List Bidi.Bytes) (last last' : Bidi.Bytes) (fin room : Bool)
    (h : xs.flatten ++ last = ys.flatten ++ last') :
    SameView (hist c (World.start c hardMax maxBlocked) (pre ++ (manyCalls xs last fin room ++ suf)))
      (hist c (World.start c hardMax maxBlocked) (pre ++ (manyCalls ys last' fin room ++ suf))) := by
  have h1 := C31_many_calls c hardMax maxBlocked pre suf xs last fin room
  have h2 := C31_many_calls c hardMax maxBlocked pre suf ys last' fin room
  rw [h] at h1
  exact sameView_trans h1 (sameView_symm h2)

/-! ### C42 -/

/-- **C42.** Every byte given to nghttp3_conn_read_stream for a request stream is, at every moment, accounted for exactly once: returned by
read_stream, reported through deferred_consume, handed to recv_data, or still waiting in the stream's buffers; bytes only wait while the
stream is blocked by QPACK, and none are left when the stream is gone. -/
theorem C42_conservation (c : Cfg) (hardMax maxBlocked : Nat) (ops : List Op) (w : World)
    (h : hist c (World.start c hardMax maxBlocked) ops = .ok w) :
    w.used + deferredLen w.ev + dataLen w.ev + (buffered w.s).length = w.got ∧ (buffered w.s ≠ [] → w.s.blocked = true ∧ w.s.gone = false) := by
  have hr := bidi_reach c hardMax maxBlocked ops
  generalize aHist c (World.start c hardMax maxBlocked).abs ops = a at hr
  rcases a with _ | e | a
  · exact hr.elim
  · rw [h] at hr; cases (show WRes.ok w = .fail e from hr)
  · obtain ⟨w', h1, _, h3⟩ := hr
    rw [h] at h1; cases h1
    refine ⟨h3.sum, fun hb => ?_⟩
    have hq : w.s.inq ≠ [] := fun g => hb (by unfold buffered; rw [g]; rfl)
    refine ⟨h3.str.inq hq, ?_⟩
    by_contra hg
    exact hq (h3.gone (by simpa using hg))

/-- one call: what it returns, what it hands over and what it adds to the buffers is what it was given -/
theorem C42_one_call (c : Cfg) (hardMax maxBlocked : Nat) (ops : List Op) (w w' : World) (x : Bidi.Bytes) (fin room : Bool)
    (h : hist c (World.start c hardMax maxBlocked) ops = .ok w) (hg : w.s.gone = false)
    (h' : hist c (World.start c hardMax maxBlocked) (ops ++ [.recv x fin room]) = .ok w') :
    (w'.used + deferredLen w'.ev + dataLen w'.ev + (buffered w'.s).length) =
      (w.used + deferredLen w.ev + dataLen w.ev + (buffered w.s).length) + x.length := by
  rw [(C42_conservation _ _ _ _ _ h).1, (C42_conservation _ _ _ _ _ h').1]
  rw [hist_append_aux, h] at h'
  dsimp only at h'
  rw [hist_cons] at h'
  unfold exec at h'
  dsimp only at h'
  rw [if_neg (by rw [hg]; simp)] at h'
  rcases hx : readStream c room fin w.s w.d x with _ | e | ⟨s, d, ev, n, r⟩ <;> rw [hx] at h' <;> cases h'
  rfl

/-! ### C51 -/

/-- **C51.** No bytes on a request stream, in any pieces, together with any use of the QPACK decoder, unblocking, shutdown and close, make an
assertion in the code that reads request streams fail; every call returns. -/
theorem C51_never_fails_an_assertion (c : Cfg) (hardMax maxBlocked : Nat) (ops : List Op) :
    hist c (World.start c hardMax maxBlocked) ops ≠ .crash := not_crash c hardMax maxBlocked ops

/-! ### concrete histories -/

def client : Cfg := ⟨0, false, false, fun p _ => some p, []⟩

/-- the callbacks, the bytes returned and whether the stream waits; `none` after an error -/
def seen (r : WRes) : Option (List Ev × Nat × Nat × Bool) :=
  match r with
  | .ok w => some (w.ev, w.used, (buffered w.s).length, w.s.blocked)
  | _ => none

def errOf (r : WRes) : Option Int :=
  match r with
  | .fail e => some e
  | _ => none

/-- `:status: 200` from the dynamic table, then three bytes of body -/
def response : Bidi.Bytes := [1, 3, 2, 0, 0x80, 0, 3, 97, 98, 99]
/-- capacity 4096, then an insertion of `:status: 200` -/
def insertion : Bidi.Bytes := [0x3f, 0xe1, 0x1f, 0xd9, 3, 50, 48, 48]

/-- the response arrives before the insertion: it waits (6 bytes), then it is delivered -/
theorem C31_witness :
    seen (hist client (World.start client 4096 1) [.recv response true true]) = some ([.beginHeaders], 4, 6, true) := by decide +kernel

def isHdr : Ev → Bool
  | .header _ => true
  | _ => false

/-- what is seen once the insertion has arrived; the field itself is looked at separately -/
theorem C31_witness_unblocked :
    (seen (hist client (World.start client 4096 1) [.recv response true true, .env (.enc insertion), .wake true])).map
      (fun p => (p.1.filter fun e => !isHdr e, p.2)) =
      some ([.beginHeaders, .endHeaders false, .data [97, 98, 99], .endStream, .deferredConsume 3], 4, 0, false) := by decide +kernel

/-- the same in three calls and with the insertion in the middle of the history -/
theorem C31_witness_pieces :
    SameView (hist client (World.start client 4096 1) ([] ++ (manyCalls [[1, 3], [2, 0, 0x80, 0], [3, 97]] [98, 99] true true ++ [.env (.enc insertion), .wake true])))
      (hist client (World.start client 4096 1) ([] ++ (oneCall response true true ++ [.env (.enc insertion), .wake true]))) :=
  C31_many_calls client 4096 1 [] [.env (.enc insertion), .wake true] [[1, 3], [2, 0, 0x80, 0], [3, 97]] [98, 99] true true

/-- bytes really pass through every account: 4 returned at once, 3 later through deferred_consume, 3 handed over -/
theorem C42_witness :
    (match hist client (World.start client 4096 1) [.recv response true true, .env (.enc insertion), .wake true] with
      | .ok w => some (w.used, deferredLen w.ev, dataLen w.ev, (buffered w.s).length, w.got)
      | _ => none) = some (4, 3, 3, 0, 10) := by decide +kernel

/-- a stream that is closed while it waits gives its buffered bytes back when it is unblocked -/
theorem C42_witness_closed :
    (match hist client (World.start client 4096 1) [.recv response true true, .close, .shutdownRead, .env (.enc insertion), .wake true] with
      | .ok w => some (w.used, deferredLen w.ev, dataLen w.ev, (buffered w.s).length, w.got, w.s.gone)
      | _ => none) = some (4, 6, 0, 0, 10, true) := by decide +kernel

/-- Finding: the end of a stream that waits with nothing buffered is never noticed.  The HEADERS frame is cut off after two of its three
bytes; without the wait that is an error, with it nothing is ever reported. -/
theorem C31_truncation_unnoticed_while_blocked :
    seen (hist client (World.start client 4096 1) [.recv [1, 3, 2, 0] true true, .env (.enc insertion), .wake true]) =
      some ([.beginHeaders], 4, 0, false) ∧
    errOf (hist client (World.start client 4096 1) [.env (.enc insertion), .recv [1, 3, 2, 0] true true]) = some Err.H3_FRAME_ERROR := by
  constructor <;> decide +kernel

end Props
end Nghttp3
