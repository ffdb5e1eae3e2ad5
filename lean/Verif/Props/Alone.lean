import Verif.Lemmas.EndpointZero
import Verif.Lemmas.EndpointShut
import Verif.Props.WireMsg
import Verif.Props.Kept
/-! C70: a request stream whose field sections do not refer to the dynamic table -/
namespace Nghttp3
namespace Props
open Endpoint Bidi
open Conn (clientBidi)

/-- what becomes of a sequence of frames read with a fresh stream -/
theorem frames_new (c : Bidi.Cfg) (room fin : Bool) {fs : List WFrame} {X : Bidi.Bytes} (hf : IsFrames fs X) (hw : (wStream c blank (Msg.start c) fs fin).2.Fine) :
    ∃ s d o n, aBidi c room fin (Str.new c) blank X = .ok s d o n [] ∧ s.blocked = false ∧ o.filterMap Obs.cb = (wStream c blank (Msg.start c) fs fin).1 ∧
      o.filterMap Obs.body = wBody c blank (Msg.start c) fs ∧ o.filterMap Obs.signal = (wStream c blank (Msg.start c) fs fin).2.signals := by
  have hat : (Str.new c).at (Msg.start c) = Str.new c := start_at c false
  have h := bidi_frames c room fin (s := Str.new c) (d := blank) (m := Msg.start c) (by rw [hat]; exact new_inv c) rfl rfl hf
  rw [hat] at h
  rcases hr : wStream c blank (Msg.start c) fs fin with ⟨cb, _ | e | _ | _ | ⟨d', m'⟩⟩ <;> rw [hr] at h hw <;> first | exact hw.elim | skip
  · obtain ⟨s, d, o, n, h1, h2, h3, h4, h5, h6⟩ := h
    exact ⟨s, d, o, n, h1, h2, h4, h5, h6⟩
  · obtain ⟨s, o, n, h1, h2, h3, h4, h5, _⟩ := h
    exact ⟨s, _, o, n, h1, h2, h3, h4, h5⟩

/-- Let the bytes that have arrived of stream `x` be the beginning of a sequence of frames `fs` (and of the end of the stream, if `fin`) whose field sections need no dynamic table
(read by a decoder without table they give no error). Whatever else happens on the connection - other streams, the encoder stream, the control stream, the application's calls -
the application sees the callbacks and the body these frames give, as far as they have arrived, and the peer is told to stop exactly if the message is malformed. -/
theorem C70_alone (P : Par) (server : Bool) (st : Settings) (l : Log) (ep : Ep) (x : Nat) (req : List Http.Field) (fs : List WFrame) (X : Bidi.Bytes) (fin : Bool) (hP : ParOk P)
    (hst : SettingsOk st) (h : Endpoint.Hist P server st l ep) (hx : clientBidi x = true) (hu : Undisturbed l x) (ha : Answers server l x req) (hf : IsFrames fs X)
    (hw : (wStream { cfg P (init server st).c x with req := req } blank (Msg.start { cfg P (init server st).c x with req := req }) fs fin).2.Fine)
    (hg : Arrives (l.pieces x) X fin) :
    (l.pieces x = [] ∧ l.events x = []) ∨ Refused server l x ∨
    (let c : Bidi.Cfg := { cfg P (init server st).c x with req := req }
     let w := wStream c blank (Msg.start c) fs fin
     ∃ cb body sig, Shows (l.events x) cb body sig ∧ cb <+: w.1 ∧ body <+: wBody c blank (Msg.start c) fs ∧ sig <+: w.2.signals ∧
       (AllThere (l.pieces x) X fin → cb = w.1 ∧ body = wBody c blank (Msg.start c) fs ∧ sig = w.2.signals)) := by
  have hch := hist_chain hP hst hx h
  have hQ : ∀ b req', QL P server st [] l x b req' → req' = req := by
    intro b req' hq
    rcases hq with ⟨rfl, rfl, _⟩ | ⟨rfl, _, nva, dr, r, ev, q1, rfl⟩
    · exact (ha.1 rfl).symm
    · exact (ha.2 rfl nva dr r ev q1).symm
  obtain ⟨s1, d1, o, n, k1, k2, k3, k4, k5⟩ := frames_new { cfg P (init server st).c x with req := req } true fin hf hw
  have hp : OkPieces (cfg P (init server st).c x) (QL P server st [] l x) (l.pieces x) := ⟨X, fin, hg, fun req' hq => by rw [hQ _ _ hq]; exact ⟨s1, d1, o, n, [], k1⟩⟩
  have hfate := chain_fate (fun ⟨r, ev, q⟩ => hu.1 r ev q) hch hu.2 hp
  generalize view ep.c ep.rx x = v at hfate
  cases hfate with
  | none h1 h2 => exact .inl ⟨h1, h2⟩
  | refused s hq ho _ _ _ =>
    refine .inr (.inl ?_)
    rcases hq with ⟨rfl, _, l1, ep1, q1, q2, q3⟩ | ⟨_, q, _⟩
    · obtain ⟨l2, o', r, ev, e1, e2, g, b1, b2, _⟩ := rejects_hist hP hst q2 q3.symm
      rw [List.nil_append] at b1
      refine ⟨rfl, ⟨o', r, ev, ?_, b2⟩, ?_⟩
      · exact (b1.trans q1).subset (List.mem_append_right _ (List.mem_singleton.2 rfl))
      · unfold Shows; rw [ho]; exact ⟨rfl, rfl, rfl⟩
    · cases q
  | ran s req' hq h0 h1 =>
    refine .inr (.inr ?_)
    obtain rfl := hQ _ _ hq
    dsimp only
    generalize { cfg P (init server st).c x with req := req' } = c at *
    have fin' : ∀ {o2 : List Obs}, SameObs (obs (l.events x)) o2 → o2 <+: o → (AllThere (l.pieces x) X fin → o2 = o) → _ := fun {o2} hs hpre heq =>
      (⟨_, _, _, ⟨rfl, rfl, rfl⟩, by rw [hs.view.1, ← k3]; exact hpre.filterMap _, by rw [hs.view.2.1, ← k4]; exact hpre.filterMap _,
        by rw [hs.view.2.2, ← k5]; exact hpre.filterMap _, fun hall => by rw [hs.view.1, hs.view.2.1, hs.view.2.2, heq hall]; exact ⟨k3, k4, k5⟩⟩ :
        ∃ cb body sig, Shows (l.events x) cb body sig ∧ cb <+: (wStream c blank (Msg.start c) fs fin).1 ∧ body <+: wBody c blank (Msg.start c) fs ∧
          sig <+: (wStream c blank (Msg.start c) fs fin).2.signals ∧
          (AllThere (l.pieces x) X fin → cb = (wStream c blank (Msg.start c) fs fin).1 ∧ body = wBody c blank (Msg.start c) fs ∧ sig = (wStream c blank (Msg.start c) fs fin).2.signals))
    rcases hg with ⟨a1, y, hy⟩ | ⟨rfl, a2, g', last, a3, a4⟩
    · have k1' := k1
      rw [← hy] at k1'
      obtain ⟨s2, d2, o2, n2, r2, hok2, hpre⟩ := aBidi_prefix (new_inv _) rfl k1'
      refine fin' (h0 a1 _ _ _ _ _ hok2).obs hpre (fun hall => ?_)
      have hy' : fin = false := by
        cases fin
        · rfl
        · obtain ⟨p, hp, hp2⟩ := hall.2 rfl
          rw [a1 p hp] at hp2; cases hp2
      subst hy'
      rw [hall.1, k1] at hok2
      cases hok2; rfl
    · rw [← a2] at k1
      exact fin' (h1 g' last a3 a4 _ _ _ _ _ k1).obs (List.prefix_refl _) (fun _ => rfl)

/-- Two connections of the same kind on which the same such stream has arrived completely, in whatever pieces and amid whatever else, show the application the same. -/
theorem C70_independent (P : Par) (server : Bool) (st st' : Settings) (l l' : Log) (ep ep' : Ep) (x : Nat) (req : List Http.Field) (fs : List WFrame) (X : Bidi.Bytes) (fin : Bool)
    (hP : ParOk P) (hst : SettingsOk st) (hst' : SettingsOk st') (hext : st.enableConnectProtocol = st'.enableConnectProtocol)
    (h : Endpoint.Hist P server st l ep) (h' : Endpoint.Hist P server st' l' ep') (hx : clientBidi x = true)
    (hu : Undisturbed l x) (hu' : Undisturbed l' x) (ha : Answers server l x req) (ha' : Answers server l' x req) (hf : IsFrames fs X)
    (hw : (wStream { cfg P (init server st).c x with req := req } blank (Msg.start { cfg P (init server st).c x with req := req }) fs fin).2.Fine)
    (hg : Arrives (l.pieces x) X fin) (hg' : Arrives (l'.pieces x) X fin) (hall : AllThere (l.pieces x) X fin) (hall' : AllThere (l'.pieces x) X fin)
    (hne : l.pieces x ≠ []) (hne' : l'.pieces x ≠ []) (hr : ¬ Refused server l x) (hr' : ¬ Refused server l' x) :
    ∃ cb body sig, Shows (l.events x) cb body sig ∧ Shows (l'.events x) cb body sig := by
  have hc : cfg P (init server st).c x = cfg P (init server st').c x := by
    unfold cfg; rw [show (init server st).c.settings.enableConnectProtocol = (server && st.enableConnectProtocol) from rfl, hext]; rfl
  have h1 := C70_alone P server st l ep x req fs X fin hP hst h hx hu ha hf hw hg
  have h2 := C70_alone P server st' l' ep' x req fs X fin hP hst' h' hx hu' ha' hf (by rw [← hc]; exact hw) hg'
  rcases h1 with ⟨q, _⟩ | q | ⟨cb, body, sig, a1, _, _, _, a2⟩
  · exact absurd q hne
  · exact absurd q hr
  rcases h2 with ⟨q, _⟩ | q | ⟨cb', body', sig', b1, _, _, _, b2⟩
  · exact absurd q hne'
  · exact absurd q hr'
  obtain ⟨rfl, rfl, rfl⟩ := a2 hall
  obtain ⟨rfl, rfl, rfl⟩ := b2 hall'
  exact ⟨_, _, _, a1, by rw [hc]; exact b1⟩

/-! ## example -/

namespace AloneDemo
open EpDemo

/-- stream 0 waits for the encoder stream; stream 4, which does not need it, arrives in two pieces, before and after the insertion that releases stream 0 -/
def amid : List Call := [.bindControl 3, .bindQpack 7 11, .read 0 EpDemo.request true, .read 4 (getBytes.take 9) false, .read 2 inserts false, .read 4 (getBytes.drop 9) true]

def noShut (x : Nat) (l : Log) : Bool := l.all fun r => match r.1 with | .shutRd i => i != x | _ => true

theorem noShut_ok {x : Nat} {l : Log} (h : noShut x l = true) : ∀ r ev, (Call.shutRd x, r, ev) ∉ l := by
  intro r ev hm
  have := List.all_eq_true.1 h _ hm
  simp at this

def noClose (x : Nat) (l : Log) : Bool := (l.events x).all fun | .streamClose => false | _ => true

theorem noClose_ok {x : Nat} {l : Log} (h : noClose x l = true) : Bidi.Ev.streamClose ∉ l.events x := by
  intro hm
  have := List.all_eq_true.1 h _ hm
  cases this

end AloneDemo
open EpDemo AloneDemo

set_option maxRecDepth 100000 in
theorem C70_example : ∃ (l : Log) (ep : Ep), Endpoint.Hist anyPar true someSettings l ep ∧ Undisturbed l 4 ∧ Answers true l 4 [] ∧ IsFrames getFrames getBytes ∧
    (wStream { cfg anyPar (init true someSettings).c 4 with req := [] } blank (Msg.start { cfg anyPar (init true someSettings).c 4 with req := [] }) getFrames true).2.Fine ∧
    Arrives (l.pieces 4) getBytes true ∧ AllThere (l.pieces 4) getBytes true ∧ l.pieces 4 ≠ [] ∧ ¬ Refused true l 4 ∧
    (obs (l.events 4)).filterMap Obs.body = [104, 105, 33] := by
  rcases h1 : makeCalls anyPar amid (init true someSettings) with _ | ⟨ep, l⟩
  · have : (makeCalls anyPar amid (init true someSettings)).isSome = true := by decide +kernel
    rw [h1] at this; cases this
  have k1 : (makeCalls anyPar amid (init true someSettings)).map (fun r => noShut 4 r.2 && noClose 4 r.2) = some true := by decide +kernel
  have k2 : (makeCalls anyPar amid (init true someSettings)).map (fun r => r.2.pieces 4) = some [(getBytes.take 9, false), (getBytes.drop 9, true)] := by decide +kernel
  have k3 : (makeCalls anyPar amid (init true someSettings)).map (fun r => (obs (r.2.events 4)).filterMap Obs.body) = some [104, 105, 33] := by decide +kernel
  rw [h1] at k1 k2 k3
  replace k1 : (noShut 4 l && noClose 4 l) = true := by simpa using k1
  replace k2 : l.pieces 4 = [(getBytes.take 9, false), (getBytes.drop 9, true)] := by simpa using k2
  replace k3 : (obs (l.events 4)).filterMap Obs.body = [104, 105, 33] := by simpa using k3
  have hh := makeCalls_hist amid (.init (P := anyPar) (server := true) (st := someSettings)) h1
  rw [List.nil_append] at hh
  rw [Bool.and_eq_true] at k1
  have hfl : flat (l.pieces 4) = getBytes := by rw [k2]; decide +kernel
  refine ⟨l, ep, hh, ⟨noShut_ok k1.1, noClose_ok k1.2⟩, ⟨fun _ => rfl, fun g => by cases g⟩, getFrames_bytes, ?_, ?_, ⟨hfl, fun _ => ?_⟩, ?_, ?_, k3⟩
  · have : (match (wStream { cfg anyPar (init true someSettings).c 4 with req := [] } blank (Msg.start { cfg anyPar (init true someSettings).c 4 with req := [] }) getFrames true).2 with
      | .open _ _ => true | _ => false) = true := by decide +kernel
    revert this
    generalize (wStream { cfg anyPar (init true someSettings).c 4 with req := [] } blank (Msg.start { cfg anyPar (init true someSettings).c 4 with req := [] }) getFrames true).2 = w
    rcases w with _ | _ | _ | _ | _ <;> intro g <;> first | (cases g; done) | trivial
  · exact .inr ⟨rfl, hfl, [(getBytes.take 9, false)], getBytes.drop 9, k2, by simp⟩
  · rw [k2]; exact ⟨(getBytes.drop 9, true), by simp, rfl⟩
  · rw [k2]; simp
  · rintro ⟨_, _, _, q, _⟩
    rw [k3] at q; cases q

end Props
end Nghttp3
