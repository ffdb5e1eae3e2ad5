import Verif.Lemmas.Whole
import Verif.Props.Alone
/-! C71: what the application of one endpoint submits is what the application of the other endpoint gets, if the encoder has no dynamic table. -/
namespace Nghttp3
namespace Props
open Endpoint Bidi
open Conn (clientBidi streamUni)
open Sent (Ledger Serve servedSince Tallies)
open Outq (Frent Ans)

/-- One endpoint may do anything that is documented, with settings that leave its QPACK encoder without a dynamic table (the default); `L` is its ledger.  There is a log of what each
call of nghttp3_conn_writev_stream has used, and a byte string `X` that begins with what the transport has taken of stream `x` and what it was offered last, such that for every history of the
other endpoint in which the bytes that arrive on stream `x` are the beginning of `X` (in any pieces, amid any other streams, any control and QPACK streams, any calls): if the
message submitted is well-formed, the application of the other endpoint is given nothing but this message in this order - its fields, and its body -, completely if all has arrived,
the stream is not reset, and no error comes up on it; or the stream was refused after GOAWAY. -/
theorem C71_whole (P P' : Par) (server : Bool) (st st' : Settings) (L : Ledger Fld) (l : Log) (ep : Ep) (x : Nat) (hP : ParOk P) (hP' : ParOk P') (hst : SettingsOk st) (hst' : SettingsOk st')
    (h : Kept P server st L l ep) (h0 : st.qpackEncoderMaxDtableCapacity = 0) (hx : clientBidi x = true) (hs : (ep.c.str x).isSome = true)
    (hf : ∀ f, Frent.headers f ∈ (L.at x).submitted → Duo.fits f.2 = true) :
    ∃ (log : List (Serve Fld)) (X : Bidi.Bytes), Tallies log L.asks ∧ (L.at x).taken ++ (L.at x).offered <+: X ∧
      ∀ (l' : Log) (ep' : Ep) (req : List Http.Field) (fin : Bool),
        Endpoint.Hist P' (!server) st' l' ep' → Undisturbed l' x → Answers (!server) l' x req → Arrives (l'.pieces x) X fin →
        let c : Bidi.Cfg := { cfg P' (init (!server) st').c x with req := req }
        let s := servedSince log (L.at x).born x
        let msg := (Duo.message (L.at x).submitted (s.flatMap Serve.made).length (s.flatMap Serve.used)).1
        Net.Valid c msg fin →
        (l'.pieces x = [] ∧ l'.events x = []) ∨ Refused (!server) l' x ∨
        ∃ cb body, Shows (l'.events x) cb body [] ∧ cb <+: (Net.rules c msg fin).1 ∧ body <+: msg.flatMap Net.SFrame.body ∧
          (AllThere (l'.pieces x) X fin → cb = (Net.rules c msg fin).1 ∧ body = msg.flatMap Net.SFrame.body) := by
  obtain ⟨log, a1, a2, a3⟩ := C66_sent P server st L l ep hP hst h
  obtain ⟨items, rest, m, a⟩ := a3 x hs
  have hu : streamUni x = false := by unfold clientBidi at hx; unfold streamUni; simp at hx ⊢; omega
  obtain ⟨b1, b2⟩ := a.request hu
  have hreq := kept_req hP hst hu h
  rw [h0] at a2
  refine ⟨log, m.map Prod.fst, a1, a.bytes, ?_⟩
  intro l' ep' req fin hh hun han harr
  dsimp only
  generalize hc : ({ cfg P' (init (!server) st').c x with req := req } : Bidi.Cfg) = c
  have hcid : c.id = x := by rw [← hc]; rfl
  have hplain : ∀ k ∈ (servedSince log (L.at x).born x).flatMap Serve.made, Endpoint.Plain k := fun k hk => by
    refine chain_plain a2 Qpack.EncZero.init k ?_
    obtain ⟨v, v1, v2⟩ := List.mem_flatMap.1 hk
    exact List.mem_flatMap.2 ⟨v, List.mem_of_mem_drop (List.mem_filter.1 v1).1, v2⟩
  have hfit : ∀ f, Frent.headers f ∈ (L.at x).submitted → ∀ nv ∈ f.2, Qpack.NvFits nv := fun f q nv hnv => by
    have := List.all_eq_true.1 (hf f q) nv hnv
    rw [Bool.and_eq_true] at this
    exact ⟨of_decide_eq_true this.1, of_decide_eq_true this.2⟩
  obtain ⟨parts, p1, p2⟩ := a.wire
  obtain ⟨fs, f1, f2, f3⟩ := plain_frames c hcid b1 hreq hfit hplain p1
  rw [← p2] at f1
  have hmsg : (Duo.message (L.at x).submitted ((servedSince log (L.at x).born x).flatMap Serve.made).length ((servedSince log (L.at x).born x).flatMap Serve.used)).1 =
      Duo.frames ((servedSince log (L.at x).born x).flatMap Serve.made) items := by
    rw [← b2, answersOf_eq, Duo.message_serves b1 hreq]
  rw [hmsg]
  intro hv
  obtain ⟨k1, k2, k3, k4⟩ := plain_stream c fs _ fin f2 f3 hv
  have := C70_alone P' (!server) st' l' ep' x req fs (m.map Prod.fst) fin hP' hst' hh hx hun han f1 (by rw [hc]; exact k1) harr
  rw [hc] at this
  rcases this with q | q | ⟨cb, body, sig, q1, q2, q3, q4, q5⟩
  · exact .inl q
  · exact .inr (.inl q)
  · rw [k2] at q4 q5
    rw [k3] at q2 q5
    rw [k4] at q3 q5
    obtain rfl := List.prefix_nil.1 q4
    exact .inr (.inr ⟨cb, body, q1, q2, q3, fun g => ⟨(q5 g).1, (q5 g).2.1⟩⟩)

/-! ## example -/

namespace WholeDemo
open EpDemo

def zeroTable : Settings := { someSettings with qpackEncoderMaxDtableCapacity := 0 }
/-- `:method: GET`, `:scheme: https`, `:authority: a`, `:path: /` -/
def askFields : List Qpack.Nv := [{ name := [58, 109, 101, 116, 104, 111, 100], value := [71, 69, 84] }, { name := [58, 115, 99, 104, 101, 109, 101], value := [104, 116, 116, 112, 115] },
  { name := [58, 97, 117, 116, 104, 111, 114, 105, 116, 121], value := [97] }, { name := [58, 112, 97, 116, 104], value := [47] }]
/-- a client submits a request; its transport takes all there is, that of the request in two parts -/
def asks : List Call := [.bindControl 2, .bindQpack 6 10, .submitRequest 0 askFields false, .writev 9 [], .addWrite 2 17, .writev 9 [], .addWrite 10 1, .writev 9 [], .addWrite 6 1, .writev 9 [],
  .addWrite 0 7, .writev 9 [], .addWrite 0 3]
def askBytes : Bidi.Bytes := [1, 8, 0, 0, 209, 215, 80, 1, 97, 193]
/-- a server gets this in two pieces, and another request, which waits for the encoder stream, in between -/
def gets : List Call := [.bindControl 3, .bindQpack 7 11, .read 0 (askBytes.take 6) false, .read 4 EpDemo.request true, .read 0 (askBytes.drop 6) false]

def oneSection (s : List (Frent Fld)) : Bool :=
  match s with
  | [.headers f] => decide (f.1 = 0) && decide (f.2 = askFields)
  | _ => false

theorem oneSection_ok {s : List (Frent Fld)} (h : oneSection s = true) : s = [.headers (0, askFields)] := by
  unfold oneSection at h
  split at h
  · rename_i f
    rw [Bool.and_eq_true] at h
    obtain ⟨h1, h2⟩ := h
    rw [← of_decide_eq_true h1, ← of_decide_eq_true h2]
  · cases h

def okB : Http.MRes → Bool
  | .ok _ => true
  | _ => false

theorem okB_ok {r : Http.MRes} (h : okB r = true) : ∃ m, r = .ok m := by
  cases r <;> first | (cases h; done) | exact ⟨_, rfl⟩

end WholeDemo
open EpDemo AloneDemo WholeDemo

set_option maxRecDepth 100000 in
theorem C71_example : ∃ (L : Ledger Fld) (l l' : Log) (ep ep' : Ep), Kept anyPar false zeroTable L l ep ∧ zeroTable.qpackEncoderMaxDtableCapacity = 0 ∧ (ep.c.str 0).isSome = true ∧
    (∀ f, Frent.headers f ∈ (L.at 0).submitted → Duo.fits f.2 = true) ∧ Endpoint.Hist anyPar true someSettings l' ep' ∧ Undisturbed l' 0 ∧ Answers true l' 0 [] ∧
    (∀ k as, Net.Valid { cfg anyPar (init true someSettings).c 0 with req := [] } (Duo.message (L.at 0).submitted k as).1 false) ∧
    (∀ p ∈ l'.pieces 0, p.2 = false) ∧ flat (l'.pieces 0) = (L.at 0).taken ∧ (L.at 0).taken = askBytes ∧
    (obs (l'.events 0)).filterMap Obs.cb = [.beginHeaders] ++ askFields.map (fun nv => .header ⟨nv.name, nv.value⟩) ++ [.endHeaders] := by
  rcases h1 : keepCalls anyPar asks {} (init false zeroTable) with _ | ⟨L, a, l⟩
  · have : (keepCalls anyPar asks {} (init false zeroTable)).isSome = true := by decide +kernel
    rw [h1] at this; cases this
  rcases h2 : makeCalls anyPar gets (init true someSettings) with _ | ⟨b, l'⟩
  · have : (makeCalls anyPar gets (init true someSettings)).isSome = true := by decide +kernel
    rw [h2] at this; cases this
  have k1 : (keepCalls anyPar asks {} (init false zeroTable)).map (fun r => ((r.2.1.c.str 0).isSome, oneSection (r.1.at 0).submitted, (r.1.at 0).taken)) = some (true, true, askBytes) := by
    decide +kernel
  have k2 : (makeCalls anyPar gets (init true someSettings)).map (fun r => (noShut 0 r.2, noClose 0 r.2, (r.2.pieces 0).all fun p => !p.2, flat (r.2.pieces 0))) = some (true, true, true, askBytes) := by
    decide +kernel
  have k3 : (makeCalls anyPar gets (init true someSettings)).map (fun r => (obs (r.2.events 0)).filterMap Obs.cb) =
      some ([.beginHeaders] ++ askFields.map (fun nv => .header ⟨nv.name, nv.value⟩) ++ [.endHeaders]) := by
    decide +kernel
  rw [h1] at k1
  rw [h2] at k2 k3
  injection k1 with k1
  injection k2 with k2
  injection k3 with k3
  simp only [Prod.mk.injEq] at k1 k2
  have hs := oneSection_ok k1.2.1
  refine ⟨L, l, l', a, b, by simpa using keepCalls_kept _ .init h1, rfl, k1.1, ?_, by simpa using makeCalls_hist _ .init h2, ⟨noShut_ok k2.1, noClose_ok k2.2.1⟩,
    ⟨fun _ => rfl, fun g => by cases g⟩, ?_, ?_, k2.2.2.2.trans k1.2.2.symm, k1.2.2, k3⟩
  · rw [hs]
    intro f hf
    rcases List.mem_singleton.1 hf
    decide +kernel
  · rw [hs]
    intro k as
    cases k with
    | zero => exact okB_ok (by show okB (Net.rules _ [] false).2 = true; decide +kernel)
    | succ k => exact okB_ok (by show okB (Net.rules _ [.headers askFields] false).2 = true; decide +kernel)
  · intro p hp
    have := List.all_eq_true.1 k2.2.2.1 p hp
    simpa using this

end Props
end Nghttp3
