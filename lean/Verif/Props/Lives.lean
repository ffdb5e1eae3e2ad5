import Verif.Lemmas.EndpointLives
import Verif.Lemmas.EndpointLog
import Verif.Props.Ledger
/-! C63: what the application sees of a request stream, in every life of it. -/
namespace Nghttp3
namespace Props
open Endpoint EpDemo Bidi Http
open Conn (clientBidi)

/-- C63, server.  Whatever the peer sends, in any order and in any packets: in each life of a request stream (from its creation to
stream_close) the application sees a well-formed request, or the beginning of one, in which nothing follows end_stream; or it sees the
beginning of a well-formed request, and then, in the middle of a header or trailer section, stop_sending and reset_stream with
H3_MESSAGE_ERROR; or the stream is refused with H3_REQUEST_REJECTED and nothing else is reported. -/
theorem C63_server (P : Par) (st : Settings) (log : Log) (ep : Ep) (id : Nat) (hP : ParOk P) (hst : SettingsOk st)
    (h : Hist P true st log ep) (hid : clientBidi id = true) :
    ∀ life ∈ lives (log.events id),
      RefusedLife life ∨ LifeOk (RequestSoFar st.enableConnectProtocol) (CompleteRequest st.enableConnectProtocol) life := by
  obtain ⟨done, cur, hl⟩ := (hist_chain hP hst hid h).lives rfl
  have key : ∀ s e, Lived (cfg P (init true st).c id) (QL P true st [] log id) s e →
      RefusedLife e ∨ LifeOk (RequestSoFar st.enableConnectProtocol) (CompleteRequest st.enableConnectProtocol) e := by
    rintro s e ⟨r, req, hq, hp⟩
    have hreq : req = [] := by
      rcases hq with ⟨_, g, _⟩ | ⟨g, _⟩
      · exact g
      · cases g
    subst hreq
    rcases request_life rfl hp with ⟨_, k⟩ | ⟨_, k⟩
    · exact .inl k
    · exact .inr k
  intro life hm
  rw [hl.eq] at hm
  rcases List.mem_append.1 hm with hm | hm
  · obtain ⟨s, hs⟩ := hl.old _ hm
    exact key s _ hs
  · obtain rfl := List.mem_singleton.1 hm
    rcases hv : view ep.c ep.rx id with _ | s
    · rw [hl.none hv]
      exact .inr (.progress (fun _ g => by cases g) .start)
    · exact key s _ (hl.some s hv)

/-- C63, client.  In each life of a request stream the application sees a well-formed response to a request that it has submitted on this
stream, or the beginning of one, in which nothing follows end_stream; or the beginning of one and then, in the middle of a header or trailer
section, stop_sending and reset_stream with H3_MESSAGE_ERROR.  (For a stream on which nothing was submitted nothing is reported.) -/
theorem C63_client (P : Par) (st : Settings) (log : Log) (ep : Ep) (id : Nat) (hP : ParOk P) (hst : SettingsOk st)
    (h : Hist P false st log ep) (hid : clientBidi id = true) :
    ∀ life ∈ lives (log.events id), life = [] ∨
      ∃ nva dr r ev, (Call.submitRequest id nva dr, r, ev) ∈ log ∧
        LifeOk (ResponseSoFar (Spec.methodOf (nva.map fun nv => ⟨nv.name, nv.value⟩)))
          (CompleteResponse (Spec.methodOf (nva.map fun nv => ⟨nv.name, nv.value⟩))) life := by
  obtain ⟨done, cur, hl⟩ := (hist_chain hP hst hid h).lives rfl
  have key : ∀ s e, Lived (cfg P (init false st).c id) (QL P false st [] log id) s e →
      ∃ nva dr r ev, (Call.submitRequest id nva dr, r, ev) ∈ log ∧
        LifeOk (ResponseSoFar (Spec.methodOf (nva.map fun nv => ⟨nv.name, nv.value⟩)))
          (CompleteResponse (Spec.methodOf (nva.map fun nv => ⟨nv.name, nv.value⟩))) e := by
    rintro s e ⟨r, req, hq, hp⟩
    rcases hq with ⟨g, _⟩ | ⟨_, rfl, nva, dr, r', ev, hm, rfl⟩
    · cases g
    rcases response_life hp with ⟨g, _⟩ | ⟨_, k⟩
    · cases g
    · refine ⟨nva, dr, r', ev, hm, ?_⟩
      rw [List.map_map] at k
      exact k
  intro life hm
  rw [hl.eq] at hm
  rcases List.mem_append.1 hm with hm | hm
  · obtain ⟨s, hs⟩ := hl.old _ hm
    exact .inr (key s _ hs)
  · obtain rfl := List.mem_singleton.1 hm
    rcases hv : view ep.c ep.rx id with _ | s
    · exact .inl (hl.none hv)
    · exact .inr (key s _ (hl.some s hv))

/-- a request without body that ends the stream, then stream_close; a request with a pseudo-header field twice; after
nghttp3_conn_shutdown, a request on a new stream -/
def EpDemo.threeLives : List Call :=
  [.bindControl 3, .bindQpack 7 11, .read 2 inserts false, .read 0 request true, .close 0, .read 4 [1, 5, 0, 0, 0xd1, 0xd1, 0xc1] false, .shutdown,
   .read 8 request true]

/-- a client that has sent a request receives a response with an interim response before it, and a body -/
def EpDemo.aResponse : List Call :=
  [.bindControl 2, .bindQpack 6 10, .submitRequest 0 [{ name := [58, 109, 101, 116, 104, 111, 100], value := [71, 69, 84] }] false,
   .read 0 [1, 3, 0, 0, 0xd8, 1, 3, 0, 0, 0xd9, 0, 2, 104] false, .read 0 [105] true]

/-- the lives of a stream, up to the callbacks that C63 leaves out -/
def EpDemo.loudLives (id : Nat) (r : Ep × Log) : List (List Bidi.Ev) := (lives (r.2.events id)).map loud

set_option maxRecDepth 100000 in
/-- C63 is about these histories: the complete message, the malformed one, the refused one, and a response -/
theorem C63_example :
    (makeCalls anyPar threeLives (init true someSettings)).map (fun r => (loudLives 0 r).map List.length) = some [7, 0] ∧
    (makeCalls anyPar threeLives (init true someSettings)).map (fun r => (loudLives 0 r).map (·.getLast?)) = some [some .endStream, none] ∧
    (makeCalls anyPar threeLives (init true someSettings)).map (fun r => (loudLives 4 r).map (·.drop 2)) = some [[.stopSending 0x010e, .resetStream 0x010e]] ∧
    (makeCalls anyPar threeLives (init true someSettings)).map (loudLives 8) = some [[.stopSending 0x010b, .resetStream 0x010b]] ∧
    (makeCalls anyPar aResponse (init false someSettings)).map (fun r => (loudLives 0 r).map (·.drop 6)) = some [[.data [104], .data [105], .endStream]] ∧
    (∃ log ep, Hist anyPar true someSettings log ep ∧ loudLives 8 (ep, log) = [[.stopSending 0x010b, .resetStream 0x010b]]) ∧
    ∃ log ep, Hist anyPar false someSettings log ep ∧ (loudLives 0 (ep, log)).map (·.drop 6) = [[.data [104], .data [105], .endStream]] := by
  have h4 : (makeCalls anyPar threeLives (init true someSettings)).map (loudLives 8) = some [[.stopSending 0x010b, .resetStream 0x010b]] := by decide +kernel
  have h5 : (makeCalls anyPar aResponse (init false someSettings)).map (fun r => (loudLives 0 r).map (·.drop 6)) =
      some [[.data [104], .data [105], .endStream]] := by decide +kernel
  refine ⟨by decide +kernel, by decide +kernel, by decide +kernel, h4, h5, ?_, ?_⟩
  · obtain ⟨⟨ep, l⟩, h, e⟩ := Option.map_eq_some_iff.1 h4
    exact ⟨[] ++ l, ep, makeCalls_hist _ .init h, e⟩
  · obtain ⟨⟨ep, l⟩, h, e⟩ := Option.map_eq_some_iff.1 h5
    exact ⟨[] ++ l, ep, makeCalls_hist _ .init h, e⟩

end Props
end Nghttp3
