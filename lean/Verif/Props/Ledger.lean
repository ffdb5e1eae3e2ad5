import Verif.Lemmas.EndpointLog
import Verif.Props.Cut
/-! C62: flow control, for a whole connection. -/
namespace Nghttp3
namespace Props
open Endpoint EpDemo
open Conn (clientBidi streamUni)

/-- C62, request streams: at any moment of any history of a connection the bytes of a request stream that were given to
nghttp3_conn_read_stream are accounted for: they were returned by nghttp3_conn_read_stream or reported through deferred_consume (`credit`), or
handed to the application through recv_data, and the rest waits for the QPACK encoder stream.  Nothing is credited twice (first part), and
nothing is withheld unless the stream waits (second part); also across several lives of the same stream id. -/
theorem C62_request_stream (P : Par) (server : Bool) (st : Settings) (log : Log) (ep : Ep) (id : Nat) (hP : ParOk P) (hst : SettingsOk st)
    (h : Hist P server st log ep) (hid : clientBidi id = true) :
    log.credit id + (Bidi.dataLen (log.events id) : Nat) ≤ (log.received id : Nat) ∧
    (¬ Waiting ep id → log.credit id + (Bidi.dataLen (log.events id) : Nat) = (log.received id : Nat)) := by
  have hc := (hist_chain hP hst hid h).sum
  rw [credit_eq]
  have h0 : held none = 0 := rfl
  rw [h0, pieces_received] at hc
  refine ⟨by omega, fun hw => ?_⟩
  have : held (view ep.c ep.rx id) = 0 := by
    rcases hs : ep.c.str id with _ | s
    · rw [view_none (by rw [hs]; rfl)]; rfl
    · rw [view_some (by rw [hs]; rfl)]
      have hrx := (hist_einv hP hst h).core.r.str id s hid hs
      show (Bidi.buffered (ep.rx id)).length = 0
      by_cases hq : (ep.rx id).inq = []
      · unfold Bidi.buffered; rw [hq]; rfl
      · exact absurd ⟨hid, s, hs, by rw [← hrx.blk]; exact hrx.inv.inq hq⟩ hw
  rw [this] at hc
  omega

/-- C62, unidirectional streams: whatever is received is returned at once. -/
theorem C62_unidirectional (P : Par) (server : Bool) (st : Settings) (log : Log) (ep : Ep) (id : Nat) (h : Hist P server st log ep) (hid : streamUni id = true) :
    (log.received id : Int) = (log.map (returned id)).sum := uni_sum hid h

/-- a request that refers to the dynamic table, with a body of three bytes; it waits -/
def EpDemo.withBody : List Call := [.bindControl 3, .bindQpack 7 11, .read 0 request false, .read 0 [0, 3, 97, 98, 99] true]

/-- received, credited, handed to recv_data, waiting -/
def EpDemo.ledger (id : Nat) (r : Ep × Log) : Nat × Int × Nat × Bool := (r.2.received id, r.2.credit id, Bidi.dataLen (r.2.events id), waitsB r.1 id)

set_option maxRecDepth 100000 in
/-- a request stream waits: only part of the bytes is credited; then the table entry arrives, the body is handed to the application and
everything else is credited; the QPACK encoder stream is credited at once.  These are histories, to which C62 applies. -/
theorem C62_example :
    (makeCalls anyPar withBody (init true someSettings)).map (ledger 0) = some (13, 4, 0, true) ∧
    (makeCalls anyPar (withBody ++ [.read 2 inserts false]) (init true someSettings)).map (ledger 0) = some (13, 10, 3, false) ∧
    (makeCalls anyPar (withBody ++ [.read 2 inserts false]) (init true someSettings)).map (ledger 2) = some (7, 7, 0, false) ∧
    ∃ log ep, Hist anyPar true someSettings log ep ∧ ledger 0 (ep, log) = (13, 10, 3, false) := by
  have h2 : (makeCalls anyPar (withBody ++ [.read 2 inserts false]) (init true someSettings)).map (ledger 0) = some (13, 10, 3, false) := by decide +kernel
  refine ⟨by decide +kernel, h2, by decide +kernel, ?_⟩
  obtain ⟨⟨ep, l⟩, h, e⟩ := Option.map_eq_some_iff.1 h2
  exact ⟨[] ++ l, ep, makeCalls_hist _ .init h, e⟩

end Props
end Nghttp3
