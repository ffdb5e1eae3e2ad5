import Verif.Spec.Sent
import Verif.Spec.Control
/-! Specification: what an endpoint announces on its control stream, as its peer is told. -/
namespace Nghttp3
namespace CtlEnd
open Outq (Frent)
open Spec.Control (Report)

variable {F : Type}

/-- the settings `s` of the sender as its peer is told: the capacity limit of the sender's own encoder is not sent (the peer sees the default),
and only a server looks at SETTINGS_ENABLE_CONNECT_PROTOCOL.  `server`: the sender is a server -/
def seen (server : Bool) (s : Settings) : Settings :=
  { maxFieldSectionSize := s.maxFieldSectionSize
    qpackMaxDtableCapacity := s.qpackMaxDtableCapacity
    qpackEncoderMaxDtableCapacity := 4096
    qpackBlockedStreams := s.qpackBlockedStreams
    enableConnectProtocol := !server && s.enableConnectProtocol
    h3Datagram := s.h3Datagram }

/-- what the peer is to be told: the settings, then a shutdown for each GOAWAY frame that calls have asked for, in their order -/
def announced (server : Bool) (s : Settings) (asked : List (Frent F)) : List Report :=
  .settings (seen server s) :: asked.filterMap fun | .goaway id => some (.shutdown id) | _ => none

/-- the priority updates that calls have asked for: stream and field value -/
def priorityUpdates (asked : List (Frent F)) : List (Nat × List UInt8) :=
  asked.filterMap fun | .priorityUpdate _ id v => some (id, v) | _ => none

end CtlEnd
end Nghttp3
