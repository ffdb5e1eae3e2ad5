import Verif.Model.Conv

/-! Model of the frame writers in lib/nghttp3_frame.c, and of the way lib/nghttp3_stream.c calls
them (length computed first, `hd.length` patched, then written). -/

namespace Nghttp3

/-- nghttp3_frame.h:37-46 -/
def FRAME_DATA : Nat := 0x00
def FRAME_HEADERS : Nat := 0x01
def FRAME_CANCEL_PUSH : Nat := 0x03
def FRAME_SETTINGS : Nat := 0x04
def FRAME_PUSH_PROMISE : Nat := 0x05
def FRAME_GOAWAY : Nat := 0x07
def FRAME_MAX_PUSH_ID : Nat := 0x0d
def FRAME_PRIORITY_UPDATE : Nat := 0x0f0700
def FRAME_PRIORITY_UPDATE_PUSH_ID : Nat := 0x0f0701
/-- nghttp3_frame.h:50-53: frame types reserved for HTTP/2 -/
def H2_FRAME_PRIORITY : Nat := 0x02
def H2_FRAME_PING : Nat := 0x06
def H2_FRAME_WINDOW_UPDATE : Nat := 0x08
def H2_FRAME_CONTINUATION : Nat := 0x09
/-- nghttp3_frame.h:70-74 -/
def SETTINGS_ID_MAX_FIELD_SECTION_SIZE : Nat := 0x06
def SETTINGS_ID_QPACK_MAX_TABLE_CAPACITY : Nat := 0x01
def SETTINGS_ID_QPACK_BLOCKED_STREAMS : Nat := 0x07
def SETTINGS_ID_ENABLE_CONNECT_PROTOCOL : Nat := 0x08
def SETTINGS_ID_H3_DATAGRAM : Nat := 0x33
/-- nghttp3_frame.h:76-79 -/
def H2_SETTINGS_ID_ENABLE_PUSH : Nat := 0x2
def H2_SETTINGS_ID_MAX_CONCURRENT_STREAMS : Nat := 0x3
def H2_SETTINGS_ID_INITIAL_WINDOW_SIZE : Nat := 0x4
def H2_SETTINGS_ID_MAX_FRAME_SIZE : Nat := 0x5

/-- nghttp3_frame_write_hd, nghttp3_frame.c:34-38 -/
def frameWriteHd (type length : Nat) : List UInt8 := putVarint type ++ putVarint length

/-- nghttp3_frame_write_hd_len, nghttp3_frame.c:40-42 -/
def frameWriteHdLen (type length : Nat) : Nat := putVarintLen type + putVarintLen length

/-- loop of nghttp3_frame_write_settings, nghttp3_frame.c:50-53 -/
def settingsBody : List (Nat × Nat) → List UInt8
  | [] => []
  | (i, v) :: t => putVarint i ++ putVarint v ++ settingsBody t

/-- nghttp3_frame_write_settings, nghttp3_frame.c:44-56 -/
def frameWriteSettings (type length : Nat) (ivs : List (Nat × Nat)) : List UInt8 :=
  frameWriteHd type length ++ settingsBody ivs

/-- loop of nghttp3_frame_write_settings_len, nghttp3_frame.c:63-66 -/
def settingsPayloadLen (ivs : List (Nat × Nat)) : Nat :=
  ivs.foldl (fun n iv => n + (putVarintLen iv.1 + putVarintLen iv.2)) 0

/-- nghttp3_frame_write_settings_len, nghttp3_frame.c:58-72: (payload length, total length) -/
def frameWriteSettingsLen (ivs : List (Nat × Nat)) : Nat × Nat :=
  let payloadlen := settingsPayloadLen ivs
  (payloadlen, putVarintLen FRAME_SETTINGS + putVarintLen payloadlen + payloadlen)

/-- nghttp3_frame_write_goaway, nghttp3_frame.c:74-80 -/
def frameWriteGoaway (type length id : Nat) : List UInt8 :=
  frameWriteHd type length ++ putVarint id

/-- nghttp3_frame_write_goaway_len, nghttp3_frame.c:82-90 -/
def frameWriteGoawayLen (id : Nat) : Nat × Nat :=
  let payloadlen := putVarintLen id
  (payloadlen, putVarintLen FRAME_GOAWAY + putVarintLen payloadlen + payloadlen)

/-- nghttp3_frame_write_priority_update, nghttp3_frame.c:92-102 -/
def frameWritePriorityUpdate (type length elemId : Nat) (data : List UInt8) : List UInt8 :=
  frameWriteHd type length ++ putVarint elemId ++ data

/-- nghttp3_frame_write_priority_update_len, nghttp3_frame.c:104-112 -/
def frameWritePriorityUpdateLen (type elemId : Nat) (data : List UInt8) : Nat × Nat :=
  let payloadlen := putVarintLen elemId + data.length
  (payloadlen, putVarintLen type + putVarintLen payloadlen + payloadlen)

/-- nghttp3_settings (the fields that are sent), nghttp3.h:1615-1655.  The two flags are the C
"nonzero" tests. -/
structure Settings where
  maxFieldSectionSize : Nat := 0
  qpackMaxDtableCapacity : Nat := 0
  qpackEncoderMaxDtableCapacity : Nat := 0
  qpackBlockedStreams : Nat := 0
  enableConnectProtocol : Bool := false
  h3Datagram : Bool := false
deriving DecidableEq, Repr, Inhabited

/-- the entry list built in nghttp3_stream_write_settings, nghttp3_stream.c:333-370 -/
def settingsEntries (s : Settings) : List (Nat × Nat) :=
  [(SETTINGS_ID_MAX_FIELD_SECTION_SIZE, s.maxFieldSectionSize),
   (SETTINGS_ID_QPACK_MAX_TABLE_CAPACITY, s.qpackMaxDtableCapacity),
   (SETTINGS_ID_QPACK_BLOCKED_STREAMS, s.qpackBlockedStreams)] ++
  (if s.h3Datagram then [(SETTINGS_ID_H3_DATAGRAM, 1)] else []) ++
  (if s.enableConnectProtocol then [(SETTINGS_ID_ENABLE_CONNECT_PROTOCOL, 1)] else [])

/-- nghttp3_stream_write_settings, nghttp3_stream.c:327-387: (reserved bytes, written bytes) -/
def streamWriteSettings (s : Settings) : Nat × List UInt8 :=
  let (pl, len) := frameWriteSettingsLen (settingsEntries s)
  (len, frameWriteSettings FRAME_SETTINGS pl (settingsEntries s))

/-- nghttp3_stream_write_goaway, nghttp3_stream.c:389-412 -/
def streamWriteGoaway (id : Nat) : Nat × List UInt8 :=
  let (pl, len) := frameWriteGoawayLen id
  (len, frameWriteGoaway FRAME_GOAWAY pl id)

/-- nghttp3_stream_write_priority_update, nghttp3_stream.c:414-437; `type` is
FRAME_PRIORITY_UPDATE or FRAME_PRIORITY_UPDATE_PUSH_ID -/
def streamWritePriorityUpdate (type elemId : Nat) (data : List UInt8) : Nat × List UInt8 :=
  let (pl, len) := frameWritePriorityUpdateLen type elemId data
  (len, frameWritePriorityUpdate type pl elemId data)

end Nghttp3
