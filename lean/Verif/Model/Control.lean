import Verif.Model.Rd
import Verif.Model.Frame
import Verif.Model.Err
import Verif.Model.Http
import Verif.Model.QpackEnc
import Verif.Lemmas.Machine
/-! Model of the control stream reader of lib/nghttp3_conn.c (nghttp3_conn_read_control, l.628-1048) and of
nghttp3_conn_on_settings_entry_received (l.1668-1747).

Simplifications: what is done with a parsed PRIORITY_UPDATE (nghttp3_conn_on_priority_update) is a parameter `onPri`
acting on an abstract rest `S` of the connection (it is modelled in Model/Conn.lean); the structured field parser is a
parameter `parsePri` (it is not part of the repository); a callback is a function of the callbacks made so far
(`true`: returns 0, also if the application did not install it) and does not call back into the connection;
`size_t` is 64 bit wide.  The inner `for (;;)` loop of the SETTINGS state and the fallthroughs from one state into the
next are written as transitions between the states of the outer loop: each iteration of `step` is one visit of a
`case` label, or of the corresponding part of the inner loop. -/
namespace Nghttp3
namespace Control

abbrev Bytes := List UInt8

/-- NGHTTP3_VARINT_MAX, nghttp3_conv.h -/
def VARINT_MAX : Nat := 2 ^ 62 - 1

/-- callbacks made by the control stream reader: recv_settings, shutdown -/
inductive Ev where
  | settings (s : Settings)
  | shutdown (id : Nat)
deriving DecidableEq, Repr

/-- the environment -/
structure Env (S : Type) where
  parsePri : Bytes → Option Http.Pri
  onPri : S → Nat → Http.Pri → Except Int S
  cb : List Ev → Bool

/-- nghttp3_settings_default, nghttp3_conn.c:2644-2652 (NGHTTP3_QPACK_ENCODER_MAX_DTABLE_CAPACITY, nghttp3_qpack.h) -/
def defaultSettings : Settings := { maxFieldSectionSize := VARINT_MAX, qpackEncoderMaxDtableCapacity := 4096 }

/-- the parts of struct nghttp3_conn (nghttp3_conn.h:81-145) the control stream touches.  `ev`: callbacks made so far;
`long`: ghost, a PRIORITY_UPDATE frame was skipped because its field value is too long for the buffer. -/
structure Conn (S : Type) where
  server : Bool
  settingsRecved : Bool := false
  remote : Settings := defaultSettings
  enc : Qpack.Enc
  goawayRecved : Bool := false
  rxGoaway : Nat := VARINT_MAX + 1
  maxPushes : Nat := 0
  ev : List Ev := []
  long : Bool := false
  ext : S

/-- NGHTTP3_CTRL_STREAM_STATE_*, nghttp3_stream.h:61-72 -/
inductive Cst where
  | frameType | frameLen | settings | settingId | settingVal | goaway | maxPush | elemId | priField | ignFrame
deriving DecidableEq, Repr

/-- connection, nghttp3_stream_read_state of the control stream (nghttp3_stream.h:88-93) and `rx.pri_fieldbuf`
(nghttp3_conn.h) -/
structure St (S : Type) where
  conn : Conn S
  st : Cst := .frameType
  rv : RVInt := {}
  ty : Nat := 0
  left : Nat := 0
  sid : Nat := 0
  elem : Nat := 0
  priBuf : Bytes := []

variable {S : Type}

/-- the identifiers refused in nghttp3_conn.c:1737-1741 -/
def h2Setting (id : Nat) : Bool :=
  decide (id = H2_SETTINGS_ID_ENABLE_PUSH ∨ id = H2_SETTINGS_ID_MAX_CONCURRENT_STREAMS ∨
    id = H2_SETTINGS_ID_INITIAL_WINDOW_SIZE ∨ id = H2_SETTINGS_ID_MAX_FRAME_SIZE)

/-- nghttp3_conn_on_settings_entry_received, nghttp3_conn.c:1668-1747 -/
def onEntry (c : Conn S) (id v : Nat) : Except Int (Conn S) :=
  if id = SETTINGS_ID_MAX_FIELD_SECTION_SIZE then .ok { c with remote := { c.remote with maxFieldSectionSize := v } }
  else if id = SETTINGS_ID_QPACK_MAX_TABLE_CAPACITY then
    if c.remote.qpackMaxDtableCapacity ≠ 0 then .error Err.H3_SETTINGS_ERROR
    else if v = 0 then .ok c
    else .ok { c with remote := { c.remote with qpackMaxDtableCapacity := v }, enc := c.enc.setMaxCap v }
  else if id = SETTINGS_ID_QPACK_BLOCKED_STREAMS then
    if c.remote.qpackBlockedStreams ≠ 0 then .error Err.H3_SETTINGS_ERROR
    else if v = 0 then .ok c
    else .ok { c with remote := { c.remote with qpackBlockedStreams := v }, enc := c.enc.setMaxBlocked (min 100 v) }
  else if id = SETTINGS_ID_ENABLE_CONNECT_PROTOCOL then
    if c.server = false then .ok c
    else if v = 0 ∧ c.remote.enableConnectProtocol = true then .error Err.H3_SETTINGS_ERROR
    else if 1 < v then .error Err.H3_SETTINGS_ERROR
    else .ok { c with remote := { c.remote with enableConnectProtocol := decide (v ≠ 0) } }
  else if id = SETTINGS_ID_H3_DATAGRAM then
    if 1 < v then .error Err.H3_SETTINGS_ERROR
    else .ok { c with remote := { c.remote with h3Datagram := decide (v ≠ 0) } }
  else if h2Setting id then .error Err.H3_SETTINGS_ERROR
  else .ok c

/-- result of one visit of the loop body; an error comes with the connection at that point -/
abbrev Res (S : Type) := Machine.Res (St S) (Int × Conn S)

/-- nghttp3_stream_read_state_reset, nghttp3_stream.c:177-179: the memset of the read state; `priBuf` is not part of it -/
def reset (s : St S) (c : Conn S) : St S := { conn := c, priBuf := s.priBuf }

/-- a callback that returns an error ends the call with NGHTTP3_ERR_CALLBACK_FAILURE; otherwise the read state is
reset (conn_call_recv_settings, nghttp3_conn.c:193-207, 696-701, 752-757, 870-875; shutdown, l.903-911) -/
def report (env : Env S) (s : St S) (c : Conn S) (e : Ev) (rest : Bytes) : Res S :=
  let c' := { c with ev := c.ev ++ [e] }
  if env.cb c'.ev then .cont (reset s c') rest false else .fail (Err.CALLBACK_FAILURE, c')

/-- the frame types refused in nghttp3_conn.c:733-741 -/
def refused (ty : Nat) : Bool :=
  decide (ty = FRAME_CANCEL_PUSH ∨ ty = FRAME_DATA ∨ ty = FRAME_HEADERS ∨ ty = FRAME_PUSH_PROMISE ∨ ty = H2_FRAME_PRIORITY ∨
    ty = H2_FRAME_PING ∨ ty = H2_FRAME_WINDOW_UPDATE ∨ ty = H2_FRAME_CONTINUATION)

/-- nghttp3_conn.c:692-748: the frame header is complete (`s.ty`, `s.left`) -/
def dispatch (env : Env S) (s : St S) (rest : Bytes) : Res S :=
  let c := s.conn
  if s.ty = FRAME_SETTINGS then
    if s.left = 0 then report env s c (.settings c.remote) rest else .cont { s with st := .settings } rest false
  else if s.ty = FRAME_GOAWAY then
    if s.left = 0 then .fail (Err.H3_FRAME_ERROR, c) else .cont { s with st := .goaway } rest false
  else if s.ty = FRAME_MAX_PUSH_ID then
    if c.server = false then .fail (Err.H3_FRAME_UNEXPECTED, c)
    else if s.left = 0 then .fail (Err.H3_FRAME_ERROR, c)
    else .cont { s with st := .maxPush } rest false
  else if s.ty = FRAME_PRIORITY_UPDATE then
    if c.server = false then .fail (Err.H3_FRAME_UNEXPECTED, c)
    else if s.left = 0 then .fail (Err.H3_FRAME_ERROR, c)
    else .cont { s with st := .elemId } rest false
  else if s.ty = FRAME_PRIORITY_UPDATE_PUSH_ID then .fail (Err.H3_ID_ERROR, c)
  else if refused s.ty then .fail (Err.H3_FRAME_UNEXPECTED, c)
  else .cont { s with st := .ignFrame } rest true

/-- nghttp3_conn.c:683-690: SETTINGS comes first and once -/
def header (env : Env S) (s : St S) (rest : Bytes) : Res S :=
  if s.conn.settingsRecved = false then
    if s.ty ≠ FRAME_SETTINGS then .fail (Err.H3_MISSING_SETTINGS, s.conn)
    else dispatch env { s with conn := { s.conn with settingsRecved := true } } rest
  else if s.ty = FRAME_SETTINGS then .fail (Err.H3_FRAME_UNEXPECTED, s.conn)
  else dispatch env s rest

/-- `len = min(left, end - p); assert(len > 0); nread = nghttp3_read_varint(...); if (nread < 0) return
NGHTTP3_ERR_H3_FRAME_ERROR; p += nread; left -= nread; if (rvint->left) return` (e.g. nghttp3_conn.c:878-890); `k` is what
follows when the integer is complete -/
def inFrame (s : St S) (src : Bytes) (k : Nat → St S → Bytes → Res S) : Res S :=
  match rdl s.rv s.left src with
  | .crash => .crash
  | .err => .fail (Err.H3_FRAME_ERROR, s.conn)
  | .part rv => .ret { s with rv := rv, left := s.left - min s.left src.length }
  | .done v n => k v { s with rv := {}, left := s.left - n } (src.drop n)

/-- a setting identifier is complete, nghttp3_conn.c:780-792, 830-841 -/
def gotId (v : Nat) (s : St S) (rest : Bytes) : Res S :=
  if s.left = 0 then .fail (Err.H3_FRAME_ERROR, s.conn) else .cont { s with sid := v, st := .settingVal } rest false

/-- a setting value is complete, nghttp3_conn.c:806-813 with 751-759, and 857-876 -/
def gotVal (env : Env S) (v : Nat) (s : St S) (rest : Bytes) : Res S :=
  match onEntry s.conn s.sid v with
  | .error e => .fail (e, s.conn)
  | .ok c => if s.left ≠ 0 then .cont { s with conn := c, st := .settings } rest false else report env s c (.settings c.remote) rest

/-- GOAWAY complete, nghttp3_conn.c:892-912 (nghttp3_client_stream_bidi, nghttp3_conv.h) -/
def gotGoaway (env : Env S) (v : Nat) (s : St S) (rest : Bytes) : Res S :=
  if s.conn.server = false ∧ v % 4 ≠ 0 then .fail (Err.H3_ID_ERROR, s.conn)
  else if s.conn.rxGoaway < v then .fail (Err.H3_ID_ERROR, s.conn)
  else report env s { s.conn with goawayRecved := true, rxGoaway := v } (.shutdown v) rest

/-- MAX_PUSH_ID complete, nghttp3_conn.c:929-937 -/
def gotMaxPush (v : Nat) (s : St S) (rest : Bytes) : Res S :=
  if v + 1 < s.conn.maxPushes then .fail (Err.H3_FRAME_ERROR, s.conn)
  else .cont (reset s { s.conn with maxPushes := v + 1 }) rest false

/-- nghttp3_conn_on_priority_update and what follows, nghttp3_conn.c:961-967, 1021-1029 -/
def applyPri (env : Env S) (s : St S) (buf : Bytes) (p : Http.Pri) (rest : Bytes) : Res S :=
  match env.onPri s.conn.ext s.elem p with
  | .error e => .fail (e, s.conn)
  | .ok x => .cont { reset s { s.conn with ext := x } with priBuf := buf } rest false

/-- prioritized element ID complete, nghttp3_conn.c:954-972; the fallthrough into the next case is taken even if there
is no more input -/
def gotElem (env : Env S) (v : Nat) (s : St S) (rest : Bytes) : Res S :=
  let s := { s with elem := v }
  if s.left = 0 then applyPri env s s.priBuf { urgency := 3, inc := false } rest
  else .cont { s with st := .priField } rest true

/-- the field value `f` is complete, nghttp3_conn.c:1012-1029; NGHTTP3_DEFAULT_URGENCY, nghttp3.h -/
def gotField (env : Env S) (s : St S) (f rest : Bytes) : Res S :=
  match env.parsePri f with
  | none => .fail (Err.H3_GENERAL_PROTOCOL_ERROR, s.conn)
  | some p => applyPri env s [] p rest

/-- sizeof(conn->rx.pri_fieldbuf), nghttp3_conn.h -/
def FIELDBUF : Nat := 8

/-- skip the rest of the frame, nghttp3_conn.c:981-985, 989-993 -/
def tooLong (s : St S) (src : Bytes) : Res S :=
  .cont { s with st := .ignFrame, conn := { s.conn with long := true } } src true

/-- NGHTTP3_CTRL_STREAM_STATE_PRIORITY_UPDATE, nghttp3_conn.c:973-1029 -/
def priField (env : Env S) (s : St S) (src : Bytes) : Res S :=
  let len := min s.left src.length
  if len = 0 then .crash
  else if s.priBuf = [] ∧ s.left = len then
    if FIELDBUF < len then tooLong s src else gotField env { s with left := 0 } (src.take len) (src.drop len)
  else if FIELDBUF < len + s.priBuf.length then tooLong s src
  else
    let buf := s.priBuf ++ src.take len
    if s.left = len then gotField env { s with left := 0, priBuf := buf } buf (src.drop len)
    else .ret { s with left := s.left - len, priBuf := buf }

/-- NGHTTP3_CTRL_STREAM_STATE_IGN_FRAME, nghttp3_conn.c:1030-1041 -/
def ignFrame (s : St S) (src : Bytes) : Res S :=
  let len := min s.left src.length
  if s.left - len ≠ 0 then .ret { s with left := s.left - len } else .cont (reset s s.conn) (src.drop len) false

/-- one visit of the `switch` in nghttp3_conn_read_control, nghttp3_conn.c:645-1044 -/
def step (env : Env S) (s : St S) (src : Bytes) : Res S :=
  match s.st with
  | .frameType =>
    match rd s.rv src false with
    | .crash => .crash
    | .err => .fail (Err.H3_GENERAL_PROTOCOL_ERROR, s.conn)
    | .part rv => .ret { s with rv := rv }
    | .done v n => .cont { s with rv := {}, ty := v, st := .frameLen } (src.drop n) false
  | .frameLen =>
    match rd s.rv src false with
    | .crash => .crash
    | .err => .fail (Err.H3_FRAME_ERROR, s.conn)
    | .part rv => .ret { s with rv := rv }
    | .done v n => header env { s with rv := {}, left := v } (src.drop n)
  | .settings =>
    if s.left = 0 then report env s s.conn (.settings s.conn.remote) src
    else if src = [] then .ret s
    else inFrame { s with st := .settingId } src gotId
  | .settingId => inFrame s src gotId
  | .settingVal => inFrame s src (gotVal env)
  | .goaway => inFrame s src (gotGoaway env)
  | .maxPush => inFrame s src gotMaxPush
  | .elemId => inFrame s src (gotElem env)
  | .priField => priField env s src
  | .ignFrame => ignFrame s src

/-- an upper bound on the visits of the loop that do not consume input -/
def rank (s : St S) : Nat :=
  match s.st with
  | .priField => 2
  | .ignFrame => 1
  | .settings => 1
  | _ => 0

/-- nghttp3_conn_read_control, nghttp3_conn.c:628-1048; a successful call consumes all input (C30) -/
def read (env : Env S) (s : St S) (src : Bytes) : Machine.Out (St S) (Int × Conn S) :=
  if src = [] then .crash else Machine.run (step env) rank s src false

/-- the control stream delivered in pieces; after an error the connection is not used any more -/
def feed (env : Env S) (s : St S) : List Bytes → Machine.Out (St S) (Int × Conn S)
  | [] => .ok s
  | c :: cs =>
    match read env s c with
    | .ok s' => feed env s' cs
    | r => r

end Control
end Nghttp3
