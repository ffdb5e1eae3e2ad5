import Verif.Gen.Chars
import Verif.Model.StaticTable
/-! Model of lib/nghttp3_http.c: checks of received header fields and of the message. -/
namespace Nghttp3
namespace Http
open Qpack

/-- `TABLE[c]` for the tables of 256 entries -/
def tbl (t : List Int) (c : UInt8) : Int := (t[c.toNat]?).getD 0

/-- downcase, nghttp3_http.c:41-43 -/
def downcase (c : UInt8) : UInt8 := if 0x41 ≤ c ∧ c ≤ 0x5a then c - 0x41 + 0x61 else c

/-- lstrieq / memieq, nghttp3_http.c:50-60 -/
def lstrieq (a b : List UInt8) : Bool := a.length == b.length && (a.zip b).all fun (x, y) => x == downcase y

/-- NGHTTP3_MAX_VARINT, nghttp3_macro.h:46 -/
def maxVarint : Int := 2 ^ 62 - 1

/-- loop of parse_uint, nghttp3_http.c:70-82 -/
def parseUintLoop (n : Int) : List UInt8 → Int
  | [] => n
  | c :: t =>
    if 0x30 ≤ c ∧ c ≤ 0x39 then
      if n > maxVarint / 10 then -1
      else if n * 10 > maxVarint - (c.toNat - 0x30 : Int) then -1
      else parseUintLoop (n * 10 + (c.toNat - 0x30 : Int)) t
    else -1

/-- parse_uint, nghttp3_http.c:64-85 -/
def parseUint (s : List UInt8) : Int := if s.length = 0 then -1 else parseUintLoop 0 s

/-- nghttp3_pri, nghttp3.h -/
structure Pri where
  urgency : Nat
  inc : Bool
deriving DecidableEq, Repr

/-- nghttp3_http_state, nghttp3_stream.h:188-200; its `flags` (NGHTTP3_HTTP_FLAG_*, nghttp3_http.h:41-85, which are different bits:
`flags_distinct`) as Booleans.  `int64_t`/`int16_t` fields are integers. -/
structure State where
  authority : Bool := false
  path : Bool := false
  method : Bool := false
  scheme : Bool := false
  host : Bool := false
  status : Bool := false
  pseudoDisallowed : Bool := false
  methConnect : Bool := false
  methHead : Bool := false
  methOptions : Bool := false
  pathRegular : Bool := false
  pathAsterisk : Bool := false
  schemeHttp : Bool := false
  expectFinal : Bool := false
  protocol : Bool := false
  priority : Bool := false
  badPriority : Bool := false
  statusCode : Int := -1
  contentLength : Int := -1
  recvContentLength : Int := 0
  pri : Pri := ⟨3, false⟩
deriving DecidableEq, Repr

/-- values of the flags, nghttp3_http.h:41-85, in the order of the fields of `State` -/
def flagBits : List Nat :=
  [0x01, 0x02, 0x04, 0x08, 0x10, 0x20, 0x40, 0x80, 0x0100, 0x0200, 0x0400, 0x0800, 0x1000, 0x2000, 0x4000, 0x8000, 0x010000]

theorem flags_distinct : flagBits = (List.range 17).map (2 ^ ·) := by decide

/-- check_authority, nghttp3_http.c:251-259 -/
def checkAuthority (v : List UInt8) : Bool := v.all fun c => tbl Chars.authorityChars c != 0

/-- check_scheme, nghttp3_http.c:261-283 -/
def checkScheme : List UInt8 → Bool
  | [] => false
  | c :: t =>
    if !((0x41 ≤ c && c ≤ 0x5a) || (0x61 ≤ c && c ≤ 0x7a)) then false
    else t.all fun c => (0x41 ≤ c && c ≤ 0x5a) || (0x61 ≤ c && c ≤ 0x7a) || (0x30 ≤ c && c ≤ 0x39) || c == 0x2b || c == 0x2d || c == 0x2e

/-- check_method, nghttp3_http.c:353-364 -/
def checkMethod (v : List UInt8) : Bool := if v.length = 0 then false else v.all fun c => tbl Chars.methodChars c != 0

/-- check_path, nghttp3_http.c:434-442 -/
def checkPath (v : List UInt8) : Bool := v.all fun c => tbl Chars.pathChars c != 0

/-- is_ws, nghttp3_http.c:114-122 -/
def isWs (c : UInt8) : Bool := c == 0x20 || c == 0x09

/-- nghttp3_check_header_name, nghttp3_http.c:854-872 -/
def checkHeaderName (name : List UInt8) : Bool :=
  match name with
  | [] => false
  | c :: t =>
    if c == 0x3a then
      if t.length = 0 then false else t.all fun c => tbl Chars.nameChars c != 0
    else (c :: t).all fun c => tbl Chars.nameChars c != 0

/-- http_check_nonempty_header_name, nghttp3_http.c:878-890 -/
def checkNonemptyName : List UInt8 → Int
  | [] => 1
  | c :: t => if tbl Chars.nameChars c ≠ 1 then tbl Chars.nameChars c else checkNonemptyName t

/-- one byte of contains_bad_header_value_char_avx2, nghttp3_http.c:961-985: signed comparisons of 8 bit lanes -/
def badValueCharAvx2 (c : UInt8) : Bool :=
  let s : Int := if c < 0x80 then c.toNat else c.toNat - 256
  (!(c == 0x09) && (decide (s > 0x00 - 1) && decide (0x1f + 1 > s))) || c == 0x7f

/-- nghttp3_check_header_value, nghttp3_http.c:988-1028, without `__AVX2__` -/
def checkHeaderValue (v : List UInt8) : Bool :=
  match v with
  | [] => true
  | [c] => if isWs c then false else tbl Chars.valueChars c != 0
  | c :: t =>
    if isWs c || isWs ((t.getLast?).getD 0) then false
    else (c :: t).all fun c => tbl Chars.valueChars c != 0

/-- nghttp3_check_header_value, nghttp3_http.c:988-1028, with `__AVX2__` -/
def checkHeaderValueAvx2 (v : List UInt8) : Bool :=
  match v with
  | [] => true
  | [c] => if isWs c then false else tbl Chars.valueChars c != 0
  | c :: t =>
    if isWs c || isWs ((t.getLast?).getD 0) then false
    else
      let n32 := v.length / 32 * 32
      if v.length ≥ 32 ∧ (v.take n32).any badValueCharAvx2 then false
      else (if v.length ≥ 32 then v.drop n32 else v).all fun c => tbl Chars.valueChars c != 0

/-- a header field as the QPACK decoder emits it -/
structure Field where
  name : List UInt8
  value : List UInt8
deriving DecidableEq, Repr

/-- what nghttp3_http_on_header returns: NGHTTP3_ERR_MALFORMED_HTTP_HEADER (the state is not used any more then),
NGHTTP3_ERR_REMOVE_HTTP_HEADER, 0 -/
inductive Res where
  | malformed
  | remove (s : State)
  | ok (s : State)
deriving DecidableEq, Repr

/-- `"HEAD"`, nghttp3_http.c:463 -/
def sHEAD : List UInt8 := [0x48, 0x45, 0x41, 0x44]
/-- `"CONNECT"`, nghttp3_http.c:470 -/
def sCONNECT : List UInt8 := [0x43, 0x4f, 0x4e, 0x4e, 0x45, 0x43, 0x54]
/-- `"OPTIONS"`, nghttp3_http.c:475 -/
def sOPTIONS : List UInt8 := [0x4f, 0x50, 0x54, 0x49, 0x4f, 0x4e, 0x53]
/-- `"http"`, nghttp3_http.c:501 -/
def sHttp : List UInt8 := [0x68, 0x74, 0x74, 0x70]
/-- `"https"`, nghttp3_http.c:502 -/
def sHttps : List UInt8 := [0x68, 0x74, 0x74, 0x70, 0x73]
/-- `"trailers"`, nghttp3_http.c:546 -/
def sTrailers : List UInt8 := [0x74, 0x72, 0x61, 0x69, 0x6c, 0x65, 0x72, 0x73]

/-- the switch on the method, nghttp3_http.c:461-481 -/
def recordMethod (s : State) (v : List UInt8) : State :=
  if v.length = 4 then
    if v = sHEAD then { s with methHead := true } else s
  else if v.length = 7 then
    if v[6]? = some 0x54 then
      if v = sCONNECT then { s with methConnect := true } else s
    else if v[6]? = some 0x53 then
      if v = sOPTIONS then { s with methOptions := true } else s
    else s
  else s

/-- tokens of the fields that must not occur, nghttp3_http.c:538-544, 637-643 -/
def disallowedTokens : List Nat :=
  [TOKEN_CONNECTION, TOKEN_KEEP_ALIVE, TOKEN_PROXY_CONNECTION, TOKEN_TRANSFER_ENCODING, TOKEN_UPGRADE]

/-- http_request_on_header, nghttp3_http.c:444-586.  `tok`: nv->token (`none`: −1); `parsePri`: nghttp3_http_parse_priority, whose
structured-field parser is not part of the repository (`none`: error).  check_pseudo_header (l.87-94) is expanded. -/
def requestOnHeader (parsePri : Pri → List UInt8 → Option Pri) (s : State) (f : Field) (tok : Option Nat) (trailers connectProtocol : Bool) :
    Res :=
  if tok = some TOKEN_AUTHORITY then
    if !checkAuthority f.value || (s.authority || f.value.length == 0) then .malformed else .ok { s with authority := true }
  else if tok = some TOKEN_METHOD then
    if !checkMethod f.value || (s.method || f.value.length == 0) then .malformed
    else .ok (recordMethod { s with method := true } f.value)
  else if tok = some TOKEN_PATH then
    if !checkPath f.value || (s.path || f.value.length == 0) then .malformed
    else if f.value[0]? = some 0x2f then .ok { s with path := true, pathRegular := true }
    else if f.value.length = 1 ∧ f.value[0]? = some 0x2a then .ok { s with path := true, pathAsterisk := true }
    else .ok { s with path := true }
  else if tok = some TOKEN_SCHEME then
    if !checkScheme f.value || (s.scheme || f.value.length == 0) then .malformed
    else if lstrieq sHttp f.value || lstrieq sHttps f.value then .ok { s with scheme := true, schemeHttp := true }
    else .ok { s with scheme := true }
  else if tok = some TOKEN_PROTOCOL then
    if !connectProtocol || !checkHeaderValue f.value || (s.protocol || f.value.length == 0) then .malformed
    else .ok { s with protocol := true }
  else if tok = some TOKEN_HOST then
    if !checkAuthority f.value then .remove s
    else if s.host || f.value.length == 0 then .malformed
    else .ok { s with host := true }
  else if tok = some TOKEN_CONTENT_LENGTH then
    if trailers then .remove s
    else if s.contentLength ≠ -1 then .malformed
    else if parseUint f.value = -1 then .malformed
    else .ok { s with contentLength := parseUint f.value }
  else if tok ∈ disallowedTokens.map some then .malformed
  else if tok = some TOKEN_TE then
    if !lstrieq sTrailers f.value then .malformed else .ok s
  else if tok = some TOKEN_PRIORITY then
    if !checkHeaderValue f.value then .remove { s with priority := false, badPriority := true }
    else if trailers || s.badPriority then .ok s
    else
      match parsePri s.pri f.value with
      | some p => .ok { s with pri := p, priority := true }
      | none => .ok { s with priority := false, badPriority := true }
  else
    if f.name[0]? = some 0x3a then .malformed
    else if !checkHeaderValue f.value then .remove s
    else .ok s

/-- http_response_on_header, nghttp3_http.c:588-660; C division truncates, which for a status code ≥ −1 only matters for −1 -/
def responseOnHeader (s : State) (f : Field) (tok : Option Nat) (trailers : Bool) : Res :=
  if tok = some TOKEN_STATUS then
    if (s.status || f.value.length == 0) || f.value.length ≠ 3 then .malformed
    else if parseUint f.value < 100 ∨ parseUint f.value = 101 then .malformed
    else .ok { s with status := true, statusCode := parseUint f.value }
  else if tok = some TOKEN_CONTENT_LENGTH then
    if trailers then .remove s
    else if s.statusCode = 204 then
      if s.contentLength ≠ -1 ∨ ¬ lstrieq [0x30] f.value then .malformed
      else .remove { s with contentLength := 0 }
    else if Int.tdiv s.statusCode 100 = 1 ∨ (Int.tdiv s.statusCode 100 = 2 ∧ s.methConnect) then .remove s
    else if s.contentLength ≠ -1 then .malformed
    else if parseUint f.value = -1 then .malformed
    else .ok { s with contentLength := parseUint f.value }
  else if tok ∈ disallowedTokens.map some then .malformed
  else if tok = some TOKEN_TE then
    if !lstrieq sTrailers f.value then .malformed else .ok s
  else
    if f.name[0]? = some 0x3a then .malformed
    else if !checkHeaderValue f.value then .remove s
    else .ok s

/-- nghttp3_http_on_header, nghttp3_http.c:664-697 -/
def onHeader (parsePri : Pri → List UInt8 → Option Pri) (s : State) (f : Field) (tok : Option Nat)
    (request trailers connectProtocol : Bool) : Res :=
  if f.name.length = 0 then .remove { s with pseudoDisallowed := true }
  else if f.name[0]? = some 0x3a then
    if tok = none ∨ trailers ∨ s.pseudoDisallowed then .malformed
    else if request then requestOnHeader parsePri s f tok trailers connectProtocol else responseOnHeader s f tok trailers
  else
    let s := { s with pseudoDisallowed := true }
    if checkNonemptyName f.name = 0 then .remove s
    else if checkNonemptyName f.name = -1 then .malformed
    else if request then requestOnHeader parsePri s f tok trailers connectProtocol else responseOnHeader s f tok trailers

/-- check_path_flags, nghttp3_http.c:107-112 -/
def checkPathFlags (s : State) : Bool := !s.schemeHttp || (s.pathRegular || (s.methOptions && s.pathAsterisk))

/-- nghttp3_http_on_request_headers, nghttp3_http.c:699-725; `none`: NGHTTP3_ERR_MALFORMED_HTTP_HEADER -/
def onRequestHeaders (s : State) : Option State :=
  if !s.protocol && s.methConnect then
    if (s.scheme || s.path) || !s.authority then none else some { s with contentLength := -1 }
  else
    if !(s.method && s.path && s.scheme) || !(s.authority || s.host) then none
    else if s.protocol && (!s.methConnect || !s.authority) then none
    else if !checkPathFlags s then none
    else some s

/-- expect_response_body, nghttp3_http.c:96-100 -/
def expectResponseBody (s : State) : Bool :=
  !s.methHead && decide (Int.tdiv s.statusCode 100 ≠ 1) && s.statusCode != 304 && s.statusCode != 204

/-- nghttp3_http_on_response_headers, nghttp3_http.c:727-750 -/
def onResponseHeaders (s : State) : Option State :=
  if !s.status then none
  else if Int.tdiv s.statusCode 100 = 1 then
    some { methConnect := s.methConnect, methHead := s.methHead, methOptions := s.methOptions, expectFinal := true,
           statusCode := -1, contentLength := -1, recvContentLength := s.recvContentLength, pri := s.pri }
  else
    let s := { s with expectFinal := false }
    if !expectResponseBody s then some { s with contentLength := 0 }
    else if s.methConnect then some { s with contentLength := -1 }
    else some s

/-- nghttp3_http_on_remote_end_stream, nghttp3_http.c:752-760; `false`: NGHTTP3_ERR_MALFORMED_HTTP_MESSAGING -/
def onRemoteEndStream (s : State) : Bool :=
  !(s.expectFinal || (s.contentLength != -1 && s.contentLength != s.recvContentLength))

/-- nghttp3_http_on_data_chunk, nghttp3_http.c:762-772; `none`: NGHTTP3_ERR_MALFORMED_HTTP_MESSAGING -/
def onDataChunk (s : State) (n : Nat) : Option State :=
  let s := { s with recvContentLength := s.recvContentLength + n }
  if s.expectFinal || (s.contentLength != -1 && decide (s.recvContentLength > s.contentLength)) then none else some s

/-- `":method"`, nghttp3_http.c:783-784 -/
def sMethod : List UInt8 := [0x3a, 0x6d, 0x65, 0x74, 0x68, 0x6f, 0x64]

/-- nghttp3_http_record_request_method, nghttp3_http.c:774-796 -/
def recordRequestMethod (s : State) : List Field → State
  | [] => s
  | f :: t =>
    if f.name ≠ sMethod then recordRequestMethod s t
    else if f.value = sCONNECT then { s with methConnect := true }
    else if f.value = sHEAD then { s with methHead := true }
    else s

/-- the fields of one section as they come out of the QPACK decoder, handled one by one as in the loop of conn_decode_headers,
nghttp3_conn.c:1588-1652: the fields passed to the application, and the new state unless the section was malformed -/
def runFields (parsePri : Pri → List UInt8 → Option Pri) (request trailers connectProtocol : Bool) (s : State) :
    List Field → List Field × Option State
  | [] => ([], some s)
  | f :: t =>
    match onHeader parsePri s f (lookupToken f.name) request trailers connectProtocol with
    | .malformed => ([], none)
    | .remove s' => runFields parsePri request trailers connectProtocol s' t
    | .ok s' => (f :: (runFields parsePri request trailers connectProtocol s' t).1, (runFields parsePri request trailers connectProtocol s' t).2)

end Http
end Nghttp3
