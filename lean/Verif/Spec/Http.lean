import Verif.Spec.Ascii
/-! What a well-formed header section is (RFC 9114, 4.2-4.4; RFC 9220; RFC 9110, 5), stated on lists of (name, value) pairs, without
reference to the model. -/
namespace Nghttp3.Spec

abbrev Fld := List UInt8 × List UInt8

/-! ### characters -/

/-- field-value characters: HTAB, SP, VCHAR, obs-text -/
def isValueChar (c : UInt8) : Bool := c == 0x09 || (0x20 ≤ c && c ≠ 0x7f)

/-- SP or HTAB -/
def isBlank (c : UInt8) : Bool := c == 0x20 || c == 0x09

/-- RFC 9110, 5.5: field-value: no other octets, and no white space at either end -/
def isFieldValue (v : List UInt8) : Bool := v.all isValueChar && !((v.head?).any isBlank) && !((v.getLast?).any isBlank)

/-- characters of host and port, RFC 3986, 3.2: unreserved, sub-delims, "%" of pct-encoded, ":", "[" and "]" -/
def isAuthorityChar (c : UInt8) : Bool := isUpper c || isLower c || isDigit c || c ∈ ascii "-._~!$&'()*+,;=%:[]"

/-- visible characters and bytes from 0x80 on: what is tolerated in :path -/
def isPathChar (c : UInt8) : Bool := 0x21 ≤ c && c ≠ 0x7f

/-- RFC 3986, 3.1: scheme -/
def isScheme : List UInt8 → Bool
  | [] => false
  | c :: t => (isUpper c || isLower c) && t.all fun c => isUpper c || isLower c || isDigit c || c ∈ ascii "+-."

/-- a token without capitals: a legal name of a field in HTTP/3 -/
def isNameChar (c : UInt8) : Bool := isTchar c && !isUpper c

/-- the value of a decimal number -/
def decimal (v : List UInt8) : Nat := v.foldl (fun n c => 10 * n + (c.toNat - 0x30)) 0

/-- a decimal number which can be a length, i.e. below 2^62 -/
def isLength (v : List UInt8) : Bool := v ≠ [] && v.all isDigit && decimal v < 2 ^ 62

/-! ### fields -/

def isPseudo (f : Fld) : Bool := (f.1.head?) == some 0x3a

/-- the first character that is not allowed in a name is a capital letter -/
def badCase (name : List UInt8) : Bool := ((name.dropWhile isNameChar).head?).any isUpper

/-- legal name -/
def isName (name : List UInt8) : Bool := name ≠ [] && name.all isNameChar

/-- RFC 9114, 4.2: connection-specific fields -/
def connectionSpecific : List (List UInt8) :=
  [ascii "connection", ascii "keep-alive", ascii "proxy-connection", ascii "transfer-encoding", ascii "upgrade"]

def has (name : String) (fs : List Fld) : Prop := ∃ f ∈ fs, f.1 = ascii name
def hasValue (name value : String) (fs : List Fld) : Prop := (ascii name, ascii value) ∈ fs

/-- the values of the fields of this name -/
def valuesOf (name : String) (fs : List Fld) : List (List UInt8) := (fs.filter (fun f => f.1 == ascii name)).map (·.2)

def atMostOnce (name : String) (fs : List Fld) : Prop := (valuesOf name fs).length ≤ 1

/-- a regular field must not be one of these -/
structure RegularOk (f : Fld) : Prop where
  case_ : ¬ badCase f.1
  conn : f.1 ∉ connectionSpecific
  te : f.1 = ascii "te" → lower f.2 = ascii "trailers"

/-- pseudo-header fields come before all others -/
def PseudoFirst (fs : List Fld) : Prop := fs.Pairwise fun a b => isPseudo b → isPseudo a

/-- Host fields that count: those whose value has only legal characters -/
def hosts (fs : List Fld) : List (List UInt8) := (valuesOf "host" fs).filter (·.all isAuthorityChar)

/-- a well-formed header section of a request; `ext`: extended CONNECT (RFC 9220) has been enabled -/
structure RequestOk (ext : Bool) (fs : List Fld) : Prop where
  first : PseudoFirst fs
  known : ∀ f ∈ fs, isPseudo f → f.1 ∈ [ascii ":authority", ascii ":method", ascii ":path", ascii ":scheme"] ∨
    (ext ∧ f.1 = ascii ":protocol")
  once : ∀ n ∈ [":authority", ":method", ":path", ":scheme", ":protocol", "content-length"], atMostOnce n fs
  hostOnce : (hosts fs).length ≤ 1
  authority : ∀ v ∈ valuesOf ":authority" fs, v ≠ [] ∧ v.all isAuthorityChar
  method : ∀ v ∈ valuesOf ":method" fs, v ≠ [] ∧ v.all isTchar
  path : ∀ v ∈ valuesOf ":path" fs, v ≠ [] ∧ v.all isPathChar
  scheme : ∀ v ∈ valuesOf ":scheme" fs, isScheme v
  protocol : ∀ v ∈ valuesOf ":protocol" fs, v ≠ [] ∧ isFieldValue v
  host : ∀ v ∈ hosts fs, v ≠ []
  length : ∀ v ∈ valuesOf "content-length" fs, isLength v
  regular : ∀ f ∈ fs, ¬ isPseudo f → RegularOk f
  /-- plain CONNECT has :authority but neither :scheme nor :path -/
  connect : hasValue ":method" "CONNECT" fs → ¬ has ":protocol" fs → has ":authority" fs ∧ ¬ has ":scheme" fs ∧ ¬ has ":path" fs
  /-- other requests have :method, :scheme, :path and an authority -/
  other : ¬ (hasValue ":method" "CONNECT" fs ∧ ¬ has ":protocol" fs) →
    has ":method" fs ∧ has ":scheme" fs ∧ has ":path" fs ∧ (has ":authority" fs ∨ hosts fs ≠ [])
  /-- extended CONNECT has :authority and its method is CONNECT -/
  extended : has ":protocol" fs → hasValue ":method" "CONNECT" fs ∧ has ":authority" fs
  /-- in http and https requests the path begins with a slash, except for OPTIONS * -/
  slash : (hasValue ":method" "CONNECT" fs → has ":protocol" fs) →
    (∃ v ∈ valuesOf ":scheme" fs, lower v = ascii "http" ∨ lower v = ascii "https") →
    ∀ v ∈ valuesOf ":path" fs, v.head? = some 0x2f ∨ (v = ascii "*" ∧ hasValue ":method" "OPTIONS" fs)

/-- the fields of a request the application gets to see: those with a legal name and a legal value -/
def deliverRequest (f : Fld) : Bool :=
  isPseudo f || (isName f.1 &&
    (if f.1 = ascii "host" then f.2.all isAuthorityChar
     else if f.1 = ascii "content-length" ∨ f.1 = ascii "te" then true
     else isFieldValue f.2))

/-- how a response treats content-length: of 204 responses it must be "0" and is dropped; where there is no body by definition
(interim responses, 2xx responses to CONNECT) it is dropped; otherwise it must be a number -/
inductive LengthRule | mustBeZero | dropped | number
deriving DecidableEq

def lengthRule (connect : Bool) (status : Nat) : LengthRule :=
  if status = 204 then .mustBeZero
  else if status / 100 = 1 ∨ (status / 100 = 2 ∧ connect) then .dropped
  else .number

/-- a well-formed header section of a response with this status; `connect`: the request was CONNECT -/
structure ResponseOk (connect : Bool) (status : Nat) (fs : List Fld) : Prop where
  first : PseudoFirst fs
  known : ∀ f ∈ fs, isPseudo f → f.1 = ascii ":status"
  /-- exactly one :status, of three digits -/
  code : ∃ v, valuesOf ":status" fs = [v] ∧ v.length = 3 ∧ v.all isDigit ∧ decimal v = status
  range : 100 ≤ status ∧ status ≠ 101
  regular : ∀ f ∈ fs, ¬ isPseudo f → RegularOk f
  length : match lengthRule connect status with
    | .mustBeZero => valuesOf "content-length" fs = [] ∨ valuesOf "content-length" fs = [ascii "0"]
    | .dropped => True
    | .number => atMostOnce "content-length" fs ∧ ∀ v ∈ valuesOf "content-length" fs, isLength v

def deliverResponse (rule : LengthRule) (f : Fld) : Bool :=
  isPseudo f || (isName f.1 &&
    (if f.1 = ascii "content-length" then rule = .number
     else if f.1 = ascii "te" then true
     else isFieldValue f.2))

/-- a well-formed trailer section; `hosts`: that many Host fields have been accepted before (only requests count them) -/
structure TrailersOk (request : Bool) (hostSeen : Bool) (fs : List Fld) : Prop where
  noPseudo : ∀ f ∈ fs, ¬ isPseudo f
  regular : ∀ f ∈ fs, RegularOk f
  host : request → (hosts fs).length ≤ (if hostSeen then 0 else 1) ∧ ∀ v ∈ hosts fs, v ≠ []

def deliverTrailer (request : Bool) (f : Fld) : Bool :=
  isName f.1 &&
    (if f.1 = ascii "content-length" then false
     else if f.1 = ascii "te" then true
     else if request ∧ f.1 = ascii "host" then f.2.all isAuthorityChar
     else isFieldValue f.2)

/-! ### messages -/

/-- the number of body bytes a request declares -/
def requestLength (fs : List Fld) : Option Nat :=
  if (ascii ":method", ascii "CONNECT") ∈ fs ∧ valuesOf ":protocol" fs = [] then none else ((valuesOf "content-length" fs).head?).map decimal

/-- the number of body bytes of a final response: none after HEAD and with 204 and 304, unlimited after CONNECT, otherwise what it
declares; `method`: of the request -/
def responseLength (method : Option (List UInt8)) (status : Nat) (fs : List Fld) : Option Nat :=
  if method = some (ascii "HEAD") ∨ status = 204 ∨ status = 304 then some 0
  else if method = some (ascii "CONNECT") then none
  else ((valuesOf "content-length" fs).head?).map decimal

/-- a body of `n` bytes is complete -/
def lengthOk (declared : Option Nat) (n : Nat) : Prop := ∀ k, declared = some k → n = k

/-- the method of a request: its first :method -/
def methodOf (fs : List Fld) : Option (List UInt8) := (valuesOf ":method" fs).head?

end Nghttp3.Spec
