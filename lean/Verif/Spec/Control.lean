import Verif.Spec.Frame
import Verif.Model.Frame
import Verif.Model.Err
import Verif.Model.Http
/-! Independent description of an HTTP/3 control stream (RFC 9114 sections 6.2.1, 7.2, RFC 9218 section 7): which frames may
follow which, and what the application learns.  Uses only the record types `Settings` and
`Http.Pri`, and the error codes, of the model. -/
namespace Spec
namespace Control
open Nghttp3

/-- a frame on a control stream; `other`: any type not listed before it -/
inductive Frame where
  | settings (ivs : List (Nat × Nat))
  | goaway (id : Nat)
  | maxPushId (id : Nat)
  | priorityUpdate (id : Nat) (field : List UInt8)
  | other (type : Nat) (payload : List UInt8)
deriving DecidableEq, Repr

/-- `bs` is an encoding of the frame -/
def Encodes : Frame → List UInt8 → Prop
  | .settings ivs, bs => ∃ p, IsSettings ivs p ∧ IsFrame 0x04 p bs
  | .goaway id, bs => ∃ p, IsVarint id p ∧ IsFrame 0x07 p bs
  | .maxPushId id, bs => ∃ p, IsVarint id p ∧ IsFrame 0x0d p bs
  | .priorityUpdate id field, bs => ∃ p, IsVarint id p ∧ IsFrame 0x0f0700 (p ++ field) bs
  | .other type payload, bs => type ≠ 0x04 ∧ type ≠ 0x07 ∧ type ≠ 0x0d ∧ type ≠ 0x0f0700 ∧ IsFrame type payload bs

inductive EncodesAll : List Frame → List UInt8 → Prop
  | nil : EncodesAll [] []
  | cons {f : Frame} {fs : List Frame} {b bs : List UInt8} : Encodes f b → EncodesAll fs bs → EncodesAll (f :: fs) (b ++ bs)

/-- last value given to setting `i` -/
def lastOf (i default : Nat) (ivs : List (Nat × Nat)) : Nat := ((ivs.filter fun iv => iv.1 = i).getLast?.map (·.2)).getD default

/-- setting `i` has value `v` and later value `w` in the list -/
def Before (i v w : Nat) (ivs : List (Nat × Nat)) : Prop := ∃ a b c, ivs = a ++ (i, v) :: b ++ (i, w) :: c

/-- an acceptable SETTINGS frame: no reserved HTTP/2 identifier; SETTINGS_H3_DATAGRAM is 0 or 1; if we are a server,
SETTINGS_ENABLE_CONNECT_PROTOCOL is 0 or 1 and not reset; the two QPACK settings are not repeated after a nonzero value -/
def SettingsOk (server : Bool) (ivs : List (Nat × Nat)) : Prop :=
  (∀ iv ∈ ivs, iv.1 ≠ 0x02 ∧ iv.1 ≠ 0x03 ∧ iv.1 ≠ 0x04 ∧ iv.1 ≠ 0x05) ∧
  (∀ iv ∈ ivs, iv.1 = 0x33 → iv.2 ≤ 1) ∧
  (server = true → (∀ iv ∈ ivs, iv.1 = 0x08 → iv.2 ≤ 1) ∧ ¬ Before 0x08 1 0 ivs) ∧
  (∀ v w, Before 0x01 v w ivs → v = 0) ∧ (∀ v w, Before 0x07 v w ivs → v = 0)

/-- the settings the application is told; `qpackEncoderMaxDtableCapacity` is not a protocol setting and has its default -/
def settingsOf (server : Bool) (ivs : List (Nat × Nat)) : Settings :=
  { maxFieldSectionSize := lastOf 0x06 (2 ^ 62 - 1) ivs
    qpackMaxDtableCapacity := lastOf 0x01 0 ivs
    qpackEncoderMaxDtableCapacity := 4096
    qpackBlockedStreams := lastOf 0x07 0 ivs
    enableConnectProtocol := server && decide (lastOf 0x08 0 ivs = 1)
    h3Datagram := decide (lastOf 0x33 0 ivs = 1) }

/-- frame types that are an error on a control stream: DATA, HEADERS, PUSH_PROMISE, CANCEL_PUSH (push is not
supported), and those reserved because HTTP/2 uses them -/
def Forbidden (type : Nat) : Prop := type ∈ [0x00, 0x01, 0x02, 0x03, 0x05, 0x06, 0x08, 0x09]

open Classical in
/-- the error for frame `f` arriving after the frames `past`, if it must be refused -/
noncomputable def verdict (server : Bool) (past : List Frame) : Frame → Option Int
  | .settings ivs =>
    if past ≠ [] then some Err.H3_FRAME_UNEXPECTED
    else if SettingsOk server ivs then none else some Err.H3_SETTINGS_ERROR
  | .goaway id =>
    if past = [] then some Err.H3_MISSING_SETTINGS
    else if server = false ∧ id % 4 ≠ 0 then some Err.H3_ID_ERROR
    else if ∃ i, Frame.goaway i ∈ past ∧ i < id then some Err.H3_ID_ERROR
    else none
  | .maxPushId id =>
    if past = [] then some Err.H3_MISSING_SETTINGS
    else if server = false then some Err.H3_FRAME_UNEXPECTED
    else if ∃ i, Frame.maxPushId i ∈ past ∧ id < i then some Err.H3_FRAME_ERROR
    else none
  | .priorityUpdate _ _ =>
    if past = [] then some Err.H3_MISSING_SETTINGS
    else if server = false then some Err.H3_FRAME_UNEXPECTED
    else none
  | .other type _ =>
    if past = [] then some Err.H3_MISSING_SETTINGS
    else if type = 0x0f0701 then some Err.H3_ID_ERROR
    else if Forbidden type then some Err.H3_FRAME_UNEXPECTED
    else none

/-- outcome of a sequence of frames: `past` were accepted (and left the prioritised streams in state `x`); then either the
sequence ended or the next frame was refused -/
inductive Outcome (S : Type) where
  | accepted (past : List Frame) (x : S)
  | refused (past : List Frame) (x : S) (e : Int)

/-- a PRIORITY_UPDATE frame for stream `id`: `parse` reads the field value, `apply` gives the stream its priority; an
absent value means urgency 3, not incremental -/
def priorityUpdate {S : Type} (parse : List UInt8 → Option Http.Pri) (apply : S → Nat → Http.Pri → Except Int S)
    (x : S) (id : Nat) (field : List UInt8) : Except Int S :=
  if field = [] then apply x id { urgency := 3, inc := false }
  else match parse field with
    | none => .error Err.H3_GENERAL_PROTOCOL_ERROR
    | some p => apply x id p

/-- process frames in order; `pri`: effect of a PRIORITY_UPDATE -/
noncomputable def outcome {S : Type} (server : Bool) (pri : S → Nat → List UInt8 → Except Int S) (past : List Frame) (x : S) :
    List Frame → Outcome S
  | [] => .accepted past x
  | f :: fs =>
    match verdict server past f with
    | some e => .refused past x e
    | none =>
      match f with
      | .priorityUpdate id field =>
        match pri x id field with
        | .error e => .refused past x e
        | .ok x' => outcome server pri (past ++ [f]) x' fs
      | _ => outcome server pri (past ++ [f]) x fs

/-- what the application is told -/
inductive Report where
  | settings (s : Settings)
  | shutdown (id : Nat)
deriving DecidableEq, Repr

/-- SETTINGS and GOAWAY are reported, once each, in order -/
def reports (server : Bool) (past : List Frame) : List Report :=
  past.filterMap fun f => match f with
    | .settings ivs => some (.settings (settingsOf server ivs))
    | .goaway id => some (.shutdown id)
    | _ => none

end Control
end Spec
