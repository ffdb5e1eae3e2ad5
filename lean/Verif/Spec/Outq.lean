import Verif.Spec.Frame
import Verif.Model.Outq
/-! What a stream carries: the sequence of frames queued on it, as bytes marked as the application's or not, and how it follows the submissions. -/
namespace Nghttp3
namespace Outq

/-- bytes with a mark: `true` for bytes of the application's body, which acked_stream_data reports -/
abbrev Marked := List (UInt8 × Bool)
def own (bs : Bytes) : Marked := bs.map fun b => (b, false)
def app (bs : Bytes) : Marked := bs.map fun b => (b, true)

/-- `m` is what the item `x` looks like on the wire (RFC 9114 section 7, RFC 9218 section 7) -/
def Wire (x : Emit) (m : Marked) : Prop :=
  match x with
  | .streamType ty => ∃ b, Spec.IsVarint ty b ∧ m = own b
  | .settings s => ∃ b payload, Spec.IsFrame 0x04 payload b ∧ m = own b ∧ Spec.IsSettings
      ([(0x06, s.maxFieldSectionSize), (0x01, s.qpackMaxDtableCapacity), (0x07, s.qpackBlockedStreams)] ++
        (if s.h3Datagram then [(0x33, 1)] else []) ++ (if s.enableConnectProtocol then [(0x08, 1)] else [])) payload
  | .headers p r _ => ∃ b, Spec.IsFrame 0x01 (p ++ r) b ∧ m = own b
  | .data v _ _ => (v.flatten = [] ∧ m = []) ∨
      (v.flatten ≠ [] ∧ ∃ hd, Spec.IsFrame 0x00 v.flatten (hd ++ v.flatten) ∧ m = own hd ++ app v.flatten)
  | .goaway id => ∃ b payload, Spec.IsFrame 0x07 payload b ∧ m = own b ∧ Spec.IsVarint id payload
  | .priorityUpdate ft el v => ∃ b e, Spec.IsFrame ft (e ++ v) b ∧ m = own b ∧ Spec.IsVarint el e
  | .raw bs => m = own bs

/-- the items `em` serve the submitted frames `fs` in order, each once; `rest` are still to be served.  A body is served by any number of
answers of the application, the last of which says EOF.  Stream types and raw bytes do not come from submitted frames. -/
inductive Follows {E F : Type} (encode : E → F → Option (E × Bytes × Bytes × Bytes)) : List (Frent F) → List Emit → List (Frent F) → Prop
  | done (rest) : Follows encode rest [] rest
  | settings {s fs em rest} : Follows encode fs em rest → Follows encode (.settings s :: fs) (.settings s :: em) rest
  | headers {nva p r eb e e' fs em rest} : encode e nva = some (e', p, r, eb) → Follows encode fs em rest →
      Follows encode (.headers nva :: fs) (.headers p r eb :: em) rest
  | dataMore {v noEnd fs em rest} : Follows encode (.data :: fs) em rest → Follows encode (.data :: fs) (.data v false noEnd :: em) rest
  | dataEnd {v noEnd fs em rest} : Follows encode fs em rest → Follows encode (.data :: fs) (.data v true noEnd :: em) rest
  | goaway {id fs em rest} : Follows encode fs em rest → Follows encode (.goaway id :: fs) (.goaway id :: em) rest
  | priorityUpdate {ft el v fs em rest} : Follows encode fs em rest →
      Follows encode (.priorityUpdate ft el v :: fs) (.priorityUpdate ft el v :: em) rest
  | streamType {ty fs em rest} : Follows encode fs em rest → Follows encode fs (.streamType ty :: em) rest
  | raw {bs fs em rest} : Follows encode fs em rest → Follows encode fs (.raw bs :: em) rest

/-- the history of one stream as seen from outside -/
structure Hist (F : Type) where
  st : St F := {}
  submitted : List (Frent F) := []
  items : List Emit := []
  accepted : Bytes := []
  reports : List Int := []
  acked : Nat := 0
  ended : Bool := false

/-- a stream `s` and the encoder stream `q` of the connection -/
structure World (E F : Type) where
  e : E
  s : Hist F := {}
  q : Hist F := {}

inductive Op (F : Type) where
  | streamType (onQ : Bool) (ty : Nat)
  | submit (f : Frent F) (fin : Bool)
  | raw (onQ : Bool) (bs : Bytes)
  | resume
  | fill (answers : List Ans)
  | write (onQ : Bool) (veccnt n : Nat)
  | ack (onQ : Bool) (off : Nat)

variable {E F : Type}

def World.get (w : World E F) (onQ : Bool) : Hist F := if onQ then w.q else w.s
def World.set (w : World E F) (onQ : Bool) (h : Hist F) : World E F := if onQ then { w with q := h } else { w with s := h }

/-- bytes for the encoder stream made along with the items -/
def encoderItems : List Emit → List Emit
  | [] => []
  | .headers _ _ eb :: t => .raw eb :: encoderItems t
  | _ :: t => encoderItems t

/-- has the application announced the end of the stream in these answers? -/
def endsIn : List Emit → Bool
  | [] => false
  | .data _ eof noEnd :: t => (eof && !noEnd) || endsIn t
  | _ :: t => endsIn t

/-- writing: vectors offered, the first `n` bytes accepted (nghttp3_conn_writev_stream, nghttp3_conn_add_write_offset) -/
def Hist.write (h : Hist F) (k n : Nat) : R (Hist F) :=
  (writev h.st k).bind fun r => (addOutqOffset h.st n).bind fun st => .ok { h with st := st, accepted := h.accepted ++ r.1.flatten.take n }

/-- acknowledgement (nghttp3_conn_update_ack_offset) -/
def Hist.ack (h : Hist F) (off : Nat) : R (Hist F) :=
  (updateAckOffset h.st off).bind fun r => .ok { h with st := r.1, reports := h.reports ++ r.2, acked := off }

/-- one call -/
def World.step (encode : E → F → Option (E × Bytes × Bytes × Bytes)) (w : World E F) : Op F → R (World E F)
  | .streamType onQ ty => (writeStreamType (w.get onQ).st ty).bind fun st =>
      .ok (w.set onQ { w.get onQ with st := st, items := (w.get onQ).items ++ [.streamType ty] })
  | .submit f fin => .ok { w with s := { w.s with st := { w.s.st with frq := w.s.st.frq ++ [f], endStream := w.s.st.endStream || fin }, submitted := w.s.submitted ++ [f], ended := w.s.ended || fin } }
  | .raw onQ bs => (sharedWrite (w.get onQ).st bs.length bs).bind fun st =>
      .ok (w.set onQ { w.get onQ with st := st, items := (w.get onQ).items ++ [.raw bs] })
  | .resume => .ok { w with s := { w.s with st := { w.s.st with readBlocked := false } } }
  | .fill as =>
      if w.s.st.readBlocked then .ok w
      else (fillOutq encode w.e w.s.st w.q.st as).bind fun r =>
        .ok { e := r.1, s := { w.s with st := r.2.1, items := w.s.items ++ r.2.2.2, ended := w.s.ended || endsIn r.2.2.2 }, q := { w.q with st := r.2.2.1, items := w.q.items ++ encoderItems r.2.2.2 } }
  | .write onQ k n => ((w.get onQ).write k n).bind fun h => .ok (w.set onQ h)
  | .ack onQ off => ((w.get onQ).ack off).bind fun h => .ok (w.set onQ h)

def World.run (encode : E → F → Option (E × Bytes × Bytes × Bytes)) (w : World E F) : List (Op F) → R (World E F)
  | [] => .ok w
  | o :: t => (w.step encode o).bind fun w => w.run encode t

/-- the values of a frame fit the wire format -/
def FrentOk : Frent F → Prop
  | .settings s => s.maxFieldSectionSize < 2 ^ 62 ∧ s.qpackMaxDtableCapacity < 2 ^ 62 ∧ s.qpackBlockedStreams < 2 ^ 62
  | .headers _ => True
  | .data => True
  | .goaway id => id < 2 ^ 62
  | .priorityUpdate ft el v => (ft = 0x0f0700 ∨ ft = 0x0f0701) ∧ el < 2 ^ 62 ∧ v.length < 2 ^ 62 - 8

/-- read_data returns something or sets EOF, as its documentation requires -/
def AnsOk : Ans → Prop
  | .vecs v eof _ => v.flatten ≠ [] ∨ eof = true
  | _ => True

/-- the call is allowed: values in range, no more bytes accepted than offered, acknowledgements in order and of accepted bytes -/
def World.Valid (w : World E F) : Op F → Prop
  | .streamType _ ty => ty < 2 ^ 62
  | .submit f _ => FrentOk f
  | .raw _ bs => bs ≠ []
  | .resume => True
  | .fill as => ∀ a ∈ as, AnsOk a
  | .write onQ k n => 0 < k ∧ ∀ vs fin, writev (w.get onQ).st k = .ok (vs, fin) → n ≤ vs.flatten.length
  | .ack onQ off => (w.get onQ).acked ≤ off ∧ off ≤ (w.get onQ).accepted.length

/-- all calls are allowed -/
def World.ValidAll (encode : E → F → Option (E × Bytes × Bytes × Bytes)) (w : World E F) : List (Op F) → Prop
  | [] => True
  | o :: t => w.Valid o ∧ ∀ w', w.step encode o = .ok w' → w'.ValidAll encode t

/-- the encoder makes at least one field line for each field section, and the frame length fits -/
def EncodeOk (encode : E → F → Option (E × Bytes × Bytes × Bytes)) : Prop :=
  ∀ e nva e' p r eb, encode e nva = some (e', p, r, eb) → r ≠ [] ∧ p.length + r.length < 2 ^ 62

end Outq
end Nghttp3
