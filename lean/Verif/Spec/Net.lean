import Verif.Props.QpackLoop
import Verif.Spec.WireMsg
/-! Two endpoints of this library and the network between them: one sends messages on request streams, the other receives them.  The bytes
of every stream arrive in order, in pieces of any size, and the streams are independent of each other: request streams, the QPACK encoder
stream and the QPACK decoder stream.

The sender: nghttp3_qpack_encoder_encode (Model/QpackEnc.lean), and frames as nghttp3_stream_write_headers and
nghttp3_stream_write_data lay them out.  The receiver: nghttp3_conn_read_stream and nghttp3_conn_read_qpack_encoder
(Model/Bidi.lean, Model/QpackDec.lean). -/
namespace Nghttp3
namespace Net
open Http Qpack Bidi

/-- what an application submits -/
inductive SFrame where
  | headers (nvs : List Nv)
  | data (b : Bidi.Bytes)

/-- a field, for the rules for messages -/
def field (nv : Nv) : Field := ⟨nv.name, nv.value⟩

/-- the same, for the rules for messages (Model/Message.lean); the body counts byte by byte -/
def SFrame.frm : SFrame → Frm
  | .headers nvs => .headers (some (nvs.map field))
  | .data b => .data (b.map fun _ => 1)

def SFrame.body : SFrame → Bidi.Bytes
  | .headers _ => []
  | .data b => b

/-- a stream: what was submitted, and whether its end was; the bytes on their way; whether the end of the stream has arrived; the
receiver's state and the callbacks made so far -/
structure NStr where
  msg : List SFrame := []
  ended : Bool := false
  wire : Bidi.Bytes := []
  fin : Bool := false
  s : Str
  ev : List Ev := []

/-- the receiver's settings: QPACK table capacity and number of blocked streams; the streams -/
structure Par where
  H : Nat
  B : Nat
  ids : List Nat
  cfg : Nat → Cfg

structure Sys where
  /-- the sender's QPACK encoder -/
  sys : ESys
  /-- the receiver's QPACK decoder -/
  dec : Dec
  /-- encoder stream and decoder stream -/
  ech : Bidi.Bytes := []
  dch : Bidi.Bytes := []
  str : Nat → NStr

def init (P : Par) : Sys := { sys := ESys.init P.H, dec := Dec.init P.H P.B, str := fun id => { s := Str.new (P.cfg id) } }

inductive NOp where
  /-- the sender submits a header section (request, response, interim response or trailers) -/
  | headers (id : Nat) (nvs : List Nv)
  /-- … a piece of the body -/
  | data (id : Nat) (b : Bidi.Bytes)
  /-- … the end of the message -/
  | fin (id : Nat)
  | setCap (n : Nat)
  | setMaxBlocked (n : Nat)
  /-- the receiver gets the next `k` bytes of a stream, and its end if they are the last ones -/
  | recv (id k : Nat)
  /-- the receiver gets the next `k` bytes of the encoder stream; then streams that were waiting for it continue, in the order given -/
  | readEnc (k : Nat) (order : List Nat)
  /-- the receiver writes its decoder stream -/
  | flush
  /-- the sender gets the next instruction of the decoder stream -/
  | deliver (i : DIns)
  /-- the receiver is not interested in a stream any more: nghttp3_conn_shutdown_stream_read -/
  | stop (id : Nat)

inductive NRes where
  /-- a failed assertion -/
  | crash
  /-- the receiver reports a connection error -/
  | fail (e : Int)
  /-- the sender refuses what the receiver wrote to the decoder stream -/
  | refused
  | ok (n : Sys)

/-- fewer than the permitted number of streams are waiting for the encoder stream, stream `id` not counted: nghttp3_conn.c:1600-1603 -/
def Sys.room (P : Par) (n : Sys) (id : Nat) : Bool := decide ((P.ids.filter fun j => decide (j ≠ id) && (n.str j).s.blocked).length < P.B)

def Sys.set (n : Sys) (id : Nat) (st : NStr) : Sys := { n with str := fun j => if j = id then st else n.str j }

/-- the outcome of a call on stream `id` -/
def Sys.after (n : Sys) (id : Nat) (st : NStr) : Out → NRes
  | .crash => .crash
  | .fail e => .fail e
  | .ok s d ev _ _ => .ok ({ n with dec := d }.set id { st with s := s, ev := st.ev ++ ev })

/-- the check for unblocked streams -/
def wakeAll (P : Par) (n : Sys) : List Nat → NRes
  | [] => .ok n
  | id :: t =>
    match n.after id (n.str id) (wake (P.cfg id) (n.room P id) (n.str id).s n.dec) with
    | .ok n' => wakeAll P n' t
    | r => r

/-- a frame: type, length, payload -/
def frame (ty : Nat) (payload : Bidi.Bytes) : Bidi.Bytes := frameWriteHd ty payload.length ++ payload

def Sys.step (P : Par) (n : Sys) : NOp → NRes
  | .headers id nvs =>
    match n.sys.e.encode id nvs, n.sys.step (.encode id nvs) with
    | some o, .ok s =>
      let st := n.str id
      .ok ({ n with sys := s, ech := n.ech ++ o.ebuf }.set id { st with msg := st.msg ++ [SFrame.headers nvs], wire := st.wire ++ frame FRAME_HEADERS o.section })
    | _, _ => .crash
  | .data id b =>
    let st := n.str id
    .ok (n.set id { st with msg := st.msg ++ [SFrame.data b], wire := st.wire ++ frame FRAME_DATA b })
  | .fin id => .ok (n.set id { n.str id with ended := true })
  | .setCap k => match n.sys.step (.setCap k) with | .ok s => .ok { n with sys := s } | _ => .crash
  | .setMaxBlocked k => match n.sys.step (.setMaxBlocked k) with | .ok s => .ok { n with sys := s } | _ => .crash
  | .recv id k =>
    let st := n.str id
    if st.fin then .ok n
    else
      let fin := st.ended && decide (st.wire.length ≤ k)
      n.after id { st with wire := st.wire.drop k, fin := fin } (readStream (P.cfg id) (n.room P id) fin st.s n.dec (st.wire.take k))
  | .readEnc k order =>
    match n.dec.readEncoder (n.ech.take k) with
    | .crash => .crash
    | .fail _ e => .fail (qerr e)
    | .ok d => wakeAll P { n with dec := d, ech := n.ech.drop k } order
  | .flush => .ok { n with dec := n.dec.writeDecoder.1, dch := n.dch ++ n.dec.writeDecoder.2 }
  | .deliver i =>
    if i.bytes <+: n.dch then
      match n.sys.step (.instr i.1 i.2) with
      | .crash => .crash
      | .fail => .refused
      | .ok s => .ok { n with sys := s, dch := n.dch.drop i.bytes.length }
    else .ok n
  | .stop id => n.after id (n.str id) (shutdownRead (P.cfg id) (n.str id).s n.dec)

/-- what the rules for messages say about what was submitted on a stream: RFC 9114 section 4, Model/Message.lean -/
def rules (c : Cfg) (msg : List SFrame) (ended : Bool) : List Cb × MRes :=
  (if ended then onMessage else onFrames) c.pp (c.server && c.ext) (Msg.start c) (msg.map SFrame.frm)

/-- it is well-formed -/
def Valid (c : Cfg) (msg : List SFrame) (ended : Bool) : Prop := ∃ m, (rules c msg ended).2 = .ok m

/-- what the receiver's application has been told about a stream: callbacks, body -/
def seen (st : NStr) : List Cb := (obs st.ev).filterMap Obs.cb
def seenBody (st : NStr) : Bidi.Bytes := (obs st.ev).filterMap Obs.body

/-- the body submitted -/
def sent (st : NStr) : Bidi.Bytes := st.msg.flatMap SFrame.body

/-- the sections sent on a stream that the sender still counts as outstanding -/
def Sys.outstanding (n : Sys) (id : Nat) : List Sec := n.sys.secs.filter fun x => x.id == id

/-- the Required Insert Counts can be told apart (RFC 9204 section 4.5.1.1), and there is room for the acknowledgements in the buffer for
the decoder stream -/
def Sys.window (P : Par) (n : Sys) (secs : List Sec) : Prop :=
  (∀ x ∈ secs, x.ricnt ≤ n.dec.ctx.next + P.H / 32) ∧
  n.dec.dbuf.length + (secs.map fun x => (DIns.bytes (.ack, x.id)).length).sum ≤ max n.dec.maxConc 100 * 2 * 10

/-- the application of the sender submits well-formed messages; sizes are within the limits of the protocol and the implementation -/
def Sys.admits (P : Par) (n : Sys) : NOp → Prop
  | .headers id nvs => id ∈ P.ids ∧ (n.str id).ended = false ∧ (∀ nv ∈ nvs, NvFits nv) ∧
      (∀ o, n.sys.e.encode id nvs = some o → o.e.ctx.next ≤ QInt.INT_MAX ∧ o.section.length < 2 ^ 62) ∧
      Valid (P.cfg id) ((n.str id).msg ++ [.headers nvs]) false
  | .data id b => id ∈ P.ids ∧ (n.str id).ended = false ∧ b.length < 2 ^ 62 ∧ Valid (P.cfg id) ((n.str id).msg ++ [.data b]) false
  | .fin id => id ∈ P.ids ∧ (n.str id).ended = false ∧ Valid (P.cfg id) (n.str id).msg true
  | .setCap _ => True
  | .setMaxBlocked k => k ≤ P.B
  | .recv id _ => id ∈ P.ids ∧ n.window P (n.outstanding id)
  | .readEnc k order => (∀ id, id ∈ order ↔ id ∈ P.ids) ∧ n.dec.uninterrupted + k ≤ 128 * 1024 ∧ n.window P n.sys.secs
  | .flush => True
  | .deliver _ => True
  | .stop id => id ∈ P.ids ∧ (n.str id).s.blocked = false ∧ n.dec.dbufOverflow = false

def Sys.run (P : Par) (n : Sys) : List NOp → NRes
  | [] => .ok n
  | o :: t =>
    match n.step P o with
    | .ok n' => n'.run P t
    | r => r

def Admissible (P : Par) : Sys → List NOp → Prop
  | _, [] => True
  | n, o :: t => n.admits P o ∧ ∀ n', n.step P o = .ok n' → Admissible P n' t

/-- the streams are distinct and know their ids -/
structure Par.Ok (P : Par) : Prop where
  nodup : P.ids.Nodup
  id : ∀ i, (P.cfg i).id = i
  H : P.H ≤ QInt.INT_MAX

end Net
end Nghttp3
