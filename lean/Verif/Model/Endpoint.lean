import Verif.Model.Bidi
import Verif.Model.Conn
import Verif.Model.Control
/-! Model of a whole nghttp3_conn: nghttp3_conn_read_stream (nghttp3_conn.c:382-482) for arbitrary bytes on any stream, and the calls of the
application, on one state.  The parts are the models of the streams and the scheduler (Model/Conn.lean), of the readers of request streams
(Model/Bidi.lean) and of the control stream (Model/Control.lean), and of the QPACK encoder and decoder (Model/QpackEnc.lean,
Model/QpackDec.lean); this file is the code that connects them: which reader gets the bytes of which stream, the creation and deletion of
streams by received data, the queue of streams that wait for the QPACK encoder stream, and what a reader changes in the rest of the connection.

Simplifications: those of the parts; only the callbacks of the control stream may fail; the connection is not used after a call of
nghttp3_conn_read_stream or nghttp3_conn_writev_stream has failed (`fail`); a field section that is empty or has 2^62 bytes is an error when it
is encoded.  `Conn.Strm` and `Bidi.Str` are two views of the same nghttp3_stream: flags that both views have (QPACK_DECODE_BLOCKED, CLOSED,
SHUT_RD) are changed in both. -/
namespace Nghttp3
namespace Endpoint
open Outq (R Ans)

abbrev Bytes := List UInt8

/-- the argument of nghttp3_conn_submit_*, with the stream -/
abbrev Fld := Nat × List Qpack.Nv

/-- what the rest of the world provides: the parser of priority field values, and the results of the callbacks of the control stream -/
structure Par where
  pp : Http.Pri → Bytes → Option Http.Pri
  cb : List Control.Ev → Bool

/-- callbacks, by stream, and those of the control stream -/
inductive Ev where
  | str (id : Nat) (e : Bidi.Ev)
  | ctl (e : Control.Ev)
deriving DecidableEq, Repr

abbrev CC := Conn.Conn Qpack.Enc Fld
/-- the part of the connection that a PRIORITY_UPDATE frame changes; `none`: an assertion failed -/
abbrev Ext := Option (CC × (Nat → Bidi.Str))

/-- nghttp3_conn, nghttp3_conn.h:81-145: `c`: streams and scheduler, with the encoder `conn->qenc`; `rx`: the receiving side of the request
streams; `bq`: `conn->qpack_blocked_streams`; `dec`: `conn->qdec`; `ctl`: the control stream of the peer and `conn->remote` -/
structure Ep where
  c : CC
  rx : Nat → Bidi.Str
  bq : PQ Nat := ⟨fun _ => 0, fun _ => 0, 0⟩
  dec : Qpack.Dec
  ctl : Control.St Ext

/-- failed assertion or access to freed memory; error; result and callbacks -/
inductive Res where
  | crash
  | fail (e : Int)
  | ok (ep : Ep) (r : Conn.Ret) (ev : List Ev)

/-- nghttp3_qpack_encoder_encode as nghttp3_stream_write_header_block uses it (nghttp3_stream.c) -/
def encode : Conn.Encode Qpack.Enc Fld := fun e f =>
  match e.encode f.1 f.2 with
  | some o => if !f.2.isEmpty && decide (o.section.length < 2 ^ 62) then some (o.e, o.pfx, o.reps.flatMap (Qpack.Rep.bytes o.base), o.ebuf) else none
  | none => none

/-- ricnt_less, nghttp3_conn.c:210-218 -/
def ricntLess (rx : Nat → Bidi.Str) (a b : Nat) : Bool := decide ((rx a).sc.ricnt < (rx b).sc.ricnt)

/-- what the reader of a request stream needs to know -/
def cfg (P : Par) (c : CC) (id : Nat) : Bidi.Cfg := { id := id, server := c.server, ext := c.settings.enableConnectProtocol, pp := P.pp }

/-- conn_new, nghttp3_conn.c:232-290 -/
def init (server : Bool) (st : Settings) : Ep where
  c := Conn.init server { st with enableConnectProtocol := server && st.enableConnectProtocol } (Qpack.Enc.init st.qpackEncoderMaxDtableCapacity)
  rx := fun id => { h := .reqInitial, sc := Qpack.SCtx.init id }
  dec := Qpack.Dec.init st.qpackMaxDtableCapacity st.qpackBlockedStreams
  ctl := { conn := { server := server, enc := Qpack.Enc.init st.qpackEncoderMaxDtableCapacity, ext := none } }

/-- NGHTTP3_ERR_STREAM_DATA_OVERFLOW and NGHTTP3_ERR_CALLBACK_FAILURE end the connection -/
def lift {α : Type} (r : R α) (k : α → Res) : Res :=
  match r with
  | .crash => .crash
  | .overflow => .fail Err.STREAM_DATA_OVERFLOW
  | .callbackFailure => .fail Err.CALLBACK_FAILURE
  | .ok a => k a

/-- callbacks that come first -/
def Res.after (ev : List Ev) : Res → Res
  | .ok ep r ev' => .ok ep r (ev ++ ev')
  | r => r

/-- PRIORITY_UPDATE_RECVED or SERVER_PRIORITY_SET, nghttp3_conn.c:1424-1426 -/
def fixedPri (c : CC) (id : Nat) : Bool :=
  match c.str id with
  | some s => s.priUpd || s.srvPri
  | none => false

/-- conn_update_stream_priority for the header sections that were completed, nghttp3_conn.c:1422-1434 -/
def priorities (c : CC) (id : Nat) : List Bidi.Ev → R CC
  | [] => .ok c
  | .priority p :: t => (Conn.onHeaderPriority c id p).bind fun r => priorities r.1 id t
  | _ :: t => priorities c id t

/-- the limit on streams that wait for the encoder stream is not reached, nghttp3_conn.c:1600-1603 -/
def room (c : CC) (bq : PQ Nat) : Bool := decide (bq.len < c.settings.qpackBlockedStreams)

/-- nghttp3_conn_read_bidi on a request stream, nghttp3_conn.c:477-481; nghttp3_conn_qpack_blocked_streams_push, l.2478-2484, when the
stream has become blocked -/
def readBidi (P : Par) (ep : Ep) (id : Nat) (src : Bytes) (fin : Bool) : Res :=
  let s := { ep.rx id with priFixed := fixedPri ep.c id }
  match Bidi.readStream (cfg P ep.c id) (room ep.c ep.bq) fin s ep.dec src with
  | .crash => .crash
  | .fail e => .fail e
  | .ok s' d' ev n _ =>
    lift (priorities ep.c id ev) fun c =>
      let rx := PQ.upd ep.rx id s'
      if !s.blocked && s'.blocked then
        lift (Conn.qpackBlock c id) fun r =>
          .ok { ep with c := r.1, rx := rx, dec := d', bq := ep.bq.push (ricntLess rx) id } (.code n) (ev.map (.str id))
      else .ok { ep with c := c, rx := rx, dec := d' } (.code n) (ev.map (.str id))

/-- nghttp3_conn_on_priority_update, nghttp3_conn.c:1806-1813, as the reader of the control stream calls it; it may create a stream
(l.1781-1796) -/
def onPri (P : Par) (x : Ext) (id : Nat) (pri : Http.Pri) : Except Int Ext :=
  match x with
  | none => .ok none
  | some (c, rx) =>
    match Conn.onPriorityUpdate c id pri with
    | .crash => .ok none
    | .overflow => .error Err.STREAM_DATA_OVERFLOW
    | .callbackFailure => .error Err.CALLBACK_FAILURE
    | .ok (c', .code e) =>
      if e ≠ 0 then .error e
      else .ok (some (c', if (c.str id).isNone && (c'.str id).isSome then PQ.upd rx id (Bidi.Str.new (cfg P c id)) else rx))
    | .ok (_, _) => .ok none

/-- the environment of the reader of the control stream; a field value is parsed into the default priority, nghttp3_conn.c:1012-1019 -/
def env (P : Par) : Control.Env Ext where
  parsePri f := P.pp ⟨3, false⟩ f
  onPri := onPri P
  cb := P.cb

/-- nghttp3_conn_read_control, nghttp3_conn.c:628-1048, in its connection; `n`: what is returned -/
def readControl (P : Par) (ep : Ep) (src : Bytes) (n : Nat) : Res :=
  match Control.read (env P) { ep.ctl with conn := { ep.ctl.conn with enc := ep.c.enc, ext := some (ep.c, ep.rx) } } src with
  | .crash => .crash
  | .stop _ _ => .crash
  | .fail (e, k) => if k.ext.isNone then .crash else .fail e
  | .ok s =>
    match s.conn.ext with
    | none => .crash
    | some (c, rx) =>
      .ok { ep with c := { c with enc := s.conn.enc, goawayRecved := s.conn.goawayRecved }, rx := rx,
                    ctl := { s with conn := { s.conn with ext := none } } }
        (.code n) ((s.conn.ev.drop ep.ctl.conn.ev.length).map .ctl)

/-- the loop of nghttp3_conn_read_qpack_encoder, nghttp3_conn.c:1151-1167; the first argument bounds the number of passes, `n`: what is
returned -/
def release (P : Par) (n : Nat) : Nat → Ep → Res
  | 0, _ => .crash
  | f + 1, ep =>
    match ep.bq.top with
    | none => .ok ep (.code n) []
    | some id =>
      if ep.dec.ctx.next < (ep.rx id).sc.ricnt then .ok ep (.code n) []
      else
        match ep.bq.pop (ricntLess ep.rx) with
        | none => .crash
        | some bq =>
          match Bidi.processBlocked (cfg P ep.c id) (room ep.c bq) { ep.rx id with blocked := false, priFixed := fixedPri ep.c id } ep.dec with
          | .crash => .crash
          | .fail e => .fail e
          | .ok s' d' ev _ _ =>
            lift (priorities ep.c id ev) fun c =>
            lift (Conn.qpackUnblock c id none s'.blocked) fun r =>
              let rx := PQ.upd ep.rx id s'
              (release P n f { ep with c := r.1, rx := rx, dec := d', bq := if s'.blocked then bq.push (ricntLess rx) id else bq }).after
                (ev.map (.str id))

/-- nghttp3_conn_read_qpack_encoder, nghttp3_conn.c:1139-1170 -/
def readQenc (P : Par) (ep : Ep) (src : Bytes) (n : Nat) : Res :=
  match ep.dec.readEncoder src with
  | .crash => .crash
  | .fail _ e => .fail (Bidi.qerr e)
  | .ok d => release P n (ep.bq.len + 1) { ep with dec := d }

/-- nghttp3_conn_read_qpack_decoder, nghttp3_conn.c:1172-1176; all errors of nghttp3_qpack_encoder_read_decoder are
NGHTTP3_ERR_QPACK_DECODER_STREAM_ERROR (nghttp3_qpack.c:2525-2610) -/
def readQdec (ep : Ep) (src : Bytes) (n : Nat) : Res :=
  match ep.c.enc.readDecoder src with
  | .crash => .crash
  | .fail => .fail Err.QPACK_DECODER_STREAM_ERROR
  | .ok e => .ok { ep with c := { ep.c with enc := e } } (.code n) []

/-- nghttp3_conn_read_uni, nghttp3_conn.c:543-622: the switch on the type of the stream; NGHTTP3_H3_STREAM_CREATION_ERROR is 0x0103 -/
def readUni (P : Par) (ep : Ep) (id : Nat) (src : Bytes) (fin : Bool) : Res :=
  lift (Conn.readUni ep.c id src fin) fun r =>
    let ep := { ep with c := r.1 }
    match r.2 with
    | .code e => if e = 0 then .ok ep (.code 0) [] else .fail e
    | .discard _ stop => .ok ep (.code src.length) (if stop then [.str id (.stopSending 0x0103)] else [])
    | .route none => .ok ep (.code src.length) []
    | .route (some (.control, x)) => readControl P ep x src.length
    | .route (some (.qenc, x)) => readQenc P ep x src.length
    | .route (some (.qdec, x)) => readQdec ep x src.length
    | .route (some (_, _)) => .crash
    | .vecs _ => .crash

/-- nghttp3_conn_read_stream, nghttp3_conn.c:382-482; NGHTTP3_H3_REQUEST_REJECTED is 0x010b (nghttp3_conn_reject_stream, l.2343-2352) -/
def read (P : Par) (ep : Ep) (id : Nat) (src : Bytes) (fin : Bool) : Res :=
  lift (Conn.openStream ep.c id (src.isEmpty && fin)) fun r =>
    match r.2 with
    | .code e =>
      if e ≠ 0 then .fail e
      else if (r.1.str id).isNone then .ok { ep with c := r.1 } (.code 0) []
      else
        let new := (ep.c.str id).isNone && Conn.clientBidi id
        let rej := new && Conn.rejects ep.c id
        let s := Bidi.Str.new (cfg P ep.c id)
        let ep := { ep with c := r.1, rx := if new then PQ.upd ep.rx id (if rej then { s with rst := .ignRest } else s) else ep.rx }
        Res.after (if rej then [.str id (.stopSending 0x010b), .str id (.resetStream 0x010b)] else []) <|
          if src.isEmpty && !fin then .ok ep (.code 0) []
          else if Conn.streamUni id then readUni P ep id src fin
          else readBidi P ep id src fin
    | _ => .crash

/-- nghttp3_conn_submit_request, nghttp3_conn.c:2191-2231: the receiving side of the new stream, with the request method (l.2216-2224) -/
def submitRequest (P : Par) (ep : Ep) (id : Nat) (nva : List Qpack.Nv) (dr : Bool) : Res :=
  lift (Conn.submitRequest ep.c id (id, nva) dr) fun r =>
    let s := Bidi.Str.new { cfg P ep.c id with req := nva.map fun nv => ⟨nv.name, nv.value⟩ }
    .ok { ep with c := r.1, rx := if (ep.c.str id).isNone && (r.1.str id).isSome then PQ.upd ep.rx id s else ep.rx } r.2 []

/-- nghttp3_conn_close_stream, nghttp3_conn.c:2431-2454: the receiving side of a request stream; only request streams have callbacks -/
def close (ep : Ep) (id : Nat) : Res :=
  lift (Conn.closeStream ep.c id) fun r =>
    if (ep.c.str id).isSome && Conn.clientBidi id then
      match Bidi.closeStream (ep.rx id) ep.dec with
      | .ok s d ev _ _ => .ok { ep with c := r.1, rx := PQ.upd ep.rx id s, dec := d } r.2 (ev.map (.str id))
      | .fail e => .fail e
      | .crash => .crash
    else .ok { ep with c := r.1 } r.2 []

/-- nghttp3_conn_shutdown_stream_read, nghttp3_conn.c:2456-2476; NGHTTP3_ERR_QPACK_FATAL if too much waits for the decoder stream -/
def shutRd (ep : Ep) (id : Nat) : Res :=
  lift (Conn.shutdownRead ep.c id) fun r =>
    if !Conn.clientBidi id then .ok { ep with c := r.1 } r.2 []
    else if (ep.c.str id).isSome && (ep.rx id).shutRd then .ok { ep with c := r.1 } r.2 []
    else
      match ep.dec.cancelStream id with
      | none => .fail Err.QPACK_FATAL
      | some d => .ok { ep with c := r.1, dec := d, rx := if (ep.c.str id).isSome then PQ.upd ep.rx id { ep.rx id with shutRd := true } else ep.rx } r.2 []

/-- nghttp3_conn_writev_stream gets as far as nghttp3_stream_write_qpack_decoder_stream, nghttp3_conn.c:1994-2014: the control stream
offers nothing, and the decoder stream is bound and not blocked -/
def flushes (c : CC) (k : Nat) : Bool :=
  decide (k ≠ 0) &&
    match Conn.critical encode c k c.ctrl R.ok with
    | .ok (c1, none) =>
      match c1.qdec with
      | none => false
      | some q =>
        match c1.str q with
        | none => false
        | some s => !Conn.isBlocked s
    | _ => false

/-- nghttp3_conn_writev_stream, nghttp3_conn.c:1986-2045, with nghttp3_qpack_decoder_write_decoder -/
def writev (ep : Ep) (k : Nat) (as : List Ans) : Res :=
  lift (Conn.writevStream encode ep.c k ep.dec.writeDecoder.2 as) fun r =>
    .ok { ep with c := r.1, dec := if flushes ep.c k then ep.dec.writeDecoder.1 else ep.dec } r.2 []

/-- what the application and its transport can call -/
inductive Call where
  | read (id : Nat) (src : Bytes) (fin : Bool)
  | bindControl (id : Nat)
  | bindQpack (e d : Nat)
  | submitRequest (id : Nat) (nva : List Qpack.Nv) (dr : Bool)
  | submitInfo (id : Nat) (nva : List Qpack.Nv)
  | submitResponse (id : Nat) (nva : List Qpack.Nv) (dr : Bool)
  | submitTrailers (id : Nat) (nva : List Qpack.Nv)
  | writev (k : Nat) (as : List Ans)
  | addWrite (id n : Nat)
  | addAck (id n : Nat)
  | updAck (id off : Nat)
  | block (id : Nat)
  | unblock (id : Nat)
  | shutWr (id : Nat)
  | resume (id : Nat)
  | shutRd (id : Nat)
  | close (id : Nat)
  | notice
  | shutdown
  | setServerPri (id : Nat) (pri : Http.Pri)
  | setClientPri (id : Nat) (v : Bytes)
  | setMaxClient (n : Nat)
  | setMaxConc (n : Nat)

/-- a call that only concerns the part modelled in Model/Conn.lean -/
def plain (ep : Ep) (o : Conn.Op Fld) : Res := lift (Conn.step encode ep.c o) fun r => .ok { ep with c := r.1 } r.2 []

def step (P : Par) (ep : Ep) : Call → Res
  | .read id src fin => read P ep id src fin
  | .bindControl id => plain ep (.bindControl id)
  | .bindQpack e d => plain ep (.bindQpack e d)
  | .submitRequest id nva dr => submitRequest P ep id nva dr
  | .submitInfo id nva => plain ep (.submitInfo id (id, nva))
  | .submitResponse id nva dr => plain ep (.submitResponse id (id, nva) dr)
  | .submitTrailers id nva => plain ep (.submitTrailers id (id, nva))
  | .writev k as => writev ep k as
  | .addWrite id n => plain ep (.addWrite id n)
  | .addAck id n => plain ep (.addAck id n)
  | .updAck id off => plain ep (.updAck id off)
  | .block id => plain ep (.block id)
  | .unblock id => plain ep (.unblock id)
  | .shutWr id => plain ep (.shutWr id)
  | .resume id => plain ep (.resume id)
  | .shutRd id => shutRd ep id
  | .close id => close ep id
  | .notice => plain ep .notice
  | .shutdown => plain ep .shutdown
  | .setServerPri id pri => plain ep (.setServerPri id pri)
  | .setClientPri id v => plain ep (.setClientPri id v)
  | .setMaxClient n => plain ep (.setMaxClient n)
  /- nghttp3_conn_set_max_concurrent_streams, nghttp3_conn.c:2499-2503 -/
  | .setMaxConc n => .ok { ep with dec := ep.dec.setMaxConc n } (.code 0) []

end Endpoint
end Nghttp3
