import Verif.Model.Endpoint
namespace Nghttp3
namespace Endpoint

/-- conn_remote_stream_uni, nghttp3_conn.c:48-53 -/
def remoteUni (ep : Ep) (id : Nat) : Bool := if ep.c.server then Conn.clientUni id else Conn.serverUni id

/-- nghttp3_conn_get_frame_payload_left, nghttp3_conn.c:2518-2543.  `rstate` of a request stream is in `ep.rx`, that of the control stream
of the peer is in `ep.ctl`; a unidirectional stream whose type has not been read yet has type 0 (that is CONTROL) and `rstate.left` 0 from the
memset of nghttp3_stream_new (nghttp3_stream.c:60), and nghttp3_conn_read_uni does not write `rstate.left` before the type is known. -/
def framePayloadLeft (ep : Ep) (id : Nat) : Nat :=
  if Conn.clientBidi id then
    match ep.c.str id with
    | none => 0
    | some _ => (ep.rx id).left
  else if remoteUni ep id then
    match ep.c.str id with
    | none => 0
    | some s => if s.ty = .control then if s.ident then ep.ctl.left else 0 else 0
  else 0

end Endpoint
end Nghttp3
