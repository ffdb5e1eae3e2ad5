import Verif.Model.QpackDec
/-! A QPACK decoder and the streams that use it. -/
namespace Nghttp3
namespace Qpack

/-- calls an application (or nghttp3_conn) makes on a decoder: bytes of the encoder stream, one call of
nghttp3_qpack_decoder_read_request on a stream, starting a new field section on a stream, cancelling a stream,
taking the decoder-stream output, raising the concurrency limit. -/
inductive DOp where
  | enc (bytes : Bytes)
  | req (stream : Nat) (bytes : Bytes) (fin : Bool)
  | new (stream : Nat)
  | cancel (stream : Nat)
  | write
  | conc (n : Nat)

/-- a decoder and the stream contexts of all streams -/
structure DSys where
  d : Dec
  sc : Nat → SCtx

def DSys.init (hardMax maxBlocked : Nat) : DSys := ⟨Dec.init hardMax maxBlocked, SCtx.init⟩

def DSys.set (st : DSys) (id : Nat) (d : Dec) (s : SCtx) : DSys := ⟨d, fun i => if i = id then s else st.sc i⟩

/-- `none`: a failed assertion or an access outside a table or buffer -/
def DSys.step (st : DSys) : DOp → Option DSys
  | .enc bs =>
    match st.d.readEncoder bs with
    | .crash => none
    | .fail d _ => some { st with d := d }
    | .ok d => some { st with d := d }
  | .req id bs fin =>
    match st.d.readRequest (st.sc id) bs fin with
    | .crash => none
    | .fail d _ => some { st with d := d }
    | .more d s | .final d s | .emit d s _ _ | .blocked d s _ => some (st.set id d s)
  | .new id => some (st.set id st.d (SCtx.init id))
  | .cancel id =>
    match st.d.cancelStream id with
    | none => some st
    | some d => some { st with d := d }
  | .write => some { st with d := st.d.writeDecoder.1 }
  | .conc n => some { st with d := st.d.setMaxConc n }

def DSys.run (st : DSys) : List DOp → Option DSys
  | [] => some st
  | o :: t => (st.step o).bind (·.run t)

end Qpack
end Nghttp3
