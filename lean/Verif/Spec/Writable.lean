import Verif.Spec.Conn
/-! Specification: what makes a stream unwritable, read off the history of the calls. -/
namespace Nghttp3
namespace Spec
open Conn

variable {F : Type}

/-- the last of nghttp3_conn_block_stream and nghttp3_conn_unblock_stream for the stream was the former (`b`: before the history) -/
def flowBlocked (x : Nat) : Bool → List (Op F) → Bool
  | b, [] => b
  | b, .block y :: t => flowBlocked x (if y = x then true else b) t
  | b, .unblock y :: t => flowBlocked x (if y = x then false else b) t
  | b, _ :: t => flowBlocked x b t

/-- nghttp3_conn_shutdown_stream_write was called for the stream -/
def writeShut (x : Nat) (l : List (Op F)) : Bool := l.any fun o => match o with | .shutWr y => y == x | _ => false

/-- nghttp3_conn_close_stream was called for the stream -/
def closeCalled (x : Nat) (l : List (Op F)) : Bool := l.any fun o => match o with | .close y => y == x | _ => false

/-- the call is nghttp3_conn_resume_stream for the stream -/
def isResume (x : Nat) : Op F → Bool
  | .resume y => y == x
  | _ => false

/-- the call is nghttp3_conn_writev_stream, which may ask read_data for data -/
def isWritev : Op F → Bool
  | .writev _ _ _ => true
  | _ => false

/-- nghttp3_conn_writev_stream was called after the last nghttp3_conn_resume_stream for the stream -/
def askedSinceResume (x : Nat) : Bool → List (Op F) → Bool
  | b, [] => b
  | b, o :: t => askedSinceResume x (if isResume x o then false else b || isWritev o) t

end Spec
end Nghttp3
