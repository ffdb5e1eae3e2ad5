import Verif.Spec.Frame
import Verif.Spec.Life
/-! How many bytes of the payload of the frame in progress are still to come: a description in terms of the bytes of the stream
(RFC 9114 section 7.1), not using any function of the model. -/
namespace Spec

/-- `bs`, the beginning of a stream of frames, ends inside a frame whose payload lacks `n` more bytes; `n = 0` if it does not end inside a payload -/
inductive PayloadLeft : List UInt8 → Nat → Prop
  /-- no complete frame header is there -/
  | header (bs : List UInt8) (h : ∀ ty len t l rest, IsVarint ty t → IsVarint len l → bs ≠ t ++ l ++ rest) : PayloadLeft bs 0
  /-- a frame header, and part of the payload -/
  | inside (ty len : Nat) (t l part : List UInt8) : IsVarint ty t → IsVarint len l → part.length < len → PayloadLeft (t ++ l ++ part) (len - part.length)
  /-- a complete frame, and more -/
  | after (ty : Nat) (payload f rest : List UInt8) (n : Nat) : IsFrame ty payload f → PayloadLeft rest n → PayloadLeft (f ++ rest) n

end Spec

namespace Nghttp3
namespace Endpoint

/-- all bytes of stream `x`, in one piece -/
def Log.bytes (l : Log) (x : Nat) : Bytes := (l.pieces x).flatMap fun p => p.1

end Endpoint
end Nghttp3
