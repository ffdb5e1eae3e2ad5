import Verif.Spec.Endpoint
import Verif.Spec.QpackInt
/-! What a QPACK decoder tells the peer (RFC 9204, section 4.4), and what of it can be seen in the calls of a connection. -/
namespace Nghttp3
namespace Feedback

abbrev Bytes := List UInt8

/-- a decoder instruction; an acknowledgment is here together with the Required Insert Count of the field section it is for -/
inductive Said where
  | ack (id ricnt : Nat)
  | cancel (id : Nat)
  | increment (n : Nat)
deriving DecidableEq

/-- the bytes of an instruction: the bits above the prefix, and the integer.  RFC 9204, sections 4.4.1-4.4.3 -/
def Said.Is : Said → Bytes → Prop
  | .ack id _, b => (∃ c t, b = c :: t ∧ c.toNat / 2 ^ 7 = 1) ∧ Spec.QInt.Encodes 7 b id
  | .cancel id, b => (∃ c t, b = c :: t ∧ c.toNat / 2 ^ 6 = 1) ∧ Spec.QInt.Encodes 6 b id
  | .increment n, b => (∃ c t, b = c :: t ∧ c.toNat / 2 ^ 6 = 0) ∧ Spec.QInt.Encodes 6 b n

/-- one instruction after the other -/
def AreSaid : List Said → Bytes → Prop
  | [], b => b = []
  | i :: l, b => ∃ x y, b = x ++ y ∧ i.Is x ∧ AreSaid l y

/-- the Known Received Count of an encoder that gets an instruction, RFC 9204, section 2.1.4 -/
def learn (k : Nat) : Said → Nat
  | .ack _ r => max k r
  | .cancel _ => k
  | .increment n => k + n

/-- the Known Received Count after all instructions -/
def known (l : List Said) : Nat := l.foldl learn 0

/-- what RFC 9204 demands of instructions, when the peer has inserted `inserted` entries so far: a section is acknowledged only if it refers to
the dynamic table and only to entries that are there; an Insert Count Increment is not 0 and does not go beyond the entries that are there -/
def Fair (inserted k : Nat) : Said → Prop
  | .ack _ r => r ≠ 0 ∧ r ≤ inserted
  | .cancel _ => True
  | .increment n => n ≠ 0 ∧ k + n ≤ inserted

/-- every instruction is fair -/
def AllFair (inserted : Nat) : Nat → List Said → Prop
  | _, [] => True
  | k, i :: t => Fair inserted k i ∧ AllFair inserted (learn k i) t

/-- the cancelled streams, in order -/
def cancelled (l : List Said) : List Nat := l.filterMap fun | .cancel id => some id | _ => none

/-- the acknowledged sections, in order: stream and Required Insert Count -/
def acks (l : List Said) : List (Nat × Nat) := l.filterMap fun | .ack id r => some (id, r) | _ => none

/-- the sections of a stream -/
def ofStr (done : List (Nat × Nat)) (id : Nat) : List (Nat × Nat) := done.filter fun p => p.1 == id

end Feedback

namespace Endpoint
open Conn (clientBidi)

/-- the streams for which a call of nghttp3_conn_shutdown_stream_read was successful, in order; the call does nothing for streams that are not
request streams -/
def Log.shut (l : Log) : List Nat :=
  l.filterMap fun x => match x.1 with | .shutRd id => if clientBidi id then some id else none | _ => none

/-- the end of a field section was reported to the application: end_headers, end_trailers -/
def sectionEnds : Bidi.Ev → Bool
  | .endHeaders _ => true
  | .endTrailers _ => true
  | _ => false

/-- the stream was given up because of a field section -/
def sectionBad : Bidi.Ev → Bool
  | .resetStream n => n == 0x010e
  | _ => false

/-- such an event on the stream -/
def onStr (f : Bidi.Ev → Bool) (id : Nat) : Ev → Bool
  | .str i e => i == id && f e
  | _ => false

/-- the number of such events on the stream -/
def Log.count (f : Bidi.Ev → Bool) (l : Log) (id : Nat) : Nat := ((l.flatMap fun x => x.2.2).filter (onStr f id)).length

end Endpoint
end Nghttp3
