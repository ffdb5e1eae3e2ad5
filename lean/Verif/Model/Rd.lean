import Verif.Model.Conv
/-! The way the frame readers of lib/nghttp3_conn.c call `nghttp3_read_varint`. -/
namespace Nghttp3

/-- what a reader can see after one call of `nghttp3_read_varint`: a failed assertion; an error; the integer is still
incomplete (`rvint->left` nonzero), all input is consumed; the integer is complete and `n` bytes were consumed. -/
inductive Rd where
  | crash
  | err
  | part (rv : RVInt)
  | done (v n : Nat)
deriving DecidableEq, Repr

/-- `nread = nghttp3_read_varint(rvint, p, end, fin); if (nread < 0) ...; p += nread; if (rvint->left) return ...;`
(nghttp3_conn.c:649-659 and the other calls) -/
def rd (rv : RVInt) (src : List UInt8) (fin : Bool) : Rd :=
  match readVarint rv src fin with
  | .abort => .crash
  | .err => .err
  | .read n st => if st.left = 0 then .done st.acc n else .part st

/-- the same inside a frame with `left` payload bytes missing: `len = min(left, end - p)`,
`nghttp3_read_varint(rvint, p, p + len, frame_fin(rstate, len))` (nghttp3_conn.c:624-626, 762-765) -/
def rdl (rv : RVInt) (left : Nat) (src : List UInt8) : Rd := rd rv (src.take left) (decide (left ≤ (src.take left).length))

end Nghttp3
