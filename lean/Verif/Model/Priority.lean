import Verif.Model.Http
/-! Model of the evaluation of a priority field value, lib/nghttp3_http.c.

The parser of structured fields, sfparse, is a separate project and is not in the repository (lib/sfparse is an empty submodule).  Its
results are a parameter: the members that sfparse_parser_dict returns one after another, and whether it ends with SFPARSE_ERR_EOF or with
another error. -/
namespace Nghttp3
namespace Http

/-- sfparse_value, as far as nghttp3_http_parse_priority looks at it -/
inductive SfVal where
  | boolean (b : Bool)
  | integer (n : Int)
  | other
deriving DecidableEq, Repr

/-- the loop of nghttp3_http_parse_priority, nghttp3_http.c:134-168; `eof`: the last result is SFPARSE_ERR_EOF.  `none`:
NGHTTP3_ERR_INVALID_ARGUMENT, and `*dest` is not written. -/
def priorityLoop (pri : Pri) (eof : Bool) : List (List UInt8 × SfVal) → Option Pri
  | [] => if eof then some pri else none
  | (key, val) :: t =>
    if key.length ≠ 1 then priorityLoop pri eof t
    else if key[0]! = 0x69 then
      match val with
      | .boolean b => priorityLoop { pri with inc := b } eof t
      | _ => none
    else if key[0]! = 0x75 then
      match val with
      | .integer n => if n < 0 ∨ 7 < n then none else priorityLoop { pri with urgency := n.toNat } eof t
      | _ => none
    else priorityLoop pri eof t

/-- nghttp3_http_parse_priority, nghttp3_http.c:124-173, and nghttp3_pri_parse_priority_versioned, l.175-181: the return code and `*dest` -/
def parsePriority (sf : List UInt8 → List (List UInt8 × SfVal) × Bool) (dest : Pri) (value : List UInt8) : Int × Pri :=
  match priorityLoop dest (sf value).2 (sf value).1 with
  | none => (-101, dest)
  | some p => (0, p)

end Http
end Nghttp3
