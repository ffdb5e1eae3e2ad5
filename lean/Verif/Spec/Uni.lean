import Verif.Model.Conn
/-! Vocabulary for unidirectional streams of the peer. -/
namespace Nghttp3
namespace Conn
open Outq (R Bytes)

variable {E F : Type}

/-- the stream was accepted as a stream of the type -/
def IsUni (c : Conn E F) (t : Ty) (x : Nat) : Prop := ∃ s, c.str x = some s ∧ s.ident = true ∧ s.ty = t

/-- RFC 9114, section 6.2 and RFC 9204, section 4.2: the types of which there is at most one stream -/
def uniType : Nat → Option Ty
  | 0 => some .control
  | 2 => some .qenc
  | 3 => some .qdec
  | _ => none

/-- the call returned an error -/
def failed : Ret → Bool
  | .code e => e != 0
  | _ => false

/-- the bytes of the stream arrive in pieces, until there is an error; the result of each call -/
def feed (c : Conn E F) (id : Nat) : List Bytes → R (Conn E F × List Ret)
  | [] => .ok (c, [])
  | x :: t => (readUni c id x false).bind fun p =>
      if failed p.2 then .ok (p.1, [p.2]) else (feed p.1 id t).bind fun q => .ok (q.1, p.2 :: q.2)

/-- the bytes that were passed to the reader for a type -/
def given : List Ret → List (Ty × Bytes)
  | [] => []
  | .route (some p) :: t => p :: given t
  | _ :: t => given t

/-- the number of bytes that were thrown away -/
def thrown : List Ret → Nat
  | [] => 0
  | .discard n _ :: t => n + thrown t
  | _ :: t => thrown t

end Conn
end Nghttp3
