import Verif.Spec.Life
/-! What has arrived of a stream, and what it means without the dynamic table. -/
namespace Nghttp3

namespace Bidi

/-- what the peer is told of the stream -/
def WOut.signals : WOut → List Obs
  | .reset => [.stopSending 0x010e, .resetStream 0x010e]
  | _ => []

/-- no connection error, and the QPACK encoder stream is not waited for -/
def WOut.Fine : WOut → Prop
  | .open _ _ | .reset => True
  | _ => False

end Bidi

namespace Endpoint

/-- the decoder that has no dynamic table -/
def blank : Qpack.Dec := Qpack.Dec.init 0 0

/-- the bytes of the pieces, one after the other -/
def flat (g : List (Bytes × Bool)) : Bytes := (g.map Prod.fst).flatten

/-- the pieces are the beginning of the stream `X`, which ends after `X` if `fin`: fin comes with the last piece only, when all of `X` is there -/
def Arrives (g : List (Bytes × Bool)) (X : Bytes) (fin : Bool) : Prop :=
  ((∀ p ∈ g, p.2 = false) ∧ flat g <+: X) ∨
  (fin = true ∧ flat g = X ∧ ∃ (g' : List (Bytes × Bool)) (last : Bytes), g = g' ++ [(last, true)] ∧ ∀ p ∈ g', p.2 = false)

/-- all of the stream has arrived -/
def AllThere (g : List (Bytes × Bool)) (X : Bytes) (fin : Bool) : Prop := flat g = X ∧ (fin = true → ∃ p ∈ g, p.2 = true)

/-- the application neither shuts the stream down for reading nor (successfully) closes it -/
def Undisturbed (l : Log) (x : Nat) : Prop := (∀ r ev, (Call.shutRd x, r, ev) ∉ l) ∧ Bidi.Ev.streamClose ∉ l.events x

/-- the request that the message on stream `x` answers: for a server there is none; for a client the fields given to nghttp3_conn_submit_request -/
def Answers (server : Bool) (l : Log) (x : Nat) (req : List Http.Field) : Prop :=
  (server = true → req = []) ∧
  (server = false → ∀ nva dr r ev, (Call.submitRequest x nva dr, r, ev) ∈ l → req = nva.map fun nv => ⟨nv.name, nv.value⟩)

/-- a server that has sent GOAWAY has refused the stream: nothing of it is handed over -/
def Refused (server : Bool) (l : Log) (x : Nat) : Prop :=
  server = true ∧ (∃ o r ev, (o, r, ev) ∈ l ∧ (o = .notice ∨ o = .shutdown)) ∧ Bidi.Shows (l.events x) [] [] [.stopSending 0x010b, .resetStream 0x010b]

end Endpoint
end Nghttp3
