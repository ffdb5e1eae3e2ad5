import Verif.Spec.Endpoint
import Verif.Spec.Bidi
/-! What an application, its transport and the peer can see of a sequence of calls on a connection, however the bytes of the request streams
were cut into calls of nghttp3_conn_read_stream. -/
namespace Nghttp3
namespace Endpoint

/-- an observation: a callback for a request stream (body bytes one by one, see Spec/Bidi.lean) or for the control stream -/
inductive Seen where
  | str (id : Nat) (o : Bidi.Obs)
  | ctl (e : Control.Ev)
deriving DecidableEq, Repr

def Ev.seen : Ev → List Seen
  | .str id e => e.obs.map (.str id)
  | .ctl e => [.ctl e]

/-- the bytes of stream `id` that a callback reports through deferred_consume -/
def Ev.deferredTo (id : Nat) : Ev → Nat
  | .str i e => if i = id then e.deferredLen else 0
  | .ctl _ => 0

/-- all callbacks, in order -/
def Log.seen (l : Log) : List Seen := l.flatMap fun x => x.2.2.flatMap Ev.seen

/-- what nghttp3_conn_read_stream returned for stream `id` -/
def returned (id : Nat) : Call × Conn.Ret × List Ev → Int
  | (.read i _ _, .code n, _) => if i = id then n else 0
  | _ => 0

/-- the flow-control credit for stream `id`: returned by nghttp3_conn_read_stream, or reported through deferred_consume -/
def Log.credit (l : Log) (id : Nat) : Int := (l.map fun x => returned id x + ((x.2.2.map (Ev.deferredTo id)).sum : Nat)).sum

/-- the results of all other calls, in order; among them everything nghttp3_conn_writev_stream offers to the transport -/
def Log.answers (l : Log) : List Conn.Ret :=
  l.filterMap fun x =>
    match x.1 with
    | .read _ _ _ => none
    | _ => some x.2.1

/-- a sequence of calls: a failed assertion, an error that ends the connection, or all calls are made -/
inductive Outcome where
  | crash
  | fail (e : Int)
  | ok (ep : Ep) (log : Log)

def Outcome.cons (x : Call × Conn.Ret × List Ev) : Outcome → Outcome
  | .ok ep l => .ok ep (x :: l)
  | o => o

def play (P : Par) : Ep → List Call → Outcome
  | ep, [] => .ok ep []
  | ep, o :: t =>
    match step P ep o with
    | .crash => .crash
    | .fail e => .fail e
    | .ok ep' r ev => (play P ep' t).cons (o, r, ev)

/-- each call is permitted when its turn comes -/
def AllPermitted (P : Par) : Ep → List Call → Prop
  | _, [] => True
  | ep, o :: t => Permitted ep o ∧ ∀ ep' r ev, step P ep o = .ok ep' r ev → AllPermitted P ep' t

/-- nobody can tell the two outcomes apart: the same connection error; or the same callbacks in the same order, the same results of all calls
other than nghttp3_conn_read_stream, and the same flow-control credit for each stream -/
def SameOutcome : Outcome → Outcome → Prop
  | .crash, .crash => True
  | .fail e, .fail e' => e = e'
  | .ok _ l, .ok _ l' => l.seen = l'.seen ∧ l.answers = l'.answers ∧ ∀ id, l.credit id = l'.credit id
  | _, _ => False

/-- the same bytes given in several calls; only the last call carries `fin` -/
def pieces (id : Nat) (xs : List Bytes) (last : Bytes) (fin : Bool) : List Call := xs.map (fun x => .read id x false) ++ [.read id last fin]

end Endpoint
end Nghttp3
