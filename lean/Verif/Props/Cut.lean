import Verif.Lemmas.EndpointCut
import Verif.Props.Endpoint
/-! C61 (the cut of a request stream into packets does not matter to a whole connection). -/
namespace Nghttp3
namespace Props
open Endpoint

/-- C61.  At any time in the life of a connection, with any other streams open or waiting: giving the bytes `x ++ y` of a request stream in one
call of nghttp3_conn_read_stream or in two makes no difference to anything that the application, the transport or the peer can see, neither in
these calls nor in any calls `ops` that follow - the callbacks for all streams, the bytes offered for sending, the results of the calls, the
flow-control credit, and the connection error if there is one. -/
theorem C61_two_calls {P : Par} (hP : ParOk P) {server : Bool} {st : Settings} (hst : SettingsOk st) {log : Log} {ep : Ep} (h : Hist P server st log ep)
    {id : Nat} (hb : Conn.clientBidi id = true) (hid : id < 2 ^ 62) (x y : Bytes) (fin : Bool) (ops : List Call)
    (hp : AllPermitted P ep (.read id (x ++ y) fin :: ops)) :
    SameOutcome (play P ep (.read id (x ++ y) fin :: ops)) (play P ep (.read id x false :: .read id y fin :: ops)) :=
  (play_cut hP (hist_einv hP hst h) hb hid x y fin ops hp).2

/-- C61.  The same for any number of calls, some of them possibly with no bytes. -/
theorem C61_any_cut {P : Par} (hP : ParOk P) {server : Bool} {st : Settings} (hst : SettingsOk st) {log : Log} {ep : Ep} (h : Hist P server st log ep)
    {id : Nat} (hb : Conn.clientBidi id = true) (hid : id < 2 ^ 62) (xs : List Bytes) (last : Bytes) (fin : Bool) (ops : List Call)
    (hp : AllPermitted P ep (.read id (xs.flatten ++ last) fin :: ops)) :
    SameOutcome (play P ep (.read id (xs.flatten ++ last) fin :: ops)) (play P ep (pieces id xs last fin ++ ops)) :=
  play_pieces hP xs (hist_einv hP hst h) hb hid last fin ops hp

/-- C61.  The calls that follow are permitted after the pieces as well. -/
theorem C61_permitted {P : Par} (hP : ParOk P) {server : Bool} {st : Settings} (hst : SettingsOk st) {log : Log} {ep : Ep} (h : Hist P server st log ep)
    {id : Nat} (hb : Conn.clientBidi id = true) (hid : id < 2 ^ 62) (x y : Bytes) (fin : Bool) (ops : List Call)
    (hp : AllPermitted P ep (.read id (x ++ y) fin :: ops)) : AllPermitted P ep (.read id x false :: .read id y fin :: ops) :=
  (play_cut hP (hist_einv hP hst h) hb hid x y fin ops hp).1

/-! ### A concrete case -/

open EpDemo

theorem EpDemo.makeCalls_permitted {P : Par} (t : List Call) {ep ep' : Ep} {l' : Log} (e : makeCalls P t ep = some (ep', l')) :
    AllPermitted P ep t ∧ play P ep t = .ok ep' l' := by
  induction t generalizing ep l' with
  | nil => cases e; exact ⟨trivial, rfl⟩
  | cons o t ih =>
    unfold makeCalls at e
    split_ifs at e with ha
    unfold AllPermitted play
    rcases hs : step P ep o with _ | _ | ⟨ep1, r, ev⟩ <;> rw [hs] at e
    · cases e
    · cases e
    dsimp only at e
    rcases hm : makeCalls P t ep1 with _ | ⟨ep2, l2⟩ <;> rw [hm] at e
    · cases e
    cases e
    obtain ⟨i1, i2⟩ := ih hm
    exact ⟨⟨allowedB_ok ha, fun _ _ _ g => by cases g; exact i1⟩, by dsimp only; rw [i2]; rfl⟩

/-- what is seen of a sequence of calls, and how many bytes are offered for sending -/
def EpDemo.summary : Outcome → Option (List Seen × Int × Nat)
  | .ok _ l => some (l.seen, l.credit 0, (l.answers.map fun r => match r with | .vecs (some (_, _, v)) => v.flatten.length | _ => 0).sum)
  | _ => none

set_option maxRecDepth 100000 in
/-- the request is cut within the field section, and the table entry it needs arrives later: the application sees the same as if the
request had come in one piece, namely four fields, and all bytes of the request are credited -/
theorem C61_example : let later : List Call := [.read 2 inserts false, .submitResponse 0 [{ name := [58, 115, 116, 97, 116, 117, 115], value := [50, 48, 48] }] false, .writev 8 [], .writev 8 []]
    summary (play anyPar (init true someSettings) ([.bindControl 3, .bindQpack 7 11, .read 0 request true] ++ later)) =
    summary (play anyPar (init true someSettings) ([.bindControl 3, .bindQpack 7 11] ++ pieces 0 [request.take 1, [], (request.drop 1).take 5] (request.drop 6) true ++ later)) ∧
    (summary (play anyPar (init true someSettings) ([.bindControl 3, .bindQpack 7 11, .read 0 request true] ++ later))).map (fun r => (r.1.length, r.2.1, decide (r.2.2 ≠ 0))) =
      some (7, 8, true) := by
  constructor <;> decide +kernel

set_option maxRecDepth 100000 in
/-- the hypotheses of C61 are met in a non-trivial case: a history, and permitted calls after it -/
theorem C61_reachable : ParOk anyPar ∧ SettingsOk someSettings ∧ ∃ log ep, Hist anyPar true someSettings log ep ∧
    AllPermitted anyPar ep (.read 0 (request.take 6 ++ request.drop 6) true :: [.read 2 inserts false]) := by
  refine ⟨anyPar_ok, someSettings_ok, ?_⟩
  have h0 : (makeCalls anyPar ([.bindControl 3, .bindQpack 7 11] : List Call) (init true someSettings)).isSome = true := by decide +kernel
  obtain ⟨⟨ep, l⟩, h⟩ := Option.isSome_iff_exists.1 h0
  refine ⟨[] ++ l, ep, makeCalls_hist _ .init h, ?_⟩
  have h1 : ((makeCalls anyPar ([.bindControl 3, .bindQpack 7 11] : List Call) (init true someSettings)).bind fun r =>
      makeCalls anyPar [.read 0 (request.take 6 ++ request.drop 6) true, .read 2 inserts false] r.1).isSome = true := by decide +kernel
  rw [h] at h1
  obtain ⟨⟨ep', l'⟩, h2⟩ := Option.isSome_iff_exists.1 h1
  exact (makeCalls_permitted _ h2).1

def EpDemo.failure : Outcome → Option Int
  | .fail e => some e
  | _ => none

/-- the QPACK encoder stream of a peer that does not keep to the protocol: capacity 50, and two entries, the second of which evicts the first -/
def EpDemo.evicts : Bytes := [2, 0x3f, 0x13, 0xc0, 1, 0x61]
def EpDemo.evicts2 : Bytes := [0xc0, 1, 0x62]

set_option maxRecDepth 100000 in
/-- C61 does not extend to the QPACK encoder stream: a stream that waits is released at the end of a call, so the peer can make a connection
error depend on the cut, by evicting the entry that the stream waits for -/
theorem C61_encoder_stream_differs :
    failure (play anyPar (init true someSettings) (early ++ [.read 2 (evicts ++ evicts2) false])) = some Err.QPACK_DECOMPRESSION_FAILED ∧
    failure (play anyPar (init true someSettings) (early ++ [.read 2 evicts false, .read 2 evicts2 false])) = none ∧
    (summary (play anyPar (init true someSettings) (early ++ [.read 2 evicts false, .read 2 evicts2 false]))).map (fun r => r.1.length) = some 7 := by
  refine ⟨?_, ?_, ?_⟩ <;> decide +kernel

end Props
end Nghttp3
