import Verif.Lemmas.ConnSent5
import Verif.Props.Sched
/-! Property theorem C56: what each stream of a connection carries, over all histories of API calls on the whole connection. -/
namespace Nghttp3
namespace Props
open Conn
open Outq (R Frent Ans Bytes St Emit FrentOk AnsOk EncodeOk itemsBytes written endsIn dataAnswers Marked)
open Sent (Book Ledger Made Serve Chain Serves subm closes enter note Permits Run servedSince Tallies)

variable {E F : Type} {c c' : Conn E F} {encode : Encode E F} {peer : E → E → Prop}

/-- the answers of read_data of which the items are made -/
def answersOf (items : List Emit) : List Ans :=
  items.filterMap fun | .data v eof noEnd => some (.vecs v eof noEnd) | _ => none

/-- What is known of the stream `x`: the `items` it carries make the bytes `m`, of which the transport has taken a first part and was offered
the next; no more is acknowledged than was taken.  On a request stream the items serve, in order and each once, the frames submitted by the
application, the field sections and bodies being those made for this stream; `rest` are those still to be served.  The control stream carries
its type and then the control frames; the encoder stream its type and the encoder's bytes for every field section encoded on the connection;
the decoder stream its type and the decoder's bytes; nothing is written to any other unidirectional stream. -/
structure Account (l : Ledger F) (c : Conn E F) (log : List (Serve F)) (x : Nat) (items : List Emit) (rest : List (Frent F)) (m : Marked) : Prop where
  wire : Carries items m
  bytes : (l.at x).taken ++ (l.at x).offered <+: m.map Prod.fst
  acked : (l.at x).acked ≤ (l.at x).taken.length
  request : streamUni x = false → Serves (l.at x).submitted ((servedSince log (l.at x).born x).flatMap Serve.made) items rest ∧
    answersOf items = (servedSince log (l.at x).born x).flatMap Serve.used
  control : c.ctrl = some x → ∃ t, items = .streamType 0 :: t ∧ Serves (l.at x).submitted [] t rest
  encoder : c.qenc = some x → items = .streamType 2 :: (log.flatMap Serve.made).map (fun k => .raw k.enc) ∧ rest = []
  decoder : c.qdec = some x → ∃ bs : List Bytes, items = .streamType 3 :: bs.map .raw ∧ bs.flatten = log.flatMap Serve.dec ∧ rest = []
  other : streamUni x = true → c.ctrl ≠ some x → c.qenc ≠ some x → c.qdec ≠ some x → items = [] ∧ rest = []

theorem answersOf_eq (items : List Emit) : answersOf items = dataAnswers items := by
  induction items with
  | nil => rfl
  | cons i t ih => cases i <;> simp only [answersOf, List.filterMap_cons, dataAnswers] at * <;> simp [ih]

theorem account_of {l : Ledger F} {log : List (Serve F)} {x : Nat} {s : Strm F} {items : List Emit}
    (h : SInv c.ctrl c.qenc c.qdec (l.at x) ((servedSince log (l.at x).born x).flatMap Serve.made) ((servedSince log (l.at x).born x).flatMap Serve.used)
      (log.flatMap Serve.made) (log.flatMap Serve.dec) x s.out items) : Account l c log x items s.out.frq (itemsBytes items) := by
  refine ⟨carries_items _ h.ok, h.pre, ?_, ?_, h.ctl, h.enc, h.dec, h.oth⟩
  · rw [h.ack, h.len]; exact h.inv.ack1
  · rw [answersOf_eq]; exact h.req

/-- C56.  For any QPACK encoder, which what arrives from the peer may change in between in any way (`peer`), any settings that fit, and any history of calls on a connection that keeps to the documentation, whatever the
answers of read_data, the bytes the QPACK decoder had to send, the schedule and the partial writes: there is a log of what each call of
nghttp3_conn_writev_stream used, such that the field sections were encoded one after the other, and every stream carries what `Account` says. -/
theorem C56_sent (henc : EncodeOk encode) {server : Bool} {st : Settings} {e0 : E}
    (h1 : st.maxFieldSectionSize < 2 ^ 62) (h2 : st.qpackMaxDtableCapacity < 2 ^ 62) (h3 : st.qpackBlockedStreams < 2 ^ 62)
    {l : Ledger F} (h : Run encode peer (init server st e0) l c) :
    ∃ log, Tallies log l.asks ∧ Chain encode peer e0 (log.flatMap Serve.made) c.enc ∧
      ∀ x, (c.str x).isSome → ∃ items rest m, Account l c log x items rest m := by
  obtain ⟨log, g⟩ := run_rinv henc (st := st) ⟨h1, h2, h3⟩ h
  refine ⟨log, g.tal, g.chain, fun x hx => ?_⟩
  obtain ⟨s, hs⟩ := Option.isSome_iff_exists.1 hx
  obtain ⟨items, hi⟩ := g.all x s hs
  exact ⟨items, _, _, account_of hi⟩

/-- C56 (what is offered).  If, after such a history, a call of nghttp3_conn_writev_stream returns vectors for the stream `x`: they are at most
as many as there is room for, and none is empty; they come right after the bytes taken (`bytes` of the account, for the ledger with this call
noted); there are some if any bytes are left; fin is set only if all submitted frames are served, the application has announced the end, and
the vectors complete the stream. -/
theorem C56_offered (henc : EncodeOk encode) {server : Bool} {st : Settings} {e0 : E}
    (h1 : st.maxFieldSectionSize < 2 ^ 62) (h2 : st.qpackMaxDtableCapacity < 2 ^ 62) (h3 : st.qpackBlockedStreams < 2 ^ 62)
    {l : Ledger F} (h : Run encode peer (init server st e0) l c) {k : Nat} {db : Bytes} {as : List Ans} (hp : Permits l c (.writev k db as))
    {x : Nat} {fin : Bool} {vs : List Bytes} (e : step encode c (.writev k db as) = .ok (c', .vecs (some (x, fin, vs)))) :
    ∃ log l', l' = note l c (.writev k db as) (.vecs (some (x, fin, vs))) ∧ (l'.at x).offered = vs.flatten ∧
      Tallies log l'.asks ∧ Chain encode peer e0 (log.flatMap Serve.made) c'.enc ∧
      ∃ items rest m, Account l' c' log x items rest m ∧ vs.length ≤ k ∧ (∀ v ∈ vs, v ≠ []) ∧
        ((l'.at x).taken.length < m.length → vs ≠ []) ∧
        (fin = true → rest = [] ∧ ((l'.at x).closed = true ∨ endsIn items = true) ∧ (l'.at x).taken ++ vs.flatten = m.map Prod.fst) := by
  obtain ⟨log0, g0⟩ := run_rinv henc (st := st) ⟨h1, h2, h3⟩ h
  obtain ⟨sv, g, _⟩ := rinv_writev henc g0 hp e
  have e' : writevStream encode c k db as = .ok (c', .vecs (some (x, fin, vs))) := e
  obtain ⟨-, rr, hrr, hoff⟩ := writevStream_all henc g0.inv g0.all hp.2 e'
  obtain rfl := Ret.vecs.inj hrr
  obtain ⟨s, k1, k2⟩ := hoff _ _ _ rfl
  have hk : 0 < k := by
    rcases Nat.eq_zero_or_pos k with rfl | hk
    · unfold Outq.writev at k2; rw [if_pos rfl] at k2; cases k2
    · exact hk
  obtain ⟨items, hi⟩ := g.all x s k1
  obtain ⟨vs', fin', m1, m2, m3, m4, m5, m6, m7⟩ := Outq.writev_spec hi.inv k hk
  rw [k2] at m1
  obtain ⟨rfl, rfl⟩ := Prod.mk.inj (R.ok.inj m1)
  have htk : ((note l c (.writev k db as) (.vecs (some (x, fin, vs)))).at x).taken <+: (itemsBytes items).map Prod.fst :=
    (List.prefix_append _ _).trans hi.pre
  have ht := List.prefix_iff_eq_take.1 htk
  have hsent := hi.inv.sent
  have hlen := hi.len
  refine ⟨_, _, rfl, ?_, g.tal, g.chain, items, _, _, account_of hi, m5, m6, ?_, ?_⟩
  · unfold note enter; dsimp only; rw [if_pos rfl]
  · intro hlt hvs
    refine m4 (by omega) ?_
    rw [hvs]; rfl
  · intro hf
    obtain ⟨a1, a2, a3⟩ := m3 hf
    refine ⟨a1, ?_, ?_⟩
    · have := hi.ends
      rw [a2] at this
      rcases hc : (((note l c (.writev k db as) (.vecs (some (x, fin, vs)))).at x).closed) with _ | _
      · rw [hc] at this; right; simpa using this.symm
      · left; rfl
    · rw [ht, a3, ← hlen]; exact List.take_append_drop _ _

/-! ## a concrete history -/

/-- the call is allowed (a decidable part of `Permits`) -/
def permitsB (l : Ledger Bytes) (_ : Conn Unit Bytes) : Op Bytes → Bool
  | .writev _ _ as => as.all fun | .vecs v eof _ => !v.flatten.isEmpty || eof | _ => true
  | .addWrite id n => decide (n ≤ (l.at id).offered.length)
  | .addAck id n => decide ((l.at id).acked + n ≤ (l.at id).taken.length)
  | .updAck id off => decide (off ≤ (l.at id).taken.length)
  | .submitResponse id _ _ => clientBidi id
  | .submitTrailers id _ => clientBidi id
  | .bindControl _ => true
  | .bindQpack _ _ => true
  | .open _ _ => true
  | .close _ => true
  | .shutdown => true
  | .submitRequest _ _ _ => true
  | .setClientPri _ v => decide (v.length < 2 ^ 62 - 8)
  | _ => false

theorem permitsB_sound {l : Ledger Bytes} {c : Conn Unit Bytes} {o : Op Bytes} (h : permitsB l c o = true) : Permits l c o := by
  cases o <;> first | exact ⟨trivial, trivial⟩ | exact ⟨h, trivial⟩ | exact ⟨trivial, of_decide_eq_true h⟩ | exact ⟨trivial, fun _ => of_decide_eq_true h⟩ | cases h | skip
  rename_i k db as
  refine ⟨trivial, fun a ha => ?_⟩
  have := List.all_eq_true.1 h a ha
  cases a with
  | vecs v eof n =>
    simp only [Bool.or_eq_true, Bool.not_eq_true', List.isEmpty_eq_false_iff] at this
    exact this
  | _ => trivial

/-- play a history, keeping the ledger -/
def playS (enc : Encode Unit Bytes) (l : Ledger Bytes) (c : Conn Unit Bytes) : List (Op Bytes) → Option (Ledger Bytes × Conn Unit Bytes)
  | [] => some (l, c)
  | o :: t => if permitsB l c o then match step enc c o with | .ok (c', r) => playS enc (note l c o r) c' t | _ => none else none

theorem playS_run {enc : Encode Unit Bytes} {c0 : Conn Unit Bytes} : ∀ (ops : List (Op Bytes)) {l l' : Ledger Bytes} {c c' : Conn Unit Bytes},
    Run enc (fun _ _ => False) c0 l c → playS enc l c ops = some (l', c') → Run enc (fun _ _ => False) c0 l' c'
  | [], _, _, _, _, h, e => by cases e; exact h
  | o :: t, l, l', c, c', h, e => by
    unfold playS at e
    by_cases hp : permitsB l c o = true
    · rw [if_pos hp] at e
      rcases hs : step enc c o with ⟨c1, r⟩ | _ | _ | _ <;> rw [hs] at e <;> first | exact playS_run t (.step h (permitsB_sound hp) hs) e | cases e
    · rw [if_neg hp] at e; cases e

/-- an encoder that copies the field section, and sends its first byte on the encoder stream -/
def echoEnc : Encode Unit Bytes := fun _ nva => if nva = [] then none else some ((), [0, 0], nva.take 1000, nva.take 1)

theorem echoEnc_ok : EncodeOk echoEnc := by
  intro e nva e' p r eb h
  unfold echoEnc at h
  split_ifs at h with hn
  cases h
  refine ⟨?_, ?_⟩
  · intro g; rcases nva with _ | ⟨a, t⟩
    · exact hn rfl
    · cases g
  · have : (nva.take 1000).length ≤ 1000 := List.length_take_le _ _
    simp only [List.length_cons, List.length_nil]; omega

/-- a server answers a request with a body in two parts and trailers, the transport taking the bytes in pieces -/
def demoSent : List (Op Bytes) :=
  demoBind ++ [.open 0 false, .submitResponse 0 [5, 6] true, .writev 1 [] [.vecs [[1, 2, 3]] false false, .wouldblock], .addWrite 7 1,
    .writev 2 [9, 9] [], .addWrite 11 2, .writev 9 [] [.vecs [[4]] true true], .addWrite 0 7, .addAck 0 4,
    .submitTrailers 0 [8], .shutdown, .writev 9 [] [], .addWrite 3 3, .writev 9 [] [], .addWrite 7 1]

/-- a stream's book at the end of a history -/
def bookAt (enc : Encode Unit Bytes) (ops : List (Op Bytes)) (x : Nat) : Option (Bytes × Bytes × Nat × Bool) :=
  (playS enc {} demoInit ops).map fun p => ((p.1.at x).taken, (p.1.at x).offered, (p.1.at x).acked, (p.1.at x).closed)

/-- the stream carries HEADERS, a DATA frame for each answer, and, offered next, the trailers; its end has been announced -/
example : bookAt echoEnc (demoSent ++ [.writev 9 [] []]) 0 = some ([1, 4, 0, 0, 5, 6, 0], [3, 1, 2, 3, 0, 1, 4, 1, 3, 0, 0, 8], 4, true) := by decide +kernel
/-- the control stream: its type, SETTINGS, and GOAWAY -/
example : bookAt echoEnc demoSent 3 = some ([0, 4, 6, 6, 0, 1, 0, 7, 0, 7, 1, 4], [], 0, false) := by decide +kernel
/-- the encoder stream: its type, and a byte for each field section -/
example : bookAt echoEnc demoSent 7 = some ([2, 5, 8], [], 0, false) := by decide +kernel
/-- the decoder stream: its type and the decoder's bytes -/
example : bookAt echoEnc demoSent 11 = some ([3, 9, 9], [], 0, false) := by decide +kernel

/-- a call that sets fin, in a state that meets the hypotheses of C56 -/
def finAfter (enc : Encode Unit Bytes) (ops : List (Op Bytes)) : Bool :=
  match playS enc {} demoInit ops with
  | some (l, c) => permitsB l c (.writev 9 [] []) && match step enc c (.writev 9 [] []) with | .ok (_, .vecs (some (0, true, _))) => true | _ => false
  | none => false

example : finAfter echoEnc demoSent = true := by decide +kernel

/-- hence a history that meets the hypotheses of both theorems -/
example : ∃ (l : Ledger Bytes) (c c' : Conn Unit Bytes) (vs : List Bytes), Run echoEnc (fun _ _ => False) (init true {} ()) l c ∧ Permits l c (.writev 9 [] []) ∧
    step echoEnc c (.writev 9 [] []) = .ok (c', .vecs (some (0, true, vs))) := by
  have h : finAfter echoEnc demoSent = true := by decide +kernel
  unfold finAfter at h
  split at h
  · rename_i l c hp
    obtain ⟨h1, h2⟩ := Bool.and_eq_true_iff.1 h
    split at h2
    · rename_i c' vs hs
      exact ⟨l, c, c', vs, playS_run _ .init hp, permitsB_sound h1, hs⟩
    · cases h2
  · cases h

end Props
end Nghttp3
