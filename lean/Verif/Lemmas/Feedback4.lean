import Verif.Lemmas.Feedback3
/-! All that the decoder of a whole connection says. -/
namespace Nghttp3
namespace Feedback
open Qpack

theorem areSaid_append {a b : List Said} {x y : Bytes} (h : AreSaid a x) (h' : AreSaid b y) : AreSaid (a ++ b) (x ++ y) := by
  induction a generalizing x with
  | nil => obtain rfl : x = [] := h; exact h'
  | cons i t ih =>
    obtain ⟨u, v, rfl, h1, h2⟩ := h
    exact ⟨u, v ++ y, by rw [List.append_assoc], h1, ih h2⟩

theorem areSaid_one {i : Said} {x : Bytes} (h : i.Is x) : AreSaid [i] x := ⟨x, [], (List.append_nil _).symm, h, rfl⟩

theorem is_ack (id r : Nat) : (Said.ack id r).Is (DIns.bytes (.ack, id)) := by
  obtain ⟨c, t, h1, h2⟩ := QInt.put_cons 0x80 id (pfx := 7) (by omega)
  exact ⟨⟨c, t, h1, h2⟩, Net.dins_encodes .ack id⟩

theorem is_cancel (id : Nat) : (Said.cancel id).Is (QInt.put 0x40 id 6) := by
  obtain ⟨c, t, h1, h2⟩ := QInt.put_cons 0x40 id (pfx := 6) (by omega)
  exact ⟨⟨c, t, h1, h2⟩, Net.dins_encodes .cancel id⟩

theorem is_increment (n : Nat) : (Said.increment n).Is (QInt.put 0 n 6) := by
  obtain ⟨c, t, h1, h2⟩ := QInt.put_cons 0 n (pfx := 6) (by omega)
  exact ⟨⟨c, t, h1, h2⟩, Net.dins_encodes .icnt n⟩

theorem known_append (a b : List Said) : known (a ++ b) = b.foldl learn (known a) := by unfold known; rw [List.foldl_append]

theorem allFair_append {n k : Nat} {a b : List Said} : AllFair n k (a ++ b) ↔ AllFair n k a ∧ AllFair n (a.foldl learn k) b := by
  induction a generalizing k with
  | nil => exact ⟨fun h => ⟨trivial, h⟩, fun h => h.2⟩
  | cons i t ih =>
    change Fair n k i ∧ AllFair n (learn k i) (t ++ b) ↔ (Fair n k i ∧ AllFair n (learn k i) t) ∧ _
    rw [ih, and_assoc]
    rfl

theorem fair_mono {n n' k : Nat} (h : n ≤ n') {i : Said} (hf : Fair n k i) : Fair n' k i := by
  cases i with
  | ack id r => exact ⟨hf.1, Nat.le_trans hf.2 h⟩
  | cancel id => trivial
  | increment m => exact ⟨hf.1, Nat.le_trans hf.2 h⟩

theorem allFair_mono {n n' k : Nat} (h : n ≤ n') {l : List Said} (hf : AllFair n k l) : AllFair n' k l := by
  induction l generalizing k with
  | nil => trivial
  | cons i t ih => exact ⟨fair_mono h hf.1, ih hf.2⟩

theorem acks_append (a b : List Said) : acks (a ++ b) = acks a ++ acks b := List.filterMap_append

theorem cancelled_append (a b : List Said) : cancelled (a ++ b) = cancelled a ++ cancelled b := List.filterMap_append

/-- the acknowledgments of sections -/
def sayAcks (done : List (Nat × Nat)) : List Said := (done.filter fun p => p.2 != 0).map fun p => .ack p.1 p.2

theorem sayAcks_cons (p : Nat × Nat) (t : List (Nat × Nat)) : sayAcks (p :: t) = (if p.2 = 0 then [] else [.ack p.1 p.2]) ++ sayAcks t := by
  unfold sayAcks
  rw [List.filter_cons]
  by_cases h : p.2 = 0
  · rw [if_pos h, h]; rfl
  · have : (p.2 != 0) = true := by simpa using h
    rw [if_neg h, this]; rfl

theorem sayAcks_bytes (done : List (Nat × Nat)) : AreSaid (sayAcks done) (Endpoint.ackBytes done) := by
  unfold sayAcks Endpoint.ackBytes
  induction done.filter fun p => p.2 != 0 with
  | nil => rfl
  | cons p t ih => exact ⟨_, _, rfl, is_ack _ _, ih⟩

theorem sayAcks_acks (done : List (Nat × Nat)) : acks (sayAcks done) = done.filter fun p => p.2 != 0 := by
  unfold sayAcks acks
  induction done.filter fun p => p.2 != 0 with
  | nil => rfl
  | cons p t ih => rw [List.map_cons, List.filterMap_cons]; dsimp only; rw [ih]

theorem sayAcks_cancelled (done : List (Nat × Nat)) : cancelled (sayAcks done) = [] := by
  unfold sayAcks cancelled
  induction done.filter fun p => p.2 != 0 with
  | nil => rfl
  | cons p t ih => rw [List.map_cons, List.filterMap_cons]; exact ih

theorem sayAcks_known (done : List (Nat × Nat)) (k : Nat) : (sayAcks done).foldl learn k = done.foldl (fun k p => max k p.2) k := by
  induction done generalizing k with
  | nil => rfl
  | cons p t ih =>
    rw [sayAcks_cons, List.foldl_append, List.foldl_cons]
    by_cases h : p.2 = 0
    · rw [if_pos h, h, Nat.max_zero]; exact ih k
    · rw [if_neg h]; exact ih _

theorem sayAcks_fair {n : Nat} (done : List (Nat × Nat)) (h : ∀ p ∈ done, p.2 ≤ n) (k : Nat) : AllFair n k (sayAcks done) := by
  induction done generalizing k with
  | nil => trivial
  | cons p t ih =>
    rw [sayAcks_cons]
    have ht := fun k => ih (fun q hq => h q (List.mem_cons_of_mem _ hq)) k
    by_cases h0 : p.2 = 0
    · rw [if_pos h0]; exact ht k
    · rw [if_neg h0]; exact ⟨⟨h0, h p List.mem_cons_self⟩, ht _⟩

end Feedback

namespace Endpoint
open Qpack Feedback
open Sent (Ledger)
open Conn (clientBidi streamUni)

variable {G : Bool × Settings} {P : Par} {server : Bool} {st : Settings}

/-- said: what is on the decoder stream; pend: what the decoder keeps; done: the sections that were completed -/
structure Spoken (asked : Bytes) (l : Log) (ep : Ep) (said pend : List Said) (done : List (Nat × Nat)) : Prop where
  able : AllAble ep.dec ep.rx
  told : AreSaid said asked
  wait : AreSaid pend ep.dec.dbuf
  kn : known (said ++ pend) = ep.dec.writtenIcnt
  le : ep.dec.writtenIcnt ≤ ep.dec.ctx.next
  fair : AllFair ep.dec.ctx.next 0 (said ++ pend)
  acks : acks (said ++ pend) = done.filter fun p => p.2 != 0
  up : ∀ id, (ofStr done id).length ≤ l.count sectionEnds id + l.count sectionBad id
  dn : ∀ id, l.count sectionEnds id ≤ (ofStr done id).length
  sub : (cancelled (said ++ pend)).Sublist l.shut
  all : ∀ id ∈ l.shut, id ∈ cancelled (said ++ pend)
  shut : ∀ id, clientBidi id = true → (ep.rx id).shutRd = true → id ∈ cancelled (said ++ pend)

theorem shut_snoc (l : Log) (x : Call × Conn.Ret × List Ev) : Log.shut (l ++ [x]) = l.shut ++ Log.shut [x] := by
  unfold Log.shut; rw [List.filterMap_append]

theorem max_le {n : Nat} (done : List (Nat × Nat)) (h : ∀ p ∈ done, p.2 ≤ n) (k : Nat) (hk : k ≤ n) : done.foldl (fun k p => max k p.2) k ≤ n := by
  induction done generalizing k with
  | nil => exact hk
  | cons p t ih =>
    exact ih (fun q hq => h q (List.mem_cons_of_mem _ hq)) _ (Nat.max_le.2 ⟨hk, h p List.mem_cons_self⟩)

theorem Spoken.fb {asked : Bytes} {l : Log} {ep ep' : Ep} {said pend : List Said} {done t : List (Nat × Nat)} {o : Call} {r : Conn.Ret} {ev : List Ev}
    (h : Spoken asked l ep said pend done) (hf : Fb ep.dec ep.rx t ev ep'.dec ep'.rx) (hs : Log.shut [(o, r, ev)] = []) :
    Spoken asked (l ++ [(o, r, ev)]) ep' said (pend ++ sayAcks t) (done ++ t) where
  able := hf.able
  told := h.told
  wait := by rw [hf.buf]; exact areSaid_append h.wait (sayAcks_bytes t)
  kn := by rw [← List.append_assoc, known_append, h.kn, sayAcks_known, hf.wr]
  le := by rw [hf.wr]; exact max_le _ hf.le _ (Nat.le_trans h.le hf.next)
  fair := by rw [← List.append_assoc]; exact allFair_append.2 ⟨allFair_mono hf.next h.fair, sayAcks_fair _ hf.le _⟩
  acks := by rw [← List.append_assoc, acks_append, h.acks, sayAcks_acks, List.filter_append]
  up id := by
    have := h.up id; have := hf.up id
    unfold ofStr at *
    rw [count_snoc, count_snoc, List.filter_append, List.length_append]; dsimp only; omega
  dn id := by
    have := h.dn id; have := hf.dn id
    unfold ofStr at *
    rw [count_snoc, List.filter_append, List.length_append]; dsimp only; omega
  sub := by rw [← List.append_assoc, cancelled_append, sayAcks_cancelled, List.append_nil, shut_snoc, hs, List.append_nil]; exact h.sub
  all := by rw [← List.append_assoc, cancelled_append, sayAcks_cancelled, List.append_nil, shut_snoc, hs, List.append_nil]; exact h.all
  shut id hb hi := by
    rw [← List.append_assoc, cancelled_append, sayAcks_cancelled, List.append_nil]
    rcases hf.shut id with g | g
    · rw [g] at hi; exact h.shut id hb hi
    · rw [g] at hi; cases hi

theorem write_said {d : Dec} {pend : List Said} (h : AreSaid pend d.dbuf) (hle : d.writtenIcnt ≤ d.ctx.next) {k : Nat} (hk : k = d.writtenIcnt) :
    ∃ inc, AreSaid (pend ++ inc) d.writeDecoder.2 ∧ d.writeDecoder.1.dbuf = [] ∧ d.writeDecoder.1.ctx = d.ctx ∧ d.writeDecoder.1.writtenIcnt = d.ctx.next ∧
      inc.foldl learn k = d.ctx.next ∧ AllFair d.ctx.next k inc ∧ acks inc = [] ∧ cancelled inc = [] := by
  unfold Dec.writeDecoder
  by_cases hc : d.writtenIcnt < d.ctx.next
  · rw [if_pos hc]
    refine ⟨[.increment (d.ctx.next - d.writtenIcnt)], areSaid_append h (areSaid_one (is_increment _)), rfl, rfl, rfl, ?_, ⟨⟨?_, ?_⟩, trivial⟩, rfl, rfl⟩
    · change k + (d.ctx.next - d.writtenIcnt) = _; omega
    · omega
    · omega
  · rw [if_neg hc]
    refine ⟨[], ?_, rfl, rfl, ?_, ?_, trivial, rfl, rfl⟩
    · rw [List.append_nil]; exact h
    · dsimp only; omega
    · change k = _; omega

end Endpoint
end Nghttp3
