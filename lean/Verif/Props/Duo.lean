import Verif.Lemmas.DuoRun
import Verif.Props.Net
import Verif.Props.Sent
/-! Property theorem C59: from the calls of the sender's application to the callbacks of the receiver's. -/
namespace Nghttp3
namespace Props
open Duo Http Qpack Bidi
open Conn (streamUni)
open Outq (R Frent Ans Emit dataAnswers itemsBytes)
open Sent (Book Ledger Made Serve Serves servedSince Permits Tallies)
open Net (SFrame NOp NRes Par Valid rules seen seenBody)

variable {P : Par} {d : Duo.Duo}

/-- What the receiver's application has been told about the stream `x`, compared with what the sender has produced on it (`msg`, of which the
body is what read_data has given, and the field sections are the first ones submitted): a first part of the callbacks that the rules for
messages demand for it, and a first part of the body; the receiver has not refused anything.  Once the end of the stream has arrived, unless
the stream waits for the encoder stream or the application has stopped reading: all that was submitted has been produced, and all of it has
been delivered. -/
structure Told (P : Par) (d : Duo.Duo) (log : List (Serve Fld)) (x : Nat) : Prop where
  calls : seen (d.net.str x) <+: (rules (P.cfg x) (d.msg log x).1 (d.net.str x).ended).1
  body : seenBody (d.net.str x) <+: d.body log x
  quiet : (obs (d.net.str x).ev).filterMap Obs.signal = []
  complete : (d.net.str x).fin = true → (d.net.str x).s.blocked = false → (d.net.str x).s.shutRd = false →
    (d.msg log x).2 = true ∧ seen (d.net.str x) = (rules (P.cfg x) (d.msg log x).1 true).1 ∧ seenBody (d.net.str x) = d.body log x

/-- What is true of the two endpoints, for the log of what the calls of nghttp3_conn_writev_stream have used.  If the messages are
well-formed, as far as they have been produced: no operation of the receiver fails, nor does the sender refuse what the receiver has written
on the decoder stream; every stream is as `Told` says; and no stream waits for the encoder stream any more once the receiver has read what
the sender's encoder has made. -/
structure Joint (P : Par) (d : Duo.Duo) (log : List (Serve Fld)) : Prop where
  tallies : Tallies log d.l.asks
  accounts : ∀ x, (d.c.str x).isSome → ∃ items rest m, Account d.l d.c log x items rest m
  body : ∀ x ∈ P.ids, (d.msg log x).1.flatMap SFrame.body = d.body log x
  sections : ∀ x ∈ P.ids, sections (d.msg log x).1 <+: submittedSections (d.book x).submitted ∧
    ((d.msg log x).2 = true → sections (d.msg log x).1 = submittedSections (d.book x).submitted)
  ended : ∀ x ∈ P.ids, (d.net.str x).ended = true → (d.msg log x).2 = true
  works : d.Wellformed P log → ∀ o, receiver o = true → d.net.admits P o → ∃ n, d.net.step P o = .ok n
  told : d.Wellformed P log → ∀ x ∈ P.ids, Told P d log x
  unblocked : d.Wellformed P log → d.net.ech = [] → (∀ q, d.c.qenc = some q → (d.l.at q).taken = 2 :: (log.flatMap Serve.made).flatMap Made.enc) →
    ∀ x ∈ P.ids, (d.net.str x).s.blocked = false

theorem frames_body {S rest : List (Frent Fld)} {ks : List (Made Fld)} {it : List Emit} (h : Serves S ks it rest) : (frames ks it).flatMap SFrame.body = (dataAnswers it).flatMap ansBytes := by
  have hp : ∀ v : List Bidi.Bytes, (piece v).flatMap SFrame.body = v.flatten := by
    intro v
    unfold piece
    by_cases hv : v.flatten.isEmpty = true
    · rw [if_pos hv, List.isEmpty_iff.1 hv]; rfl
    · rw [if_neg hv, List.flatMap_singleton]; rfl
  induction h with
  | done => rfl
  | settings _ ih => exact ih
  | headers _ ih => exact ih
  | dataMore _ ih => rw [frames, dataAnswers, List.flatMap_append, List.flatMap_cons, ih, hp]; rfl
  | dataEnd _ ih => rw [frames, dataAnswers, List.flatMap_append, List.flatMap_cons, ih, hp]; rfl
  | goaway _ ih => exact ih
  | priorityUpdate _ ih => exact ih

theorem frames_sections {S rest : List (Frent Fld)} {ks : List (Made Fld)} {it : List Emit} (h : Serves S ks it rest) :
    submittedSections S = sections (frames ks it) ++ submittedSections rest := by
  have hp : ∀ v : List Bidi.Bytes, sections (piece v) = [] := by
    intro v
    unfold piece
    split_ifs <;> rfl
  have ha : ∀ a b : List SFrame, sections (a ++ b) = sections a ++ sections b := fun a b => List.filterMap_append
  induction h with
  | done => rfl
  | settings _ ih => exact ih
  | headers _ ih => exact congrArg _ ih
  | dataMore _ ih => rw [frames, ha, hp]; exact ih
  | dataEnd _ ih => rw [frames, ha, hp]; exact ih
  | goaway _ ih => exact ih
  | priorityUpdate _ ih => exact ih

/-- C59.  Two endpoints of this library.  Whatever calls the sender's application and transport make (within the documentation), whatever
read_data answers, however the streams are scheduled and how much of what is offered is taken each time; in whatever pieces and in whatever
order the bytes of the request streams and of the encoder stream arrive; whenever the receiver writes its decoder stream, and whenever SETTINGS
and the decoder stream arrive at the sender: `Joint` is true. -/
theorem C59_end_to_end (hP : P.Ok) (hu : ∀ x ∈ P.ids, streamUni x = false) {server : Bool} {st : Settings}
    (h1 : st.maxFieldSectionSize < 2 ^ 62) (h2 : st.qpackMaxDtableCapacity < 2 ^ 62) (h3 : st.qpackBlockedStreams < 2 ^ 62) (h : Duo.Run P server st d) :
    ∃ log, Joint P d log := by
  obtain ⟨⟨log, items, rest, del, pe, g⟩, hf⟩ := run_dinv hP hu (st := st) ⟨h1, h2, h3⟩ h
  have hm : ∀ x ∈ P.ids, d.msg log x = (frames (madeOf log (d.book x) x) (items x), (rest x).isEmpty) := fun x hx => msg_eq (g.strm x (hu x hx)) rfl
  have hbod : ∀ x ∈ P.ids, (d.msg log x).1.flatMap SFrame.body = d.body log x := by
    intro x hx
    rw [hm x hx, frames_body (g.strm x (hu x hx)).srv, (g.strm x (hu x hx)).ans]; rfl
  refine ⟨log, g.rinv.tal, fun x hx => ?_, hbod, fun x hx => ?_,
    fun x hx he => by rw [hm x hx]; exact List.isEmpty_iff.2 (g.sealed x (hu x hx) (g.ended x he).2.1).1, fun hw o ho ha => ?_, fun hw x hx => ?_, fun hw he hq x hx => ?_⟩
  · obtain ⟨s, hs⟩ := Option.isSome_iff_exists.1 hx
    obtain ⟨it, hi⟩ := g.rinv.all x s hs
    exact ⟨it, _, _, account_of hi⟩
  · have hS := (g.strm x (hu x hx)).srv
    rw [hm x hx, frames_sections hS]
    refine ⟨List.prefix_append _ _, fun hr => ?_⟩
    rw [List.isEmpty_iff.1 hr]; exact (List.append_nil _).symm
  · obtain ⟨n', hn⟩ := reached_ok hP (g.sim hw) (lift_admits ho ha)
    rw [lift_step ho (ended_pend g)] at hn
    cases hs : d.net.step P o with
    | ok n => exact ⟨n, rfl⟩
    | crash => rw [hs] at hn; cases hn
    | fail e => rw [hs] at hn; cases hn
    | refused => rw [hs] at hn; cases hn
  · obtain ⟨ops, r1, r2⟩ := g.sim hw
    obtain ⟨k1, k2, k3⟩ := C54_only_what_was_sent P hP ops r1 _ r2 x hx
    have hmx := hm x hx
    have hb := hbod x hx
    rw [hmx] at hb
    refine ⟨by rw [hmx]; exact k1, ?_, k3, fun hfin hbl hsh => ?_⟩
    · rw [← hb]; exact k2
    · obtain ⟨f1, f2⟩ := hf x hfin
      obtain ⟨_, e2, e3⟩ := g.ended x f1
      have hpend := ended_pend g x f1
      obtain ⟨c1, c2⟩ := C54_complete P hP ops r1 _ r2 x hx (by show (d.net.str x).wire ++ (bytes (items x)).drop (d.book x).taken.length = []; rw [f2, hpend]; rfl) (hfin.trans f1.symm) hbl hsh
      refine ⟨by rw [hmx]; exact List.isEmpty_iff.2 (g.sealed x (hu x hx) e2).1, ?_, ?_⟩
      · rw [hmx]
        have : ((lift d.net (fun x => frames (madeOf log (d.book x) x) (items x)) (fun x => (bytes (items x)).drop (d.book x).taken.length) pe).str x).ended = true := f1
        rw [this] at c1
        exact c1
      · rw [← hb]; exact c2
  · obtain ⟨ops, r1, r2⟩ := g.sim hw
    have hpe : pe = [] := by
      have henc := g.enc
      rw [he, List.append_nil] at henc
      rcases hqe : d.c.qenc with _ | q
      · rw [g.rinv.noEnc hqe] at henc
        exact (List.append_eq_nil_iff.1 henc.symm).2
      · have h0 := hq q hqe
        rcases g.etak q hqe with ⟨g1, _⟩ | g1
        · rw [g1] at h0; cases h0
        · rw [g1, he, List.append_nil, henc] at h0
          have := congrArg List.length h0
          simp only [List.length_cons, List.length_append] at this
          exact List.eq_nil_of_length_eq_zero (by omega)
    exact C54_unblocked P hP ops r1 _ r2 (by show d.net.ech ++ pe = []; rw [he, hpe]; rfl) x hx

theorem bodyOf_fill (t : List (Frent Fld)) {m : List SFrame} {c : Bool} (as : List Ans) (h : Fill (.data :: t) m c) : Fill (.data :: t) ((bodyOf as).1 ++ m) c := by
  have hp : ∀ (v : List Bidi.Bytes) {l : List SFrame}, Fill (.data :: t) l c → Fill (.data :: t) (piece v ++ l) c := by
    intro v l hl
    unfold piece
    split_ifs
    · exact hl
    · exact .piece hl
  induction as with
  | nil => exact h
  | cons a as ih =>
    cases a with
    | vecs v eof ne =>
      unfold bodyOf
      split_ifs
      · exact hp v h
      · rw [List.append_assoc]; exact hp v ih
    | _ => exact ih

theorem message_fill (s : List (Frent Fld)) (k : Nat) (as : List Ans) : Fill s (message s k as).1 (message s k as).2 := by
  induction s generalizing k as with
  | nil => exact .all
  | cons f t ih =>
    cases f with
    | headers f =>
      unfold message
      by_cases hk : k = 0
      · rw [if_pos hk]; exact .part _
      · rw [if_neg hk]; exact .headers (ih _ _)
    | data =>
      unfold message
      by_cases he : (bodyOf as).2.2 = true
      · rw [if_pos he]; exact bodyOf_fill t as (.bodyEnd (ih _ _))
      · rw [if_neg he]
        have := bodyOf_fill t as (.part (.data :: t))
        rwa [List.append_nil] at this
    | _ => exact .skip (by intro g h; cases h) (by intro h; cases h) (ih _ _)

/-- C59.  The same without the log: if what was submitted makes well-formed messages whatever read_data answers, then the other application
is told, of every stream, what some such message demands (of which this is a first part), and nothing else; if the end of the stream has
arrived, all of a message that has all of what was submitted. -/
theorem C59_whatever_read_data_answers (hP : P.Ok) (hu : ∀ x ∈ P.ids, streamUni x = false) {server : Bool} {st : Settings}
    (h1 : st.maxFieldSectionSize < 2 ^ 62) (h2 : st.qpackMaxDtableCapacity < 2 ^ 62) (h3 : st.qpackBlockedStreams < 2 ^ 62) (h : Duo.Run P server st d)
    (hv : ∀ x ∈ P.ids, ∀ m c, Fill (d.book x).submitted m c → Valid (P.cfg x) m false ∧ ((d.net.str x).ended = true → c = true → Valid (P.cfg x) m true)) :
    (∀ o, receiver o = true → d.net.admits P o → ∃ n, d.net.step P o = .ok n) ∧
    ∀ x ∈ P.ids, ∃ m c, Fill (d.book x).submitted m c ∧ seen (d.net.str x) <+: (rules (P.cfg x) m (d.net.str x).ended).1 ∧
      seenBody (d.net.str x) <+: m.flatMap SFrame.body ∧
      ((d.net.str x).fin = true → (d.net.str x).s.blocked = false → (d.net.str x).s.shutRd = false →
        c = true ∧ seen (d.net.str x) = (rules (P.cfg x) m true).1 ∧ seenBody (d.net.str x) = m.flatMap SFrame.body) := by
  obtain ⟨log, j⟩ := C59_end_to_end hP hu h1 h2 h3 h
  have hf : ∀ x, Fill (d.book x).submitted (d.msg log x).1 (d.msg log x).2 := fun x => message_fill _ _ _
  have hw : d.Wellformed P log := by
    intro x hx
    rcases he : (d.net.str x).ended with _ | _
    · exact (hv x hx _ _ (hf x)).1
    · exact (hv x hx _ _ (hf x)).2 he (j.ended x hx he)
  refine ⟨j.works hw, fun x hx => ⟨_, _, hf x, (j.told hw x hx).calls, ?_, fun a b c => ?_⟩⟩
  · rw [j.body x hx]; exact (j.told hw x hx).body
  · rw [j.body x hx]; exact (j.told hw x hx).complete a b c

/-! ### a concrete run -/

/-- calls for which it is easy to see that no stream is closed -/
def plain : Conn.Op Fld → Bool
  | .bindControl _ => true
  | .bindQpack _ _ => true
  | .submitRequest _ _ _ => true
  | .writev _ _ as => as.all fun | .vecs v eof _ => !v.flatten.isEmpty || eof | _ => true
  | .addWrite _ _ => true
  | _ => false

def permitted (d : Duo.Duo) : Conn.Op Fld → Bool
  | .addWrite id n => decide (n ≤ (d.l.at id).offered.length)
  | _ => true

def keeping (P : Par) (d : Duo.Duo) (r : Conn.Ret) : Conn.Op Fld → Bool
  | .submitRequest id nva _ => decide (nva.1 = id) && decide (id ∈ P.ids) && !d.sealed id
  | _ => true

def _root_.Nghttp3.Duo.Duo.checked (P : Par) (d : Duo.Duo) : List (Conn.Op Fld ⊕ NOp) → Option Duo.Duo
  | [] => some d
  | .inl o :: t =>
    if plain o && permitted d o then
      match Conn.step encode d.c o with
      | .ok (c', r) => if keeping P d r o then (d.call o c' r).checked P t else none
      | _ => none
    else none
  | .inr o :: t =>
    if receiver o && d.net.check P o then
      match d.net.step P o with
      | .ok n => Duo.Duo.checked P { d with net := n, c := { d.c with enc := n.sys } } t
      | _ => none
    else none

theorem create_some {c : Conn.Conn ESys Fld} {id : Nat} {s : Conn.Strm Fld} {x : Nat} (hx : (c.str x).isSome = true) : ((Conn.createStream c id s).str x).isSome = true := by
  show (PQ.upd c.str id (some s) x).isSome = true
  unfold PQ.upd
  split_ifs
  · rfl
  · exact hx

theorem one_some {c c' : Conn.Conn ESys Fld} {id : Nat} {s : Conn.Strm Fld} (h : Conn.One c id s c') {x : Nat} (hx : (c.str x).isSome = true) : (c'.str x).isSome = true := by
  by_cases e : x = id
  · subst e
    obtain ⟨_, _, _, k⟩ := h.own
    rw [k]; rfl
  · rw [h.fr e]; exact hx

theorem plain_grow {c c' : Conn.Conn ESys Fld} (hi : Conn.Inv False False c) {o : Conn.Op Fld} {r : Conn.Ret} (hp : plain o = true) (e : Conn.step encode c o = .ok (c', r)) {x : Nat}
    (hx : (c.str x).isSome = true) : (c'.str x).isSome = true := by
  obtain ⟨s, hs⟩ := Option.isSome_iff_exists.1 hx
  cases o with
  | writev k db as => obtain ⟨s', h⟩ := writev_keep hi e hs; rw [h]; rfl
  | addWrite id n =>
    change Conn.addWriteOffset c id n = _ at e
    unfold Conn.addWriteOffset at e
    rcases hid : c.str id with _ | s0 <;> rw [hid] at e
    · obtain ⟨rfl, _⟩ := Prod.mk.inj (R.ok.inj e)
      exact hx
    · dsimp only at e
      obtain ⟨o, _, e⟩ := Conn.bind_ok e
      split_ifs at e
      · obtain ⟨rfl, _⟩ := Prod.mk.inj (R.ok.inj e); exact one_some Conn.one_set hx
      · obtain ⟨c1, e1, e⟩ := Conn.bind_ok e
        obtain ⟨rfl, _⟩ := Prod.mk.inj (R.ok.inj e); exact one_some (Conn.one_unschedule e1) hx
      · obtain ⟨rfl, _⟩ := Prod.mk.inj (R.ok.inj e); exact one_some Conn.one_set hx
      · obtain ⟨c1, e1, e⟩ := Conn.bind_ok e
        obtain ⟨rfl, _⟩ := Prod.mk.inj (R.ok.inj e); exact one_some (Conn.one_schedule e1) hx
  | bindControl id =>
    change Conn.bindControl c id = _ at e
    unfold Conn.bindControl at e
    split_ifs at e
    · obtain ⟨rfl, _⟩ := Prod.mk.inj (R.ok.inj e); exact hx
    · obtain ⟨rfl, _⟩ := Prod.mk.inj (R.ok.inj e); exact hx
    · obtain ⟨o, _, e⟩ := Conn.bind_ok e
      obtain ⟨rfl, _⟩ := Prod.mk.inj (R.ok.inj e); exact create_some hx
  | bindQpack a b =>
    change Conn.bindQpack c a b = _ at e
    unfold Conn.bindQpack at e
    split_ifs at e
    · obtain ⟨rfl, _⟩ := Prod.mk.inj (R.ok.inj e); exact hx
    · obtain ⟨rfl, _⟩ := Prod.mk.inj (R.ok.inj e); exact hx
    · obtain ⟨o, _, e⟩ := Conn.bind_ok e
      dsimp only at e
      split_ifs at e
      · obtain ⟨rfl, _⟩ := Prod.mk.inj (R.ok.inj e); exact create_some hx
      · obtain ⟨o, _, e⟩ := Conn.bind_ok e
        obtain ⟨rfl, _⟩ := Prod.mk.inj (R.ok.inj e); exact create_some (create_some hx)
  | submitRequest id nva dr =>
    change Conn.submitRequest c id nva dr = _ at e
    unfold Conn.submitRequest at e
    split_ifs at e
    · obtain ⟨rfl, _⟩ := Prod.mk.inj (R.ok.inj e); exact hx
    · rcases h0 : c.str id with _ | s0 <;> rw [h0] at e
      · obtain ⟨c1, e1, e2⟩ := Conn.bind_ok e
        obtain ⟨rfl, _⟩ := Prod.mk.inj (R.ok.inj e2)
        obtain ⟨o, h2⟩ := Conn.one_submit e1
        exact one_some h2 (create_some hx)
      · obtain ⟨rfl, _⟩ := Prod.mk.inj (R.ok.inj e); exact hx
  | _ => cases hp

theorem duo_checked {P : Par} (hP : P.Ok) (hu : ∀ x ∈ P.ids, streamUni x = false) {server : Bool} {st : Settings} (hst : Outq.FrentOk (.settings st : Frent Fld))
    {d d' : Duo.Duo} (hr : Duo.Run P server st d) (hg : ∀ x, d.gone x = false) {ops : List (Conn.Op Fld ⊕ NOp)} (h : d.checked P ops = some d') : Duo.Run P server st d' := by
  induction ops generalizing d with
  | nil => cases h; exact hr
  | cons o t ih =>
    cases o with
    | inl o =>
      unfold Duo.checked at h
      by_cases hc : (plain o && permitted d o) = true
      · rw [if_pos hc] at h
        simp only [Bool.and_eq_true] at hc
        rcases hs : Conn.step encode d.c o with _ | _ | _ | ⟨c', r⟩ <;> rw [hs] at h
        · cases h
        · cases h
        · cases h
        · dsimp only at h
          by_cases hk : keeping P d r o = true
          · rw [if_pos hk] at h
            refine ih (.call hr ?_ hs ?_ (fun x hx => by rw [hg x] at hx; cases hx)) (fun x => ?_) h
            · cases o with
              | addWrite id n => exact ⟨trivial, fun _ => of_decide_eq_true hc.2⟩
              | writev k db as =>
                refine ⟨trivial, fun a ha => ?_⟩
                have := List.all_eq_true.1 hc.1 a ha
                cases a with
                | vecs v eof ne =>
                  show v.flatten ≠ [] ∨ eof = true
                  dsimp only at this
                  rcases hv : v.flatten with _ | ⟨a, l⟩
                  · rw [hv] at this; exact .inr this
                  · exact .inl (by intro g; cases g)
                | _ => trivial
              | bindControl id => exact ⟨trivial, trivial⟩
              | bindQpack a b => exact ⟨trivial, trivial⟩
              | submitRequest id nva dr => exact ⟨trivial, trivial⟩
              | _ => cases hc.1
            · intro _
              cases o with
              | submitRequest id nva dr =>
                simp only [keeping, Bool.and_eq_true, decide_eq_true_eq, Bool.not_eq_true'] at hk
                exact ⟨hk.1.1, hk.1.2, hk.2⟩
              | addWrite id n => trivial
              | writev k db as => trivial
              | bindControl id => trivial
              | bindQpack a b => trivial
              | _ => cases hc.1
            · obtain ⟨⟨log, items, rest, del, pe, g⟩, _⟩ := run_dinv hP hu hst hr
              show (d.gone x || ((d.c.str x).isSome && (c'.str x).isNone)) = false
              rw [hg x]
              cases hx : (d.c.str x).isSome with
              | false => rfl
              | true =>
                have := plain_grow g.rinv.inv hc.1 hs hx
                cases hx' : c'.str x with
                | none => rw [hx'] at this; cases this
                | some _ => rfl
          · rw [if_neg hk] at h; cases h
      · rw [if_neg hc] at h; cases h
    | inr o =>
      unfold Duo.checked at h
      by_cases hc : (receiver o && d.net.check P o) = true
      · rw [if_pos hc] at h
        simp only [Bool.and_eq_true] at hc
        rcases hs : d.net.step P o with _ | _ | _ | n <;> rw [hs] at h
        · cases h
        · cases h
        · cases h
        · exact ih (.net hr hc.1 (net_check_admits hc.2) hs) hg h
      · rw [if_neg hc] at h; cases h

def wasPosted : List (Frent Fld) → Bool
  | [.headers f, .data] => decide (f = (0, reqNvs nvA))
  | _ => false

theorem posted {l : List (Frent Fld)} (h : wasPosted l = true) : l = [.headers (0, reqNvs nvA), .data] := by
  unfold wasPosted at h
  split at h
  · rw [of_decide_eq_true h]
  · cases h

/-- a request with a body of two pieces; the encoder stream is taken in three pieces, the request stream in three; the stream waits for the
encoder stream in between -/
def duoSchedule : List (Conn.Op Fld ⊕ NOp) :=
  [.inl (.bindControl 2), .inl (.bindQpack 6 10), .inr (.setCap 200), .inr (.setMaxBlocked 1), .inl (.submitRequest 0 (0, reqNvs nvA) true),
    .inl (.writev 8 [] []), .inl (.addWrite 2 9), .inl (.writev 8 [] []), .inl (.addWrite 10 1), .inl (.writev 8 [] []), .inl (.addWrite 6 1),
    .inl (.writev 8 [] [.vecs [[1, 2], [3]] false false]), .inl (.addWrite 6 5), .inl (.writev 8 [] []), .inl (.addWrite 6 7),
    .inl (.writev 8 [] [.vecs [[4]] true false]), .inl (.addWrite 0 12), .inr (.recv 0 3), .inr (.readEnc 4 [4, 0]), .inr (.recv 0 100),
    .inl (.writev 8 [] []), .inl (.addWrite 0 3), .inr (.recv 0 2), .inr (.readEnc 100 [4, 0]), .inl (.writev 8 [] []), .inl (.addWrite 0 2),
    .inr (.recv 0 100), .inr .flush, .inr (.deliver (.ack, 0))]

set_option maxRecDepth 100000 in
theorem C59_witness : ((Duo.init netPar false {}).checked netPar duoSchedule).any (fun d =>
    (d.net.str 0).fin && !(d.net.str 0).s.blocked && !(d.net.str 0).s.shutRd && seenBody (d.net.str 0) == [1, 2, 3, 4] && (seen (d.net.str 0)).length == 12 && d.net.ech.isEmpty &&
      wasPosted (d.book 0).submitted && (d.book 4).submitted.isEmpty && !(d.net.str 4).ended) = true := by decide +kernel

set_option maxRecDepth 100000 in
/-- on the way the stream was waiting for the encoder stream -/
theorem C59_witness_blocked : ((Duo.init netPar false {}).checked netPar (duoSchedule.take 20)).any (fun d =>
    (d.net.str 0).s.blocked && !d.net.ech.isEmpty && (seen (d.net.str 0)).length == 1) = true := by decide +kernel

/-- after the header section of a request without Content-Length, or within its body -/
def InBody (m : Msg) : Prop := (m.h = .reqHeadersEnd ∨ m.h = .reqDataEnd) ∧ m.s.expectFinal = false ∧ m.s.contentLength = -1

theorem inBody_data {s : State} (h1 : s.expectFinal = false) (h2 : s.contentLength = -1) (l : List Nat) :
    ∃ s', (onData s l).2 = some s' ∧ s'.expectFinal = false ∧ s'.contentLength = -1 := by
  induction l generalizing s with
  | nil => exact ⟨s, rfl, h1, h2⟩
  | cons n t ih =>
    obtain ⟨s', e, k⟩ := ih (s := { s with recvContentLength := s.recvContentLength + n }) h1 h2
    have : onDataChunk s n = some { s with recvContentLength := s.recvContentLength + n } := by
      unfold onDataChunk
      dsimp only
      rw [h1, h2]; rfl
    unfold onData
    rw [this]
    exact ⟨s', e, k⟩

theorem inBody_frames {S : List (Frent Fld)} {l : List SFrame} {c : Bool} (h : Fill S l c) (hS : S = [.data] ∨ S = []) {pp : Pri → List UInt8 → Option Pri} {ext : Bool} {m : Msg}
    (hm : InBody m) : ∃ m', (onFrames pp ext m (l.map SFrame.frm)).2 = .ok m' ∧ InBody m' := by
  induction h generalizing m with
  | all => exact ⟨m, rfl, hm⟩
  | part s => exact ⟨m, rfl, hm⟩
  | headers _ _ => rcases hS with h | h <;> cases h
  | @piece b t l c _ ih =>
    obtain ⟨s', e, k1, k2⟩ := inBody_data hm.2.1 hm.2.2 (b.map fun _ => 1)
    have : (onFrame pp ext m (.data (b.map fun _ => 1))).2 = .ok ⟨.reqDataEnd, s'⟩ := by
      unfold onFrame
      have ht : transit m.h m.s .dataBegin = .ok .reqDataBegin := by rcases hm.1 with h | h <;> rw [h] <;> rfl
      rw [ht]
      show (match onData m.s (b.map fun _ => 1) with | (cb, none) => _ | (cb, some s) => _ : List Cb × MRes).2 = _
      rcases hd : onData m.s (b.map fun _ => 1) with ⟨cb, _ | s⟩
      · rw [hd] at e; cases e
      · rw [hd] at e; cases e; rfl
    obtain ⟨m', e1, e2⟩ := ih hS (m := ⟨.reqDataEnd, s'⟩) ⟨.inr rfl, k1, k2⟩
    refine ⟨m', ?_, e2⟩
    show (onFrames pp ext m (.data (b.map fun _ => 1) :: l.map SFrame.frm)).2 = _
    unfold onFrames
    rcases hf : onFrame pp ext m (.data (b.map fun _ => 1)) with ⟨cb, r⟩
    rw [hf] at this
    cases this
    exact e1
  | bodyEnd _ ih => exact ih (by rcases hS with h | h <;> cases h; exact .inr rfl) hm
  | skip h1 h2 _ ih => rcases hS with h | h <;> cases h; exact (h2 rfl).elim

def afterHeaders : MRes → Bool
  | .ok m => decide (m.h = .reqHeadersEnd) && !m.s.expectFinal && decide (m.s.contentLength = -1)
  | _ => false

set_option maxRecDepth 100000 in
theorem post_headers : afterHeaders (onFrame (netPar.cfg 0).pp ((netPar.cfg 0).server && (netPar.cfg 0).ext) (Msg.start (netPar.cfg 0)) (SFrame.frm (.headers (reqNvs nvA)))).2 = true := by
  decide +kernel

/-- the messages that a POST request without Content-Length can make are well-formed -/
theorem post_valid {m : List SFrame} {c : Bool} (h : Fill [.headers (0, reqNvs nvA), .data] m c) :
    Valid (netPar.cfg 0) m false ∧ (c = true → Valid (netPar.cfg 0) m true) := by
  have hh := post_headers
  unfold Valid rules
  generalize (netPar.cfg 0).pp = pp at *
  generalize ((netPar.cfg 0).server && (netPar.cfg 0).ext) = ext at *
  generalize Msg.start (netPar.cfg 0) = m0 at *
  rcases hf : onFrame pp ext m0 (SFrame.frm (.headers (reqNvs nvA))) with ⟨cb, r⟩
  rw [hf] at hh
  cases r with
  | ok m1 =>
    simp only [afterHeaders, Bool.and_eq_true, Bool.not_eq_true', decide_eq_true_eq] at hh
    cases h with
    | part => exact ⟨⟨_, rfl⟩, fun g => by cases g⟩
    | skip h1 h2 _ => exact (h1 _ rfl).elim
    | @headers _ _ l _ hl =>
      obtain ⟨m', e1, e2⟩ := inBody_frames hl (.inl rfl) (pp := pp) (ext := ext) (m := m1) ⟨.inl hh.1.1, hh.1.2, hh.2⟩
      have hk : (onFrames pp ext m0 ((SFrame.headers (reqNvs nvA) :: l).map SFrame.frm)).2 = .ok m' := by
        rw [List.map_cons]
        unfold onFrames
        rw [hf]
        exact e1
      refine ⟨⟨m', hk⟩, fun _ => ?_⟩
      rw [if_pos rfl]
      unfold onMessage
      rcases hg : onFrames pp ext m0 ((SFrame.headers (reqNvs nvA) :: l).map SFrame.frm) with ⟨cb, r⟩
      rw [hg] at hk
      cases hk
      show ∃ x, (onEnd m').2 = .ok x
      have ht : transit m'.h m'.s .msgEnd = .ok .reqEnd := by
        have : trEnd m'.s .reqEnd = .ok .reqEnd := by
          unfold trEnd onRemoteEndStream
          rw [e2.2.1, e2.2.2]; rfl
        rcases e2.1 with h | h <;> rw [h] <;> exact this
      unfold onEnd
      rw [ht]
      exact ⟨_, rfl⟩
  | _ => cases hh

/-- C59.  The hypotheses of the theorems can be met. -/
theorem C59_witness_meets_hypotheses : ∃ d, netPar.Ok ∧ (∀ x ∈ netPar.ids, streamUni x = false) ∧ Duo.Run netPar false {} d ∧
    (∀ x ∈ netPar.ids, ∀ m c, Fill (d.book x).submitted m c → Valid (netPar.cfg x) m false ∧ ((d.net.str x).ended = true → c = true → Valid (netPar.cfg x) m true)) ∧
    (d.net.str 0).fin = true ∧ (d.net.str 0).s.blocked = false ∧ (d.net.str 0).s.shutRd = false ∧ seenBody (d.net.str 0) = [1, 2, 3, 4] := by
  have h := C59_witness
  rcases hc : (Duo.init netPar false {}).checked netPar duoSchedule with _ | d
  · rw [hc] at h; cases h
  · rw [hc] at h
    simp only [Option.any_some, Bool.and_eq_true, List.isEmpty_iff, beq_iff_eq] at h
    have hu : ∀ x ∈ netPar.ids, streamUni x = false := by decide
    have hr := duo_checked netPar_ok hu (st := {}) ⟨by decide, by decide, by decide⟩ .init (fun _ => rfl) hc
    simp only [Bool.not_eq_true'] at h
    obtain ⟨⟨⟨⟨⟨⟨⟨⟨h1, h2⟩, h3⟩, h4⟩, _⟩, _⟩, h5⟩, h6⟩, h7⟩ := h
    refine ⟨d, netPar_ok, hu, hr, fun x hx m c hf => ?_, h1, h2, h3, h4⟩
    have : x = 0 ∨ x = 4 := by simpa [netPar] using hx
    rcases this with rfl | rfl
    · rw [posted h5] at hf
      exact ⟨(post_valid hf).1, fun _ => (post_valid hf).2⟩
    · rw [h6] at hf
      refine ⟨?_, fun g => by rw [h7] at g; cases g⟩
      cases hf <;> exact ⟨_, rfl⟩

end Props
end Nghttp3
