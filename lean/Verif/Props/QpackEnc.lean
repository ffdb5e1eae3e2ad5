import Verif.Lemmas.QpackDs
import Mathlib.Data.List.Dedup
import Mathlib.Data.List.Induction
/-! Property theorems C14, C15, C19, C22, C46: the QPACK encoder under every history of calls and feedback. -/
namespace Nghttp3
namespace Qpack

/-! ### Histories -/

/-- a field section the encoder has produced: the stream, the Required Insert Count and Base written in its prefix, its
field line representations and the fields they stand for -/
structure Sec where
  id : Nat
  ricnt : Nat
  base : Nat
  reps : List Rep
  nvs : List Nv
deriving DecidableEq

/-- an encoder and what an observer of its inputs and outputs knows -/
structure ESys where
  e : Enc
  /-- sections with a non-zero Required Insert Count neither acknowledged nor cancelled, oldest first -/
  secs : List Sec := []
  /-- Known Received Count, RFC 9204 section 2.1.4 -/
  known : Nat := 0
  /-- number of insertions written to the encoder stream -/
  inserted : Nat := 0
  /-- all fields ever submitted -/
  fields : List Nv := []

/-- what an application and a peer can do to an encoder: nghttp3_qpack_encoder_set_max_dtable_capacity,
…_set_max_blocked_streams, …_encode, a decoder instruction, …_ack_everything -/
inductive EncOp where
  | setCap (n : Nat)
  | setMaxBlocked (n : Nat)
  | encode (id : Nat) (nvs : List Nv)
  | instr (op : DOpc) (n : Nat)
  | ackEverything

/-- outstanding sections after a decoder instruction: an acknowledgement settles the oldest section of the stream -/
def settle : DOpc → Nat → List Sec → List Sec
  | .icnt, _, l => l
  | .ack, id, l => l.eraseP fun s => s.id == id
  | .cancel, id, l => l.filter fun s => s.id != id

/-- Known Received Count after a decoder instruction, RFC 9204 section 2.1.4 -/
def knownAfter : DOpc → Nat → List Sec → Nat → Nat
  | .icnt, n, _, k => k + n
  | .ack, id, l, k => match l.find? fun s => s.id == id with | some s => max k s.ricnt | none => k
  | .cancel, _, _, k => k

inductive ERun where
  /-- a failed assertion or internal error -/
  | crash
  /-- NGHTTP3_ERR_QPACK_DECODER_STREAM_ERROR -/
  | fail
  | ok (s : ESys)

def ESys.step (s : ESys) : EncOp → ERun
  | .setCap n => .ok { s with e := s.e.setMaxCap n }
  | .setMaxBlocked n => .ok { s with e := s.e.setMaxBlocked n }
  | .encode id nvs =>
    match s.e.encode id nvs with
    | none => .crash
    | some o => .ok
      { s with
        e := o.e
        secs := if o.ricnt = 0 then s.secs else s.secs ++ [⟨id, o.ricnt, o.base, o.reps, nvs⟩]
        inserted := s.inserted + (o.ins.filter EIns.isInsert).length
        fields := s.fields ++ nvs }
  | .instr op n =>
    match s.e.apply op n with
    | .crash => .crash
    | .fail => .fail
    | .ok e => .ok { s with e := e, secs := settle op n s.secs, known := knownAfter op n s.secs s.known }
  | .ackEverything => .ok { s with e := s.e.ackEverything, secs := [], known := s.inserted }

def ESys.run (s : ESys) : List EncOp → ERun
  | [] => .ok s
  | o :: t =>
    match s.step o with
    | .ok s' => s'.run t
    | r => r

def ESys.init (hardMax : Nat) : ESys := { e := Enc.init hardMax }

/-! ### The invariant -/

/-- a reference of the encoder and the outstanding section it stands for -/
structure RefOk (c : Ctx) (r : Ref) (s : Sec) : Prop where
  ric : r.max = s.ricnt
  nz : s.ricnt ≠ 0
  mn : ∀ rep ∈ s.reps, ∀ a ∈ rep.refs, r.min ≤ a + 1
  sec : SecOk c s.ricnt s.reps s.nvs

structure ESysOk (s : ESys) : Prop where
  inv : EInv s.e
  known : s.known = s.e.krcnt
  ins : s.inserted = s.e.ctx.next
  link : ∀ id, List.Forall₂ (RefOk s.e.ctx) ((s.e.find id).getD []) (s.secs.filter fun x => x.id == id)
  src : ∀ x ∈ s.e.ctx.ents, ∃ nv ∈ s.fields, nv.indexable ∧ x.name = nv.name ∧ x.value = nv.value

theorem InsRun.next {P : Bytes → Bytes → Prop} {c c' : Ctx} {l : List EIns} (h : InsRun P c l c') (hc : CtxB c) :
    c'.next = c.next + l.length ∧ l.filter EIns.isInsert = l := by
  induction h with
  | nil => exact ⟨rfl, rfl⟩
  | @cons c c1 c2 i is name value hash h1 h2 h3 h4 h0 h5 ih =>
    obtain ⟨g1, g2⟩ := ih h4.toCtxB
    have hn : c1.next = c.next + 1 := by
      unfold Ctx.add at h2
      dsimp only at h2
      split_ifs at h2
      rcases he : evictOld c.maxCap (tableSpace name.length value.length) c.ents.reverse c.size with _ | ⟨o, s⟩ <;> rw [he] at h2
      · cases h2
      · cases h2; rfl
    refine ⟨by rw [g1, hn, List.length_cons]; omega, ?_⟩
    rw [List.filter_cons_of_pos]
    · rw [g2]
    · cases i with
      | setCap n => exact h1.elim
      | _ => rfl

theorem upd_noInsert {e e' : Enc} {upd : List EIns} (h : UpdPost e e' upd) : upd.filter EIns.isInsert = [] := by
  obtain ⟨n, _, _, _, h1 | h1⟩ := h.ents
  · rw [h1.1]; rfl
  · rw [h1.2.2.2.2]
    split_ifs <;> rfl

theorem RefOk.ext {c c' : Ctx} {r : Ref} {s : Sec} (h : RefOk c r s) (hc : CtxB c) (hx : Ext c c') (hm : c'.oldest < r.min) :
    RefOk c' r s := by
  refine ⟨h.ric, h.nz, h.mn, ⟨?_, h.sec.refs, h.sec.tight⟩⟩
  have key : ∀ (reps : List Rep) (nvs : List Nv), (∀ rep ∈ reps, ∀ a ∈ rep.refs, r.min ≤ a + 1) →
      List.Forall₂ (fun rep nv => rep.denotes c nv) reps nvs → List.Forall₂ (fun rep nv => rep.denotes c' nv) reps nvs := by
    intro reps nvs hr hf
    induction hf with
    | nil => exact .nil
    | @cons a b l1 l2 hab _ ih =>
      refine .cons (Rep.denotes_ext hc hx ?_ hab) (ih fun rep hrep => hr rep (List.mem_cons_of_mem _ hrep))
      intro x hx'
      have := hr a (List.mem_cons_self ..) x hx'
      omega
  exact key _ _ h.mn h.sec.den

theorem link_ext {c : Ctx} {e' : Enc} {id : Nat} {secs : List Sec} {refs : List Ref} (hc : CtxB c) (hx : Ext c e'.ctx)
    (hm : ∀ r ∈ refs, e'.ctx.oldest < r.min) (h : List.Forall₂ (RefOk c) refs secs) :
    List.Forall₂ (RefOk e'.ctx) refs secs := by
  induction h with
  | nil => exact .nil
  | cons hab _ ih =>
    exact .cons (hab.ext hc hx (hm _ (List.mem_cons_self ..))) (ih fun r hr => hm r (List.mem_cons_of_mem _ hr))

theorem find_refs {e : Enc} (h : EInv e) {id : Nat} {r : Ref} (hr : r ∈ (e.find id).getD []) :
    e.ctx.oldest < r.min ∧ r.min ≤ r.max ∧ r.max ≤ e.ctx.next := by
  rcases hf : e.find id with _ | refs
  · rw [hf] at hr; simp at hr
  · rw [hf] at hr
    exact h.refs _ ((find_iff h.ids id refs).1 hf) r hr

theorem filter_eraseP_ne {l : List Sec} {id i : Nat} (h : i ≠ id) :
    (l.eraseP fun s => s.id == id).filter (fun s => s.id == i) = l.filter fun s => s.id == i := by
  induction l with
  | nil => rfl
  | cons a t ih =>
    by_cases ha : a.id = id
    · rw [List.eraseP_cons_of_pos (by simpa using ha), List.filter_cons_of_neg]
      simp [ha, Ne.symm h]
    · rw [List.eraseP_cons_of_neg (by simpa using ha)]
      by_cases hi : a.id = i
      · rw [List.filter_cons_of_pos (by simpa using hi), List.filter_cons_of_pos (by simpa using hi), ih]
      · rw [List.filter_cons_of_neg (by simpa using hi), List.filter_cons_of_neg (by simpa using hi), ih]

theorem filter_eraseP_eq {l : List Sec} {id : Nat} :
    (l.eraseP fun s => s.id == id).filter (fun s => s.id == id) = (l.filter fun s => s.id == id).tail := by
  induction l with
  | nil => rfl
  | cons a t ih =>
    by_cases ha : a.id = id
    · rw [List.eraseP_cons_of_pos (by simpa using ha), List.filter_cons_of_pos (by simpa using ha)]; rfl
    · rw [List.eraseP_cons_of_neg (by simpa using ha), List.filter_cons_of_neg (by simpa using ha), List.filter_cons_of_neg (by simpa using ha), ih]

theorem find_head {l : List Sec} {id : Nat} : l.find? (fun s => s.id == id) = (l.filter fun s => s.id == id).head? := by
  rw [List.head?_filter]

theorem esys_init (hardMax : Nat) : ESysOk (ESys.init hardMax) :=
  ⟨EInv.init hardMax, rfl, rfl, fun id => .nil, by simp [ESys.init, Enc.init]⟩

theorem esys_instr {s : ESys} (h : ESysOk s) (op : DOpc) (n : Nat) :
    s.step (.instr op n) = .fail ∨ ∃ s', s.step (.instr op n) = .ok s' ∧ ESysOk s' ∧ s.known ≤ s'.known ∧
      s'.e.blocked.length ≤ s.e.blocked.length ∧ s'.e.ctx = s.e.ctx := by
  unfold ESys.step
  dsimp only
  cases op with
  | icnt =>
    rcases addIcnt_ok h.inv n with h1 | ⟨e', h1, h2, h3, h4, h5, h6, h7⟩
    · left; simp only [Enc.apply, h1.1]
    · right
      simp only [Enc.apply, h1]
      have hf : ∀ i, e'.find i = s.e.find i := by intro i; rw [h6]; rfl
      refine ⟨_, rfl, ⟨h4, ?_, ?_, ?_, ?_⟩, ?_, ?_, by rw [h6]⟩
      · dsimp only [knownAfter]; rw [h5, h.known]
      · dsimp only; rw [h6]; exact h.ins
      · intro id
        dsimp only [settle]
        rw [hf, h6]; exact h.link id
      · dsimp only; rw [h6]; exact h.src
      · dsimp only [knownAfter]; omega
      · dsimp only; rw [h7]; exact List.length_filter_le _ _
  | ack =>
    rcases ackHeader_ok h.inv n with ⟨_, h1⟩ | ⟨r, rest, e', h0, h1, h4, h5, hf, h6, h7⟩
    · left; simp only [Enc.apply, h1]
    · right
      simp only [Enc.apply, h1]
      have hl := h.link n
      rw [h0, Option.getD_some] at hl
      rcases hs : s.secs.filter (fun x => x.id == n) with _ | ⟨s0, ss⟩ <;> rw [hs] at hl
      · cases hl
      obtain ⟨hr0, hrest⟩ := List.forall₂_cons.1 hl
      have hk : knownAfter .ack n s.secs s.known = max s.known s0.ricnt := by
        unfold knownAfter
        dsimp only
        rw [find_head, hs]; rfl
      refine ⟨_, rfl, ⟨h4, ?_, ?_, ?_, ?_⟩, ?_, ?_, by rw [h6]⟩
      · dsimp only; rw [hk, h5, h.known, hr0.ric]
      · dsimp only; rw [h6]; exact h.ins
      · intro id
        dsimp only [settle]
        rw [hf id]
        have hcx : e'.ctx = s.e.ctx := by rw [h6]
        rw [hcx]
        split_ifs with hi hr
        · subst hi hr
          rw [filter_eraseP_eq, hs]; exact hrest
        · subst hi
          rw [filter_eraseP_eq, hs]; exact hrest
        · rw [filter_eraseP_ne hi]; exact h.link id
      · dsimp only; rw [h6]; exact h.src
      · dsimp only; rw [hk]; omega
      · dsimp only; rw [h7]; exact List.length_filter_le _ _
  | cancel =>
    obtain ⟨e', h1, h2, hf, h6, h7⟩ := cancelStream_ok h.inv n
    right
    simp only [Enc.apply, h1]
    have hcx : e'.ctx = s.e.ctx := by rw [h6]
    refine ⟨_, rfl, ⟨h2, ?_, ?_, ?_, ?_⟩, Nat.le_refl _, h7.length_le, hcx⟩
    · dsimp only [knownAfter]; rw [h6]; exact h.known
    · dsimp only; rw [hcx]; exact h.ins
    · intro id
      dsimp only [settle]
      rw [hf id, hcx, List.filter_filter]
      split_ifs with hi
      · subst hi
        have : (s.secs.filter fun a => (a.id == id) && (a.id != id)) = [] := by
          rw [List.filter_eq_nil_iff]; intro a _; by_cases ha : a.id = id <;> simp [ha]
        rw [this]; exact .nil
      · have : (s.secs.filter fun a => (a.id == id) && (a.id != n)) = s.secs.filter fun a => a.id == id := by
          apply List.filter_congr
          intro a _
          by_cases ha : a.id = id
          · simp [ha, hi]
          · simp [ha]
        rw [this]; exact h.link id
    · dsimp only; rw [hcx]; exact h.src

theorem esys_encode {s : ESys} (h : ESysOk s) (id : Nat) (nvs : List Nv) :
    ∃ o s', s.e.encode id nvs = some o ∧ EncPost s.e id nvs o ∧ s.step (.encode id nvs) = .ok s' ∧ ESysOk s' ∧ s'.e = o.e ∧
      s'.known = s.known := by
  obtain ⟨o, ho, hp⟩ := encode_ok h.inv id nvs
  unfold ESys.step
  dsimp only
  rw [ho]
  refine ⟨o, _, rfl, hp, rfl, ⟨hp.inv, ?_, ?_, ?_, ?_⟩, rfl, rfl⟩
  · dsimp only; rw [hp.kr]; exact h.known
  · obtain ⟨e1, upd, ins, g1, g2, g3, _⟩ := hp.upd
    have hn := g3.next g1.inv.ctx
    dsimp only
    rw [g2, List.filter_append, upd_noInsert g1, hn.2, hn.1, g1.next, h.ins]
    rfl
  · intro i
    have hold : List.Forall₂ (RefOk o.e.ctx) ((s.e.find i).getD []) (s.secs.filter fun x => x.id == i) := by
      refine link_ext (id := i) h.inv.ctx hp.ext ?_ (h.link i)
      intro r hr
      by_cases h0 : o.ricnt = 0
      · rw [← hp.find0 h0] at hr
        exact (find_refs hp.inv hr).1
      · obtain ⟨m, _, hf⟩ := hp.find h0
        refine (find_refs hp.inv (id := i) ?_).1
        rw [hf i]
        split_ifs with hi
        · subst hi
          rw [Option.getD_some]
          exact List.mem_append_left _ hr
        · exact hr
    dsimp only
    by_cases h0 : o.ricnt = 0
    · rw [if_pos h0, hp.find0 h0]; exact hold
    · rw [if_neg h0]
      obtain ⟨m, hm, hf⟩ := hp.find h0
      rw [hf i, List.filter_append]
      split_ifs with hi
      · subst hi
        rw [Option.getD_some]
        refine List.rel_append hold ?_
        rw [List.filter_cons_of_pos (by simp)]
        exact .cons ⟨rfl, h0, hm, hp.sec⟩ .nil
      · rw [List.filter_cons_of_neg (by simpa using Ne.symm hi), List.filter_nil, List.append_nil]
        exact hold
  · intro x hx
    dsimp only
    rcases hp.src x hx with h1 | ⟨nv, h1, h2⟩
    · obtain ⟨nv, g1, g2⟩ := h.src x h1
      exact ⟨nv, List.mem_append_left _ g1, g2⟩
    · exact ⟨nv, List.mem_append_right _ h1, h2⟩

theorem setMaxCap_frame (e : Enc) (n : Nat) : (e.setMaxCap n).streams = e.streams ∧ (e.setMaxCap n).krcnt = e.krcnt ∧
    (e.setMaxCap n).blocked = e.blocked ∧ (e.setMaxCap n).ctx = { e.ctx with maxCap := (e.setMaxCap n).ctx.maxCap } := by
  unfold Enc.setMaxCap
  dsimp only
  split_ifs <;> exact ⟨rfl, rfl, rfl, rfl⟩

theorem esys_step {s : ESys} (h : ESysOk s) (o : EncOp) :
    s.step o = .fail ∨ ∃ s', s.step o = .ok s' ∧ ESysOk s' ∧ s.known ≤ s'.known := by
  cases o with
  | setCap n =>
    right
    obtain ⟨h1, h2, h3, h4⟩ := setMaxCap_frame s.e n
    refine ⟨_, rfl, ⟨h.inv.setMaxCap n, ?_, ?_, ?_, ?_⟩, Nat.le_refl _⟩
    · dsimp only; rw [h2]; exact h.known
    · dsimp only; rw [h4]; exact h.ins
    · intro id
      have hf : (s.e.setMaxCap n).find id = s.e.find id := by unfold Enc.find; rw [h1]
      dsimp only
      rw [hf]
      refine link_ext (id := id) h.inv.ctx ?_ (fun r hr => ?_) (h.link id)
      · rw [h4]; exact ⟨Nat.le_refl _, Nat.le_refl _, fun _ _ _ => rfl⟩
      · rw [h4]; exact (find_refs h.inv hr).1
    · dsimp only; rw [h4]; exact h.src
  | setMaxBlocked n =>
    right
    refine ⟨_, rfl, ⟨h.inv.setMaxBlocked n, h.known, h.ins, ?_, h.src⟩, Nat.le_refl _⟩
    intro id
    refine link_ext (id := id) h.inv.ctx ?_ (fun r hr => ?_) (h.link id)
    · exact ⟨Nat.le_refl _, Nat.le_refl _, fun _ _ _ => rfl⟩
    · exact (find_refs h.inv (id := id) hr).1
  | encode id nvs =>
    right
    obtain ⟨o, s', _, _, h1, h2, _, h3⟩ := esys_encode h id nvs
    exact ⟨s', h1, h2, by omega⟩
  | instr op n =>
    rcases esys_instr h op n with h1 | ⟨s', h1, h2, h3, _⟩
    · exact Or.inl h1
    · exact Or.inr ⟨s', h1, h2, h3⟩
  | ackEverything =>
    right
    obtain ⟨h1, h2⟩ := ackEverything_ok h.inv
    refine ⟨_, rfl, ⟨h1, h.ins, h.ins, ?_, h.src⟩, ?_⟩
    · intro id
      dsimp only
      rw [h2]; exact .nil
    · dsimp only
      have h3 := h.known
      have h4 := h.ins
      have h5 := h.inv.kr
      omega

theorem esys_run {s : ESys} (h : ESysOk s) (ops : List EncOp) :
    s.run ops = .fail ∨ ∃ s', s.run ops = .ok s' ∧ ESysOk s' := by
  induction ops generalizing s with
  | nil => exact Or.inr ⟨s, rfl, h⟩
  | cons o t ih =>
    unfold ESys.run
    rcases esys_step h o with h1 | ⟨s1, h1, h2, _⟩
    · rw [h1]; exact Or.inl rfl
    · rw [h1]; exact ih h2

theorem esys_reach {hardMax : Nat} {ops : List EncOp} {s : ESys} (hr : (ESys.init hardMax).run ops = .ok s) : ESysOk s := by
  rcases esys_run (esys_init hardMax) ops with h | ⟨s', h, h2⟩
  · rw [h] at hr; cases hr
  · rw [h] at hr; cases hr; exact h2

/-- the outstanding sections are good -/
theorem sec_ok {s : ESys} (h : ESysOk s) {x : Sec} (hx : x ∈ s.secs) :
    x.ricnt ≠ 0 ∧ SecOk s.e.ctx x.ricnt x.reps x.nvs ∧ x.ricnt ≤ s.inserted ∧ ∃ r refs, s.e.find x.id = some refs ∧ r ∈ refs ∧ r.max = x.ricnt := by
  have hl := h.link x.id
  have hm : x ∈ s.secs.filter fun y => y.id == x.id := List.mem_filter.2 ⟨hx, by simp⟩
  obtain ⟨r, hr, hro⟩ : ∃ r ∈ (s.e.find x.id).getD [], RefOk s.e.ctx r x := by
    generalize (s.secs.filter fun y => y.id == x.id) = l at hl hm
    generalize (s.e.find x.id).getD [] = refs at hl
    induction hl with
    | nil => simp at hm
    | cons hab _ ih =>
      rcases List.mem_cons.1 hm with rfl | hm
      · exact ⟨_, List.mem_cons_self .., hab⟩
      · obtain ⟨r, g1, g2⟩ := ih hm
        exact ⟨r, List.mem_cons_of_mem _ g1, g2⟩
  have := find_refs h.inv hr
  have h1 := hro.ric
  have h2 := h.ins
  refine ⟨hro.nz, hro.sec, by omega, ?_⟩
  rcases hf : s.e.find x.id with _ | refs
  · rw [hf] at hr; simp at hr
  · rw [hf] at hr; exact ⟨r, refs, rfl, hr, h1⟩

end Qpack

namespace Props
open Qpack

/-! ### Non-trivial histories -/

/-- does a history end well, in a state with the given property -/
def _root_.Nghttp3.Qpack.ERun.satisfies (r : ERun) (p : ESys → Bool) : Bool :=
  match r with
  | .ok s => p s
  | _ => false

/-- "x-a: 1", "x-b: 22" to be indexed, "x-c: 3" never to be -/
def nvA : Nv := { name := [120, 45, 97], value := [49], tryIndex := true }
def nvB : Nv := { name := [120, 45, 98], value := [50, 50], tryIndex := true }
def nvC : Nv := { name := [120, 45, 99], value := [51], never := true }

/-- a history with two blocked streams, an acknowledgement, an increment and a table that has to shrink -/
def history : List EncOp :=
  [.setCap 200, .setMaxBlocked 2, .encode 0 [nvA, nvB], .encode 4 [nvB, nvC, nvA], .encode 8 [nvA], .instr .ack 0,
    .encode 0 [nvA], .setCap 40, .encode 12 [nvB], .instr .icnt 0, .instr .cancel 4]

/-- two streams are blocked, three sections outstanding after the first encodes … -/
example : ((ESys.init 4096).run (history.take 4)).satisfies (fun s =>
    s.secs.length == 2 && s.inserted == 2 && s.e.numBlocked == 2 && s.e.ctx.ents.length == 2 && s.known == 0) = true := by decide +kernel

/-- … after the acknowledgement nothing is blocked, but stream 4's section is outstanding; the smaller capacity evicts nothing it
refers to -/
example : ((ESys.init 4096).run (history.take 9)).satisfies (fun s =>
    s.secs.length == 3 && s.known == 2 && s.e.numBlocked == 0 && s.e.ctx.ents.length == 2 && s.e.pending) = true := by decide +kernel

/-- a zero increment is refused -/
example : (match (ESys.init 4096).run (history.take 10) with | .fail => true | _ => false) = true := by decide +kernel


/-! ### C14 -/

/-- C14.  In every history, no matter how capacities change and what feedback arrives: every dynamic-table entry
that a field section neither acknowledged nor cancelled refers to is in the table. -/
theorem C14_referenced_entries_stay (hardMax : Nat) (ops : List EncOp) (s : ESys) (hr : (ESys.init hardMax).run ops = .ok s)
    (x : Sec) (hx : x ∈ s.secs) (rep : Rep) (hrep : rep ∈ x.reps) (a : Nat) (ha : a ∈ rep.refs) :
    ∃ ent, s.e.ctx.get a = some ent ∧ ent ∈ s.e.ctx.ents ∧ ent.absidx = a := by
  have h := esys_reach hr
  obtain ⟨_, hs, _⟩ := sec_ok h hx
  have hd := hs.den
  obtain ⟨nv, hnv⟩ : ∃ nv, rep.denotes s.e.ctx nv := by
    generalize x.reps = reps at hd hrep
    generalize x.nvs = nvs at hd
    induction hd with
    | nil => simp at hrep
    | cons hab _ ih =>
      rcases List.mem_cons.1 hrep with rfl | hrep
      · exact ⟨_, hab⟩
      · exact ih hrep
  have : ∃ ent, s.e.ctx.get a = some ent := by
    cases rep <;> simp [Rep.refs] at ha
    · subst ha; obtain ⟨_, ent, h1, _⟩ := hnv; exact ⟨ent, h1⟩
    · subst ha; obtain ⟨_, _, ent, h1, _⟩ := hnv; exact ⟨ent, h1⟩
  obtain ⟨ent, h1⟩ := this
  have := h.inv.ctx.get_range h1
  exact ⟨ent, h1, this.2.2.2, this.2.2.1⟩

/-- C14.  … and it still is the entry the section was encoded with: each representation of an outstanding section denotes,
with respect to the present table, the field it was written for. -/
theorem C14_sections_keep_their_meaning (hardMax : Nat) (ops : List EncOp) (s : ESys) (hr : (ESys.init hardMax).run ops = .ok s)
    (x : Sec) (hx : x ∈ s.secs) : List.Forall₂ (fun rep nv => rep.denotes s.e.ctx nv) x.reps x.nvs :=
  (sec_ok (esys_reach hr) hx).2.1.den

/-- C14, C15, C19.  No history makes an assertion of the encoder fail. -/
theorem C14_encoder_never_crashes (hardMax : Nat) (ops : List EncOp) : (ESys.init hardMax).run ops ≠ .crash := by
  rcases esys_run (esys_init hardMax) ops with h | ⟨s, h, _⟩ <;> rw [h] <;> simp

/-! ### C15 -/

/-- C15.  In every history the reported number of blocked streams is the number of streams with an outstanding section that
needs more insertions than the peer is known to have received. -/
theorem C15_reported_number_is_exact (hardMax : Nat) (ops : List EncOp) (s : ESys) (hr : (ESys.init hardMax).run ops = .ok s) :
    s.e.numBlocked = ((s.secs.filter fun x => decide (s.known < x.ricnt)).map Sec.id).dedup.length := by
  have h := esys_reach hr
  have hi := h.inv
  have hnd : (s.e.blocked.map Prod.snd).Nodup := by
    refine List.Nodup.map_on ?_ hi.bnd
    rintro ⟨m, i⟩ h1 ⟨m', i'⟩ h2 hii
    dsimp only at hii
    subst hii
    obtain ⟨refs, g1, g2, _⟩ := (hi.blk _ _).1 h1
    obtain ⟨refs', g3, g4, _⟩ := (hi.blk _ _).1 h2
    have := stream_unique hi.ids g1 g3
    subst this
    rw [g2, g4]
  have hmem : ∀ i, i ∈ s.e.blocked.map Prod.snd ↔ i ∈ ((s.secs.filter fun x => decide (s.known < x.ricnt)).map Sec.id).dedup := by
    intro i
    rw [List.mem_dedup]
    simp only [List.mem_map, List.mem_filter, decide_eq_true_eq]
    constructor
    · rintro ⟨⟨m, j⟩, h1, rfl⟩
      obtain ⟨refs, g1, g2, g3⟩ := (hi.blk _ _).1 h1
      rw [g2, lt_maxCnt] at g3
      obtain ⟨r, g4, g5⟩ := g3
      have hl := h.link j
      rw [(find_iff hi.ids j refs).2 g1, Option.getD_some] at hl
      obtain ⟨x, hx, hro⟩ : ∃ x ∈ s.secs.filter (fun y => y.id == j), RefOk s.e.ctx r x := by
        generalize (s.secs.filter fun y => y.id == j) = l at hl
        clear g1 g2
        induction hl with
        | nil => simp at g4
        | cons hab _ ih =>
          rcases List.mem_cons.1 g4 with rfl | g4
          · exact ⟨_, List.mem_cons_self .., hab⟩
          · obtain ⟨x, k1, k2⟩ := ih g4
            exact ⟨x, List.mem_cons_of_mem _ k1, k2⟩
      obtain ⟨k1, k2⟩ := List.mem_filter.1 hx
      refine ⟨x, ⟨k1, ?_⟩, by simpa using k2⟩
      rw [h.known, ← hro.ric]; exact g5
    · rintro ⟨x, ⟨h1, h2⟩, rfl⟩
      obtain ⟨_, _, _, r, refs, g1, g2, g3⟩ := sec_ok h h1
      have hm := (find_iff hi.ids x.id refs).1 g1
      refine ⟨(maxCnt refs, x.id), (hi.blk _ _).2 ⟨refs, hm, rfl, ?_⟩, rfl⟩
      rw [lt_maxCnt]
      exact ⟨r, g2, by rw [g3, ← h.known]; exact h2⟩
  have hperm : (s.e.blocked.map Prod.snd).Perm ((s.secs.filter fun x => decide (s.known < x.ricnt)).map Sec.id).dedup :=
    (List.perm_ext_iff_of_nodup hnd (List.nodup_dedup _)).2 hmem
  have := hperm.length_eq
  rw [List.length_map] at this
  exact this

/-- the limits an application sets in a history -/
def limits : List EncOp → List Nat
  | [] => []
  | .setMaxBlocked n :: t => n :: limits t
  | _ :: t => limits t

/-- C15.  In every history in which no limit above `M` has been set, the number of blocked streams is at most `M`: the
encoder never makes more streams blocked than it may. -/
theorem C15_limit_respected (hardMax M : Nat) (ops : List EncOp) (hM : ∀ n ∈ limits ops, n ≤ M) (s : ESys)
    (hr : (ESys.init hardMax).run ops = .ok s) :
    ((s.secs.filter fun x => decide (s.known < x.ricnt)).map Sec.id).dedup.length ≤ M := by
  rw [← C15_reported_number_is_exact hardMax ops s hr]
  have key : ∀ (ops : List EncOp) (s s' : ESys), ESysOk s → (∀ n ∈ limits ops, n ≤ M) → s.e.numBlocked ≤ M → s.e.ctx.maxBlocked ≤ M →
      s.run ops = .ok s' → s'.e.numBlocked ≤ M := by
    intro ops
    induction ops with
    | nil => intro s s' _ _ h1 _ h2; cases h2; exact h1
    | cons o t ih =>
      intro s s' hok hl h1 h2 hrun
      unfold ESys.run at hrun
      rcases esys_step hok o with h3 | ⟨s1, h3, h4, _⟩
      · rw [h3] at hrun; cases hrun
      rw [h3] at hrun
      dsimp only at hrun
      have hl' : ∀ n ∈ limits t, n ≤ M := fun n hn => hl n (by cases o <;> simp [limits, hn])
      suffices hs : s1.e.numBlocked ≤ M ∧ s1.e.ctx.maxBlocked ≤ M from ih s1 s' h4 hl' hs.1 hs.2 hrun
      cases o with
      | setCap n =>
        cases h3
        obtain ⟨_, _, g3, g4⟩ := setMaxCap_frame s.e n
        exact ⟨by unfold Enc.numBlocked; dsimp only; rw [g3]; exact h1, by dsimp only; rw [g4]; exact h2⟩
      | setMaxBlocked n => cases h3; exact ⟨h1, hl n (by simp [limits])⟩
      | encode id nvs =>
        obtain ⟨o, s2, _, hp, g3, _, g5, _⟩ := esys_encode hok id nvs
        rw [h3] at g3
        cases g3
        rw [g5]
        have := hp.blk
        have := hp.hard.2
        unfold Enc.numBlocked at *
        omega
      | instr op n =>
        rcases esys_instr hok op n with g | ⟨s2, g1, _, _, g4, g5⟩
        · rw [h3] at g; cases g
        · rw [h3] at g1; cases g1
          unfold Enc.numBlocked at *
          rw [g5]
          exact ⟨by omega, h2⟩
      | ackEverything => cases h3; exact ⟨Nat.zero_le _, h2⟩
  exact key ops _ s (esys_init hardMax) hM (Nat.zero_le _) (Nat.zero_le _) hr

/-! ### C19 -/

/-- C19.  In every history the peer is never believed to have received more than was inserted, and the count of insertions the
encoder reports is the number of insertions it has written. -/
theorem C19_known_never_ahead (hardMax : Nat) (ops : List EncOp) (s : ESys) (hr : (ESys.init hardMax).run ops = .ok s) :
    s.e.krcnt = s.known ∧ s.known ≤ s.inserted ∧ s.e.ctx.next = s.inserted := by
  have h := esys_reach hr
  have h1 := h.known
  have h2 := h.ins
  have h3 := h.inv.kr
  exact ⟨h1.symm, by omega, h2.symm⟩

/-- C19.  No event decreases the Known Received Count. -/
theorem C19_known_monotone (hardMax : Nat) (ops : List EncOp) (s : ESys) (hr : (ESys.init hardMax).run ops = .ok s) (o : EncOp)
    (s' : ESys) (hs : s.step o = .ok s') : s.e.krcnt ≤ s'.e.krcnt := by
  have h := esys_reach hr
  rcases esys_step h o with h1 | ⟨s1, h1, h2, h3⟩
  · rw [hs] at h1; cases h1
  · rw [hs] at h1; cases h1
    rw [← h.known, ← h2.known]; exact h3

theorem refused_iff {s : ESys} (h : ESysOk s) (n : Nat) :
    (s.step (.instr .ack n) = .fail ↔ ∀ x ∈ s.secs, x.id ≠ n) ∧
    (s.step (.instr .icnt n) = .fail ↔ n = 0 ∨ s.inserted < s.known + n) ∧
    s.step (.instr .cancel n) ≠ .fail := by
  refine ⟨?_, ?_, ?_⟩
  · unfold ESys.step
    dsimp only
    rcases ackHeader_ok h.inv n with ⟨h0, h1⟩ | ⟨r, rest, e', h0, h1, _⟩
    · simp only [Enc.apply, h1, true_iff]
      intro x hx hxn
      obtain ⟨_, _, _, r, refs, g1, _⟩ := sec_ok h hx
      rw [hxn, h0] at g1; cases g1
    · simp only [Enc.apply, h1, reduceCtorEq, false_iff]
      intro hall
      have hl := h.link n
      rw [h0, Option.getD_some] at hl
      have : (s.secs.filter fun x => x.id == n) = [] := by
        rw [List.filter_eq_nil_iff]; intro a ha; simpa using hall a ha
      rw [this] at hl
      cases hl
  · unfold ESys.step
    dsimp only
    rw [h.ins, h.known]
    rcases addIcnt_ok h.inv n with h1 | ⟨e', h1, h2, h3, _⟩
    · simp only [Enc.apply, h1.1, true_iff]; exact h1.2
    · simp only [Enc.apply, h1, reduceCtorEq, false_iff]; omega
  · unfold ESys.step
    dsimp only
    obtain ⟨e', h1, _⟩ := cancelStream_ok h.inv n
    simp only [Enc.apply, h1]
    simp

/-- C19.  An acknowledgement is refused exactly when the stream has no outstanding section; an increment exactly when it is zero
or exceeds what has been inserted; a cancellation never. -/
theorem C19_refused_iff (hardMax : Nat) (ops : List EncOp) (s : ESys) (hr : (ESys.init hardMax).run ops = .ok s) (n : Nat) :
    (s.step (.instr .ack n) = .fail ↔ ∀ x ∈ s.secs, x.id ≠ n) ∧
    (s.step (.instr .icnt n) = .fail ↔ n = 0 ∨ s.inserted < s.known + n) ∧
    s.step (.instr .cancel n) ≠ .fail :=
  refused_iff (esys_reach hr) n

/-! ### C19, on the bytes of the decoder stream -/

/-- like `EncOp`, but the peer's feedback arrives as bytes of the decoder stream, cut anywhere:
nghttp3_qpack_encoder_read_decoder -/
inductive BOp where
  | setCap (n : Nat)
  | setMaxBlocked (n : Nat)
  | encode (id : Nat) (nvs : List Nv)
  | read (bytes : Bytes)
  | ackEverything

def bstep (e : Enc) : BOp → DOut
  | .setCap n => .ok (e.setMaxCap n)
  | .setMaxBlocked n => .ok (e.setMaxBlocked n)
  | .encode id nvs => match e.encode id nvs with | none => .crash | some o => .ok o.e
  | .read b => e.readDecoder b
  | .ackEverything => .ok e.ackEverything

def brun (e : Enc) : List BOp → DOut
  | [] => .ok e
  | o :: t =>
    match bstep e o with
    | .ok e' => brun e' t
    | r => r

theorem dsStep_kr {e : Enc} (hw : DsWF e) {x : Bytes} :
    (∀ e', dsStep e x = .part e' → e'.krcnt = e.krcnt) ∧ (∀ e' r, dsStep e x = .cont e' r → e.krcnt ≤ e'.krcnt) := by
  have hnum : ∀ e : Enc, EInv e → (∀ e', dsNumber e x = .part e' → e'.krcnt = e.krcnt) ∧
      (∀ e' r, dsNumber e x = .cont e' r → e.krcnt ≤ e'.krcnt) := by
    intro e he
    unfold dsNumber
    rcases QInt.readInt e.rs.pfx e.rs.left e.rs.shift x with _ | _ | ⟨l, s⟩ | ⟨l, s, rest⟩ <;> dsimp only
    · exact ⟨fun _ h => (by cases h), fun _ _ h => (by cases h)⟩
    · exact ⟨fun _ h => (by cases h), fun _ _ h => (by cases h)⟩
    · exact ⟨fun _ h => (by cases h; rfl), fun _ _ h => (by cases h)⟩
    · have he1 : EInv { e with rs := { e.rs with left := l, shift := s } } := he.withRs _ _ _ _
      generalize hg : ({ e with rs := { e.rs with left := l, shift := s } } : Enc) = g at he1
      have hk : g.krcnt = e.krcnt := by rw [← hg]
      have hmono : ∀ e', g.apply e.dop l = .ok e' → g.krcnt ≤ e'.krcnt := by
        intro e' h
        rcases hd : e.dop <;> rw [hd] at h
        · rcases addIcnt_ok he1 l with h1 | ⟨e1, h1, _, _, _, h5, _⟩
          · rw [Enc.apply, h1.1] at h; cases h
          · rw [Enc.apply, h1] at h; cases h; omega
        · rcases ackHeader_ok he1 l with ⟨_, h1⟩ | ⟨r, rest, e1, _, h1, _, h5, _⟩
          · rw [Enc.apply, h1] at h; cases h
          · rw [Enc.apply, h1] at h; cases h
            rw [h5]; exact Nat.le_max_left _ _
        · obtain ⟨e1, h1, _, _, h6, _⟩ := cancelStream_ok he1 l
          rw [Enc.apply, h1] at h; cases h
          rw [h6]
      rcases ha : g.apply e.dop l with _ | _ | e1 <;> dsimp only
      · exact ⟨fun _ h => (by cases h), fun _ _ h => (by cases h)⟩
      · exact ⟨fun _ h => (by cases h), fun _ _ h => (by cases h)⟩
      · refine ⟨fun _ h => (by cases h), fun _ _ h => ?_⟩
        cases h
        have := hmono e1 ha
        dsimp only
        omega
  unfold dsStep
  split
  · exact hnum e hw.inv
  · cases x with
    | nil => exact ⟨fun _ h => (by cases h), fun _ _ h => (by cases h)⟩
    | cons b t =>
      have := hnum (dsOpcode e b) (dsOpcode_ok hw.inv b).1
      have hk : (dsOpcode e b).krcnt = e.krcnt := by unfold dsOpcode; split_ifs <;> rfl
      rw [hk] at this; exact this

theorem dsLoop_kr (f : Nat) (e : Enc) (hw : DsWF e) (x : Bytes) (e' : Enc) (h : dsLoop f e x = .ok e') : e.krcnt ≤ e'.krcnt := by
  induction f generalizing e x with
  | zero =>
    unfold dsLoop at h
    split_ifs at h
    cases h; exact Nat.le_refl _
  | succ f ih =>
    rw [dsLoop] at h
    split_ifs at h with hx
    · cases h; exact Nat.le_refl _
    · have hg := dsM_good.step e x hw (Or.inl hx)
      have hk := dsStep_kr hw (x := x)
      unfold dsM at hg
      rcases hs : dsStep e x with _ | _ | e1 | ⟨e1, r⟩ <;> rw [hs] at h hg hk
      · cases h
      · cases h
      · cases h; rw [hk.1 _ rfl]
      · have h1 := hk.2 _ _ rfl
        have h2 := ih e1 hg.1 r h
        omega

theorem dswf_keep {e e' : Enc} (h : DsWF e) (hi : EInv e') (h1 : e'.reading = e.reading) (h2 : e'.rs = e.rs) : DsWF e' :=
  ⟨hi, by rw [h1, h2]; exact h.rd, by rw [h1, h2]; exact h.idle⟩

theorem readDecoder_ok {e : Enc} (h : DsWF e) (b : Bytes) :
    e.readDecoder b = .fail ∨ ∃ e', e.readDecoder b = .ok e' ∧ DsWF e' ∧ e.krcnt ≤ e'.krcnt := by
  unfold Enc.readDecoder
  split_ifs with hb
  · exact Or.inr ⟨e, rfl, h, Nat.le_refl _⟩
  dsimp only
  split_ifs with hu
  · exact Or.inl rfl
  · have hw : DsWF { e with uninterrupted := e.uninterrupted + b.length } := ⟨h.inv.withRs _ _ _ _, h.rd, h.idle⟩
    have hs := dsLoop_safe hw b
    have hk := dsLoop_kr b.length _ hw b
    rcases hd : dsLoop b.length { e with uninterrupted := e.uninterrupted + b.length } b with _ | _ | e1 <;> rw [hd] at hs
    · exact absurd rfl hs.1
    · exact Or.inl rfl
    · exact Or.inr ⟨e1, rfl, hs.2 _ rfl, hk _ hd⟩

theorem bstep_ok {e : Enc} (h : DsWF e) (o : BOp) : bstep e o = .fail ∨ ∃ e', bstep e o = .ok e' ∧ DsWF e' ∧ e.krcnt ≤ e'.krcnt := by
  cases o with
  | setCap n =>
    right
    refine ⟨_, rfl, dswf_keep h (h.inv.setMaxCap n) ?_ ?_, ?_⟩
    · unfold Enc.setMaxCap; dsimp only; split_ifs <;> rfl
    · unfold Enc.setMaxCap; dsimp only; split_ifs <;> rfl
    · exact Nat.le_of_eq (setMaxCap_frame e n).2.1.symm
  | setMaxBlocked n => exact Or.inr ⟨_, rfl, dswf_keep h (h.inv.setMaxBlocked n) rfl rfl, Nat.le_refl _⟩
  | encode id nvs =>
    obtain ⟨o, ho, hp⟩ := encode_ok h.inv id nvs
    right
    refine ⟨o.e, by unfold bstep; dsimp only; rw [ho], dswf_keep h hp.inv hp.rd.1 hp.rd.2.2, by rw [hp.kr]⟩
  | read b => exact readDecoder_ok h b
  | ackEverything =>
    exact Or.inr ⟨_, rfl, dswf_keep h (ackEverything_ok h.inv).1 rfl rfl, h.inv.kr⟩

theorem brun_ok {e : Enc} (h : DsWF e) (ops : List BOp) : brun e ops = .fail ∨ ∃ e', brun e ops = .ok e' ∧ DsWF e' := by
  induction ops generalizing e with
  | nil => exact Or.inr ⟨e, rfl, h⟩
  | cons o t ih =>
    unfold brun
    rcases bstep_ok h o with h1 | ⟨e1, h1, h2, _⟩
    · rw [h1]; exact Or.inl rfl
    · rw [h1]; exact ih h2

theorem dswf_init (hardMax : Nat) : DsWF (Enc.init hardMax) := ⟨EInv.init hardMax, fun h => (by cases h), fun _ => ⟨rfl, rfl⟩⟩

theorem brun_reach {hardMax : Nat} {ops : List BOp} {e : Enc} (hr : brun (Enc.init hardMax) ops = .ok e) : DsWF e := by
  rcases brun_ok (dswf_init hardMax) ops with h | ⟨e1, h1, h2⟩
  · rw [h] at hr; cases hr
  · rw [h1] at hr; cases hr; exact h2

/-- C19.  Arbitrary bytes on the decoder stream, cut anywhere and interleaved with anything, never make an assertion of
the encoder fail. -/
theorem C19_bytes_never_crash (hardMax : Nat) (ops : List BOp) : brun (Enc.init hardMax) ops ≠ .crash := by
  rcases brun_ok (dswf_init hardMax) ops with h | ⟨e, h, _⟩ <;> rw [h] <;> simp

/-- C19.  … and in the state they lead to, the known received count is at most the number of insertions and no further event
decreases it. -/
theorem C19_bytes_known (hardMax : Nat) (ops : List BOp) (e : Enc) (hr : brun (Enc.init hardMax) ops = .ok e) :
    e.krcnt ≤ e.ctx.next ∧ ∀ o e', bstep e o = .ok e' → e.krcnt ≤ e'.krcnt := by
  have h := brun_reach hr
  refine ⟨h.inv.kr, fun o e' he => ?_⟩
  rcases bstep_ok h o with h1 | ⟨e1, h1, _, h3⟩
  · rw [h1] at he; cases he
  · rw [h1] at he; cases he; exact h3

/-- C19.  Reading decoder stream bytes in two pieces gives the same result as reading them at once, wherever the cut. -/
theorem C19_bytes_cut_anywhere (hardMax : Nat) (ops : List BOp) (e : Enc) (hr : brun (Enc.init hardMax) ops = .ok e) (x y : Bytes)
    (hlim : e.uninterrupted + (x ++ y).length ≤ 4096) :
    (brun e [.read x, .read y]) = e.readDecoder (x ++ y) := by
  have h := brun_reach hr
  have hlen : (x ++ y).length = x.length + y.length := List.length_append
  by_cases hx : x = []
  · subst hx
    simp only [brun, bstep, Enc.readDecoder, if_pos, List.nil_append]
    generalize (if y = [] then DOut.ok e else _) = z
    cases z <;> rfl
  by_cases hy : y = []
  · subst hy
    simp only [List.append_nil, brun, bstep]
    rcases e.readDecoder x with _ | _ | e1
    · rfl
    · rfl
    · simp [Enc.readDecoder]
  have hxy : x ++ y ≠ [] := by simp [hx]
  have hw : DsWF e := h
  unfold brun bstep
  dsimp only
  unfold Enc.readDecoder
  rw [if_neg hx, if_neg hxy]
  dsimp only
  rw [if_neg (by omega), if_neg (by omega)]
  rw [show ({ e with uninterrupted := e.uninterrupted + x.length } : Enc) = e.setU (e.uninterrupted + x.length) from rfl,
    show ({ e with uninterrupted := e.uninterrupted + (x ++ y).length } : Enc) = e.setU (e.uninterrupted + (x ++ y).length) from rfl,
    setU_loop, setU_loop, dsLoop_append hw x y]
  rcases hd : dsLoop x.length e x with _ | _ | e1
  · rfl
  · rfl
  · simp only [DOut.setU, brun, bstep, Enc.readDecoder, if_neg hy]
    rw [show (e1.setU (e.uninterrupted + x.length)).uninterrupted = e.uninterrupted + x.length from rfl, if_neg (by omega)]
    rw [show ({ e1.setU (e.uninterrupted + x.length) with uninterrupted := e.uninterrupted + x.length + y.length } : Enc) =
      e1.setU (e.uninterrupted + x.length + y.length) from rfl, setU_loop, hlen, Nat.add_assoc]
    rcases dsLoop y.length e1 y with _ | _ | _ <;> rfl

/-- C19.  Reading whole instructions, encoded in any way RFC 9204 allows (up to ten bytes each), has exactly the effect of the
instructions one after the other, and is refused exactly when one of them is. -/
theorem C19_bytes_are_instructions (hardMax : Nat) (ops : List BOp) (e : Enc) (hr : brun (Enc.init hardMax) ops = .ok e)
    (hb : e.reading = false) (l : List (Bytes × DOpc × Nat)) (hl : ∀ x ∈ l, DsInstr x.1 x.2.1 x.2.2)
    (hlim : e.uninterrupted + (l.flatMap (·.1)).length ≤ 4096) :
    (e.applyAll (l.map (·.2)) = .fail ∧ e.readDecoder (l.flatMap (·.1)) = .fail) ∨
    ∃ e1 e2, e.applyAll (l.map (·.2)) = .ok e1 ∧ e.readDecoder (l.flatMap (·.1)) = .ok e2 ∧ e2.core = e1.core ∧ e2.reading = false := by
  have h := brun_reach hr
  have hi := dsLoop_instrs l hl h hb
  unfold Enc.readDecoder
  by_cases h0 : l.flatMap (·.1) = []
  · rw [if_pos h0]
    rw [h0] at hi
    have hl0 : dsLoop ([] : Bytes).length e [] = .ok e := rfl
    rw [hl0] at hi
    rcases ha : e.applyAll (l.map (·.2)) with _ | _ | e1 <;> rw [ha] at hi
    · exact hi.elim
    · cases hi
    · obtain ⟨e2, g1, g2, g3⟩ := hi
      cases g1
      exact Or.inr ⟨e1, e, ha, rfl, g2, g3⟩
  · rw [if_neg h0]
    dsimp only
    rw [if_neg (by omega)]
    rw [show ({ e with uninterrupted := e.uninterrupted + (l.flatMap (·.1)).length } : Enc) = e.setU (e.uninterrupted + (l.flatMap (·.1)).length) from rfl,
      setU_loop]
    rcases ha : e.applyAll (l.map (·.2)) with _ | _ | e1 <;> rw [ha] at hi
    · exact hi.elim
    · left; exact ⟨ha, by rw [hi]; rfl⟩
    · right
      obtain ⟨e2, g1, g2, g3⟩ := hi
      exact ⟨e1, e2.setU (e.uninterrupted + (l.flatMap (·.1)).length), ha, by rw [g1]; rfl, g2, g3⟩

/-! ### C22 -/

theorem mapFind_nameOnly (c : Ctx) (k : Nat) (allow : Bool) (nv : Nv) (token : Option Nat) (hash : Nat) (l : List Ent) (pb : Option Ent) :
    (mapFind c k allow true nv token hash l none pb).1 = false := by
  induction l generalizing pb with
  | nil => rfl
  | cons p t ih =>
    unfold mapFind
    split
    · exact ih pb
    · split
      · rw [if_pos ⟨rfl, rfl⟩]
      · exact ih _

theorem put_head (b : UInt8) (n : Nat) {p : Nat} (t : Bytes) (hp : p ≤ 8) :
    ∃ c u, QInt.put b n p ++ t = c :: u ∧ c.toNat / 2 ^ p = b.toNat / 2 ^ p := by
  obtain ⟨c, u, h1, h2⟩ := QInt.put_cons b n hp
  exact ⟨c, u ++ t, by rw [h1]; rfl, h2⟩

theorem never_bytes {rep : Rep} (h : rep.neverBit = true) (base : Nat) : NeverLiteral (rep.bytes base) := by
  cases rep with
  | static i => cases h
  | dyn a => cases h
  | nameStatic i v nvr =>
    cases h
    unfold Rep.bytes indexedNameBytes
    obtain ⟨c, u, h1, h2⟩ := put_head (0x50 ||| if true then 0x20 else 0) i (p := 4) (strBytes 0 7 v) (by simp)
    dsimp only
    rw [h1]
    have : c.toNat / 16 = 7 := h2
    exact Or.inl (by omega)
  | nameDyn a v nvr =>
    cases h
    unfold Rep.bytes indexedNameBytes
    dsimp only
    by_cases hab : a < base
    · rw [if_pos hab]
      obtain ⟨c, u, h1, h2⟩ := put_head (0x40 ||| if true then 0x20 else 0) (base - a - 1) (p := 4) (strBytes 0 7 v) (by simp)
      rw [h1]
      have : c.toNat / 16 = 6 := h2
      exact Or.inl (by omega)
    · rw [if_neg hab]
      obtain ⟨c, u, h1, h2⟩ := put_head (if true then 0x08 else 0) (a - base) (p := 3) (strBytes 0 7 v) (by simp)
      rw [h1]
      have : c.toNat / 8 = 1 := h2
      exact Or.inr (Or.inl this)
  | lit n v nvr =>
    cases h
    unfold Rep.bytes literalBytes
    dsimp only
    generalize strBytes 0 7 v = tl
    unfold strBytes
    by_cases hab : Huff.encodeCount n < n.length
    · rw [if_pos hab, List.append_assoc]
      obtain ⟨c, u, h1, h2⟩ := put_head (((0x20 : UInt8) ||| if true then (0x10 : UInt8) else 0) ||| UInt8.ofNat (1 <<< 3)) (Huff.encodeCount n) (p := 3)
        (Huff.encode n ++ tl) (by simp)
      rw [h1]
      have : c.toNat / 8 = 7 := h2
      exact Or.inr (Or.inr (by omega))
    · rw [if_neg hab, List.append_assoc]
      obtain ⟨c, u, h1, h2⟩ := put_head (0x20 ||| if true then 0x10 else 0) n.length (p := 3) (n ++ tl) (by simp)
      rw [h1]
      have : c.toNat / 8 = 6 := h2
      exact Or.inr (Or.inr (by omega))

/-- C22.  In every state of the encoder, whatever the table holds: a field with the never-index flag changes nothing in the
encoder, writes no encoder instruction, and is written as a literal with the never-index bit carrying the field's value. -/
theorem C22_never_literal (e : Enc) (mx : Nat) (mn : Option Nat) (allow : Bool) (nv : Nv) (hn : nv.never = true) (o : NvOut)
    (ho : e.encodeNv mx mn allow nv = some o) :
    o.e = e ∧ o.ins = [] ∧ o.rep.neverBit = true ∧ ∀ base, NeverLiteral (o.rep.bytes base) := by
  have hmode : ∀ t, decideMode e.ctx.maxCap nv t = .never := by intro t; unfold decideMode; dsimp only; rw [if_pos hn]
  have key : o.e = e ∧ o.ins = [] ∧ o.rep.neverBit = true := by
    have hdyn : ∀ token sidx, e.encodeNvDyn mx mn allow nv token .never sidx = some o → o.e = e ∧ o.ins = [] ∧ o.rep.neverBit = true := by
      intro token sidx h
      unfold Enc.encodeNvDyn at h
      dsimp only at h
      rcases hd : (if e.streams.length < MAX_QPACK_STREAMS then
        e.lookupDtable nv token (nvHash nv token) Mode.never allow else (false, none, none)) with ⟨d1, d2, d3⟩
      rw [hd] at h
      have hd1 : d1 = false := by
        have : (if e.streams.length < MAX_QPACK_STREAMS then
          e.lookupDtable nv token (nvHash nv token) Mode.never allow else (false, none, none)).1 = false := by
          split_ifs
          · exact mapFind_nameOnly ..
          · rfl
        rw [hd] at this; exact this
      subst hd1
      simp only [reduceCtorEq, decide_false, Bool.and_false, Bool.false_and] at h
      rcases sidx with _ | i <;> rcases d2 with _ | x <;> dsimp only at h
      · simp only [Enc.encodeLit, Bool.false_eq_true, if_false] at h; cases h; exact ⟨rfl, rfl, hn⟩
      · simp only [Enc.encodeDynName, Bool.false_eq_true, if_false] at h; cases h; exact ⟨rfl, rfl, hn⟩
      · simp only [Enc.encodeStaticName, Bool.false_eq_true, if_false] at h; cases h; exact ⟨rfl, rfl, hn⟩
      · simp only [Enc.encodeStaticName, Bool.false_eq_true, if_false] at h; cases h; exact ⟨rfl, rfl, hn⟩
    unfold Enc.encodeNv at ho
    dsimp only at ho
    rw [hmode] at ho
    rcases hl : lookupToken nv.name with _ | t <;> rw [hl] at ho <;> dsimp only at ho
    · exact hdyn _ _ ho
    · by_cases ht : t < tokenStable.length
      · rw [if_pos ht] at ho
        simp only [lookupStable, if_true] at ho
        exact hdyn _ _ ho
      · rw [if_neg ht] at ho
        exact hdyn _ _ ho
  exact ⟨key.1, key.2.1, key.2.2, fun base => never_bytes key.2.2 base⟩

/-- C22.  … in particular in every history: each field of a field section that has the flag is written as such a literal, … -/
theorem C22_never_literal_in_sections (hardMax : Nat) (ops : List EncOp) (s : ESys) (hr : (ESys.init hardMax).run ops = .ok s)
    (id : Nat) (nvs : List Nv) :
    ∃ o, s.e.encode id nvs = some o ∧
      List.Forall₂ (fun rep nv => nv.never = true → NeverLiteral (rep.bytes o.base)) o.reps nvs := by
  obtain ⟨o, ho, hp⟩ := encode_ok (esys_reach hr).inv id nvs
  refine ⟨o, ho, ?_⟩
  have hd := hp.sec.den
  generalize o.reps = reps at hd
  clear hp ho
  induction hd with
  | nil => exact .nil
  | @cons rep nv _ _ hab _ ih =>
    refine .cons (fun hn => never_bytes ?_ _) ih
    cases rep with
    | static i => rw [hab.1] at hn; cases hn
    | dyn i => rw [hab.1] at hn; cases hn
    | nameStatic i v n => exact hab.2.1.trans hn
    | nameDyn i v n => exact hab.2.1.trans hn
    | lit n v b => exact hab.2.2.trans hn

/-- C22.  … and every entry of the dynamic table has the name and value of a field that was submitted without the flag. -/
theorem C22_table_from_indexable (hardMax : Nat) (ops : List EncOp) (s : ESys) (hr : (ESys.init hardMax).run ops = .ok s)
    (x : Ent) (hx : x ∈ s.e.ctx.ents) : ∃ nv ∈ s.fields, nv.never = false ∧ nv.name = x.name ∧ nv.value = x.value := by
  obtain ⟨nv, h1, h2, h3, h4⟩ := (esys_reach hr).src x hx
  exact ⟨nv, h1, h2.1, h3.symm, h4.symm⟩

/-- C22.  Credentials: whatever their flags, an `authorization` field and a `cookie` field with a value shorter than 20 bytes
are never put into the dynamic table. -/
theorem C22_credentials_not_indexed (hardMax : Nat) (ops : List EncOp) (s : ESys) (hr : (ESys.init hardMax).run ops = .ok s)
    (x : Ent) (hx : x ∈ s.e.ctx.ents) :
    x.name ≠ Spec.ascii "authorization" ∧ (x.name = Spec.ascii "cookie" → 20 ≤ x.value.length) := by
  obtain ⟨nv, h1, h2, h3, h4⟩ := (esys_reach hr).src x hx
  refine ⟨by rw [h3]; exact h2.2.1, fun hc => ?_⟩
  by_contra hl
  exact h2.2.2 ⟨by rw [← h3]; exact hc, by rw [← h4]; omega⟩

/-- of "authorization: x", "cookie: x" and a `cookie` of 20 bytes, all asked to be indexed, only the last goes into the table -/
example : ((ESys.init 4096).run [.setCap 200, .setMaxBlocked 2, .encode 0
      [{ name := Spec.ascii "authorization", value := [120], tryIndex := true },
       { name := Spec.ascii "cookie", value := [120], tryIndex := true },
       { name := Spec.ascii "cookie", value := List.replicate 20 120, tryIndex := true }]]).satisfies (fun s =>
    s.e.ctx.ents.map (fun x => (x.name, x.value.length)) == [(Spec.ascii "cookie", 20)]) = true := by decide +kernel

/-! ### C46 -/

/-- settings one after the other -/
def setCaps (e : Enc) (ns : List Nat) : Enc := ns.foldl Enc.setMaxCap e

theorem setMaxCap_hard (e : Enc) (n : Nat) : (e.setMaxCap n).ctx.hardMax = e.ctx.hardMax := by rw [(setMaxCap_frame e n).2.2.2]

/-- settings not yet announced: the capacity in force is one of them -/
theorem setCaps_state (e : Enc) (hi : EInv e) (hq : e.pending = false) (ns : List Nat) :
    EInv (setCaps e ns) ∧ (setCaps e ns).ctx.hardMax = e.ctx.hardMax ∧
    (((setCaps e ns).pending = false ∧ (setCaps e ns).ctx.maxCap = e.ctx.maxCap) ∨
      ((setCaps e ns).pending = true ∧ ∃ m ∈ ns, min m e.ctx.hardMax = (setCaps e ns).ctx.maxCap)) := by
  induction ns using List.reverseRecOn with
  | nil => exact ⟨hi, rfl, Or.inl ⟨hq, rfl⟩⟩
  | append_singleton l n ih =>
    unfold setCaps at ih ⊢
    rw [List.foldl_append]
    simp only [List.foldl_cons, List.foldl_nil]
    generalize List.foldl Enc.setMaxCap e l = g at ih
    obtain ⟨h1, h2, h3⟩ := ih
    refine ⟨h1.setMaxCap n, by rw [setMaxCap_hard, h2], ?_⟩
    have hcap := h1.cap
    unfold Enc.setMaxCap
    dsimp only
    rw [h2]
    by_cases hc : g.ctx.maxCap = min n e.ctx.hardMax
    · rw [if_pos hc]
      rcases h3 with h3 | ⟨h3, m, hm, h4⟩
      · exact Or.inl h3
      · exact Or.inr ⟨h3, m, List.mem_append_left _ hm, h4⟩
    · rw [if_neg hc]
      right
      rcases h3 with ⟨h3, h4⟩ | ⟨h3, m, hm, h4⟩
      · rw [h3] at hcap
        simp only [Bool.false_eq_true, if_false] at hcap
        rw [hcap.1]
        exact ⟨rfl, n, by simp, rfl⟩
      · rw [h3] at hcap
        simp only [if_true] at hcap
        rw [hcap.1]
        dsimp only
        split_ifs with hlt
        · exact ⟨rfl, n, by simp, rfl⟩
        · exact ⟨rfl, m, List.mem_append_left _ hm, h4⟩

theorem sys_hard {hardMax : Nat} {ops : List EncOp} {s : ESys} (hr : (ESys.init hardMax).run ops = .ok s) : s.e.ctx.hardMax = hardMax := by
  have key : ∀ (ops : List EncOp) (s s' : ESys), ESysOk s → s.run ops = .ok s' → s'.e.ctx.hardMax = s.e.ctx.hardMax := by
    intro ops
    induction ops with
    | nil => intro s s' _ h; cases h; rfl
    | cons o t ih =>
      intro s s' hok hrun
      unfold ESys.run at hrun
      rcases esys_step hok o with h3 | ⟨s1, h3, h4, _⟩
      · rw [h3] at hrun; cases hrun
      rw [h3] at hrun
      dsimp only at hrun
      rw [ih s1 s' h4 hrun]
      cases o with
      | setCap n => cases h3; exact setMaxCap_hard ..
      | setMaxBlocked n => cases h3; rfl
      | encode id nvs =>
        obtain ⟨o, s2, _, hp, g3, _, g5, _⟩ := esys_encode hok id nvs
        rw [h3] at g3
        cases g3
        rw [g5, hp.hard.1]
      | instr op n =>
        rcases esys_instr hok op n with g | ⟨s2, g1, _, _, g4, g5⟩
        · rw [h3] at g; cases g
        · rw [h3] at g1; cases g1
          rw [g5]
      | ackEverything => cases h3; rfl
  exact key ops _ s (esys_init hardMax) hr

/-- C46 (part).  Whatever happened before, provided that the earlier settings have been announced (`pending = false`): set the
capacity any number of times and then to `n`, and encode while no section is outstanding.  If `n` is none of the values of the
earlier calls, the capacity in force is `n`, truncated to the hard limit, and it has been announced: either it already was the
capacity in force, or the last Set Dynamic Table Capacity instruction written says so.
Missing: `n` may not be one of the values of the earlier calls; `C46_fails` shows that then the claim is false. -/
theorem C46_last_setting_wins_partial (hardMax : Nat) (ops : List EncOp) (s : ESys) (hr : (ESys.init hardMax).run ops = .ok s)
    (hq : s.e.pending = false) (ns : List Nat) (n : Nat) (hn : ∀ m ∈ ns, min m hardMax ≠ min n hardMax)
    (hsec : s.secs = []) (id : Nat) (nvs : List Nv) :
    ∃ o, (setCaps s.e (ns ++ [n])).encode id nvs = some o ∧ o.e.ctx.maxCap = min n hardMax ∧ o.e.pending = false ∧
      ((s.e.ctx.maxCap = min n hardMax ∧ ∀ i ∈ o.ins, i.isInsert = true) ∨
        ∃ pre post, o.ins = pre ++ [.setCap (min n hardMax)] ++ post ∧ ∀ i ∈ post, i.isInsert = true) := by
  have h := esys_reach hr
  have hH : s.e.ctx.hardMax = hardMax := sys_hard hr
  obtain ⟨h1, h2, h3⟩ := setCaps_state s.e h.inv hq ns
  have hstr : ∀ l, (setCaps s.e l).minCnts = s.e.minCnts := by
    intro l
    unfold setCaps
    induction l using List.reverseRecOn with
    | nil => rfl
    | append_singleton l n ih =>
      rw [List.foldl_append]
      simp only [List.foldl_cons, List.foldl_nil]
      rw [← ih]
      unfold Enc.setMaxCap
      dsimp only
      split_ifs <;> rfl
  have hmin : s.e.minCnts = [] := by
    have hp := h.inv.mins
    have : s.e.streams.flatMap (fun x => x.2.map Ref.min) = [] := by
      rw [List.flatMap_eq_nil_iff]
      rintro ⟨i, refs⟩ hx
      have hl := h.link i
      rw [(find_iff h.inv.ids i refs).2 hx, hsec] at hl
      cases hl
      rfl
    rw [this] at hp
    exact hp.eq_nil
  have happ : setCaps s.e (ns ++ [n]) = (setCaps s.e ns).setMaxCap n := by
    unfold setCaps; rw [List.foldl_append]; rfl
  have hmin2 := hstr (ns ++ [n])
  rw [happ] at hmin2 ⊢
  rw [hmin] at hmin2
  generalize setCaps s.e ns = g at *
  rw [hH] at h2 h3
  have hcap := h1.cap
  -- the state after the last call
  have hlast : ((g.setMaxCap n).pending = false ∧ (g.setMaxCap n).ctx.maxCap = min n hardMax ∧ s.e.ctx.maxCap = min n hardMax) ∨
      ((g.setMaxCap n).pending = true ∧ (g.setMaxCap n).lastUpd = min n hardMax) := by
    unfold Enc.setMaxCap
    dsimp only
    rw [h2]
    by_cases hc : g.ctx.maxCap = min n hardMax
    · rw [if_pos hc]
      rcases h3 with ⟨h3, h4⟩ | ⟨h3, m, hm, h4⟩
      · exact Or.inl ⟨h3, hc, by rw [← h4]; exact hc⟩
      · exact absurd (h4.trans hc) (hn m hm)
    · rw [if_neg hc]
      right
      split_ifs <;> exact ⟨rfl, rfl⟩
  have hgi := h1.setMaxCap n
  generalize g.setMaxCap n = q at *
  obtain ⟨o, ho, hp⟩ := encode_ok hgi id nvs
  obtain ⟨e1, upd, ins, g1, g2, g3, g4, g5, g6, g7⟩ := hp.upd
  have hins : ∀ i ∈ ins, i.isInsert = true := by
    have := (g3.next g1.inv.ctx).2
    intro i hi
    rw [← this] at hi
    exact (List.mem_filter.1 hi).2
  refine ⟨o, ho, ?_⟩
  rw [g4, g5, g2]
  obtain ⟨k, _, _, _, g8⟩ := g1.ents
  rcases hlast with ⟨k1, k2, k3⟩ | ⟨k1, k2⟩
  · rcases g8 with ⟨m1, m2, m3, _⟩ | ⟨m1, _⟩
    · rw [m2, m3, m1]
      exact ⟨k2, k1, Or.inl ⟨k3, by simpa using hins⟩⟩
    · rw [k1] at m1; cases m1
  · rcases g8 with ⟨_, _, _, _, _, m1 | ⟨_, m, m2, _⟩⟩ | ⟨m1, m2, m3, m4, m5⟩
    · rw [k1] at m1; cases m1
    · rw [hmin2] at m2; simp at m2
    · rw [m4, m3, k2]
      refine ⟨rfl, rfl, Or.inr ⟨(if q.ctx.maxCap < q.lastUpd then [EIns.setCap q.ctx.maxCap] else []), ins, ?_, hins⟩⟩
      rw [m5, k2]

/-- C46.  The full claim is false of the code: with a limit of 4096, set 1000, then 2000, then 1000 again.  The capacity in
force, and announced, is 2000. -/
theorem C46_fails : ∃ o, (setCaps (Enc.init 4096) [1000, 2000, 1000]).encode 0 [] = some o ∧ o.e.ctx.maxCap = 2000 ∧
    o.ins = [.setCap 1000, .setCap 2000] := by
  refine ⟨_, rfl, ?_, ?_⟩ <;> decide +kernel

end Props
end Nghttp3
