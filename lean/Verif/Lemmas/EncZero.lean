import Verif.Lemmas.QpackPair
import Verif.Spec.Kept
import Verif.Lemmas.Endpoint
/-! An encoder without a dynamic table: its field sections are read by any decoder. -/
namespace Nghttp3
namespace Qpack

theorem unblock_ctx (e : Enc) (n : Nat) : (e.unblock n).ctx = e.ctx := rfl

theorem unblockStream_ctx {e e' : Enc} {p : Nat × Nat} (h : e.unblockStream p = some e') : e'.ctx = e.ctx := by
  unfold Enc.unblockStream at h
  split_ifs at h
  cases h; rfl

theorem apply_ctx {e e' : Enc} {o : DOpc} {n : Nat} (h : e.apply o n = .ok e') : e'.ctx = e.ctx := by
  cases o with
  | icnt =>
    unfold Enc.apply Enc.addIcnt at h
    dsimp only at h
    split_ifs at h
    cases h; rfl
  | ack =>
    unfold Enc.apply Enc.ackHeader at h
    dsimp only at h
    rcases hf : e.find n with _ | _ | ⟨r, rest⟩ <;> rw [hf] at h <;> dsimp only at h <;> try (cases h; done)
    have h1 : (if e.krcnt < r.max then ({ e with krcnt := r.max } : Enc).unblock r.max else e).ctx = e.ctx := by split_ifs <;> rfl
    generalize (if e.krcnt < r.max then ({ e with krcnt := r.max } : Enc).unblock r.max else e) = e1 at h h1
    rcases hm : eraseMins [r] e1.minCnts with _ | mc <;> rw [hm] at h <;> dsimp only at h <;> try (cases h; done)
    split_ifs at h <;> cases h <;> exact h1
  | cancel =>
    unfold Enc.apply Enc.cancelStream at h
    dsimp only at h
    rcases hf : e.find n with _ | refs <;> rw [hf] at h <;> dsimp only at h
    · cases h; rfl
    have h1 : ∀ e1, (if e.krcnt < maxCnt refs then e.unblockStream (maxCnt refs, n) else some e) = some e1 → e1.ctx = e.ctx := by
      intro e1 g
      split_ifs at g
      · exact unblockStream_ctx g
      · cases g; rfl
    rcases hq : (if e.krcnt < maxCnt refs then e.unblockStream (maxCnt refs, n) else some e) with _ | e1 <;> rw [hq] at h <;> dsimp only at h
    · cases h
    rcases hm : eraseMins refs e1.minCnts with _ | mc <;> rw [hm] at h <;> dsimp only at h
    · cases h
    have := h1 _ hq
    cases h; exact this

theorem dsNumber_ctx (e : Enc) (x : Bytes) : (∀ e', dsNumber e x = .part e' → e'.ctx = e.ctx) ∧ ∀ e' r, dsNumber e x = .cont e' r → e'.ctx = e.ctx := by
  unfold dsNumber
  rcases QInt.readInt e.rs.pfx e.rs.left e.rs.shift x with _ | _ | ⟨l, s⟩ | ⟨l, s, rest⟩ <;> dsimp only
  · exact ⟨fun _ h => (by cases h), fun _ _ h => (by cases h)⟩
  · exact ⟨fun _ h => (by cases h), fun _ _ h => (by cases h)⟩
  · exact ⟨fun _ h => (by cases h; rfl), fun _ _ h => (by cases h)⟩
  · rcases ha : ({ e with rs := { e.rs with left := l, shift := s } } : Enc).apply e.dop l with _ | _ | e' <;> dsimp only
    · exact ⟨fun _ h => (by cases h), fun _ _ h => (by cases h)⟩
    · exact ⟨fun _ h => (by cases h), fun _ _ h => (by cases h)⟩
    · exact ⟨fun _ h => (by cases h), fun _ _ h => (by have := apply_ctx ha; cases h; exact this)⟩

theorem dsStep_ctx (e : Enc) (x : Bytes) : (∀ e', dsStep e x = .part e' → e'.ctx = e.ctx) ∧ ∀ e' r, dsStep e x = .cont e' r → e'.ctx = e.ctx := by
  unfold dsStep
  split
  · exact dsNumber_ctx e x
  · cases x with
    | nil => exact ⟨fun _ h => (by cases h), fun _ _ h => (by cases h)⟩
    | cons b t =>
      have hk : (dsOpcode e b).ctx = e.ctx := by unfold dsOpcode; split_ifs <;> rfl
      have := dsNumber_ctx (dsOpcode e b) (b :: t)
      rw [hk] at this; exact this

theorem dsLoop_ctx (f : Nat) (e : Enc) (x : Bytes) (e' : Enc) (h : dsLoop f e x = .ok e') : e'.ctx = e.ctx := by
  induction f generalizing e x with
  | zero =>
    unfold dsLoop at h
    split_ifs at h
    cases h; rfl
  | succ f ih =>
    rw [dsLoop] at h
    split_ifs at h with hx
    · cases h; rfl
    · have hk := dsStep_ctx e x
      rcases hs : dsStep e x with _ | _ | e1 | ⟨e1, r⟩ <;> rw [hs] at h hk
      · cases h
      · cases h
      · cases h; exact hk.1 _ rfl
      · exact (ih e1 r h).trans (hk.2 _ _ rfl)

/-- the QPACK decoder stream does not change the table -/
theorem readDecoder_ctx {e e' : Enc} {b : Bytes} (h : e.readDecoder b = .ok e') : e'.ctx = e.ctx := by
  unfold Enc.readDecoder at h
  split_ifs at h with hb
  · cases h; rfl
  dsimp only at h
  split_ifs at h with hu
  exact dsLoop_ctx _ { e with uninterrupted := e.uninterrupted + b.length } _ _ h

/-- an encoder that has never had a dynamic table -/
structure EncZero (e : Enc) : Prop where
  wf : DsWF e
  hard : e.ctx.hardMax = 0
  next : e.ctx.next = 0

theorem EncZero.init : EncZero (Enc.init 0) := ⟨Props.dswf_init 0, rfl, rfl⟩

theorem EncZero.peer {e e' : Enc} (h : EncZero e) (hp : Endpoint.FromPeer e e') : EncZero e' := by
  rcases hp with ⟨b, hb⟩ | ⟨v, rfl⟩ | ⟨v, rfl⟩
  · have hc := readDecoder_ctx hb
    rcases Props.readDecoder_ok h.wf b with g | ⟨e1, g, g1, _⟩ <;> rw [hb] at g <;> cases g
    exact ⟨g1, by rw [hc]; exact h.hard, by rw [hc]; exact h.next⟩
  · have hc := (setMaxCap_frame e v).2.2.2
    refine ⟨Props.dswf_keep h.wf (h.wf.inv.setMaxCap v) ?_ ?_, by rw [hc]; exact h.hard, by rw [hc]; exact h.next⟩
    · unfold Enc.setMaxCap; dsimp only; split_ifs <;> rfl
    · unfold Enc.setMaxCap; dsimp only; split_ifs <;> rfl
  · exact ⟨Props.dswf_keep h.wf (h.wf.inv.setMaxBlocked _) rfl rfl, h.hard, h.next⟩

theorem add_next {c c' : Ctx} {name value : Bytes} {token : Option Nat} {hash : Nat} (h : c.add name value token hash = some c') : c'.ents ≠ [] ∧ c'.maxCap = c.maxCap := by
  unfold Ctx.add at h
  dsimp only at h
  split_ifs at h
  rcases he : evictOld c.maxCap (tableSpace name.length value.length) c.ents.reverse c.size with _ | ⟨old, size⟩ <;> rw [he] at h <;> dsimp only at h <;> cases h
  exact ⟨by simp, rfl⟩

/-- without capacity nothing is inserted -/
theorem insRun_zero {P : Bytes → Bytes → Prop} {c c' : Ctx} {l : List EIns} (h : InsRun P c l c') (h0 : c.maxCap = 0) : c' = c := by
  cases h with
  | nil => rfl
  | cons name value hash g1 g2 g3 g4 g0 g5 =>
    obtain ⟨k1, k2⟩ := add_next g2
    have := g4.cap
    rw [g4.size, k2, h0] at this
    rename_i c1 _ _
    rcases he : c1.ents with _ | ⟨x, t⟩
    · exact absurd he k1
    · rw [he, spaces_cons] at this
      unfold Ent.space tableSpace at this
      omega

theorem EncZero.encode {e : Enc} (h : EncZero e) {id : Nat} {nvs : List Nv} {o : EncOut} (ho : e.encode id nvs = some o) : EncZero o.e ∧ o.ricnt = 0 ∧ o.base = 0 := by
  obtain ⟨o', h1, h2⟩ := encode_ok h.wf.inv id nvs
  rw [ho] at h1
  cases h1
  obtain ⟨e1, upd, ins, u1, u2, u3, u4, _⟩ := h2.upd
  have hm : e1.ctx.maxCap = 0 := by
    have := u1.inv.ctx.hard
    rw [u1.hard, h.hard] at this
    omega
  have hc := insRun_zero u3 hm
  have hn : o.e.ctx.next = 0 := by rw [hc, u1.next, h.next]
  refine ⟨⟨Props.dswf_keep h.wf h2.inv h2.rd.1 h2.rd.2.2, h2.hard.1.trans h.hard, hn⟩, ?_, h2.base.trans h.next⟩
  have := h2.ric
  omega

/-- … and any decoder reads what was encoded -/
theorem EncZero.decodes {e : Enc} (h : EncZero e) {id : Nat} {nvs : List Nv} {o : EncOut} (ho : e.encode id nvs = some o) (hf : ∀ nv ∈ nvs, NvFits nv) :
    o.section ≠ [] ∧ ∃ s, (Dec.init 0 0).readSection (SCtx.init id) o.section true = (nvs.map Nv.toQNv, .final (Dec.init 0 0) s) := by
  obtain ⟨hz, hR, hB⟩ := h.encode ho
  obtain ⟨o', h1, h2⟩ := encode_ok h.wf.inv id nvs
  rw [ho] at h1
  cases h1
  have hpfx : o.pfx = QInt.put 0 (encRic 0 o.ricnt) 8 ++ baseBytes o.ricnt o.base := by
    have hp := h2.pfx
    rw [h.hard, hR, hB] at hp
    unfold prefixBytes at hp
    dsimp only at hp
    rw [if_neg (by simp)] at hp
    rw [hR, hB, ← Option.some.inj hp]
    rfl
  obtain ⟨sh, hri⟩ := QInt.readInt_put 0 (n := encRic 0 o.ricnt) (pfx := 8) (by omega) (by rw [hR]; exact Nat.zero_le _) []
  rw [List.append_nil] at hri
  obtain ⟨b, t, hb, _⟩ := QInt.put_cons 0 (encRic 0 o.ricnt) (pfx := 8) (by omega)
  have hat : ∀ cs : Ctx, SecAt cs 0 id o.ricnt o.base (o.reps.flatMap (Rep.bytes o.base)) (nvs.map Nv.toQNv) (SCtx.init id) [] o.section := by
    intro cs
    unfold EncOut.section
    rw [hpfx, List.append_assoc]
    exact .ric _ _ sh rfl rfl rfl rfl (fun _ => rfl) (by rw [hb]; simp) hri
  have hnp : ¬ (SCtx.init id).Post := not_post (s := SCtx.init id) (st := .ricnt) rfl (by simp)
  have fly : FlyOk 0 o.e.ctx 0 { sec := ⟨id, o.ricnt, o.base, o.reps, nvs⟩, rem := o.section, s := SCtx.init id } o.e.ctx 0 :=
    { ctx := h2.inv.ctx
      sp := by
        have q1 := h2.inv.hsz
        rw [h2.inv.ctx.size, h2.hard.1, h.hard] at q1
        exact q1
      ric := h2.ric
      ext := Ext.refl _
      refs := fun rep hr a ha => ⟨Nat.zero_le _, h2.sec.refs rep hr a ha⟩
      den := h2.sec.den
      low := fun g => absurd hR g
      fits := denotes_fits h2.sec.den hf h2.sec.refs (by rw [hR]; exact Nat.zero_le _) (by rw [hB]; exact Nat.zero_le _)
      delta := by show deltaBase o.ricnt o.base ≤ _; rw [hR, hB]; exact Nat.zero_le _
      pos := fun _ => hat _
      post := fun hp => absurd hp hnp
      blk := fun hb => (by cases hb)
      fin := fun hd => (by cases hd) }
  obtain ⟨hc, hd⟩ := fly.decodes
  have hcov : Cov (o.e.ctx.slice 0 0 o.ricnt) (Dec.init 0 0).ctx := by
    refine ⟨by show o.ricnt ≤ 0; omega, fun a x g => ?_⟩
    unfold Ctx.get at g
    rw [if_neg (by show ¬ a < o.ricnt; omega)] at g
    cases g
  have hc0 : CtxOk (Dec.init 0 0).ctx := CtxOk.init 0 0
  have hadv := SecAt.adv hc0 hc (fun _ => hcov) hd (by show deltaBase o.ricnt o.base ≤ _; rw [hR, hB]; exact Nat.zero_le _)
    (fun g => absurd hR g) (x := o.section) (y := []) (by rw [List.append_nil]; exact hat _)
    (fun _ => by show reconstructRicnt _ (encRic 0 o.ricnt) = some o.ricnt; rw [hR]; rfl) (fun g => absurd g hnp) (fun g => by cases g)
  have hrun := readSection_run (d := Dec.init 0 0) hc0 rfl (SCtx.init id) o.section true (SWF.init id) (fun g => by cases g)
  refine ⟨by unfold EncOut.section; rw [hpfx, hb]; simp, ?_⟩
  rcases hadv with ⟨s', acc', k1, k2, k3, _⟩ | ⟨s', rest, k1, _, k3, _⟩
  · obtain ⟨q1, q2, q3, q4⟩ := k3 rfl
    rw [hrun, k1]
    refine ⟨s', ?_⟩
    unfold secOut almostOk
    dsimp only
    rw [if_pos rfl, if_neg (by rw [q1]; simp), if_neg (by rw [q2]; show ¬ o.ricnt ≠ 0; omega), q4]
    rfl
  · have : (0 : Nat) < o.ricnt := k3
    omega

end Qpack
end Nghttp3
