import Verif.Lemmas.BidiRun
/-! One pass of nghttp3_conn_read_bidi: what it leaves alone, and where the bytes go. -/
namespace Nghttp3
namespace Bidi
open Http Qpack

/-- change the fields that a pass neither reads nor writes -/
def _root_.Nghttp3.Bidi.Str.setf (s : Str) (q : List Buf) (sh e cl g : Bool) : Str :=
  { s with inq := q, shutRd := sh, eof := e, closed := cl, gone := g }

def _root_.Nghttp3.Bidi.BRes.mapS (f : Str → Str) : BRes → BRes
  | .crash => .crash
  | .fail e => .fail e
  | .cont s d rest b ev n => .cont (f s) d rest b ev n
  | .ret s d ev n => .ret (f s) d ev n
  | .blocked s d rest ev n => .blocked (f s) d rest ev n

section
variable (q : List Buf) (sh e cl g : Bool)

theorem endFrame_setf (s : Str) (d : Dec) (e1 : Hev) (rest : Bytes) (ev : List Ev) (n : Nat) :
    endFrame (s.setf q sh e cl g) d e1 rest ev n = (endFrame s d e1 rest ev n).mapS (·.setf q sh e cl g) := by
  unfold endFrame
  change (match transit s.h s.http e1 with | .ok h => _ | _ => _) = _
  cases transit s.h s.http e1 <;> rfl

theorem transitOr_setf (s : Str) (e1 : Hev) (k k' : Str → BRes) (h : ∀ s, k' (s.setf q sh e cl g) = (k s).mapS (·.setf q sh e cl g)) :
    transitOr (s.setf q sh e cl g) e1 k' = (transitOr s e1 k).mapS (·.setf q sh e cl g) := by
  unfold transitOr
  change (match transit s.h s.http e1 with | .crash => _ | .unexpected => _ | .malformed => _ | .ok h => _) = _
  rcases transit s.h s.http e1 with _ | _ | _ | h'
  · rfl
  · rfl
  · rfl
  · exact h { s with h := h' }

theorem frameHead_setf (s : Str) (d : Dec) (rest : Bytes) (n : Nat) :
    frameHead (s.setf q sh e cl g) d rest n = (frameHead s d rest n).mapS (·.setf q sh e cl g) := by
  unfold frameHead
  rw [show (s.setf q sh e cl g).ftype = s.ftype from rfl]
  by_cases h1 : s.ftype = FRAME_DATA
  · rw [if_pos h1, if_pos h1]
    apply transitOr_setf
    intro s
    rw [show (s.setf q sh e cl g).left = s.left from rfl]
    by_cases h0 : s.left = 0
    · rw [if_pos h0, if_pos h0, endFrame_setf]
    · rw [if_neg h0, if_neg h0]; rfl
  rw [if_neg h1, if_neg h1]
  by_cases h2 : s.ftype = FRAME_HEADERS
  · rw [if_pos h2, if_pos h2]
    apply transitOr_setf
    intro s
    rw [show (s.setf q sh e cl g).left = s.left from rfl, show (s.setf q sh e cl g).h = s.h from rfl]
    by_cases h0 : s.left = 0
    · rw [if_pos h0, if_pos h0]
      by_cases h3 : emptyHeadersAllowed s.h = true
      · rw [if_pos h3, if_pos h3, endFrame_setf]
      · rw [if_neg h3, if_neg h3]; rfl
    · rw [if_neg h0, if_neg h0]; cases s.h <;> rfl
  rw [if_neg h2, if_neg h2]
  by_cases h3 : unexpectedType s.ftype = true
  · rw [if_pos h3, if_pos h3]; rfl
  · rw [if_neg h3, if_neg h3]; rfl

theorem dataStep_setf (s : Str) (d : Dec) (x : Bytes) :
    dataStep (s.setf q sh e cl g) d x = (dataStep s d x).mapS (·.setf q sh e cl g) := by
  unfold dataStep
  dsimp only
  rw [show (s.setf q sh e cl g).left = s.left from rfl, show (s.setf q sh e cl g).http = s.http from rfl]
  rcases onDataChunk s.http (x.take s.left).length with _ | http
  · rfl
  dsimp only
  by_cases h0 : s.left - (x.take s.left).length ≠ 0
  · rw [if_pos h0, if_pos h0]; rfl
  · rw [if_neg h0, if_neg h0, ← endFrame_setf]; rfl

theorem sectionEnd_setf (c : Cfg) (last : Bool) (s : Str) (d : Dec) (rest : Bytes) (ev : List Ev) (n : Nat) :
    sectionEnd c last (s.setf q sh e cl g) d rest ev n = (sectionEnd c last s d rest ev n).mapS (·.setf q sh e cl g) := by
  unfold sectionEnd
  dsimp only
  rw [show (s.setf q sh e cl g).h = s.h from rfl, show (s.setf q sh e cl g).http = s.http from rfl,
    show (s.setf q sh e cl g).priFixed = s.priFixed from rfl]
  rcases endSection s.h s.http with _ | http
  · rfl
  dsimp only
  have h := fun ev => endFrame_setf q sh e cl g { s with http := http } d .headersEnd rest ev n
  have h0 : ∀ ev, endFrame { s.setf q sh e cl g with http := http } d .headersEnd rest ev n =
      BRes.mapS (·.setf q sh e cl g) (endFrame { s with http := http } d .headersEnd rest ev n) := h
  generalize s.h = hh
  cases hh <;> first | exact h0 _ | rfl

theorem headersStep_setf (c : Cfg) (room fin : Bool) (s : Str) (d : Dec) (x : Bytes) :
    headersStep c room fin (s.setf q sh e cl g) d x = (headersStep c room fin s d x).mapS (·.setf q sh e cl g) := by
  unfold headersStep
  dsimp only
  rw [show (s.setf q sh e cl g).left = s.left from rfl, show (s.setf q sh e cl g).h = s.h from rfl, show (s.setf q sh e cl g).sc = s.sc from rfl,
    show (s.setf q sh e cl g).http = s.http from rfl]
  have hend : ∀ (d' : Dec) (sc : SCtx) http ev, (if s.left - (x.take s.left).length ≠ 0 then
        BRes.ret { s.setf q sh e cl g with sc := sc, http := http, left := s.left - (x.take s.left).length } d' ev (x.take s.left).length
      else sectionEnd c (fin && decide (x.drop (x.take s.left).length = [])) { s.setf q sh e cl g with sc := sc, http := http, left := s.left - (x.take s.left).length } d'
        (x.drop (x.take s.left).length) ev (x.take s.left).length) = BRes.mapS (·.setf q sh e cl g)
      (if s.left - (x.take s.left).length ≠ 0 then
        BRes.ret { s with sc := sc, http := http, left := s.left - (x.take s.left).length } d' ev (x.take s.left).length
      else sectionEnd c (fin && decide (x.drop (x.take s.left).length = [])) { s with sc := sc, http := http, left := s.left - (x.take s.left).length } d'
        (x.drop (x.take s.left).length) ev (x.take s.left).length) := by
    intro d' sc http ev
    by_cases h0 : s.left - (x.take s.left).length ≠ 0
    · rw [if_pos h0, if_pos h0]; rfl
    · rw [if_neg h0, if_neg h0, ← sectionEnd_setf]; rfl
  rcases onHeaders c s.h d s.sc s.http (x.take s.left) (decide ((x.take s.left).length = s.left)) with ⟨ev, _ | e | d' | ⟨d', sc, http⟩ | ⟨d', sc, http⟩ | ⟨d', sc, http, rest⟩⟩ <;> dsimp only
  · rfl
  · rfl
  · rfl
  · exact hend _ _ _ _
  · exact hend _ _ _ _
  · cases room <;> rfl

theorem step_setf (c : Cfg) (room fin : Bool) (s : Str) (d : Dec) (x : Bytes) :
    step c room fin (s.setf q sh e cl g) d x = (step c room fin s d x).mapS (·.setf q sh e cl g) := by
  unfold step
  rw [show (s.setf q sh e cl g).rst = s.rst from rfl, show (s.setf q sh e cl g).rv = s.rv from rfl]
  generalize hr : s.rst = r
  cases r <;> dsimp only
  · rcases rd s.rv x fin with _ | _ | _ | _ <;> rfl
  · rcases rd s.rv x fin with _ | _ | _ | ⟨v, k⟩
    · rfl
    · rfl
    · rfl
    · exact frameHead_setf q sh e cl g { s with rv := {}, left := v } d _ _
  · exact dataStep_setf q sh e cl g s d x
  · exact headersStep_setf q sh e cl g c room fin s d x
  · rw [show (s.setf q sh e cl g).left = s.left from rfl]
    by_cases h0 : s.left - (x.take s.left).length ≠ 0
    · rw [if_pos h0, if_pos h0]; rfl
    · rw [if_neg h0, if_neg h0]; rfl
  · rfl

end

theorem setf_self (s : Str) : s.setf s.inq s.shutRd s.eof s.closed s.gone = s := rfl

/-- the fields `setf` changes are the same -/
def Flags (s s' : Str) : Prop := s'.inq = s.inq ∧ s'.shutRd = s.shutRd ∧ s'.eof = s.eof ∧ s'.closed = s.closed ∧ s'.gone = s.gone

theorem step_flags (c : Cfg) (room fin : Bool) (s : Str) (d : Dec) (x : Bytes) :
    match step c room fin s d x with
    | .cont s' _ _ _ _ _ => Flags s s'
    | .ret s' _ _ _ => Flags s s'
    | .blocked s' _ _ _ _ => Flags s s'
    | _ => True := by
  have h := step_setf s.inq s.shutRd s.eof s.closed s.gone c room fin s d x
  rw [setf_self] at h
  have hf : ∀ s' : Str, s' = s'.setf s.inq s.shutRd s.eof s.closed s.gone → Flags s s' := by
    intro s' h; rw [h]; exact ⟨rfl, rfl, rfl, rfl, rfl⟩
  rcases hs : step c room fin s d x with _ | _ | _ | _ | _ <;> rw [hs] at h <;> dsimp only [BRes.mapS] at h ⊢
  · exact hf _ (BRes.cont.inj h).1
  · exact hf _ (BRes.ret.inj h).1
  · exact hf _ (BRes.blocked.inj h).1

/-! ### Where the bytes go -/

theorem decLoop_lens (c : Cfg) (h : Hs) (fin : Bool) (f : Nat) (d : Dec) (s : SCtx) (http : State) (x : Bytes) (acc : List Ev)
    (ha : dataLen acc = 0 ∧ deferredLen acc = 0) :
    dataLen (decLoop c h f d s http x fin acc).1 = 0 ∧ deferredLen (decLoop c h f d s http x fin acc).1 = 0 := by
  induction f generalizing d s http x acc with
  | zero => exact ha
  | succ f ih =>
    unfold decLoop
    rcases d.readRequest s x fin with _ | _ | _ | _ | ⟨d', s', nv, rest⟩ | _ <;> dsimp only
    · exact ha
    · exact ha
    · exact ha
    · exact ha
    · by_cases h0 : rest.length = x.length
      · rw [if_pos h0]; exact ha
      · rw [if_neg h0]
        rcases fieldRes c h http nv with _ | _ | _ <;> dsimp only
        · exact ha
        · exact ih _ _ _ _ _ ha
        · apply ih
          rw [dataLen_append, deferredLen_append, ha.1, ha.2]
          unfold fieldEv
          split_ifs <;> exact ⟨rfl, rfl⟩
    · exact ha

theorem onHeaders_lens (c : Cfg) (h : Hs) (d : Dec) (s : SCtx) (http : State) (x : Bytes) (fin : Bool) :
    dataLen (onHeaders c h d s http x fin).1 = 0 ∧ deferredLen (onHeaders c h d s http x fin).1 = 0 := by
  unfold onHeaders
  split_ifs
  · exact ⟨rfl, rfl⟩
  · exact decLoop_lens _ _ _ _ _ _ _ _ _ ⟨rfl, rfl⟩

/-- one pass: the invariant holds, every byte is consumed, delivered or left -/
theorem step_acc (c : Cfg) (room fin : Bool) (s : Str) (d : Dec) (x : Bytes) (hi : Inv s d) (hx : x ≠ [] ∨ s.rst = .ignFrame ∨ s.rst = .ignRest) :
    match step c room fin s d x with
    | .crash => False
    | .fail _ => True
    | .cont s' d' rest b ev n => Inv s' d' ∧ (b = true → s'.rst = .ignFrame ∨ s'.rst = .ignRest) ∧ s'.blocked = s.blocked ∧
        n + dataLen ev + rest.length = x.length ∧ deferredLen ev = 0
    | .ret s' d' ev n => Inv s' d' ∧ s'.blocked = s.blocked ∧ n + dataLen ev = x.length ∧ deferredLen ev = 0
    | .blocked s' d' rest ev n => Inv s' d' ∧ s'.blocked = true ∧ n + dataLen ev + rest.length = x.length ∧ deferredLen ev = 0 ∧
        d'.ctx.next < s'.sc.ricnt ∧ s'.rst = .headers := by
  have hk := hi.hok
  unfold step
  rcases hr : s.rst with _ | _ | _ | _ | _ | _ <;> rw [hr] at hx hk <;> dsimp only
  · have hx : x ≠ [] := by rcases hx with h | h | h <;> first | exact h | cases h
    have hs := rd_spec s.rv x fin hi.rv hx
    rcases hd : rd s.rv x fin with _ | _ | rv | ⟨v, k⟩ <;> rw [hd] at hs <;> dsimp only at hs ⊢
    · obtain ⟨_, hrv, _⟩ := hs
      exact ⟨⟨hi.ctx, hi.wf, hi.idle, hrv, hk, fun g => by cases g⟩, rfl, rfl, rfl⟩
    · refine ⟨⟨hi.ctx, hi.wf, hi.idle, rvOk_idle, ?_, fun g => by cases g⟩, by simp, rfl, ?_, rfl⟩
      · exact hk
      · show k + 0 + _ = _; rw [List.length_drop]; omega
  · have hx : x ≠ [] := by rcases hx with h | h | h <;> first | exact h | cases h
    have hs := rd_spec s.rv x fin hi.rv hx
    rcases hd : rd s.rv x fin with _ | _ | rv | ⟨v, k⟩ <;> rw [hd] at hs <;> dsimp only at hs ⊢
    · obtain ⟨_, hrv, _⟩ := hs
      exact ⟨⟨hi.ctx, hi.wf, hi.idle, hrv, hk, fun g => by cases g⟩, rfl, rfl, rfl⟩
    · rcases frameHead_cases (s := { s with rst := .frameLen, rv := {}, left := v }) (d := d) rfl
          ⟨hi.ctx, hi.wf, hi.idle, rvOk_idle, hk, fun g => by cases g⟩ rfl with ⟨e, he⟩ | ⟨s', b, ev', h1, h2, h3, _, _, h4, _, h5, h6⟩
      · rw [he]; trivial
      · rw [h1]
        refine ⟨h2, fun hb => Or.inl (h3 hb), h4, ?_, h6⟩
        rw [h5, List.length_drop]; omega
  · unfold dataStep
    dsimp only
    rcases onDataChunk s.http (x.take s.left).length with _ | http
    · trivial
    dsimp only
    have hl : dataLen [.data (x.take s.left)] = (x.take s.left).length := by simp [dataLen, Ev.dataLen]
    by_cases h0 : s.left - (x.take s.left).length ≠ 0
    · rw [if_pos h0]
      refine ⟨⟨hi.ctx, hi.wf, hi.idle, hi.rv, hi.hok, fun _ => by dsimp only; omega⟩, rfl, ?_, rfl⟩
      rw [hl, List.take_of_length_le (by rw [List.length_take] at h0; omega)]; omega
    · rw [if_neg h0]
      obtain ⟨h', ht, hk'⟩ := transit_data hk http
      unfold endFrame
      dsimp only
      rw [ht]
      refine ⟨⟨hi.ctx, hi.wf, hi.idle, rvOk_idle, hk', by simp [Str.reset]⟩, by simp, rfl, ?_, rfl⟩
      rw [hl, List.length_drop, List.length_take]; omega
  · unfold headersStep
    dsimp only
    have hsafe := onHeaders_safe c s.h hi.ctx (decide ((x.take s.left).length = s.left)) s.sc s.http (x.take s.left) hi.wf hi.idle
    have hlens := onHeaders_lens c s.h d s.sc s.http (x.take s.left) (decide ((x.take s.left).length = s.left))
    have hsec : ∀ (d' : Dec) (sc : SCtx) http ev, (d'.ctx = d.ctx ∧ SWF sc ∧ Idle sc) → dataLen ev = 0 ∧ deferredLen ev = 0 →
        match (if s.left - (x.take s.left).length ≠ 0 then
            BRes.ret { s with sc := sc, http := http, left := s.left - (x.take s.left).length } d' ev (x.take s.left).length
          else sectionEnd c (fin && decide (x.drop (x.take s.left).length = [])) { s with sc := sc, http := http, left := s.left - (x.take s.left).length } d'
            (x.drop (x.take s.left).length) ev (x.take s.left).length) with
        | .crash => False
        | .fail _ => True
        | .cont s' d' rest b ev n => Inv s' d' ∧ (b = true → s'.rst = .ignFrame ∨ s'.rst = .ignRest) ∧ s'.blocked = s.blocked ∧
            n + dataLen ev + rest.length = x.length ∧ deferredLen ev = 0
        | .ret s' d' ev n => Inv s' d' ∧ s'.blocked = s.blocked ∧ n + dataLen ev = x.length ∧ deferredLen ev = 0
        | .blocked s' d' rest ev n => Inv s' d' ∧ s'.blocked = true ∧ n + dataLen ev + rest.length = x.length ∧ deferredLen ev = 0 ∧
            d'.ctx.next < s'.sc.ricnt ∧ s'.rst = .headers := by
      intro d' sc http ev hsc hev
      have hinv : Inv { s with sc := sc, http := http, left := s.left - (x.take s.left).length } d' :=
        ⟨by rw [hsc.1]; exact hi.ctx, hsc.2.1, hsc.2.2, hi.rv, hi.hok, fun g => by dsimp only at g; rw [hr] at g; cases g⟩
      by_cases h0 : s.left - (x.take s.left).length ≠ 0
      · rw [if_pos h0]
        refine ⟨hinv, rfl, ?_, hev.2⟩
        rw [hev.1, List.take_of_length_le (by rw [List.length_take] at h0; omega)]; rfl
      · rw [if_neg h0]
        obtain ⟨s', b, ev2, h1, h2, h3, h4, h5, h6, h7, h8⟩ := sectionEnd_cases c hinv (by exact hr)
        rw [h1]
        refine ⟨h3, fun hb => Or.inr (h4 hb), h7, ?_, ?_⟩
        · rw [dataLen_append, hev.1, (h8 _).1, List.length_drop, List.length_take]; omega
        · rw [deferredLen_append, hev.2, (h8 _).2]
    rcases ho : onHeaders c s.h d s.sc s.http (x.take s.left) (decide ((x.take s.left).length = s.left)) with ⟨ev, _ | e | d' | ⟨d', sc, http⟩ | ⟨d', sc, http⟩ | ⟨d', sc, http, rest⟩⟩ <;> rw [ho] at hsafe hlens <;> dsimp only at hsafe hlens ⊢
    · subst hsafe
      unfold headerError
      refine ⟨⟨hi.ctx, hi.wf, hi.idle, hi.rv, trivial, fun g => by cases g⟩, fun _ => Or.inr rfl, rfl, ?_, ?_⟩
      · rw [dataLen_append, hlens.1]; simp [dataLen, Ev.dataLen]
      · rw [deferredLen_append, hlens.2]; rfl
    · exact hsec _ _ _ _ ⟨by rw [hsafe.1], hsafe.2⟩ hlens
    · exact hsec _ _ _ _ ⟨hsafe.1, hsafe.2.1, hsafe.2.2.1⟩ hlens
    · cases room with
      | false => trivial
      | true =>
        simp only [if_true]
        obtain ⟨rfl, h1, h2, h3, h4, h5⟩ := hsafe
        refine ⟨⟨hi.ctx, h1, h2, hi.rv, hi.hok, fun g => by dsimp only at g; rw [hr] at g; cases g⟩, trivial, ?_, hlens.2, h3, hr⟩
        rw [hlens.1, List.length_append, List.length_drop]
        rw [List.length_take] at h4 ⊢
        omega
  · have hk : HOk .frameType s.h := hk
    by_cases h0 : s.left - (x.take s.left).length ≠ 0
    · rw [if_pos h0]
      refine ⟨⟨hi.ctx, hi.wf, hi.idle, hi.rv, hk, fun g => by cases g⟩, rfl, ?_, rfl⟩
      rw [List.take_of_length_le (by rw [List.length_take] at h0; omega)]; rfl
    · rw [if_neg h0]
      refine ⟨reset_inv hi hk, by simp, rfl, ?_, rfl⟩
      show _ + 0 + _ = _
      rw [List.length_drop, List.length_take]; omega
  · exact ⟨hi, rfl, rfl, rfl⟩

end Bidi
end Nghttp3
