import Verif.Lemmas.BidiFrames
import Verif.Props.Conv
/-! A request stream that ends in the middle of a frame. -/
namespace Nghttp3
namespace Bidi
open Http Qpack

/-- a complete integer at the front, or not enough bytes for one -/
theorem varint_split (x : List UInt8) (hx : x ≠ []) :
    (∃ v a y, Spec.IsVarint v a ∧ x = a ++ y) ∨ ∃ rv : RVInt, rv.left ≠ 0 ∧ rd {} x false = .part rv := by
  rcases hg : getVarint x with _ | ⟨v, y⟩
  · right
    have hs := rd_spec {} x false rvOk_idle hx
    rcases hd : rd {} x false with _ | _ | rv | ⟨v, n⟩ <;> rw [hd] at hs <;> dsimp only at hs
    · cases hs
    · exact ⟨rv, hs.2.2.1, rfl⟩
    · exfalso
      obtain ⟨b, t, rfl⟩ := List.exists_cons_of_ne_nil hx
      rw [rd_start] at hd
      split_ifs at hd with h1
      unfold getVarint at hg
      dsimp only at hg
      unfold getVarintLen at h1
      have h4 : b.toNat >>> 6 < 4 := by rw [Nat.shiftRight_eq_div_pow]; have := b.toNat_lt; omega
      have hc : b.toNat >>> 6 = 0 ∨ b.toNat >>> 6 = 1 ∨ b.toNat >>> 6 = 2 ∨ b.toNat >>> 6 = 3 := by omega
      rcases hc with h | h | h | h <;> rw [h] at hg h1
      · cases hg
      · rw [if_neg (by simpa using h1)] at hg; cases hg
      · simp only [ite_eq_left_iff] at hg
        have := hg (by simpa using h1)
        cases this
      · simp only [ite_eq_left_iff] at hg
        have := hg (by simpa using h1)
        cases this
  · left
    obtain ⟨a, h1, h2⟩ := (Props.C01_varint_reader_exact _ _ _).1 hg
    exact ⟨v, a, y, h2, h1⟩

/-- nothing says that the message is complete -/
def NoEnd (o : List Obs) : Prop := Cb.endStream ∉ o.filterMap Obs.cb

def ARes.noEnd : ARes → Prop
  | .ok _ _ o _ _ => NoEnd o
  | _ => True

theorem NoEnd.append {a b : List Obs} (ha : NoEnd a) (hb : NoEnd b) : NoEnd (a ++ b) := by
  unfold NoEnd at *; rw [List.filterMap_append, List.mem_append]; exact fun h => h.elim ha hb

theorem onData_noEnd (s : State) (ps : List Nat) : Cb.endStream ∉ (onData s ps).1 := by
  induction ps generalizing s with
  | nil => simp [onData]
  | cons p t ih =>
    rw [onData]
    rcases onDataChunk s p with _ | s1
    · simp
    · simp only [List.mem_cons, not_or]; exact ⟨by simp, ih s1⟩

theorem map_noEnd (h : Hs) (fs : List Field) : Cb.endStream ∉ fs.map (if isTrailers h then Cb.trailer else Cb.header) := by
  cases isTrailers h <;> simp

theorem begin_noEnd (h : Hs) (fs : List Field) :
    Cb.endStream ∉ (if isTrailers h then Cb.beginTrailers else Cb.beginHeaders) :: fs.map (if isTrailers h then Cb.trailer else Cb.header) := by
  rw [List.mem_cons, not_or]; exact ⟨by cases isTrailers h <;> simp, map_noEnd h fs⟩

theorem bind_noEnd {t : Tr} {f : Hs → List Cb × MRes} (h : ∀ x, t = .ok x → Cb.endStream ∉ (f x).1) : Cb.endStream ∉ (t.bind f).1 := by
  rcases t with _ | _ | _ | x <;> first | exact h x rfl | simp [Tr.bind]

theorem onFrame_noEnd (pp : Pri → List UInt8 → Option Pri) (ext : Bool) (m : Msg) (f : Frm) : Cb.endStream ∉ (onFrame pp ext m f).1 := by
  rcases f with (_ | fs) | ps
  · refine bind_noEnd fun h _ => ?_
    split_ifs
    · exact bind_noEnd fun h _ => by simp
    · simp
  · refine bind_noEnd fun h _ => ?_
    dsimp only
    rcases ((runFields pp (isRequest h) (isTrailers h) ext m.s fs).2.bind (endSection h)) with _ | s <;> dsimp only
    · exact begin_noEnd h _
    · rw [List.mem_append, not_or]
      refine ⟨begin_noEnd h _, ?_⟩
      rw [List.mem_cons, not_or]
      exact ⟨by cases isTrailers h <;> simp, bind_noEnd fun h _ => by simp⟩
  · refine bind_noEnd fun h _ => ?_
    have := onData_noEnd m.s ps
    generalize onData m.s ps = r at this ⊢
    rcases r with ⟨cb, _ | s⟩ <;> dsimp only at this ⊢
    · exact this
    · rw [List.mem_append, not_or]
      exact ⟨this, bind_noEnd fun h _ => by simp⟩

theorem wFrame_noEnd (c : Cfg) (d : Dec) (m : Msg) (f : WFrame) : Cb.endStream ∉ (wFrame c d m f).1 := by
  rcases f with (_ | ⟨b, t⟩) | b | ⟨ty, p⟩
  · exact onFrame_noEnd _ _ _ _
  · show Cb.endStream ∉ (wHeaders c d m (b :: t)).1
    unfold wHeaders
    rcases d.readSection (SCtx.init c.id) (b :: t) true with ⟨nvs, _ | _ | _ | _ | _ | _⟩ <;> dsimp only
    all_goals first | exact onFrame_noEnd _ _ _ _ | skip
    all_goals
      rcases transit m.h m.s .headersBegin with _ | _ | _ | h
      all_goals first | exact begin_noEnd _ _ | simp
  · exact onFrame_noEnd _ _ _ _
  · simp [wFrame]

/-- the payload of the last frame is cut off -/
theorem run_cut (c : Cfg) (room : Bool) {s : Str} {d : Dec} {m : Msg} {o : List Obs} {k ty len : Nat} {t l y : Bytes} (hi : Inv (s.at m) d)
    (ho : NoEnd o) (ht : Spec.IsVarint ty t) (hl : Spec.IsVarint len l) (hy : y.length < len) :
    ARes.noEnd (aFinish true (bRun c room ⟨s.at m, d, o, k⟩ (t ++ l ++ y))) := by
  have hk : HOk .frameType m.h := hi.hok
  obtain ⟨b1, b3, b2, _⟩ := transit_begin (Or.inl rfl) hk m.s
  have hdone : ∀ m' : M, m'.s.rst = .data ∨ m'.s.rst = .headers ∨ m'.s.rst = .ignFrame → aDone true m' = .fail Err.H3_FRAME_ERROR := by
    rintro m' (h | h | h) <;> unfold aDone <;> rw [if_pos rfl, h]
  by_cases h1 : ty = 1
  · subst h1
    rw [run_secHead c room y hi ht hl (by omega)]
    rcases hb : transit m.h m.s .headersBegin with _ | _ | _ | h
    · trivial
    · trivial
    · trivial
    dsimp only
    have hkh := b2 h hb
    by_cases hy0 : y = []
    · rw [hy0, bRun_nil]
      unfold aFinish; dsimp only
      rw [hdone _ (Or.inr (Or.inl rfl))]; trivial
    unfold bRun
    rw [Machine.run_eq (bidi_good c room) (by exact inSec_inv hi hkh _) (by simp), if_neg (by simp [hy0])]
    have hpost := onHeaders_post c h hi.ctx false s.sc m.s y hi.wf hi.idle (by simp [hy0])
    have hm : mStep c room ⟨s.inSec m h len, d, o ++ [beginOb h], k + t.length + l.length⟩ y = view ⟨s.inSec m h len, d, o ++ [beginOb h], k + t.length + l.length⟩
      (match post c h d m.s (d.readSection s.sc y false) with
      | (_, .crash) => .crash
      | (_, .fail e) => .fail e
      | (ev, .malformed d') => headerError (s.inSec m h len) d' y ev 0
      | (ev, .blocked d' sc http rest) =>
        if room then
          .blocked { s.inSec m h (len - (y.length - rest.length)) with sc := sc, http := http, blocked := true } d'
            (rest ++ y.drop y.length) ev (y.length - rest.length)
        else .fail Err.QPACK_DECOMPRESSION_FAILED
      | (ev, .more d' sc http) | (ev, .done d' sc http) =>
        .ret { s.inSec m h (len - y.length) with sc := sc, http := http } d' ev y.length) := by
      unfold mStep step
      dsimp only [Str.inSec]
      unfold headersStep
      dsimp only
      rw [List.take_of_length_le (by omega), decide_eq_false (by omega), hpost]
      congr 1
      rcases post c h d m.s (d.readSection s.sc y false) with ⟨ev, _ | _ | _ | _ | _ | _⟩ <;> dsimp only
      · rw [if_pos (by omega)]
      · rw [if_pos (by omega)]
    rw [hm]
    obtain ⟨htok, _⟩ := readSection_id hi.ctx false s.sc y hi.wf hi.idle
    generalize d.readSection s.sc y false = r at htok ⊢
    obtain ⟨nvs, ro⟩ := r
    dsimp only at htok
    obtain ⟨f1, f2, f3, f4⟩ := fields_run c h m.s nvs htok
    unfold post
    dsimp only
    have hbeg : NoEnd [beginOb h] := by unfold NoEnd; rw [(begin_cb h).1]; cases isTrailers h <;> simp
    rcases hq : fields c h m.s nvs with ⟨ev, _ | http⟩ <;> rw [hq] at f1 f2 f3 f4 <;> dsimp only at f1 f2 f3 f4 ⊢
    all_goals have hev : NoEnd (obs ev) := by unfold NoEnd; rw [f2]; exact map_noEnd h _
    · unfold headerError
      dsimp only [view]
      rw [if_pos rfl]
      unfold aFinish aDone
      dsimp only
      rw [if_pos rfl, norm_rst]
      dsimp only [ARes.noEnd]
      rw [obs_append]
      exact ((ho.append hbeg).append (hev.append (by simp [NoEnd, obs, Ev.obs, Obs.cb])))
    · rcases ro with _ | ⟨d', e⟩ | ⟨d', s'⟩ | ⟨d', s'⟩ | ⟨d', s', nv, rest⟩ | ⟨d', s', rest⟩ <;> dsimp only [mkRes]
      · trivial
      · trivial
      · dsimp only [view]; unfold aFinish; dsimp only; rw [hdone _ (Or.inr (Or.inl rfl))]; trivial
      · dsimp only [view]; unfold aFinish; dsimp only; rw [hdone _ (Or.inr (Or.inl rfl))]; trivial
      · trivial
      · cases room
        · trivial
        · rw [if_pos rfl]
          dsimp only [view]
          unfold aFinish
          exact (ho.append hbeg).append hev
  rw [run_head c room y hi rfl rfl ht hl]
  unfold frameHead
  dsimp only [Str.at]
  by_cases h0 : ty = 0
  · rw [if_pos (show ty = FRAME_DATA from h0)]
    unfold transitOr
    dsimp only
    rcases hb : transit m.h m.s .dataBegin with _ | _ | _ | h
    · trivial
    · trivial
    · trivial
    dsimp only
    rw [if_neg (by omega)]
    dsimp only
    by_cases hy0 : y = []
    · rw [hy0]
      have := bRun_nil c room
      unfold bRun at this
      rw [this]
      unfold aFinish; dsimp only
      rw [hdone _ (Or.inl rfl)]; trivial
    have hinv : Inv ({ s with rst := .data, rv := {}, ftype := ty, left := len, h := h, http := m.s } : Str) d :=
      ⟨hi.ctx, hi.wf, hi.idle, rvOk_idle, b3 h hb, fun _ => by show 0 < len; omega⟩
    rw [Machine.run_eq (bidi_good c room) (by exact hinv) (by simp), if_neg (by simp [hy0])]
    unfold mStep step dataStep
    dsimp only
    rw [List.take_of_length_le (by omega)]
    rcases onDataChunk m.s y.length with _ | http
    · trivial
    · dsimp only
      rw [if_pos (by omega)]
      dsimp only [view]; unfold aFinish; dsimp only; rw [hdone _ (Or.inl rfl)]; trivial
  rw [if_neg (show ¬ ty = FRAME_DATA from h0), if_neg (show ¬ ty = FRAME_HEADERS from h1)]
  by_cases hu : unexpectedType ty = true
  · rw [if_pos hu]; trivial
  · rw [if_neg hu]
    dsimp only
    have hinv : Inv ({ s with rst := .ignFrame, rv := {}, ftype := ty, left := len, h := m.h, http := m.s } : Str) d :=
      ⟨hi.ctx, hi.wf, hi.idle, rvOk_idle, hk, fun g => by cases g⟩
    rw [Machine.run_eq (bidi_good c room) (by exact hinv) (fun _ => rfl), if_neg (by simp)]
    unfold mStep step
    dsimp only
    rw [List.take_of_length_le (by omega), if_pos (by omega)]
    dsimp only [view]; unfold aFinish; dsimp only; rw [hdone _ (Or.inr (Or.inr rfl))]; trivial

theorem run_type (c : Cfg) (room : Bool) {s : Str} {d : Dec} {m : Msg} {o : List Obs} {k ty : Nat} {t : Bytes} (y : Bytes) (hi : Inv (s.at m) d)
    (ht : Spec.IsVarint ty t) :
    bRun c room ⟨s.at m, d, o, k⟩ (t ++ y) = bRun c room ⟨{ s.at m with rst := .frameLen, ftype := ty }, d, o, k + t.length⟩ y := by
  have hpa := isVarint_pos ht
  have h1 : mStep c room ⟨s.at m, d, o, k⟩ (t ++ y) = .cont ⟨{ s.at m with rst := .frameLen, ftype := ty }, d, o, k + t.length⟩ y false := by
    unfold mStep step
    dsimp only [Str.at]
    rw [rd_varint ht]
    dsimp only [view]
    rw [if_neg (by simp), obs_nil, List.append_nil, List.drop_left]
  exact (Machine.run_cont (bidi_good c room) (s := (⟨s.at m, d, o, k⟩ : M)) (b := false) hi (by simp)
    (by rintro ⟨g, _⟩; have := congrArg List.length g; simp only [List.length_append, List.length_nil] at this; omega) h1).2.2

/-- only whole frames make a complete message -/
theorem run_end (c : Cfg) (room : Bool) {s : Str} (hsc : s.sc = SCtx.init c.id) (n : Nat) {d : Dec} {m : Msg} {o : List Obs} {k : Nat} {x : Bytes} (hi : Inv (s.at m) d)
    (ho : NoEnd o) (hx : x.length ≤ n) :
    (∃ fs, IsFrames fs x) ∨ ARes.noEnd (aFinish true (bRun c room ⟨s.at m, d, o, k⟩ x)) := by
  induction n generalizing d m o k x with
  | zero => exact Or.inl ⟨[], List.length_eq_zero_iff.1 (by omega)⟩
  | succ n ih =>
    by_cases hx0 : x = []
    · exact Or.inl ⟨[], hx0⟩
    rcases varint_split x hx0 with ⟨ty, t, y, ht, rfl⟩ | ⟨rv, hrv, hd⟩
    swap
    · right
      unfold bRun
      rw [Machine.run_eq (bidi_good c room) (by exact hi) (by simp), if_neg (by simp [hx0])]
      unfold mStep step
      dsimp only [Str.at]
      rw [hd]
      dsimp only [view]
      unfold aFinish aDone
      dsimp only
      rw [if_pos rfl, if_pos hrv]; trivial
    have hpa := isVarint_pos ht
    by_cases hy0 : y = []
    · right
      rw [run_type c room y hi ht, hy0, bRun_nil]
      unfold aFinish aDone; trivial
    rcases varint_split y hy0 with ⟨len, l, y, hl, rfl⟩ | ⟨rv, hrv, hd⟩
    swap
    · right
      rw [run_type c room y hi ht]
      unfold bRun
      rw [Machine.run_eq (bidi_good c room) (by exact (⟨hi.ctx, hi.wf, hi.idle, rvOk_idle, hi.hok, fun g => by cases g⟩ : Inv { s.at m with rst := .frameLen, ftype := ty } d)) (by simp), if_neg (by simp [hy0])]
      unfold mStep step
      dsimp only [Str.at]
      rw [hd]
      dsimp only [view]
      unfold aFinish aDone; trivial
    have hpb := isVarint_pos hl
    by_cases hlen : y.length < len
    · right
      rw [← List.append_assoc]
      exact run_cut c room hi ho ht hl hlen
    · obtain ⟨f, hf, hbs⟩ : ∃ f : WFrame, f.Is (t ++ l ++ y.take len) ∧ True := by
        have hfr : Spec.IsFrame ty (y.take len) (t ++ l ++ y.take len) := ⟨t, l, ht, by rw [List.length_take, Nat.min_eq_left (by omega)]; exact hl, rfl⟩
        by_cases h0 : ty = 0
        · exact ⟨.data (y.take len), by rw [h0] at hfr; exact hfr, trivial⟩
        · by_cases h1 : ty = 1
          · exact ⟨.headers (y.take len), by rw [h1] at hfr; exact hfr, trivial⟩
          · exact ⟨.other ty (y.take len), ⟨h0, h1, hfr⟩, trivial⟩
      have hsplit : t ++ (l ++ y) = (t ++ l ++ y.take len) ++ y.drop len := by
        rw [List.append_assoc, List.append_assoc, List.take_append_drop]
      rw [hsplit]
      have h := run_frame c room o k (y.drop len) hi hsc hf
      have hne := wFrame_noEnd c d m f
      rcases hw : wFrame c d m f with ⟨cb, _ | e | _ | _ | ⟨d', m'⟩⟩ <;> rw [hw] at h hne
      · exact h.elim
      · right
        have h : _ = _ := h
        rw [h]; trivial
      · right
        obtain ⟨s', d', o', n', g1, g2, g3, g4, g5, g6⟩ := h
        rw [g1]
        unfold aFinish aDone
        dsimp only
        rw [if_pos rfl, g2]
        exact ho.append (by unfold NoEnd; rw [g4]; exact hne)
      · right
        dsimp only [FrameRes] at h
        cases room
        · simp only [Bool.false_eq_true, if_false] at h
          rw [h]; trivial
        · rw [if_pos rfl] at h
          obtain ⟨s', d', o', n', rest, g1, g3, g4, g5, g6⟩ := h
          rw [g1]
          exact ho.append (by unfold NoEnd; rw [g4]; exact hne)
      · obtain ⟨o', n', g1, g2, g3, g4, g5⟩ := h
        rw [g1]
        rcases ih (k := k + n') g2 (ho.append (by unfold NoEnd; rw [g3]; exact hne)) (x := y.drop len)
          (by rw [List.length_append, List.length_append] at hx; rw [List.length_drop]; omega) with ⟨fs, h⟩ | h
        · exact Or.inl ⟨f :: fs, _, _, rfl, hf, h⟩
        · exact Or.inr h

end Bidi
end Nghttp3
