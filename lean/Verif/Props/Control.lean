import Verif.Lemmas.ControlMore
import Verif.Props.Frame
/-! Property theorems C27 (control stream grammar), C28 (SETTINGS), C29 (received GOAWAY), C30 (packetisation of the
control stream), C47 (no crash). -/
namespace Nghttp3
namespace Control
open Spec.Control

/-- a control stream of which nothing has been read yet -/
def start {S : Type} (server : Bool) (e0 : Qpack.Enc) (x : S) : St S := { conn := { server := server, enc := e0, ext := x } }

variable {S : Type} {env : Env S}

theorem view_start (server : Bool) (e0 : Qpack.Enc) (x : S) : View server e0 [] x (start server e0 x).conn := by
  refine ⟨rfl, rfl, fun _ => ⟨rfl, rfl⟩, fun _ _ h => (by cases h), rfl, rfl, rfl, ?_, ?_⟩
  · intro id hid
    have : ¬ VARINT_MAX + 1 < id := by unfold VARINT_MAX; omega
    simp [start, this]
  · intro id
    simp [start]

theorem inv_start (server : Bool) (e0 : Qpack.Enc) (x : S) : Inv Pnil (start server e0 x) := inv_idle bufNil _

/-- ideal processing of frames, from the start -/
theorem ideal_frames (hcb : ∀ l, env.cb l = true) (server : Bool) (e0 : Qpack.Enc) (x : S) {fs : List Frame} {bs : Bytes} (h : EncodesAll fs bs)
    (hshort : ∀ id fld, Frame.priorityUpdate id fld ∈ fs → fld.length ≤ 8) :
    match outcome server (priOf env) [] x fs with
    | .accepted past' x' => ∃ c', runI env (start server e0 x) bs = .ok { conn := c' } ∧ View server e0 past' x' c'
    | .refused past' x' e => ∃ c', runI env (start server e0 x) bs = .fail (e, c') ∧ c'.ev.map toReport = reports server past' ∧ c'.ext = x' ∧
        c'.long = false :=
  run_all hcb h hshort [] x _ (view_start server e0 x) (by simp)

/-- `feed` is the ideal run if that does not end at an over-long field value -/
theorem feed_eq_ideal (s : St S) (cs : List Bytes) (hne : ∀ c ∈ cs, c ≠ []) (hi : Inv Pnil s) (hnc : feed env s cs ≠ .crash)
    (h : ∀ c : Conn S, c.long = true → runI env s cs.flatten ≠ .fail (0, c)) : feed env s cs = runI env s cs.flatten := by
  rcases feed_cmp (env := env) s cs hne hi with h1 | h1 | ⟨-, c, hl, h1⟩
  · exact absurd h1 hnc
  · exact h1
  · exact absurd h1 (h c hl)

end Control

namespace Props
open Control Spec.Control
variable {S : Type}

/-- C27.  Whatever the packetisation, a control stream made of well-formed frames is processed as `outcome` says: the frames
are accepted one after the other until one must be refused, the call returns the error due to that frame, and the
application learns the accepted SETTINGS and GOAWAY frames, once each, in order.  Assumed: the application's callbacks
succeed; PRIORITY_UPDATE field values are at most 8 bytes long (longer ones are skipped); the calls return (a server may
fail an assertion, see C47). -/
theorem C27_frames (env : Env S) (hcb : ∀ l, env.cb l = true) (server : Bool) (e0 : Qpack.Enc) (x : S) (fs : List Frame) (chunks : List Bytes)
    (hne : ∀ c ∈ chunks, c ≠ []) (h : EncodesAll fs chunks.flatten)
    (hshort : ∀ id fld, Frame.priorityUpdate id fld ∈ fs → fld.length ≤ 8) (hnc : feed env (start server e0 x) chunks ≠ .crash) :
    match outcome server (priorityUpdate env.parsePri env.onPri) [] x fs with
    | .accepted past x' => ∃ c, feed env (start server e0 x) chunks = .ok { conn := c } ∧ c.ev.map toReport = reports server past ∧ c.ext = x'
    | .refused past x' e => ∃ c, feed env (start server e0 x) chunks = .fail (e, c) ∧ c.ev.map toReport = reports server past ∧ c.ext = x' := by
  have hid := ideal_frames hcb server e0 x h hshort
  have hf : feed env (start server e0 x) chunks = runI env (start server e0 x) chunks.flatten := by
    apply feed_eq_ideal _ _ hne (inv_start ..) hnc
    intro c hl h1
    rcases ho : outcome server (priOf env) [] x fs with ⟨past, x'⟩ | ⟨past, x', e⟩ <;> rw [ho] at hid <;> dsimp only at hid
    · obtain ⟨c', h2, -⟩ := hid; rw [h2] at h1; cases h1
    · obtain ⟨c', h2, -, -, h3⟩ := hid; rw [h2] at h1; cases h1; rw [hl] at h3; cases h3
  rw [hf]
  rcases ho : outcome server (priOf env) [] x fs with ⟨past, x'⟩ | ⟨past, x', e⟩ <;> rw [ho] at hid <;> dsimp only at hid ⊢
  · obtain ⟨c', h2, h3⟩ := hid; exact ⟨c', h2, h3.ev, h3.ext⟩
  · obtain ⟨c', h2, h3, h4, -⟩ := hid; exact ⟨c', h2, h3, h4⟩

/-- C27.  The calls of `C27_frames` do return: always on a client, and on a server if every call is given whole frames. -/
theorem C27_calls_return (env : Env S) (hcb : ∀ l, env.cb l = true) (server : Bool) (e0 : Qpack.Enc) (x : S) (chunks : List Bytes)
    (hne : ∀ c ∈ chunks, c ≠ [])
    (h : server = false ∨ ∀ c ∈ chunks, ∃ fs, EncodesAll fs c ∧ ∀ id fld, Frame.priorityUpdate id fld ∈ fs → fld.length ≤ 8) :
    feed env (start server e0 x) chunks ≠ .crash := by
  by_cases hs : server = false
  · rw [feed_client _ _ hne (inv_start ..) hs]
    exact runI_safe _ _ (inv_start ..)
  replace h := h.resolve_left hs
  have key : ∀ (chunks : List Bytes), (∀ c ∈ chunks, c ≠ []) →
      (∀ c ∈ chunks, ∃ fs, EncodesAll fs c ∧ ∀ id fld, Frame.priorityUpdate id fld ∈ fs → fld.length ≤ 8) →
      ∀ past x c, View server e0 past x c → (past ≠ [] → ∃ ivs t, past = .settings ivs :: t) → feed env { conn := c } chunks ≠ .crash := by
    intro chunks
    induction chunks with
    | nil => intro _ _ past x c _ _ h; cases h
    | cons b chunks ih =>
      intro hne hw past x c hv hfirst hc
      obtain ⟨fs, he, hsh⟩ := hw b (by simp)
      have hb := hne b (by simp)
      have hr := run_all hcb he hsh past x c hv hfirst
      unfold feed at hc
      have hrd : read env { conn := c } b = runI env { conn := c } b := by
        rcases read_cmp (env := env) { conn := c } b hb (inv_idle bufNil c) with h1 | h1 | ⟨-, c1, hl, h1⟩
        · exfalso
          rcases read_crash_cmp { conn := c } b hb (inv_idle bufNil c) h1 with ⟨s', h2, h3⟩ | ⟨c1, hl, h2⟩ <;>
          rcases ho : outcome server (priOf env) past x fs with ⟨past', x'⟩ | ⟨past', x', e⟩ <;> rw [ho] at hr <;> dsimp only at hr
          · obtain ⟨c', h4, -⟩ := hr; rw [h2] at h4; cases h4; simp at h3
          · obtain ⟨c', h4, -⟩ := hr; rw [h2] at h4; cases h4
          · obtain ⟨c', h4, -⟩ := hr; rw [h2] at h4; cases h4
          · obtain ⟨c', h4, -, -, h5⟩ := hr; rw [h2] at h4; cases h4; rw [hl] at h5; cases h5
        · exact h1
        · exfalso
          rcases ho : outcome server (priOf env) past x fs with ⟨past', x'⟩ | ⟨past', x', e⟩ <;> rw [ho] at hr <;> dsimp only at hr
          · obtain ⟨c', h4, -⟩ := hr; rw [h1] at h4; cases h4
          · obtain ⟨c', h4, -, -, h5⟩ := hr; rw [h1] at h4; cases h4; rw [hl] at h5; cases h5
      rw [hrd] at hc
      have hgen : ∀ (fs : List Frame) past x, (past ≠ [] → ∃ ivs t, past = Frame.settings ivs :: t) → ∀ past' x',
          outcome server (priOf env) past x fs = .accepted past' x' → (past' ≠ [] → ∃ ivs t, past' = Frame.settings ivs :: t) := by
        intro fs
        induction fs with
        | nil => intro past x hf past' x' h; cases h; exact hf
        | cons f fs ihf =>
          intro past x hf past' x' h
          unfold outcome at h
          rcases hvd : verdict server past f with _ | e <;> rw [hvd] at h <;> dsimp only at h
          · have hnew := first_of_verdict hf hvd
            cases f with
            | priorityUpdate id fld =>
              dsimp only at h
              rcases hp : priOf env x id fld with e | x2 <;> rw [hp] at h <;> dsimp only at h
              · cases h
              · exact ihf _ _ (fun _ => hnew) _ _ h
            | _ => exact ihf _ _ (fun _ => hnew) _ _ h
          · cases h
      rcases ho : outcome server (priOf env) past x fs with ⟨past', x'⟩ | ⟨past', x', e⟩ <;> rw [ho] at hr <;> dsimp only at hr
      · obtain ⟨c', h4, h5⟩ := hr
        rw [h4] at hc
        exact ih (fun y hy => hne y (by simp [hy])) (fun y hy => hw y (by simp [hy])) past' x' c' h5 (hgen fs past x hfirst past' x' ho) hc
      · obtain ⟨c', h4, -⟩ := hr
        rw [h4] at hc; cases hc
  exact key chunks hne h [] x _ (view_start server e0 x) (by simp)

/-- `bs` is a GOAWAY frame, or on a server a MAX_PUSH_ID or PRIORITY_UPDATE frame, whose payload ends before the
identifier does -/
def TruncatedId (server : Bool) (bs : Bytes) : Prop :=
  ∃ ty p, (ty = 0x07 ∨ server = true ∧ (ty = 0x0d ∨ ty = 0x0f0700)) ∧ Trunc p ∧ Spec.IsFrame ty p bs

/-- C27.  A frame too short for its identifier is refused with H3_FRAME_ERROR, whatever follows. -/
theorem C27_truncated_id (env : Env S) (hcb : ∀ l, env.cb l = true) (server : Bool) (e0 : Qpack.Enc) (x x' : S) (fs past : List Frame)
    (bs bad rest : Bytes) (h : EncodesAll fs bs) (hshort : ∀ id fld, Frame.priorityUpdate id fld ∈ fs → fld.length ≤ 8)
    (hacc : outcome server (priorityUpdate env.parsePri env.onPri) [] x fs = .accepted past x') (hfs : past ≠ []) (hbad : TruncatedId server bad)
    (chunks : List Bytes) (hne : ∀ c ∈ chunks, c ≠ []) (hfl : chunks.flatten = bs ++ (bad ++ rest))
    (hnc : feed env (start server e0 x) chunks ≠ .crash) :
    ∃ c, feed env (start server e0 x) chunks = .fail (Err.H3_FRAME_ERROR, c) ∧ c.ev.map toReport = reports server past ∧ c.ext = x' := by
  have hid := ideal_frames hcb server e0 x h hshort
  rw [show outcome server (priOf env) [] x fs = _ from hacc] at hid
  obtain ⟨c, h1, hv⟩ := hid
  have hrun : runI env (start server e0 x) chunks.flatten = .fail (Err.H3_FRAME_ERROR, c) := by
    rw [hfl, runI_append _ _ _ (inv_start ..), h1]
    dsimp only
    obtain ⟨ty, p, hty, htr, hfr⟩ := hbad
    rw [run_frame c hfr]
    have hrec : c.settingsRecved = true := by rw [hv.recved]; simp [hfs]
    have hty4 : ¬ ty = FRAME_SETTINGS := by
      rcases hty with rfl | ⟨-, rfl | rfl⟩ <;> decide
    unfold header
    dsimp only
    rw [if_neg (by rw [hrec]; decide), if_neg hty4]
    unfold dispatch
    dsimp only
    rw [if_neg hty4]
    have hin : ∀ (s : St S) (k : Nat → St S → Bytes → Res S), s.rv = {} → s.left = p.length → p ≠ [] →
        inFrame s (p ++ rest) k = .fail (Err.H3_FRAME_ERROR, s.conn) := by
      intro s k a1 a2 a3
      unfold inFrame
      rw [a1, a2, rdl_trunc htr a3]
    have hstep : ∀ (st : Cst) (s : St S), s.st = st → (st = .goaway ∨ st = .maxPush ∨ st = .elemId) → s.rv = {} → s.left = p.length → s.conn = c → s.priBuf = [] →
        (c.server = false → st = .goaway) → p ≠ [] → next env (.cont s (p ++ rest) false) = .fail (Err.H3_FRAME_ERROR, c) := by
      intro st s a1 a2 a3 a4 a5 a6 a7 a8
      have hp0 := List.length_pos_iff.2 a8
      have i1 : Inv Pnil s := ⟨by rw [a3]; exact rvOk_idle, fun _ => a6, by rw [a6]; simp, fun _ => by omega,
        fun h => by rw [a1] at h; rcases a2 with r | r | r <;> rw [r] at h <;> simp at h,
        fun h => by rw [a5] at h; have := a7 h; rw [a1, this]; decide⟩
      rw [show next env (.cont s (p ++ rest) false) = R env s (p ++ rest) false from rfl,
        R_next i1 (by simp) (.inl (by simp [a8])), ← step_eq_of_ne _ _ (by rw [a1]; rcases a2 with r | r | r <;> rw [r] <;> decide)]
      unfold step
      rcases a2 with r | r | r <;> rw [a1, r] <;> dsimp only <;> rw [hin s _ a3 a4 a8, a5] <;> rfl
    by_cases hp : p = []
    · subst hp
      rcases hty with rfl | ⟨hsv, rfl | rfl⟩
      · rfl
      · rw [if_neg (by decide), if_pos (by rfl), if_neg (by rw [hv.sv, hsv]; decide), if_pos (by rfl)]; rfl
      · rw [if_neg (by decide), if_neg (by decide), if_pos (by rfl), if_neg (by rw [hv.sv, hsv]; decide), if_pos (by rfl)]; rfl
    · have hp0 := List.length_pos_iff.2 hp
      rcases hty with rfl | ⟨hsv, rfl | rfl⟩
      · rw [if_pos (by rfl), if_neg (by omega)]
        exact hstep .goaway _ rfl (by simp) rfl rfl rfl rfl (fun _ => rfl) hp
      · rw [if_neg (by decide), if_pos (by rfl), if_neg (by rw [hv.sv, hsv]; decide), if_neg (by omega)]
        exact hstep .maxPush _ rfl (by simp) rfl rfl rfl rfl (fun h => by rw [hv.sv, hsv] at h; cases h) hp
      · rw [if_neg (by decide), if_neg (by decide), if_pos (by rfl), if_neg (by rw [hv.sv, hsv]; decide), if_neg (by omega)]
        exact hstep .elemId _ rfl (by simp) rfl rfl rfl rfl (fun h => by rw [hv.sv, hsv] at h; cases h) hp
  have hf : feed env (start server e0 x) chunks = runI env (start server e0 x) chunks.flatten := by
    apply feed_eq_ideal _ _ hne (inv_start ..) hnc
    intro c' hl h2
    rw [hrun] at h2
    cases h2
  exact ⟨c, by rw [hf, hrun], hv.ev, hv.ext⟩

/-- C28.  The first frame of the control stream is SETTINGS with the entries `ivs`, in any packetisation.  If they are
acceptable the application is told exactly `settingsOf server ivs`, the record kept for the peer is the same, and the
QPACK encoder is limited to the peer's limits (and the local ones); otherwise the error is H3_SETTINGS_ERROR and the
application is told nothing. -/
theorem C28_settings (env : Env S) (hcb : ∀ l, env.cb l = true) (server : Bool) (hardMax : Nat) (x : S) (ivs : List (Nat × Nat)) (p : Bytes)
    (hp : Spec.IsSettings ivs p) (chunks : List Bytes) (hne : ∀ c ∈ chunks, c ≠ []) (hfr : Spec.IsFrame 0x04 p chunks.flatten) :
    (SettingsOk server ivs → ∃ c, feed env (start server (Qpack.Enc.init hardMax) x) chunks = .ok { conn := c } ∧
      c.ev = [.settings (settingsOf server ivs)] ∧ c.remote = settingsOf server ivs ∧
      c.enc.ctx.maxCap = min (lastOf 0x01 0 ivs) hardMax ∧ c.enc.ctx.maxBlocked = min 100 (lastOf 0x07 0 ivs)) ∧
    (¬ SettingsOk server ivs → ∃ c, feed env (start server (Qpack.Enc.init hardMax) x) chunks = .fail (Err.H3_SETTINGS_ERROR, c) ∧ c.ev = []) := by
  have hall : EncodesAll [.settings ivs] chunks.flatten := by
    have := EncodesAll.cons (f := .settings ivs) (b := chunks.flatten) ⟨p, hp, hfr⟩ .nil
    simpa using this
  have hid := ideal_frames hcb server (Qpack.Enc.init hardMax) x hall (by simp)
  have hnl : ∀ c : Conn S, c.long = true → runI env (start server (Qpack.Enc.init hardMax) x) chunks.flatten ≠ .fail (0, c) := by
    intro c hl h1
    rcases ho : outcome server (priOf env) [] x [.settings ivs] with ⟨past, x'⟩ | ⟨past, x', e⟩ <;> rw [ho] at hid <;> dsimp only at hid
    · obtain ⟨c', h2, -⟩ := hid; rw [h2] at h1; cases h1
    · obtain ⟨c', h2, -, -, h3⟩ := hid; rw [h2] at h1; cases h1; rw [hl] at h3; cases h3
  have hnp : ∀ s', runI env (start server (Qpack.Enc.init hardMax) x) chunks.flatten = .ok s' → s'.st = .frameType := by
    intro s' h1
    rcases ho : outcome server (priOf env) [] x [.settings ivs] with ⟨past, x'⟩ | ⟨past, x', e⟩ <;> rw [ho] at hid <;> dsimp only at hid
    · obtain ⟨c', h2, -⟩ := hid; rw [h2] at h1; cases h1; rfl
    · obtain ⟨c', h2, -⟩ := hid; rw [h2] at h1; cases h1
  have hnc : feed env (start server (Qpack.Enc.init hardMax) x) chunks ≠ .crash := by
    intro hc
    obtain ⟨u, v, e, ⟨s', h1, h2⟩ | ⟨c, hl, h1⟩⟩ := feed_crash_cmp _ _ hne (inv_start ..) hc
    · by_cases hv : v = []
      · subst hv
        rw [List.append_nil] at e
        rw [← e] at h1
        rw [hnp s' h1] at h2; cases h2
      · exact settings_prefix _ rfl hfr e hv s' h1 h2
    · apply hnl c hl
      rw [e, runI_append _ _ _ (inv_start ..), h1]
  have hf := feed_eq_ideal _ _ hne (inv_start server (Qpack.Enc.init hardMax) x) hnc hnl
  rw [hf]
  constructor
  · intro hok
    have ho : outcome server (priOf env) [] x [.settings ivs] = .accepted [.settings ivs] x := by
      have hv : verdict server [] (.settings ivs) = none := by unfold verdict; simp [hok]
      unfold outcome; rw [hv]; dsimp only; unfold outcome; rfl
    rw [ho] at hid
    obtain ⟨c, h1, h2⟩ := hid
    obtain ⟨h3, h4⟩ := h2.set ivs [] rfl
    refine ⟨c, h1, ?_, h3, ?_, ?_⟩
    · have := h2.ev
      have e : reports server [.settings ivs] = [.settings (settingsOf server ivs)] := rfl
      rw [e] at this
      rcases hev : c.ev with _ | ⟨a, _ | ⟨b, t⟩⟩ <;> rw [hev] at this <;> simp [toReport] at this
      cases a <;> simp_all [toReport]
    · rw [h4]
      unfold encAfter Qpack.Enc.setMaxCap Qpack.Enc.setMaxBlocked Qpack.Enc.init
      dsimp only
      by_cases h0 : lastOf 1 0 ivs = 0
      · simp only [if_pos h0, h0]
        split_ifs <;> simp
      · simp only [if_neg h0]
        by_cases h00 : 0 = min (lastOf 1 0 ivs) hardMax
        · simp only [if_pos h00]
          split_ifs <;> exact h00
        · simp only [if_neg h00]
          split_ifs <;> rfl
    · rw [h4]
      unfold encAfter Qpack.Enc.setMaxCap Qpack.Enc.setMaxBlocked Qpack.Enc.init
      dsimp only
      by_cases h0 : lastOf 7 0 ivs = 0
      · simp only [if_pos h0, h0]
        split_ifs <;> simp
      · simp only [if_neg h0]
  · intro hno
    have ho : outcome server (priOf env) [] x [.settings ivs] = .refused [] x Err.H3_SETTINGS_ERROR := by
      have hv : verdict server [] (.settings ivs) = some Err.H3_SETTINGS_ERROR := by unfold verdict; simp [hno]
      unfold outcome; rw [hv]
    rw [ho] at hid
    obtain ⟨c, h1, h2, -⟩ := hid
    refine ⟨c, h1, ?_⟩
    have : reports server [] = [] := rfl
    rw [this] at h2
    simpa using h2

/-- C28.  A first SETTINGS frame whose payload ends inside an entry is refused, with H3_FRAME_ERROR unless an earlier entry is
already unacceptable; the application is told nothing.  (Calls that return.) -/
theorem C28_truncated (env : Env S) (server : Bool) (e0 : Qpack.Enc) (x : S) (ivs : List (Nat × Nat)) (p r rest : Bytes)
    (hp : Spec.IsSettings ivs p) (hr : TruncPair r) (bs : Bytes) (hfr : Spec.IsFrame 0x04 (p ++ r) bs) (chunks : List Bytes)
    (hne : ∀ c ∈ chunks, c ≠ []) (hfl : chunks.flatten = bs ++ rest) (hnc : feed env (start server e0 x) chunks ≠ .crash) :
    ∃ c e, feed env (start server e0 x) chunks = .fail (e, c) ∧ c.ev = [] ∧
      (SettingsOk server ivs → e = Err.H3_FRAME_ERROR) ∧ (¬ SettingsOk server ivs → e = Err.H3_SETTINGS_ERROR) := by
  have hr0 := List.length_pos_iff.2 hr.1
  have hrun : ∃ c e, runI env (start server e0 x) chunks.flatten = .fail (e, c) ∧ c.ev = [] ∧ e ≠ 0 ∧
      (SettingsOk server ivs → e = Err.H3_FRAME_ERROR) ∧ (¬ SettingsOk server ivs → e = Err.H3_SETTINGS_ERROR) := by
    rw [hfl]
    rw [show start server e0 x = { conn := (start server e0 x).conn } from rfl, run_frame _ hfr]
    unfold header
    dsimp only
    rw [if_pos (by rfl), if_neg (by decide)]
    unfold dispatch
    dsimp only
    rw [if_pos (by rfl), if_neg (by rw [List.length_append]; omega)]
    have := run_settings_bad (env := env) hp hr { (start server e0 x).conn with settingsRecved := true } 4 0 rest
    rw [← List.append_assoc] at this
    have hs := foldEntries_spec { (start server e0 x).conn with settingsRecved := true } rfl ivs
    refine Exists.imp (fun c h => ?_) (?_ : ∃ c e, R env { conn := { (start server e0 x).conn with settingsRecved := true }, st := .settings, ty := 4, left := (p ++ r).length } (p ++ r ++ rest) false = .fail (e, c) ∧ c.ev = [] ∧ e ≠ 0 ∧
      (SettingsOk server ivs → e = Err.H3_FRAME_ERROR) ∧ (¬ SettingsOk server ivs → e = Err.H3_SETTINGS_ERROR))
    · exact h
    rw [this]
    rcases hfe : foldEntries { (start server e0 x).conn with settingsRecved := true } ivs with ⟨e, c⟩ | c <;> rw [hfe] at hs <;> dsimp only at hs ⊢
    · refine ⟨c, e, rfl, hs.2.2.1, by rw [hs.2.1]; decide, fun h => absurd h hs.1, fun _ => hs.2.1⟩
    · refine ⟨c, _, rfl, by rw [hs.2]; rfl, by decide, fun _ => rfl, fun h => absurd hs.1 h⟩
  obtain ⟨c, e, h1, h2, h0, h3, h4⟩ := hrun
  refine ⟨c, e, ?_, h2, h3, h4⟩
  rw [feed_eq_ideal _ _ hne (inv_start ..) hnc, h1]
  intro c' _ h5
  rw [h1] at h5
  cases h5
  exact h0 rfl

/-- identifiers the `shutdown` callback was called with -/
def shutdowns (ev : List Ev) : List Nat := ev.filterMap fun | .shutdown id => some id | .settings _ => none

/-- the connection at the end of the last call -/
def connOf {S : Type} : Machine.Out (St S) (Int × Conn S) → Option (Conn S)
  | .ok s => some s.conn
  | .fail o => some o.2
  | _ => none

/-- C29 (receiving).  For arbitrary bytes on the control stream, in any packetisation, with any callback results, the
identifiers passed to the shutdown callback never increase; on a client they are client-initiated bidirectional stream
identifiers. -/
theorem C29_received (env : Env S) (server : Bool) (e0 : Qpack.Enc) (x : S) (chunks : List Bytes) (c : Conn S)
    (h : connOf (feed env (start server e0 x) chunks) = some c) :
    (shutdowns c.ev).Pairwise (· ≥ ·) ∧ (server = false → ∀ id ∈ shutdowns c.ev, id % 4 = 0) := by
  let Q : Conn S → Prop := fun c => c.server = server ∧ (shutdowns c.ev).Pairwise (· ≥ ·) ∧ (∀ id ∈ shutdowns c.ev, c.rxGoaway ≤ id) ∧
    (server = false → ∀ id ∈ shutdowns c.ev, id % 4 = 0)
  have hst : Stable env Q := by
    refine ⟨fun _ h => h, ?_, ?_, ?_, fun _ _ h _ => h, fun _ _ _ _ h _ => h, fun _ h => h⟩
    · rintro c ⟨h0, h1, h2, h3⟩
      have : shutdowns (c.ev ++ [.settings c.remote]) = shutdowns c.ev := by unfold shutdowns; rw [List.filterMap_append]; simp
      exact ⟨h0, by rw [this]; exact h1, by rw [this]; exact h2, by rw [this]; exact h3⟩
    · rintro c i v c' ⟨h0, h1, h2, h3⟩ he
      obtain ⟨k1, -, k2, k3, -⟩ := onEntry_keeps he
      exact ⟨by rw [k1]; exact h0, by rw [k2]; exact h1, by rw [k2, k3]; exact h2, by rw [k2]; exact h3⟩
    · rintro c v ⟨h0, h1, h2, h3⟩ hle hm
      have : shutdowns (c.ev ++ [.shutdown v]) = shutdowns c.ev ++ [v] := by unfold shutdowns; rw [List.filterMap_append]; simp
      refine ⟨h0, ?_, ?_, ?_⟩
      · dsimp only
        rw [this, List.pairwise_append]
        exact ⟨h1, by simp, fun a ha b hb => by rw [List.mem_singleton] at hb; subst hb; exact Nat.le_trans hle (h2 a ha)⟩
      · dsimp only
        rw [this]
        intro id hid
        rcases List.mem_append.1 hid with h | h
        · exact Nat.le_trans hle (h2 id h)
        · rw [List.mem_singleton] at h; omega
      · dsimp only
        rw [this]
        intro hs id hid
        rcases List.mem_append.1 hid with h | h
        · exact h3 hs id h
        · rw [List.mem_singleton] at h; subst h; exact hm (by rw [h0]; exact hs)
  have hq : Q (start server e0 x).conn := ⟨rfl, .nil, by simp [start, shutdowns], by simp [start, shutdowns]⟩
  have := feed_pres hst (start server e0 x) chunks hq
  rcases hf : feed env (start server e0 x) chunks with _ | o | ⟨o, r⟩ | s <;> rw [hf] at this h <;> simp only [connOf] at h
  · cases h
  · cases h; exact ⟨this.2.1, this.2.2.2⟩
  · cases h
  · cases h; exact ⟨this.2.1, this.2.2.2⟩

/-- C30.  On a client the result of processing the control stream - callbacks made, state, error - depends on the bytes only,
not on how they are divided into calls. -/
theorem C30_client (env : Env S) (e0 : Qpack.Enc) (x : S) (a b : List Bytes) (ha : ∀ c ∈ a, c ≠ []) (hb : ∀ c ∈ b, c ≠ [])
    (h : a.flatten = b.flatten) : feed env (start false e0 x) a = feed env (start false e0 x) b := by
  rw [feed_client _ _ ha (inv_start ..) rfl, feed_client _ _ hb (inv_start ..) rfl, h]

/-- no PRIORITY_UPDATE field value was too long for the buffer so far -/
def NoLongValue {S : Type} (r : Machine.Out (St S) (Int × Conn S)) : Prop := ∀ c, connOf r = some c → c.long = false

/-- C30.  The same on a server, for calls that return and as long as no PRIORITY_UPDATE field value is longer than 8 bytes. -/
theorem C30_server (env : Env S) (e0 : Qpack.Enc) (x : S) (a b : List Bytes) (ha : ∀ c ∈ a, c ≠ []) (hb : ∀ c ∈ b, c ≠ [])
    (h : a.flatten = b.flatten) (hca : feed env (start true e0 x) a ≠ .crash) (hcb : feed env (start true e0 x) b ≠ .crash)
    (hl : NoLongValue (feed env (start true e0 x) a)) : feed env (start true e0 x) a = feed env (start true e0 x) b := by
  have e1 : feed env (start true e0 x) a = runI env (start true e0 x) a.flatten := by
    rcases feed_cmp (env := env) _ _ ha (inv_start true e0 x) with h1 | h1 | ⟨h1, -⟩
    · exact absurd h1 hca
    · exact h1
    · rcases hf : feed env (start true e0 x) a with _ | o | ⟨o, r⟩ | s <;> rw [hf] at h1 hl
      · exact absurd hf hca
      · have := hl o.2 rfl; rw [h1] at this; cases this
      · exact h1.elim
      · have := hl s.conn rfl; rw [h1] at this; cases this
  rcases feed_cmp (env := env) _ _ hb (inv_start true e0 x) with h1 | h1 | ⟨-, c, hc, h1⟩
  · exact absurd h1 hcb
  · rw [h1, e1, h]
  · rw [← h, ← e1] at h1
    have := hl c (by rw [h1]; rfl)
    rw [hc] at this; cases this

/-- C47.  No bytes on the control stream of a client, in any packetisation, fail an assertion. -/
theorem C47_client (env : Env S) (e0 : Qpack.Enc) (x : S) (chunks : List Bytes) (hne : ∀ c ∈ chunks, c ≠ []) :
    feed env (start false e0 x) chunks ≠ .crash := by
  rw [feed_client _ _ hne (inv_start ..) rfl]
  exact runI_safe _ _ (inv_start ..)

theorem feed_inv8 (env : Env S) (s : St S) (hi : Inv P8 s) (chunks : List Bytes) (s' : St S) (h : feed env s chunks = .ok s') : Inv P8 s' := by
  induction chunks generalizing s with
  | nil => cases h; exact hi
  | cons c cs ih =>
    unfold feed at h
    rcases hr : read env s c with _ | o | ⟨o, r⟩ | s1 <;> rw [hr] at h <;> dsimp only at h
    · cases h
    · cases h
    · cases h
    · exact ih s1 (read_real s c hi s1 hr) h

/-- C47 (what holds on a server).  If processing fails an assertion, then in a call that would not have failed had its
input been one byte longer, whatever that byte: the defect is confined to one position of the packet boundary. -/
theorem C47_server_partial (env : Env S) (e0 : Qpack.Enc) (x : S) (chunks : List Bytes) (hne : ∀ c ∈ chunks, c ≠ [])
    (h : feed env (start true e0 x) chunks = .crash) :
    ∃ pre c post s, chunks = pre ++ c :: post ∧ feed env (start true e0 x) pre = .ok s ∧ read env s c = .crash ∧
      ∀ b, read env s (c ++ [b]) ≠ .crash := by
  have key : ∀ (chunks : List Bytes) (s0 : St S), Inv P8 s0 → (∀ c ∈ chunks, c ≠ []) → feed env s0 chunks = .crash →
      ∃ pre c post s, chunks = pre ++ c :: post ∧ feed env s0 pre = .ok s ∧ read env s c = .crash ∧ ∀ b, read env s (c ++ [b]) ≠ .crash := by
    intro chunks
    induction chunks with
    | nil => intro s0 _ _ h; cases h
    | cons c cs ih =>
      intro s0 hi hne h
      unfold feed at h
      rcases hr : read env s0 c with _ | o | ⟨o, r⟩ | s1 <;> rw [hr] at h <;> dsimp only at h
      · exact ⟨[], c, cs, s0, rfl, rfl, hr, fun b => read_crash s0 c hi (hne c (by simp)) hr b⟩
      · cases h
      · cases h
      · obtain ⟨pre, c', post, s, e1, e2, e3, e4⟩ := ih s1 (read_real s0 c hi s1 hr) (fun y hy => hne y (by simp [hy])) h
        refine ⟨c :: pre, c', post, s, by rw [e1]; rfl, ?_, e3, e4⟩
        unfold feed
        rw [hr]
        exact e2
  exact key chunks _ (inv_idle buf8 _) hne h

/-- C47.  The buffer for the priority field value never holds more than its 8 bytes. -/
theorem C47_buffer (env : Env S) (server : Bool) (e0 : Qpack.Enc) (x : S) (chunks : List Bytes) (s : St S)
    (h : feed env (start server e0 x) chunks = .ok s) : s.priBuf.length ≤ 8 :=
  (feed_inv8 env _ (inv_idle buf8 _) chunks s h).buf8

/-! ### Concrete cases -/

/-- an application whose callbacks succeed; a field value is "u=d"; the priority updates are recorded -/
def demo : Env (List (Nat × Nat)) where
  parsePri b := match b with
    | [117, 61, d] => if 48 ≤ d ∧ d ≤ 55 then some { urgency := d.toNat - 48, inc := false } else none
    | _ => none
  onPri x id p := .ok (x ++ [(id, p.urgency)])
  cb _ := true

def isCrash {σ ω : Type} : Machine.Out σ ω → Bool
  | .crash => true
  | _ => false

def errorOf {σ : Type} : Machine.Out σ (Int × Conn (List (Nat × Nat))) → Option Int
  | .fail o => some o.1
  | _ => none

def updates (r : Machine.Out (St (List (Nat × Nat))) (Int × Conn (List (Nat × Nat)))) : Option (List (Nat × Nat)) := (connOf r).map (·.ext)

def demoStart (server : Bool) : St (List (Nat × Nat)) := start server (Qpack.Enc.init 4096) []

/-- C47 is false on a server: a call that ends right after the prioritized element ID fails an assertion -/
theorem C47_fails_on_server : feed demo (demoStart true) [[4, 0, 0x80, 0x0f, 0x07, 0x00, 4, 0], [117, 61, 53]] = .crash := by
  have : isCrash (feed demo (demoStart true) [[4, 0, 0x80, 0x0f, 0x07, 0x00, 4, 0], [117, 61, 53]]) = true := by decide +kernel
  generalize feed demo (demoStart true) [[4, 0, 0x80, 0x0f, 0x07, 0x00, 4, 0], [117, 61, 53]] = r at this
  cases r <;> first | rfl | cases this

/-- the same bytes divided differently are processed -/
example : updates (feed demo (demoStart true) [[4, 0, 0x80, 0x0f, 0x07, 0x00, 4, 0, 117], [61, 53]]) = some [(0, 5)] := by decide +kernel

/-- SETTINGS, a PRIORITY_UPDATE with a field value of 12 bytes, and another for stream 4 -/
def longThenShort : Bytes :=
  [4, 0, 0x80, 0x0f, 0x07, 0x00, 13, 0, 117, 61, 49, 32, 32, 32, 32, 32, 32, 32, 32, 32, 0x80, 0x0f, 0x07, 0x00, 4, 4, 117, 61, 53]

/-- C30 is false on a server if a field value is too long: if some of it was already buffered, these bytes are put in front of
the next field value -/
theorem C30_fails_after_long_value :
    updates (feed demo (demoStart true) [longThenShort]) = some [(4, 5)] ∧
    errorOf (feed demo (demoStart true) [longThenShort.take 11, longThenShort.drop 11]) = some Err.H3_GENERAL_PROTOCOL_ERROR := by
  constructor <;> decide +kernel

/-- what `C27_frames` says of concrete frames: SETTINGS, a frame of unknown type, GOAWAY 8, PRIORITY_UPDATE, then a GOAWAY with a larger
identifier; in one byte pieces, except that the PRIORITY_UPDATE is not split after its element ID -/
example :
    let r := feed demo (demoStart true)
      [[4], [3], [6], [0x44], [0], [0x21], [1], [9], [7], [1], [8], [0x80], [0x0f], [7], [0], [4, 0, 117], [61], [53], [7], [1], [12]]
    errorOf r = some Err.H3_ID_ERROR ∧ updates r = some [(0, 5)] ∧
      (connOf r).map (fun c => shutdowns c.ev) = some [8] ∧ (connOf r).map (fun c => c.remote.maxFieldSectionSize) = some 1024 := by
  refine ⟨?_, ?_, ?_, ?_⟩ <;> decide +kernel

/-- an encoding of frames, for the hypotheses of `C27_frames` -/
example : EncodesAll [.settings [(6, 5)], .goaway 8] ([4, 2, 6, 5] ++ ([7, 1, 8] ++ [])) := by
  have v : ∀ n : Nat, n < 64 → Spec.IsVarint n [UInt8.ofNat n] := by
    intro n hn
    refine ⟨0, by decide, rfl, by omega, ?_⟩
    simp [Spec.bigEndian]
    omega
  refine .cons ⟨[6, 5], ?_, [4], [2], v 4 (by decide), v 2 (by decide), rfl⟩ (.cons ⟨[8], v 8 (by decide), [7], [1], v 7 (by decide), v 1 (by decide), rfl⟩ .nil)
  exact .cons (bi := [6]) (bv := [5]) (v 6 (by decide)) (v 5 (by decide)) .nil

/-- trailing bytes of a GOAWAY payload are taken for the next frame: here a GOAWAY frame of length 3, whose payload is the
identifier 8 and two more bytes, which are read as an empty frame of unknown type 0x21 -/
theorem C27_goaway_trailing_bytes : (connOf (feed demo (demoStart true) [[4, 0, 7, 3, 8, 0x21, 0]])).map (fun c => shutdowns c.ev) = some [8] ∧
    errorOf (feed demo (demoStart true) [[4, 0, 7, 3, 8, 0x21, 0]]) = none := by
  constructor <;> decide +kernel

end Props
end Nghttp3
