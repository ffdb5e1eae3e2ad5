import Verif.Lemmas.Message
/-! Property theorems C23-C26: header sections, content-length, character grammar, message framing.

`Field` is a header field as received, `fl f` its (name, value) pair; RequestOk, ResponseOk, TrailersOk, requestLength, ... are in
Spec/Http.lean. `pp` is the parser of the Priority field (an arbitrary function), `ext` says whether extended CONNECT is enabled. -/
namespace Nghttp3
namespace Props
open Spec Http

/-! ### C23: header sections -/

/-- C23: a server accepts the header section of a request iff it is well-formed, and then passes to the application exactly the
fields with a legal name and value, in order, between begin_headers and end_headers; otherwise the section is an error
(MALFORMED_HTTP_HEADER: the stream is reset with H3_MESSAGE_ERROR) and end_headers is not called. -/
theorem C23_request (pp : Pri → List UInt8 → Option Pri) (ext : Bool) (fs : List Field) :
    (RequestOk ext (fs.map fl) → ∃ m, onFrame pp ext ⟨.reqInitial, {}⟩ (.headers (some fs)) =
      (.beginHeaders :: (fs.filter (fun f => deliverRequest (fl f))).map .header ++ [.endHeaders], .ok m)) ∧
    (¬ RequestOk ext (fs.map fl) → ∃ cb, onFrame pp ext ⟨.reqInitial, {}⟩ (.headers (some fs)) = (cb, .malformedHeader) ∧
      Cb.endHeaders ∉ cb) := by
  have hcb : ∀ cb, onFrame pp ext ⟨.reqInitial, {}⟩ (.headers (some fs)) = (cb, .malformedHeader) → Cb.endHeaders ∉ cb := by
    intro cb h
    unfold onFrame at h
    have : transit .reqInitial {} .headersBegin = .ok .reqHeadersBegin := rfl
    dsimp only at h
    rw [this] at h
    unfold Tr.bind at h
    dsimp only at h
    have e1 : isTrailers .reqHeadersBegin = false := rfl
    have e2 : isRequest .reqHeadersBegin = true := rfl
    rw [e1, e2] at h
    rcases hq : (runFields pp true false ext {} fs).2.bind (endSection .reqHeadersBegin) with _ | s
    · rw [hq] at h
      rw [← (Prod.mk.inj h).1]
      simp
    · rw [hq] at h
      cases (Prod.mk.inj h).2
  rcases req_frame pp ext fs with ⟨h1, c, h2⟩ | ⟨h1, s, h2, _⟩
  · exact ⟨fun h => absurd h h1, fun _ => ⟨c, h2, hcb c h2⟩⟩
  · exact ⟨fun _ => ⟨_, h2⟩, fun h => absurd h1 h⟩

/-- C23: the same for the header section of a response to a request with fields `req`, as the first frame of the stream. -/
theorem C23_response (pp : Pri → List UInt8 → Option Pri) (ext : Bool) (req fs : List Field) :
    let connect := decide (methodOf (req.map fl) = some (ascii "CONNECT"))
    (∀ st, ResponseOk connect st (fs.map fl) → ∃ m, onFrame pp ext ⟨.respInitial, recordRequestMethod {} req⟩ (.headers (some fs)) =
      (.beginHeaders :: (fs.filter (fun f => deliverResponse (lengthRule connect st) (fl f))).map .header ++ [.endHeaders], .ok m)) ∧
    ((∀ st, ¬ ResponseOk connect st (fs.map fl)) →
      ∃ cb, onFrame pp ext ⟨.respInitial, recordRequestMethod {} req⟩ (.headers (some fs)) = (cb, .malformedHeader)) := by
  obtain ⟨c, h, e, h1, h2⟩ := recordRequestMethod_eq req
  intro connect
  have hc : c = connect := by
    show c = decide _
    cases c
    · symm; rw [decide_eq_false_iff_not]; intro hm; cases h1.2 hm
    · symm; rw [decide_eq_true_iff]; exact h1.1 rfl
  rw [e]
  have hfr := resp_frame pp ext .respInitial { methConnect := c, methHead := h } ⟨rfl, rfl, rfl, rfl, rfl⟩ (Or.inl rfl) fs
  dsimp only at hfr
  rw [hc] at hfr ⊢
  rcases hfr with ⟨g1, cb, g2⟩ | ⟨st, s, g1, g2, _⟩
  · exact ⟨fun st hst => absurd hst (g1 st), fun _ => ⟨cb, g2⟩⟩
  · refine ⟨fun st' hst => ?_, fun hn => absurd g1 (hn st)⟩
    have : st' = st := by
      obtain ⟨v, hv, _, _, hd⟩ := g1.code
      obtain ⟨v', hv', _, _, hd'⟩ := hst.code
      rw [hv] at hv'
      cases hv'
      rw [← hd, ← hd']
    subst this
    exact ⟨_, g2⟩

/-- C23: trailers: accepted iff well-formed, whatever the state of the message; exactly the legal fields are delivered. -/
theorem C23_trailers (pp : Pri → List UInt8 → Option Pri) (req ext : Bool) (s : State) (fs : List Field) :
    ((runFields pp req true ext s fs).2 ≠ none ↔ TrailersOk req s.host (fs.map fl)) ∧
    (TrailersOk req s.host (fs.map fl) → (runFields pp req true ext s fs).1 = fs.filter (fun f => deliverTrailer req (fl f))) := by
  have := trailers_run pp req ext s fs
  cases h : (runFields pp req true ext s fs).2 with
  | none => rw [h] at this; exact ⟨⟨fun h => absurd rfl h, fun h => absurd h this⟩, fun h => absurd h this⟩
  | some s' => rw [h] at this; exact ⟨⟨fun _ => this.1, fun _ => by simp⟩, fun _ => this.2.2.2.2⟩

/-- C23: what is delivered of an accepted request is clean: every field is a pseudo-header field of a request or a lower case token
which is not connection-specific, and its value is legal. -/
theorem C23_delivered_request (ext : Bool) (fs : List Fld) (h : RequestOk ext fs) (f : Fld) (hf : f ∈ fs) (hd : deliverRequest f = true) :
    (f.1 ∈ [ascii ":authority", ascii ":method", ascii ":path", ascii ":scheme", ascii ":protocol"] ∨
      (isName f.1 = true ∧ f.1 ∉ connectionSpecific)) ∧
    f.2.all (fun c => isValueChar c) = true := by
  have auth : ∀ c : UInt8, isAuthorityChar c = true → isValueChar c = true :=
    fun c => all_bytes (p := fun c => isAuthorityChar c = true → isValueChar c = true) (by decide +kernel) c
  have tch : ∀ c : UInt8, isTchar c = true → isValueChar c = true :=
    fun c => all_bytes (p := fun c => isTchar c = true → isValueChar c = true) (by decide +kernel) c
  have pth : ∀ c : UInt8, isPathChar c = true → isValueChar c = true :=
    fun c => all_bytes (p := fun c => isPathChar c = true → isValueChar c = true) (by decide +kernel) c
  have sch1 : ∀ c : UInt8, (isUpper c || isLower c) = true → isValueChar c = true :=
    fun c => all_bytes (p := fun c => (isUpper c || isLower c) = true → isValueChar c = true) (by decide +kernel) c
  have sch2 : ∀ c : UInt8, (isUpper c || isLower c || isDigit c || decide (c ∈ ascii "+-.")) = true → isValueChar c = true :=
    fun c => all_bytes (p := fun c => (isUpper c || isLower c || isDigit c || decide (c ∈ ascii "+-.")) = true → isValueChar c = true)
      (by decide +kernel) c
  have dig : ∀ c : UInt8, isDigit c = true → isValueChar c = true :=
    fun c => all_bytes (p := fun c => isDigit c = true → isValueChar c = true) (by decide +kernel) c
  have low : ∀ c : UInt8, lowerChar c ∈ ascii "trailers" → isValueChar c = true :=
    fun c => all_bytes (p := fun c => lowerChar c ∈ ascii "trailers" → isValueChar c = true) (by decide +kernel) c
  have mono : ∀ (p q : UInt8 → Bool) (v : List UInt8), (∀ c, p c = true → q c = true) → v.all p = true → v.all q = true := by
    intro p q v hpq hv
    rw [List.all_eq_true] at hv ⊢
    exact fun x hx => hpq x (hv x hx)
  have fv : ∀ v : List UInt8, isFieldValue v = true → v.all (fun c => isValueChar c) = true := by
    intro v hv
    unfold isFieldValue at hv
    simp only [Bool.and_eq_true] at hv
    exact hv.1.1
  have mem : ∀ n, f.1 = ascii n → f.2 ∈ valuesOf n fs := by
    intro n hn
    unfold valuesOf
    exact List.mem_map_of_mem (List.mem_filter.2 ⟨hf, by simpa using hn⟩)
  unfold deliverRequest at hd
  cases hp : isPseudo f
  · rw [hp] at hd
    simp only [Bool.false_or, Bool.and_eq_true] at hd
    have hr := h.regular f hf (by rw [hp]; simp)
    refine ⟨Or.inr ⟨hd.1, hr.conn⟩, ?_⟩
    obtain ⟨_, hd⟩ := hd
    by_cases h1 : f.1 = ascii "host"
    · rw [if_pos h1] at hd
      exact mono _ _ _ auth hd
    · rw [if_neg h1] at hd
      by_cases h2 : f.1 = ascii "content-length" ∨ f.1 = ascii "te"
      · rcases h2 with h2 | h2
        · have := h.length _ (mem _ h2)
          unfold isLength at this
          simp only [Bool.and_eq_true] at this
          exact mono _ _ _ dig this.1.2
        · have := hr.te h2
          rw [List.all_eq_true]
          intro x hx
          apply low
          rw [← this]
          exact List.mem_map_of_mem hx
      · rw [if_neg h2] at hd
        exact fv _ hd
  · have hk := h.known f hf hp
    constructor
    · left
      rcases hk with hk | ⟨_, hk⟩
      · simp only [List.mem_cons, List.not_mem_nil, or_false] at hk ⊢
        tauto
      · rw [hk]; simp
    · rcases hk with hk | ⟨_, hk⟩
      · simp only [List.mem_cons, List.not_mem_nil, or_false] at hk
        rcases hk with hk | hk | hk | hk
        · exact mono _ _ _ auth (h.authority _ (mem _ hk)).2
        · exact mono _ _ _ tch (h.method _ (mem _ hk)).2
        · exact mono _ _ _ pth (h.path _ (mem _ hk)).2
        · have := h.scheme _ (mem _ hk)
          cases hv : f.2 with
          | nil => rfl
          | cons c t =>
            rw [hv] at this
            simp only [isScheme, Bool.and_eq_true] at this
            rw [List.all_cons, Bool.and_eq_true]
            exact ⟨sch1 c this.1, mono _ _ _ sch2 this.2⟩
      · exact fv _ (h.protocol _ (mem _ hk)).2

/-! ### C24: content-length -/

/-- C24: the body of a request: whatever the DATA frames and the pieces in which they arrive, the message completes iff the total is
the declared length (if any). -/
theorem C24_request (pp : Pri → List UInt8 → Option Pri) (ext : Bool) (fs : List Field) (ds : List (List Nat))
    (hok : RequestOk ext (fs.map fl)) :
    (∃ cb m, onMessage pp ext ⟨.reqInitial, {}⟩ (.headers (some fs) :: ds.map .data) = (cb, .ok m)) ↔
      lengthOk (requestLength (fs.map fl)) ds.flatten.sum := by
  rcases req_frame pp ext fs with ⟨h1, _⟩ | ⟨_, s, h2, h3, h4, h5, h6, h7⟩
  · exact absurd hok h1
  · have hfit : fits s 0 := by
      unfold fits
      rw [h7, h4]
      cases requestLength (fs.map fl) with
      | none => exact Or.inl rfl
      | some k => right; simp
    have htail := fun cb => tail_iff pp ext dir_req (fun _ _ => Iff.rfl) .reqHeadersEnd s h3 hfit rfl
      (by unfold transit; dsimp only; cases s.methConnect <;> simp) rfl (ds.map .data) cb
    have hmsg : ∀ cb m, onMessage pp ext ⟨.reqHeadersEnd, s⟩ (ds.map .data) = (cb, .ok m) →
        ∃ cb m, onMessage pp ext ⟨.reqInitial, {}⟩ (.headers (some fs) :: ds.map .data) = (cb, .ok m) := by
      intro cb m h
      rw [onMessage_cons, h2]
      dsimp only
      rw [h]
      exact ⟨_, _, rfl⟩
    have hlen : (s.contentLength = -1 ∨ s.contentLength = s.recvContentLength + (ds.flatten.sum : Nat)) ↔
        lengthOk (requestLength (fs.map fl)) ds.flatten.sum := by
      rw [h7, h4]
      unfold lengthOk
      cases requestLength (fs.map fl) with
      | none => simp
      | some k => simp only [Option.some.injEq, forall_eq']; omega
    constructor
    · rintro ⟨cb, m, h⟩
      rw [onMessage_cons, h2] at h
      dsimp only at h
      obtain ⟨ds', tr, ht⟩ := (htail (onMessage pp ext ⟨.reqHeadersEnd, s⟩ (ds.map .data)).1).1 ⟨m, Prod.ext rfl (Prod.mk.inj h).2⟩
      have hfr := ht.frames
      have htr : tr = none := by
        cases tr with
        | none => rfl
        | some t =>
          have : Frm.headers t ∈ ds.map Frm.data := by rw [hfr]; simp
          simp at this
      subst htr
      have : ds = ds' := by
        simp only [Option.toList_none, List.map_nil, List.append_nil] at hfr
        exact (List.map_inj_right (fun a b h => by injection h)).1 hfr
      subst this
      exact hlen.1 ht.length
    · intro h
      obtain ⟨m, hm⟩ := (htail _).2 ⟨ds, none, by simp, by simp, hlen.2 h, rfl⟩
      exact hmsg _ _ hm

/-- C24: excess is refused at once: as soon as the pieces received so far exceed the declared length, the data is an error, and nothing
beyond the declared length has been given to the application. -/
theorem C24_excess_refused (s : State) (k : Nat) (hf : s.expectFinal = false) (hk : s.contentLength = (k : Int))
    (r : Nat) (hr : s.recvContentLength = (r : Int)) (hrk : r ≤ k) (ps : List Nat) :
    (onData s ps).2 = none ↔ k < r + ps.sum := by
  have h0 : fits s 0 := by unfold fits; rw [hk, hr]; right; omega
  have := onData_eq s ps hf h0
  by_cases hfit : fits s ps.sum
  · rw [this.1 hfit]
    unfold fits at hfit
    rw [hk, hr] at hfit
    simp only [reduceCtorEq, false_iff, not_lt]
    omega
  · rw [this.2 hfit]
    unfold fits at hfit
    rw [hk, hr] at hfit
    simp only [true_iff]
    omega

/-- C24: and the bytes delivered never exceed it. -/
theorem C24_delivered_le (s : State) (k : Nat) (hk : s.contentLength = (k : Int)) (hf : s.expectFinal = false)
    (r : Nat) (hr : s.recvContentLength = (r : Int)) (hrk : r ≤ k) (ps : List Nat) :
    r + ((onData s ps).1.map (fun c => match c with | .data n => n | _ => 0)).sum ≤ k := by
  induction ps generalizing s r with
  | nil => simpa [onData] using hrk
  | cons n t ih =>
    unfold onData
    by_cases hn : r + n ≤ k
    · have hc : onDataChunk s n = some (addRecv s n) := by
        unfold onDataChunk addRecv
        simp only [hf, Bool.false_or]
        have : ¬ s.recvContentLength + n > s.contentLength := by omega
        simp [this]
      rw [hc]
      dsimp only
      have := ih (addRecv s n) hk hf (r + n) (by show s.recvContentLength + n = _; rw [hr]; push_cast; rfl) hn
      simp only [List.map_cons, List.sum_cons]
      omega
    · have hc : onDataChunk s n = none := by
        unfold onDataChunk
        simp only [hf, Bool.false_or]
        have h1 : s.recvContentLength + n > s.contentLength := by omega
        have h2 : ¬ s.contentLength = -1 := by omega
        simp [h1, h2]
      rw [hc]
      simpa using hrk

/-- C24: the number declared is the decimal number of the field, if it fits in 62 bits; all else is refused. -/
theorem C24_parse (v : List UInt8) : parseUint v = if isLength v then (decimal v : Int) else -1 := parseUint_eq v

/-! ### C25: characters -/

/-- C25: nghttp3_check_header_value decides the grammar of field values. -/
theorem C25_value (v : List UInt8) : checkHeaderValue v = isFieldValue v := checkHeaderValue_eq v

/-- C25: the AVX2 version decides the same set. -/
theorem C25_value_avx2 (v : List UInt8) : checkHeaderValueAvx2 v = isFieldValue v := by
  rw [checkHeaderValueAvx2_eq, checkHeaderValue_eq]

/-- C25: received regular names: a legal name is accepted, a name whose first bad character is a capital is an error, the field is
ignored in all other cases. -/
theorem C25_received_name (n : List UInt8) :
    checkNonemptyName n = if n.all isNameChar then 1 else if badCase n then -1 else 0 := checkNonemptyName_eq n

/-- C25: nghttp3_check_header_name accepts the tokens, optionally after one colon: lower case is not required. -/
theorem C25_name (n : List UInt8) : checkHeaderName n = true ↔
    (n ≠ [] ∧ n.all isTchar = true) ∨ ∃ t, n = 0x3a :: t ∧ t ≠ [] ∧ t.all isTchar = true := by
  have hch : ∀ c : UInt8, (tbl Chars.nameChars c != 0) = isTchar c :=
    fun c => all_bytes (p := fun c => (tbl Chars.nameChars c != 0) = isTchar c) (by decide +kernel) c
  have h3a : isTchar 0x3a = false := by decide
  cases n with
  | nil => simp [checkHeaderName]
  | cons c t =>
    unfold checkHeaderName
    simp only [hch]
    by_cases hc : c = 0x3a
    · subst hc
      cases t with
      | nil => simp [h3a]
      | cons a b => simp [h3a]
    · simp [hc]

/-- C25: in particular it does not reject capitals, although nghttp3.h says so ("returns nonzero if ... must be lower case"). -/
theorem C25_name_accepts_capitals : checkHeaderName (ascii "Foo") = true := by decide

example : checkHeaderValue (ascii "text/html; q=1") = true ∧ checkHeaderValue (ascii " x") = false := by decide
example : checkNonemptyName (ascii "foo") = 1 ∧ checkNonemptyName (ascii "fOo") = -1 ∧ checkNonemptyName (ascii "f o") = 0 := by decide

/-! ### C26: message framing -/

/-- C26: a request is accepted iff it is HEADERS DATA* [HEADERS], its header section is well-formed, trailers are not used with CONNECT
and are well-formed, and the length is as declared; and these are the callbacks. -/
theorem C26_request (pp : Pri → List UInt8 → Option Pri) (ext : Bool) (frames : List Frm) (cb : List Cb) :
    (∃ m, onMessage pp ext ⟨.reqInitial, {}⟩ frames = (cb, .ok m)) ↔
    ∃ (fs : List Field) (ds : List (List Nat)) (tr : Option (Option (List Field))),
      frames = .headers (some fs) :: ds.map .data ++ tr.toList.map .headers ∧
      RequestOk ext (fs.map fl) ∧
      (∀ t, tr = some t → ¬ hasValue ":method" "CONNECT" (fs.map fl) ∧
        ∀ ts, t = some ts → TrailersOk true (decide (hosts (fs.map fl) ≠ [])) (ts.map fl)) ∧
      lengthOk (requestLength (fs.map fl)) ds.flatten.sum ∧
      cb = .beginHeaders :: (fs.filter (fun f => deliverRequest (fl f))).map .header ++ .endHeaders :: ds.flatten.map .data ++
        tr.elim [] (trailerCbs true) ++ [.endStream] := by
  have hbad : ∀ (f : Frm) (rest : List Frm), (∀ fs, f ≠ .headers (some fs)) →
      ∀ cb m, onMessage pp ext ⟨.reqInitial, {}⟩ (f :: rest) ≠ (cb, .ok m) := by
    intro f rest hf cb m h
    rw [onMessage_cons] at h
    cases f with
    | data ps =>
      have : onFrame pp ext ⟨.reqInitial, {}⟩ (.data ps) = ([], .unexpected) := rfl
      rw [this] at h; cases (Prod.mk.inj h).2
    | headers o =>
      cases o with
      | some fs => exact hf fs rfl
      | none =>
        have : onFrame pp ext ⟨.reqInitial, {}⟩ (.headers none) = ([], .malformedMessaging) := rfl
        rw [this] at h; cases (Prod.mk.inj h).2
  cases frames with
  | nil =>
    constructor
    · rintro ⟨m, h⟩
      have : onMessage pp ext ⟨.reqInitial, {}⟩ [] = ([], .unexpected) := rfl
      rw [this] at h; cases (Prod.mk.inj h).2
    · rintro ⟨fs, ds, tr, h, _⟩; simp at h
  | cons f rest =>
    by_cases hf : ∃ fs, f = .headers (some fs)
    · obtain ⟨fs, rfl⟩ := hf
      rcases req_frame pp ext fs with ⟨h1, c, h2⟩ | ⟨h1, s, h2, h3, h4, h5, h6, h7⟩
      · rw [onMessage_cons, h2]
        constructor
        · rintro ⟨m, h⟩; cases (Prod.mk.inj h).2
        · rintro ⟨fs', ds, tr, h, hok, _⟩
          simp only [List.cons_append, List.cons.injEq, Frm.headers.injEq, Option.some.injEq] at h
          rw [← h.1] at hok
          exact absurd hok h1
      · have hfit : fits s 0 := by
          unfold fits
          rw [h7, h4]
          cases requestLength (fs.map fl) with
          | none => exact Or.inl rfl
          | some k => right; simp
        have htail := fun cb => tail_iff pp ext dir_req (fun _ _ => Iff.rfl) .reqHeadersEnd s h3 hfit rfl
          (by unfold transit; dsimp only; cases s.methConnect <;> simp) rfl rest cb
        have hreq : isRequest .reqTrailersBegin = true := rfl
        have hlen : ∀ ds : List (List Nat), (s.contentLength = -1 ∨ s.contentLength = s.recvContentLength + (ds.flatten.sum : Nat)) ↔
            lengthOk (requestLength (fs.map fl)) ds.flatten.sum := by
          intro ds
          rw [h7, h4]
          unfold lengthOk
          cases requestLength (fs.map fl) with
          | none => simp
          | some k => simp only [Option.some.injEq, forall_eq']; omega
        rw [onMessage_cons, h2]
        dsimp only
        constructor
        · rintro ⟨m, h⟩
          obtain ⟨ds, tr, ht⟩ := (htail (onMessage pp ext ⟨.reqHeadersEnd, s⟩ rest).1).1 ⟨m, Prod.ext rfl (Prod.mk.inj h).2⟩
          refine ⟨fs, ds, tr, ?_, h1, ?_, (hlen ds).1 ht.length, ?_⟩
          · rw [ht.frames]; rfl
          · intro t e
            obtain ⟨a, b⟩ := ht.trailers t e
            rw [h5] at b
            exact ⟨fun hc => a (h6.2 hc), b⟩
          · rw [← (Prod.mk.inj h).1, ht.cbs]
            simp [hreq]
        · rintro ⟨fs', ds, tr, e, _, hb, hl, hcb⟩
          simp only [List.cons_append, List.cons.injEq, Frm.headers.injEq, Option.some.injEq] at e
          obtain ⟨rfl, e⟩ := e
          obtain ⟨m, hm⟩ := (htail _).2 ⟨ds, tr, e, fun t et => by
            rw [h5]
            exact ⟨fun hc => (hb t et).1 (h6.1 hc), (hb t et).2⟩, (hlen ds).2 hl, rfl⟩
          refine ⟨m, ?_⟩
          rw [hm, hcb]
          simp [hreq]
    · constructor
      · rintro ⟨m, h⟩
        exact absurd h (hbad f rest (fun fs e => hf ⟨fs, e⟩) cb m)
      · rintro ⟨fs, ds, tr, h, _⟩
        simp only [List.cons_append, List.cons.injEq] at h
        exact absurd ⟨fs, h.1⟩ hf

/-- the callbacks for a header section of a response -/
def respCbs (connect : Bool) (st : Nat) (fs : List Field) : List Cb :=
  .beginHeaders :: (fs.filter (fun f => deliverResponse (lengthRule connect st) (fl f))).map .header ++ [.endHeaders]

theorem status_unique {connect : Bool} {st st' : Nat} {fs : List Fld} (h : ResponseOk connect st fs) (h' : ResponseOk connect st' fs) :
    st = st' := by
  obtain ⟨v, hv, _, _, hd⟩ := h.code
  obtain ⟨v', hv', _, _, hd'⟩ := h'.code
  rw [hv] at hv'
  cases hv'
  rw [← hd, ← hd']

/-- the accepted responses in terms of the two facts recorded about the request -/
theorem resp_frames (pp : Pri → List UInt8 → Option Pri) (ext : Bool) (c hd : Bool) (frames : List Frm) (h : Hs) (s0 : State)
    (hf : FreshResp s0) (hh : h = .respInitial ∨ (h = .respHeadersEnd ∧ s0.expectFinal = true)) (hc : s0.methConnect = c)
    (hhd : s0.methHead = hd) (cb : List Cb) :
    (∃ m, onMessage pp ext ⟨h, s0⟩ frames = (cb, .ok m)) ↔
    ∃ (is : List (Nat × List Field)) (st : Nat) (fs : List Field) (ds : List (List Nat)) (tr : Option (Option (List Field))),
      frames = is.map (fun i => .headers (some i.2)) ++ .headers (some fs) :: ds.map .data ++ tr.toList.map .headers ∧
      (∀ i ∈ is, ResponseOk c i.1 (i.2.map fl) ∧ i.1 / 100 = 1) ∧
      ResponseOk c st (fs.map fl) ∧ st / 100 ≠ 1 ∧
      (∀ t, tr = some t → ¬ (c = true ∧ st / 100 = 2) ∧ ∀ ts, t = some ts → TrailersOk false false (ts.map fl)) ∧
      lengthOk (if hd = true ∨ st = 204 ∨ st = 304 then some 0 else if c = true then none
        else ((valuesOf "content-length" (fs.map fl)).head?).map decimal) ds.flatten.sum ∧
      cb = is.flatMap (fun i => respCbs c i.1 i.2) ++ respCbs c st fs ++ ds.flatten.map .data ++
        tr.elim [] (trailerCbs false) ++ [.endStream] := by
  have hh' : h = .respInitial ∨ h = .respHeadersEnd := hh.imp id And.left
  induction frames generalizing h s0 cb with
  | nil =>
    constructor
    · rintro ⟨m, hm⟩
      have : (onMessage pp ext ⟨h, s0⟩ []).2 = .unexpected ∨ (onMessage pp ext ⟨h, s0⟩ []).2 = .malformedMessaging := by
        rcases hh with rfl | ⟨rfl, he⟩
        · exact Or.inl rfl
        · right
          unfold onMessage onFrames onEnd transit
          dsimp only
          unfold trEnd onRemoteEndStream
          rw [he]
          rfl
      rw [hm] at this
      rcases this with this | this <;> cases this
    · rintro ⟨is, st, fs, ds, tr, h, _⟩
      have := congrArg List.length h
      simp at this
  | cons f rest ih =>
    have hnoh : (∀ fs, f ≠ .headers (some fs)) → ∀ m, onMessage pp ext ⟨h, s0⟩ (f :: rest) ≠ (cb, .ok m) := by
      intro hf0 m hm
      rw [onMessage_cons] at hm
      cases f with
      | data ps =>
        have : onFrame pp ext ⟨h, s0⟩ (.data ps) = ([], .unexpected) := by
          rcases hh with rfl | ⟨rfl, he⟩
          · rfl
          · unfold onFrame transit; dsimp only; rw [he]; rfl
        rw [this] at hm; cases (Prod.mk.inj hm).2
      | headers o =>
        cases o with
        | some fs => exact hf0 fs rfl
        | none =>
          have : onFrame pp ext ⟨h, s0⟩ (.headers none) = ([], .malformedMessaging) := by
            rcases hh' with rfl | rfl
            · rfl
            · unfold onFrame transit; dsimp only; rw [if_pos hf.code]; rfl
          rw [this] at hm; cases (Prod.mk.inj hm).2
    by_cases hf0 : ∃ fs, f = .headers (some fs)
    · obtain ⟨fs, rfl⟩ := hf0
      -- the first frame of an accepted sequence
      have hfirst : ∀ (is : List (Nat × List Field)) (fs' : List Field) (ds : List (List Nat)) (tr : Option (Option (List Field))),
          Frm.headers (some fs) :: rest = is.map (fun i => .headers (some i.2)) ++ .headers (some fs') :: ds.map .data ++ tr.toList.map .headers →
          (∃ st is', is = (st, fs) :: is' ∧
            rest = is'.map (fun i => .headers (some i.2)) ++ .headers (some fs') :: ds.map .data ++ tr.toList.map .headers) ∨
          (is = [] ∧ fs' = fs ∧ rest = ds.map .data ++ tr.toList.map .headers) := by
        intro is fs' ds tr e
        cases is with
        | nil =>
          simp only [List.map_nil, List.nil_append, List.cons_append, List.cons.injEq, Frm.headers.injEq, Option.some.injEq] at e
          exact Or.inr ⟨rfl, e.1.symm, e.2⟩
        | cons i is' =>
          simp only [List.map_cons, List.cons_append, List.cons.injEq, Frm.headers.injEq, Option.some.injEq] at e
          refine Or.inl ⟨i.1, is', ?_, ?_⟩
          · rw [e.1]
          · rw [e.2]
      rw [onMessage_cons]
      rcases resp_frame pp ext h s0 hf hh' fs with ⟨g1, c', g2⟩ | ⟨st, s, g1, g2, g3, g4, g5⟩
      · rw [g2]
        rw [hc] at g1
        constructor
        · rintro ⟨m, hm⟩; cases (Prod.mk.inj hm).2
        · rintro ⟨is, st, fs', ds, tr, e, hi, hok, _⟩
          rcases hfirst is fs' ds tr e with ⟨st', is', rfl, _⟩ | ⟨rfl, rfl, _⟩
          · exact absurd (hi (st', fs) List.mem_cons_self).1 (g1 _)
          · exact absurd hok (g1 _)
      · rw [g2]
        dsimp only
        rw [hc] at g1 g3
        rw [hhd] at g4
        rw [hc, hhd] at g5
        have hcbs : (.beginHeaders :: (fs.filter (fun f => deliverResponse (lengthRule s0.methConnect st) (fl f))).map .header ++ [.endHeaders] :
            List Cb) = respCbs c st fs := by rw [hc]; rfl
        rw [hcbs]
        rcases g5 with ⟨hi, hfr, hex⟩ | ⟨hni, hex, hrecv, hcode, hcl⟩
        · have := fun cb => ih .respHeadersEnd s hfr (Or.inr ⟨rfl, hex⟩) g3 g4 cb (Or.inr rfl)
          constructor
          · rintro ⟨m, hm⟩
            obtain ⟨is, st', fs', ds, tr, e1, e2, e3, e4, e5, e6, e7⟩ :=
              (this (onMessage pp ext ⟨.respHeadersEnd, s⟩ rest).1).1 ⟨m, Prod.ext rfl (Prod.mk.inj hm).2⟩
            refine ⟨(st, fs) :: is, st', fs', ds, tr, ?_, ?_, e3, e4, e5, e6, ?_⟩
            · rw [e1]; simp
            · intro i hi'
              rcases List.mem_cons.1 hi' with rfl | hi'
              · exact ⟨g1, hi⟩
              · exact e2 i hi'
            · rw [← (Prod.mk.inj hm).1, e7]; simp
          · rintro ⟨is, st', fs', ds, tr, e1, e2, e3, e4, e5, e6, e7⟩
            rcases hfirst is fs' ds tr e1 with ⟨st'', is', rfl, hr⟩ | ⟨rfl, rfl, _⟩
            · have hst := status_unique (e2 (st'', fs) List.mem_cons_self).1 g1
              dsimp only at hst
              subst hst
              obtain ⟨m, hm⟩ := (this _).2 ⟨is', st', fs', ds, tr, hr, fun i hi' => e2 i (List.mem_cons_of_mem _ hi'), e3, e4, e5, e6, rfl⟩
              refine ⟨m, ?_⟩
              rw [hm, e7]
              simp
            · exact absurd (status_unique e3 g1 ▸ hi) e4
        · have htd : Int.tdiv (st : Int) 100 = ((st / 100 : Nat) : Int) := by
            rw [Int.tdiv_eq_ediv_of_nonneg (by omega)]; rfl
          have hlen : ∀ ds : List (List Nat), (s.contentLength = -1 ∨ s.contentLength = s.recvContentLength + (ds.flatten.sum : Nat)) ↔
              lengthOk (if hd = true ∨ st = 204 ∨ st = 304 then some 0 else if c = true then none
                else ((valuesOf "content-length" (fs.map fl)).head?).map decimal) ds.flatten.sum := by
            intro ds
            have hv : valuesOf "content-length" (fs.map fl) = vals .cl (fs.map fl) := valuesOf_eq .cl _ rfl _
            rw [hcl, hrecv, hv]
            unfold lengthOk
            by_cases a : hd = true ∨ st = 304 ∨ st = 204
            · have a' : hd = true ∨ st = 204 ∨ st = 304 := by tauto
              rw [if_pos a, if_pos a']
              simp only [Option.some.injEq, forall_eq']; omega
            · have a' : ¬ (hd = true ∨ st = 204 ∨ st = 304) := by tauto
              rw [if_neg a, if_neg a']
              cases c
              · simp only [Bool.false_eq_true, if_false]
                cases vals .cl (fs.map fl) with
                | nil => simp
                | cons v t => simp only [List.head?_cons, Option.map_some, Option.some.injEq, forall_eq']; omega
              · simp
          have hfit : fits s 0 := by
            unfold fits
            rw [hcl, hrecv]
            split_ifs
            · right; simp
            · left; rfl
            · cases vals .cl (fs.map fl) with
              | nil => left; rfl
              | cons v t => right; simp
          have htail := fun cb => tail_iff pp ext dir_resp (fun _ _ => Iff.rfl) .respHeadersEnd s hex hfit
            (by unfold transit; dsimp only; rw [hex]; rfl)
            (by
              unfold transit; dsimp only
              rw [if_neg (by rw [hcode]; omega)]
              by_cases hz : s.methConnect = true ∧ Int.tdiv s.statusCode 100 = 2
              · rw [if_pos hz]; exact Or.inl ⟨rfl, hz⟩
              · rw [if_neg hz]; exact Or.inr ⟨rfl, hz⟩) rfl rest cb
          have hno : (s.methConnect = true ∧ Int.tdiv s.statusCode 100 = 2) ↔ (c = true ∧ st / 100 = 2) := by
            rw [g3, hcode, htd]
            exact and_congr_right fun _ => ⟨fun h => by omega, fun h => by rw [h]; rfl⟩
          have hreq : isRequest .respTrailersBegin = false := rfl
          constructor
          · rintro ⟨m, hm⟩
            obtain ⟨ds, tr, ht⟩ := (htail (onMessage pp ext ⟨.respHeadersEnd, s⟩ rest).1).1 ⟨m, Prod.ext rfl (Prod.mk.inj hm).2⟩
            refine ⟨[], st, fs, ds, tr, ?_, by simp, g1, hni, ?_, (hlen ds).1 ht.length, ?_⟩
            · rw [ht.frames]; simp
            · intro t e
              obtain ⟨a, b⟩ := ht.trailers t e
              refine ⟨fun hx => a (hno.2 hx), fun ts e' => ?_⟩
              have := b ts e'
              rw [hreq, trailersOk_response] at this
              rw [trailersOk_response]
              exact this
            · rw [← (Prod.mk.inj hm).1, ht.cbs]
              simp [hreq]
          · rintro ⟨is, st', fs', ds, tr, e1, e2, e3, e4, e5, e6, e7⟩
            rcases hfirst is fs' ds tr e1 with ⟨st'', is', rfl, _⟩ | ⟨rfl, rfl, hr⟩
            · have := e2 (st'', fs) List.mem_cons_self
              have h1 := status_unique this.1 g1
              dsimp only at h1
              rw [h1] at this
              exact absurd this.2 hni
            · have hst := status_unique e3 g1
              subst hst
              obtain ⟨m, hm⟩ := (htail _).2 ⟨ds, tr, hr, fun t et => by
                refine ⟨fun hx => (e5 t et).1 (hno.1 hx), fun ts e' => ?_⟩
                have := (e5 t et).2 ts e'
                rw [trailersOk_response] at this
                rw [hreq, trailersOk_response]
                exact this, (hlen ds).2 e6, rfl⟩
              refine ⟨m, ?_⟩
              rw [hm, e7]
              simp [hreq]
    · constructor
      · rintro ⟨m, hm⟩
        exact absurd hm (hnoh (fun fs e => hf0 ⟨fs, e⟩) m)
      · rintro ⟨is, st, fs, ds, tr, e, _⟩
        cases is with
        | nil =>
          simp only [List.map_nil, List.nil_append, List.cons_append, List.cons.injEq] at e
          exact absurd ⟨fs, e.1⟩ hf0
        | cons i is' =>
          simp only [List.map_cons, List.cons_append, List.cons.injEq] at e
          exact absurd ⟨i.2, e.1⟩ hf0

/-- C26: a response is accepted iff it is (interim HEADERS)* HEADERS DATA* [HEADERS], where interim responses have status 1xx and the
final one has not, all sections are well-formed, there are no trailers in the 2xx response to CONNECT, and the length is right; and
these are the callbacks.  `req`: the fields of the request. -/
theorem C26_response (pp : Pri → List UInt8 → Option Pri) (ext : Bool) (req : List Field) (frames : List Frm) (cb : List Cb) :
    let method := methodOf (req.map fl)
    let connect := decide (method = some (ascii "CONNECT"))
    (∃ m, onMessage pp ext ⟨.respInitial, recordRequestMethod {} req⟩ frames = (cb, .ok m)) ↔
    ∃ (is : List (Nat × List Field)) (st : Nat) (fs : List Field) (ds : List (List Nat)) (tr : Option (Option (List Field))),
      frames = is.map (fun i => .headers (some i.2)) ++ .headers (some fs) :: ds.map .data ++ tr.toList.map .headers ∧
      (∀ i ∈ is, ResponseOk connect i.1 (i.2.map fl) ∧ i.1 / 100 = 1) ∧
      ResponseOk connect st (fs.map fl) ∧ st / 100 ≠ 1 ∧
      (∀ t, tr = some t → ¬ (method = some (ascii "CONNECT") ∧ st / 100 = 2) ∧ ∀ ts, t = some ts → TrailersOk false false (ts.map fl)) ∧
      lengthOk (responseLength method st (fs.map fl)) ds.flatten.sum ∧
      cb = is.flatMap (fun i => respCbs connect i.1 i.2) ++ respCbs connect st fs ++ ds.flatten.map .data ++
        tr.elim [] (trailerCbs false) ++ [.endStream] := by
  intro method connect
  obtain ⟨c, h, e, h1, h2⟩ := recordRequestMethod_eq req
  have hc : c = connect := by
    show c = decide _
    cases c
    · symm; rw [decide_eq_false_iff_not]; intro hm; cases h1.2 hm
    · symm; rw [decide_eq_true_iff]; exact h1.1 rfl
  have hct : connect = true ↔ method = some (ascii "CONNECT") := by rw [← hc]; exact h1
  rw [e, resp_frames pp ext c h frames .respInitial _ ⟨rfl, rfl, rfl, rfl, rfl⟩ (Or.inl rfl) rfl rfl, hc]
  unfold responseLength
  simp only [hct]
  have h2' : h = true ↔ method = some (ascii "HEAD") := h2
  simp only [h2']

/-- C24: the body of a response: whatever the DATA frames and the pieces in which they arrive, the message completes iff the total is
right: nothing after HEAD and for 204 and 304, anything for CONNECT, otherwise what has been declared. -/
theorem C24_response (pp : Pri → List UInt8 → Option Pri) (ext : Bool) (req fs : List Field) (st : Nat) (ds : List (List Nat))
    (hok : ResponseOk (decide (methodOf (req.map fl) = some (ascii "CONNECT"))) st (fs.map fl)) (hst : st / 100 ≠ 1) :
    (∃ cb m, onMessage pp ext ⟨.respInitial, recordRequestMethod {} req⟩ (.headers (some fs) :: ds.map .data) = (cb, .ok m)) ↔
      lengthOk (responseLength (methodOf (req.map fl)) st (fs.map fl)) ds.flatten.sum := by
  constructor
  · rintro ⟨cb, h⟩
    obtain ⟨is, st', fs', ds', tr, e1, e2, e3, e4, e5, e6, e7⟩ := (C26_response pp ext req _ cb).1 h
    have his : is = [] := by
      cases is with
      | nil => rfl
      | cons i t =>
        simp only [List.map_cons, List.cons_append, List.cons.injEq, Frm.headers.injEq, Option.some.injEq] at e1
        have h1 := e2 i List.mem_cons_self
        rw [← e1.1] at h1
        rw [status_unique h1.1 hok] at h1
        exact absurd h1.2 hst
    subst his
    simp only [List.map_nil, List.nil_append, List.cons_append, List.cons.injEq, Frm.headers.injEq, Option.some.injEq] at e1
    obtain ⟨rfl, e1⟩ := e1
    have htr : tr = none := by
      cases tr with
      | none => rfl
      | some t =>
        have : Frm.headers t ∈ ds.map Frm.data := by rw [e1]; simp
        simp at this
    subst htr
    simp only [Option.toList_none, List.map_nil, List.append_nil] at e1
    rw [(List.map_inj_right (fun a b h => by injection h)).1 e1, status_unique hok e3]
    exact e6
  · intro h
    exact ⟨_, (C26_response pp ext req _ _).2 ⟨[], st, fs, ds, none, by simp, by simp, hok, hst, by simp, h, rfl⟩⟩

/-- C26: no sequence of frames makes an assertion of the state machine fail. -/
theorem C26_no_crash (pp : Pri → List UInt8 → Option Pri) (ext : Bool) (s : State) (h : Hs) (hh : h = .reqInitial ∨ h = .respInitial)
    (frames : List Frm) : (onMessage pp ext ⟨h, s⟩ frames).2 ≠ .crash := by
  let Q : Hs → Prop := fun h => h ∈ [Hs.reqInitial, .reqHeadersEnd, .reqDataEnd, .reqTrailersEnd, .respInitial, .respHeadersEnd, .respDataEnd,
    .respTrailersEnd]
  have hb : ∀ (t : Tr) (k : Hs → List Cb × MRes), t ≠ .crash → (∀ h', t = .ok h' → (k h').2 ≠ .crash ∧ ∀ m, (k h').2 = .ok m → Q m.h) →
      (t.bind k).2 ≠ .crash ∧ ∀ m, (t.bind k).2 = .ok m → Q m.h := by
    intro t k h1 h2
    cases t with
    | crash => exact absurd rfl h1
    | unexpected => exact ⟨by simp [Tr.bind], by intro m h; cases h⟩
    | malformed => exact ⟨by simp [Tr.bind], by intro m h; cases h⟩
    | ok h' => exact h2 h' rfl
  have hdata : ∀ h s, Q h → transit h s .dataBegin ≠ .crash ∧
      ∀ h', transit h s .dataBegin = .ok h' → (h' = .reqDataBegin ∨ h' = .respDataBegin) := by
    intro h s hq
    simp only [Q, List.mem_cons, List.not_mem_nil, or_false] at hq
    rcases hq with rfl | rfl | rfl | rfl | rfl | rfl | rfl | rfl <;> unfold transit <;> dsimp only
    · simp
    · simp
    · simp
    · simp
    · simp
    · cases s.expectFinal <;> simp
    · simp
    · simp
  have hhdr : ∀ h s, Q h → transit h s .headersBegin ≠ .crash ∧
      ∀ h', transit h s .headersBegin = .ok h' → h' ∈ [Hs.reqHeadersBegin, .reqTrailersBegin, .respHeadersBegin, .respTrailersBegin] := by
    intro h s hq
    simp only [Q, List.mem_cons, List.not_mem_nil, or_false] at hq
    rcases hq with rfl | rfl | rfl | rfl | rfl | rfl | rfl | rfl <;> unfold transit <;> dsimp only
    · simp
    · cases s.methConnect <;> simp
    · cases s.methConnect <;> simp
    · simp
    · simp
    · by_cases h1 : s.statusCode = -1
      · simp [h1]
      · by_cases h2 : s.methConnect = true ∧ Int.tdiv s.statusCode 100 = 2
        · rw [if_neg h1, if_pos h2]; simp
        · rw [if_neg h1, if_neg h2]; simp
    · by_cases h2 : s.methConnect = true ∧ Int.tdiv s.statusCode 100 = 2
      · rw [if_pos h2]; simp
      · rw [if_neg h2]; simp
    · simp
  have hend : ∀ h s, Q h → transit h s .msgEnd ≠ .crash := by
    intro h s hq
    have ht : ∀ e, trEnd s e ≠ .crash := by intro e; unfold trEnd; split_ifs <;> simp
    simp only [Q, List.mem_cons, List.not_mem_nil, or_false] at hq
    rcases hq with rfl | rfl | rfl | rfl | rfl | rfl | rfl | rfl <;> unfold transit <;> dsimp only <;> first | exact ht _ | simp
  have hheadEnd : ∀ h s, h ∈ [Hs.reqHeadersBegin, .reqTrailersBegin, .respHeadersBegin, .respTrailersBegin] →
      ∃ h', transit h s .headersEnd = .ok h' ∧ Q h' := by
    intro h s hq
    simp only [List.mem_cons, List.not_mem_nil, or_false] at hq
    rcases hq with rfl | rfl | rfl | rfl
    · exact ⟨_, rfl, by simp [Q]⟩
    · exact ⟨_, rfl, by simp [Q]⟩
    · exact ⟨_, rfl, by simp [Q]⟩
    · exact ⟨_, rfl, by simp [Q]⟩
  have hframe : ∀ (f : Frm) (m : Msg), Q m.h → (onFrame pp ext m f).2 ≠ .crash ∧ ∀ m', (onFrame pp ext m f).2 = .ok m' → Q m'.h := by
    intro f m hq
    cases f with
    | data ps =>
      unfold onFrame
      refine hb _ _ (hdata m.h m.s hq).1 fun h' e => ?_
      rcases onData m.s ps with ⟨cb, _ | s'⟩
      · exact ⟨by simp, by intro m h; cases h⟩
      · dsimp only
        rcases (hdata m.h m.s hq).2 h' e with rfl | rfl
        · exact ⟨by simp [transit, Tr.bind], by intro m h; cases h; simp [Q]⟩
        · exact ⟨by simp [transit, Tr.bind], by intro m h; cases h; simp [Q]⟩
    | headers o =>
      cases o with
      | none =>
        unfold onFrame
        refine hb _ _ (hhdr m.h m.s hq).1 fun h' e => ?_
        by_cases he : emptyHeadersAllowed h' = true
        · rw [if_pos he]
          obtain ⟨h'', e1, e2⟩ := hheadEnd h' m.s ((hhdr m.h m.s hq).2 h' e)
          rw [e1]
          exact ⟨by simp [Tr.bind], by intro m h; cases h; exact e2⟩
        · rw [if_neg he]
          exact ⟨by simp, by intro m h; cases h⟩
      | some fs =>
        unfold onFrame
        refine hb _ _ (hhdr m.h m.s hq).1 fun h' e => ?_
        dsimp only
        rcases (runFields pp (isRequest h') (isTrailers h') ext m.s fs).2.bind (endSection h') with _ | s'
        · exact ⟨by simp, by intro m h; cases h⟩
        · dsimp only
          obtain ⟨h'', e1, e2⟩ := hheadEnd h' s' ((hhdr m.h m.s hq).2 h' e)
          rw [e1]
          exact ⟨by simp [Tr.bind], by intro m h; cases h; exact e2⟩
  have hgen : ∀ (frames : List Frm) (m : Msg), Q m.h → (onMessage pp ext m frames).2 ≠ .crash := by
    intro frames
    induction frames with
    | nil =>
      intro m hq
      unfold onMessage onFrames onEnd
      dsimp only
      have := hend m.h m.s hq
      cases ht : transit m.h m.s .msgEnd with
      | crash => exact absurd ht this
      | unexpected => simp [Tr.bind]
      | malformed => simp [Tr.bind]
      | ok h => simp [Tr.bind]
    | cons f rest ih =>
      intro m hq
      rw [onMessage_cons]
      have := hframe f m hq
      generalize onFrame pp ext m f = z at this ⊢
      rcases z with ⟨c, _ | _ | _ | _ | m'⟩
      · exact absurd rfl this.1
      · simp
      · simp
      · simp
      · exact ih m' (this.2 m' rfl)
  refine hgen frames ⟨h, s⟩ ?_
  rcases hh with rfl | rfl <;> simp [Q]

/-! Non-trivial cases. -/

def getFields : List Field :=
  [⟨ascii ":method", ascii "POST"⟩, ⟨ascii ":scheme", ascii "https"⟩, ⟨ascii ":authority", ascii "example.org"⟩,
   ⟨ascii ":path", ascii "/x"⟩, ⟨ascii "content-length", ascii "5"⟩, ⟨ascii "a b", ascii "1"⟩]

/-- the hypotheses are met: a request with body in two frames and trailers is accepted, and is rejected if a byte is missing -/
example : (onMessage (fun _ _ => none) false ⟨.reqInitial, {}⟩
      [.headers (some getFields), .data [2, 0], .data [3], .headers (some [⟨ascii "x", ascii "y"⟩])]).1 =
    .beginHeaders :: (getFields.take 5).map .header ++ [.endHeaders, .data 2, .data 0, .data 3, .beginTrailers,
      .trailer ⟨ascii "x", ascii "y"⟩, .endTrailers, .endStream] := by decide +kernel
example : (onMessage (fun _ _ => none) false ⟨.reqInitial, {}⟩ [.headers (some getFields), .data [2, 2]]).2 = .malformedMessaging := by
  decide +kernel
example : (onMessage (fun _ _ => none) false ⟨.respInitial, recordRequestMethod {} getFields⟩
      [.headers (some [⟨ascii ":status", ascii "103"⟩]), .headers (some [⟨ascii ":status", ascii "200"⟩]), .data [7]]).1 =
    [.beginHeaders, .header ⟨ascii ":status", ascii "103"⟩, .endHeaders, .beginHeaders, .header ⟨ascii ":status", ascii "200"⟩, .endHeaders,
      .data 7, .endStream] := by decide +kernel
example : RequestOk false (getFields.map fl) := by
  obtain ⟨h, _⟩ | ⟨h, _⟩ := req_frame (fun _ _ => none) false getFields
  · rename_i h2
    obtain ⟨c, hc⟩ := h2
    have : (onFrame (fun _ _ => none) false ⟨.reqInitial, {}⟩ (.headers (some getFields))).2 ≠ .malformedHeader := by decide +kernel
    rw [hc] at this
    exact absurd rfl this
  · exact h

end Props
end Nghttp3
