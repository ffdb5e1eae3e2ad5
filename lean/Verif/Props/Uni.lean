import Verif.Props.Shutdown
import Verif.Lemmas.ConnUni
/-! Property theorems C40 and C41: streams that the peer opens. -/
namespace Nghttp3
namespace Props
open Conn
open Outq (R Frent Ans Bytes St FrentOk AnsOk EncodeOk)

variable {E F : Type} {c c' : Conn E F} {encode : Encode E F}

theorem uni_hist {l : List (Op F)} (hh : Hist encode AnyCall c l c') (h : Inv False False c) (hj : UniInv c) :
    UniInv c' ∧ (∀ t, flagOf c t = true → flagOf c' t = true) ∧ ∀ t x, flagOf c t = true → IsUni c' t x → IsUni c t x := by
  induction hh with
  | nil => exact ⟨hj, fun _ g => g, fun _ _ _ g => g⟩
  | peer e _ ih => exact ih (h.withEnc e) (hj.withEnc e)
  | cons hp e _ ih =>
    obtain ⟨a1, a2, a3⟩ := uniInv_step h hj hp e
    obtain ⟨b1, b2, b3⟩ := ih (any_step h hp e) a1
    exact ⟨b1, fun t g => b2 t (a2 t g), fun t x g k => a3 t x g (b3 t x (a2 t g) k)⟩

theorem uni_init {server : Bool} {st : Settings} {e0 : E} {l : List (Op F)} (hh : Hist encode AnyCall (init server st e0) l c) :
    Inv False False c ∧ UniInv c :=
  ⟨any_hist hh (init_inv _ _ _), (uni_hist hh (init_inv _ _ _) init_uniInv).1⟩

/-- C40.  For the life of the connection at most one stream of the peer is accepted as its control stream, one as its QPACK encoder stream
and one as its QPACK decoder stream: once there is one, it stays, and no later stream is accepted; push streams never are. -/
theorem C40_one_of_each {server : Bool} {st : Settings} {e0 : E} {l1 l2 : List (Op F)} {c1 c2 : Conn E F} {t : Ty} {x y : Nat}
    (h1 : Hist encode AnyCall (init server st e0) l1 c1) (h2 : Hist encode AnyCall c1 l2 c2) (ht : t ≠ .unknown) (hx : IsUni c1 t x) :
    (IsUni c2 t y ↔ y = x) ∧ t ≠ .push := by
  obtain ⟨hi, hj⟩ := uni_init h1
  obtain ⟨a1, a2, a3⟩ := uni_hist h2 hi hj
  have hf := hj.flag t x ht hx
  refine ⟨⟨fun g => hj.one t _ _ ht (a3 t y hf g) hx, ?_⟩, ?_⟩
  · rintro rfl
    obtain ⟨z, hz⟩ := a1.ex t (a2 t hf)
    rwa [hj.one t _ _ ht hx (a3 t z hf hz)]
  · rintro rfl; exact hj.push x hx

/-- C40.  A stream of the peer from which nothing has been read, whose first bytes are an encoding of one of the types, is accepted as a stream
of that type if there is none so far.  Exactly the bytes after the type are passed to the reader for that type, in order, however they are
packetised. -/
theorem C40_routing {server : Bool} {st : Settings} {e0 : E} {l : List (Op F)} (h : Hist encode AnyCall (init server st e0) l c)
    {id v : Nat} {s : Strm F} {t : Ty} {chunks : List Bytes} {tb rest : Bytes}
    (hp : peerUni c.server id) (h0 : c.str id = some s) (hi : s.ident = false) (hr : s.rv = {}) (hv : Spec.IsVarint v tb)
    (ht : uniType v = some t) (hn : ∀ x, ¬ IsUni c t x) (hc : chunks.flatten = tb ++ rest) :
    ∃ c' rs, feed c id chunks = .ok (c', rs) ∧ (∀ r ∈ rs, failed r = false) ∧ IsUni c' t id ∧
      (∀ p ∈ given rs, p.1 = t) ∧ (given rs).flatMap (·.2) = rest ∧ thrown rs = 0 := by
  obtain ⟨_, hj⟩ := uni_init h
  have hf : flagOf c t = false := by
    cases g : flagOf c t with
    | false => rfl
    | true => obtain ⟨x, hx⟩ := hj.ex t g; exact absurd hx (hn x)
  have hrd : rd s.rv chunks.flatten false = .done v tb.length := by rw [hr, hc]; exact rd_varint hv _ _
  obtain ⟨c', rs, a1, a2, a3, a4, a5, a6⟩ := (feed_new hp h0 hi (.inl hr) hrd).1 t ht hf
  exact ⟨c', rs, a1, a2, a3, a5, by rw [a6, hc, List.drop_left], a4⟩

/-- C40.  A stream with the type of a push stream, or of a stream that exists already, is refused when its type is complete: the last result
is H3_STREAM_CREATION_ERROR, nothing was passed on, and no stream is accepted. -/
theorem C40_refused {server : Bool} {st : Settings} {e0 : E} {l : List (Op F)} (h : Hist encode AnyCall (init server st e0) l c)
    {id v : Nat} {s : Strm F} {chunks : List Bytes} {tb rest : Bytes}
    (hp : peerUni c.server id) (h0 : c.str id = some s) (hi : s.ident = false) (hr : s.rv = {}) (hv : Spec.IsVarint v tb)
    (ht : v = 1 ∨ ∃ t x, uniType v = some t ∧ IsUni c t x) (hc : chunks.flatten = tb ++ rest) :
    ∃ c' rs, feed c id chunks = .ok (c', rs ++ [.code Err.H3_STREAM_CREATION_ERROR]) ∧ (∀ r ∈ rs, failed r = false) ∧
      given rs = [] ∧ thrown rs = 0 ∧ ∀ t y, IsUni c' t y ↔ IsUni c t y := by
  obtain ⟨_, hj⟩ := uni_init h
  have hrd : rd s.rv chunks.flatten false = .done v tb.length := by rw [hr, hc]; exact rd_varint hv _ _
  refine (feed_new hp h0 hi (.inl hr) hrd).2.2 ?_
  rcases ht with ht | ⟨t, x, ht, hx⟩
  · exact .inl ht
  · refine .inr ⟨t, ht, hj.flag t x ?_ hx⟩
    rintro rfl; unfold uniType at ht; split at ht <;> cases ht

/-- C40.  The bytes of a stream of any other type are thrown away, and with each call the peer is asked to stop sending. -/
theorem C40_unknown_type {id v : Nat} {s : Strm F} {chunks : List Bytes} {tb rest : Bytes}
    (hp : peerUni c.server id) (h0 : c.str id = some s) (hi : s.ident = false) (hr : s.rv = {}) (hv : Spec.IsVarint v tb)
    (ht : 3 < v) (hc : chunks.flatten = tb ++ rest) :
    ∃ c' rs, feed c id chunks = .ok (c', rs) ∧ (∀ r ∈ rs, failed r = false) ∧ IsUni c' .unknown id ∧ given rs = [] ∧ thrown rs = rest.length ∧
      ∀ n b, Ret.discard n b ∈ rs → b = true := by
  have hrd : rd s.rv chunks.flatten false = .done v tb.length := by rw [hr, hc]; exact rd_varint hv _ _
  obtain ⟨c', rs, a1, a2, a3, a4, a5, a6⟩ := (feed_new hp h0 hi (.inl hr) hrd).2.1 ht
  exact ⟨c', rs, a1, a2, a3, a4, by rw [a5, hc, List.drop_left], a6⟩

/-- C40.  The end of a critical stream is an error, with or without bytes before it, and so is closing it. -/
theorem C40_critical_stays {id : Nat} {t : Ty} (hp : peerUni c.server id) (ht : t ≠ .unknown) (h : IsUni c t id) (src : Bytes) :
    readUni c id src true = .ok (c, .code Err.H3_CLOSED_CRITICAL_STREAM) ∧ closeStream c id = .ok (c, .code Err.H3_CLOSED_CRITICAL_STREAM) := by
  obtain ⟨s, h1, h2, rfl⟩ := h
  constructor
  · unfold readUni
    rw [if_neg (peer_asrt hp), h1]
    dsimp only
    rw [if_neg (by simp), if_pos h2]
    unfold deliverUni
    split
    · rename_i g; exact absurd g ht
    · rfl
  · unfold closeStream
    rw [h1]
    dsimp only
    rw [if_pos]
    have : streamUni id = true := by
      unfold peerUni at hp
      unfold streamUni
      cases hs : c.server <;> rw [hs] at hp <;> simp at hp ⊢ <;> omega
    rw [this]
    simpa using ht

/-- C40.  A stream that ends before its type is complete: if there was no byte at all it is forgotten; otherwise it is an error. -/
theorem C40_ends_early {id v : Nat} {s : Strm F} {a b d : Bytes} (hp : peerUni c.server id) (h0 : c.str id = some s) (hi : s.ident = false)
    (hr : s.rv = {}) (hv : Spec.IsVarint v (a ++ b ++ d)) (ha : a ≠ []) (hd : d ≠ []) :
    (∃ c', readUni c id a false = .ok (c', .route none) ∧ readUni c' id b true = .ok (c', .code Err.H3_GENERAL_PROTOCOL_ERROR)) ∧
    readUni c id a true = .ok (c, .code Err.H3_GENERAL_PROTOCOL_ERROR) ∧
    (∀ c', readUni c id [] true = .ok (c', .route none) → c'.str id = none ∧ ∀ x, x ≠ id → c'.str x = c.str x) := by
  have hw := rd_varint hv [] false
  rw [List.append_nil] at hw
  have hlen : 0 < d.length := List.length_pos_iff.2 hd
  have np : ∀ (a e : Bytes), a ≠ [] → e ≠ [] → rd {} (a ++ e) false = .done v (a ++ e).length → ∃ rv, rd {} a false = .part rv ∧ RvOk rv ∧ rv.left ≠ 0 ∧
      rd rv e false = .done v e.length := by
    intro a e ha he hw
    have hs := rd_spec {} a false rvOk_idle ha
    rcases hx : rd {} a false with _ | _ | rv | ⟨x, n⟩ <;> rw [hx] at hs
    · exact hs.elim
    · cases hs
    · obtain ⟨_, k1, k2, k3⟩ := hs
      refine ⟨rv, rfl, k1, k2, ?_⟩
      have := k3 e false he
      rw [hw] at this
      rcases h5 : rd rv e false with _ | _ | _ | ⟨x2, m2⟩ <;> rw [h5] at this <;> unfold Rd.shift at this <;> simp at this
      obtain ⟨rfl, rfl⟩ := this; rfl
    · obtain ⟨k1, k2, k3⟩ := hs
      have := k3 (a.drop n ++ e) false
      rw [← List.append_assoc, List.take_append_drop, hw] at this
      simp at this
      have := List.length_pos_iff.2 he
      omega
  obtain ⟨rv, e1, e2, e3, e4⟩ := np a (b ++ d) ha (by simp [hd]) (by rw [← List.append_assoc]; exact hw)
  have errs : ∀ (rv : RVInt) (x e : Bytes), RvOk rv → x ≠ [] → e ≠ [] → rd rv (x ++ e) false = .done v (x ++ e).length → rd rv x true = .err := by
    intro rv x e hrv hx he hw
    have hs := rd_spec rv x true hrv hx
    rcases hz : rd rv x true with _ | _ | rv' | ⟨x', n⟩ <;> rw [hz] at hs
    · exact hs.elim
    · cases hs.1
    · obtain ⟨k1, k2, k3⟩ := hs
      have := k3 (x.drop n ++ e) false
      rw [← List.append_assoc, List.take_append_drop, hw] at this
      simp at this
      have := List.length_pos_iff.2 he
      omega
  refine ⟨⟨c.set id { s with rv := rv }, ?_, ?_⟩, ?_, ?_⟩
  · rw [read_new hp h0 hi ha, hr, e1]
  · by_cases hb : b = []
    · subst hb
      unfold readUni
      rw [if_neg (peer_asrt (c := c.set id { s with rv := rv }) hp), set_str]
      dsimp only
      rw [if_neg (by simp), if_neg (by simp [hi]), if_pos (by rfl), if_pos e3]
    · rw [read_new (c := c.set id { s with rv := rv }) (s := { s with rv := rv }) hp (set_str _ _ _) hi hb]
      rw [errs rv b d e2 hb hd e4]
  · rw [read_new hp h0 hi ha, hr, errs {} a (b ++ d) rvOk_idle ha (by simp [hd]) (by rw [← List.append_assoc]; exact hw)]
  · intro c' e
    unfold readUni at e
    rw [if_neg (peer_asrt hp), h0] at e
    dsimp only at e
    rw [if_neg (by simp), if_neg (by simp [hi]), if_pos (by rfl), if_neg (by rw [hr]; simp)] at e
    obtain ⟨c1, e1, e2⟩ := bind_ok e
    obtain ⟨rfl, _⟩ := Prod.mk.inj (R.ok.inj e2)
    rw [delete_str e1]
    exact ⟨PQ.upd_same _ _ _, fun x hx => PQ.upd_ne _ _ hx⟩

/-- A defect: a critical stream may end in the packet that brings its type; the connection accepts it and does not notice. -/
theorem C40_fails_for_short_streams {server : Bool} {st : Settings} {e0 : E} {l : List (Op F)} (h : Hist encode AnyCall (init server st e0) l c) {id v : Nat} {s : Strm F} {t : Ty} {tb : Bytes} (hp : peerUni c.server id) (h0 : c.str id = some s)
    (hi : s.ident = false) (hr : s.rv = {}) (hv : Spec.IsVarint v tb) (ht : uniType v = some t) (hn' : ∀ x, ¬ IsUni c t x) :
    ∃ c', readUni c id tb true = .ok (c', .route none) ∧ IsUni c' t id := by
  have hn : flagOf c t = false := by
    cases g : flagOf c t with
    | false => rfl
    | true => obtain ⟨x, hx⟩ := (uni_init h).2.ex t g; exact absurd hx (hn' x)
  have htb : tb ≠ [] := by intro g; have := isVarint_pos hv; rw [g] at this; simp at this
  obtain ⟨c1, k1, _, _⟩ := (setUniType_cases c s v).1 t ht hn
  have hrd := rd_varint hv [] true
  rw [List.append_nil] at hrd
  refine ⟨c1.set id { s with ty := t, ident := true, rv := {} }, ?_, ⟨_, set_str _ _ _, rfl, rfl⟩⟩
  rw [read_new hp h0 hi htb, hr, hrd]
  dsimp only
  rw [k1]
  dsimp only
  rw [if_pos rfl]

/-- A defect: closing a stream of the peer whose type has not arrived is refused as if it were a critical stream. -/
theorem C40_fails_for_unidentified_close {id : Nat} (h : c.str id = none) (hid : id < 2 ^ 62) (hp : peerUni c.server id) :
    ∃ c', openStream c id false = .ok (c', .code 0) ∧ closeStream c' id = .ok (c', .code Err.H3_CLOSED_CRITICAL_STREAM) := by
  have hs : streamUni id = true ∧ clientBidi id = false := by
    unfold peerUni at hp
    unfold streamUni clientBidi
    cases hs : c.server <;> rw [hs] at hp <;> simp at hp ⊢ <;> omega
  have ho : openStream c id false = .ok (createStream c id {}, .code 0) := by
    unfold openStream
    rw [if_neg (by simp; omega), h]
    dsimp only
    unfold peerUni at hp
    cases hs' : c.server <;> rw [hs'] at hp
    · simp at hp
      rw [if_neg (by simp), if_pos (by unfold serverUni; simp [hp]), if_neg (by simp)]
    · simp at hp
      rw [if_pos rfl, if_neg (by simp [hs.2]), if_neg (by unfold clientUni; simp [hp]), if_neg (by simp)]
  refine ⟨_, ho, ?_⟩
  unfold closeStream
  have : (createStream c id {}).str id = some {} := PQ.upd_same _ _ _
  rw [this]
  dsimp only
  rw [hs.1]; rfl

/-! ## C41: identifiers -/

/-- C41.  No stream ever has the identifier of a server-initiated bidirectional stream. -/
theorem C41_no_server_bidi (henc : EncodeOk encode) {server : Bool} {st : Settings} {e0 : E} (hst : FrentOk (.settings st : Frent F))
    (h : Reach encode Fine (init server st e0) c) {x : Nat} (hx : x % 4 = 1) : c.str x = none := by
  cases g : c.str x with
  | none => rfl
  | some s => exact absurd hx ((fine_safe henc hst h).2.ids x s g)

theorem open_none {id : Nat} {empty : Bool} {r : Ret} (h0 : c.str id = none) (e : openStream c id empty = .ok (c', r)) :
    (r = .code Err.H3_STREAM_CREATION_ERROR ∧ c' = c ∧ ¬ (id % 4 = if c.server then 2 else 3) ∧ ¬ (c.server = true ∧ id % 4 = 0)) ∨
    (r = .code 0 ∧ ((id % 4 = if c.server then 2 else 3) ∨ (c.server = true ∧ id % 4 = 0))) := by
  unfold openStream at e
  by_cases h1 : decide (id ≥ 2 ^ 62) = true
  · rw [if_pos h1] at e; cases e
  rw [if_neg h1, h0] at e
  dsimp only at e
  unfold clientBidi clientUni serverUni at e
  by_cases h2 : c.server = true
  · rw [if_pos h2] at e
    simp only [h2, if_true, true_and]
    by_cases h3 : (id % 4 == 0) = true
    · rw [if_pos h3] at e
      simp at h3
      split at e
      · cases e
      · obtain ⟨_, rfl⟩ := Prod.mk.inj (R.ok.inj e); exact .inr ⟨rfl, .inr h3⟩
    · rw [if_neg h3] at e
      simp at h3
      by_cases h4 : (!(id % 4 == 2)) = true
      · rw [if_pos h4] at e
        obtain ⟨rfl, rfl⟩ := Prod.mk.inj (R.ok.inj e)
        simp at h4
        exact .inl ⟨rfl, rfl, h4, h3⟩
      · rw [if_neg h4] at e
        simp at h4
        split_ifs at e <;> obtain ⟨_, rfl⟩ := Prod.mk.inj (R.ok.inj e) <;> exact .inr ⟨rfl, .inl h4⟩
  · rw [if_neg h2] at e
    have h2' : c.server = false := by simpa using h2
    simp only [h2', Bool.false_eq_true, if_false, false_and, not_false_eq_true, and_true, or_false]
    by_cases h4 : (id % 4 == 3) = true
    · rw [if_pos h4] at e
      simp at h4
      split_ifs at e <;> obtain ⟨_, rfl⟩ := Prod.mk.inj (R.ok.inj e) <;> exact .inr ⟨rfl, h4⟩
    · rw [if_neg h4] at e
      simp at h4
      obtain ⟨rfl, rfl⟩ := Prod.mk.inj (R.ok.inj e)
      exact .inl ⟨rfl, rfl, h4⟩

/-- C41.  Bytes arrive on an identifier without stream.  They are accepted exactly if the peer may open that stream: a unidirectional stream of the
peer, or, on a server, a bidirectional stream of the client.  Otherwise the result is H3_STREAM_CREATION_ERROR, and nothing changes. -/
theorem C41_who_may_open {id : Nat} {empty : Bool} {r : Ret} (h0 : c.str id = none) (e : openStream c id empty = .ok (c', r)) :
    (r = .code 0 ↔ (id % 4 = if c.server then 2 else 3) ∨ (c.server = true ∧ id % 4 = 0)) ∧
    (r ≠ .code 0 → r = .code Err.H3_STREAM_CREATION_ERROR ∧ c' = c) := by
  rcases open_none h0 e with ⟨a, b, d, f⟩ | ⟨a, b⟩
  · refine ⟨⟨fun g => ?_, fun g => ?_⟩, fun _ => ⟨a, b⟩⟩
    · rw [a] at g; exact absurd g (by decide)
    · exact (g.elim d f).elim
  · exact ⟨⟨fun _ => b, fun _ => a⟩, fun g => absurd a g⟩

/-- C41.  A client never has a request stream that it did not ask for. -/
theorem C41_client_requests {st : Settings} {e0 : E} {l : List (Op F)} (h : Hist encode AnyCall (init false st e0) l c) {x : Nat} (hx : x % 4 = 0)
    (hs : (c.str x).isSome = true) : ∃ nva dr, Op.submitRequest x nva dr ∈ l := by
  have key : ∀ {c0 : Conn E F} {l : List (Op F)} {c : Conn E F}, Hist encode AnyCall c0 l c → Inv False False c0 → c0.server = false →
      (c.str x).isSome = true → (c0.str x).isSome = true ∨ ∃ nva dr, Op.submitRequest x nva dr ∈ l := by
    intro c0 l c h
    induction h with
    | nil => intro _ _ g; exact .inl g
    | peer e _ ih => intro h0 h1 g; exact ih (h0.withEnc e) h1 g
    | @cons c c1 c2 o t r hp e _ ih =>
      intro hi hsv g
      have hd := glob_down hi e
      rcases ih (any_step hi hp e) (hd.1.trans hsv) g with k | ⟨n, d, k⟩
      · have hbx : clientBidi x = true := by unfold clientBidi; simp [hx]
        cases step_life hi hp e with
        | same h1 h2 => left; rw [← h1 x hbx]; exact k
        | made y ho hy h0 h0' h1 h2 =>
          by_cases hxy : x = y
          · subst hxy
            rcases ho with ⟨n, d, rfl⟩ | ⟨b, rfl⟩ | ⟨p, rfl⟩
            · exact .inr ⟨n, d, by simp⟩
            · exfalso
              change openStream c x b = _ at e
              rcases open_none h0 e with ⟨_, rfl, _⟩ | ⟨_, b⟩
              · rw [h0] at h0'; cases h0'
              · rw [hsv] at b; simp at b; omega
            · exfalso
              change onPriorityUpdate c x p = _ at e
              unfold onPriorityUpdate at e
              rw [if_pos (by rw [hsv]; rfl)] at e; cases e
          · left; rw [← h1 x hxy hbx]; exact k
        | gone y s0 ho hy h0 h0' h1 h2 =>
          by_cases hxy : x = y
          · subst hxy; rw [h0']at k; cases k
          · left; rw [← h1 x hxy hbx]; exact k
      · exact .inr ⟨n, d, by simp [k]⟩
  rcases key h (init_inv _ _ _) rfl hs with g | g
  · cases g
  · exact g

/-- C41.  A PRIORITY_UPDATE for anything but a request stream within the limit that this server has announced is refused, and nothing changes. -/
theorem C41_priority_update_id (hs : c.server = true) {id : Nat} {pri : Http.Pri} (h : id % 4 ≠ 0 ∨ c.maxClient ≤ id / 4) :
    onPriorityUpdate c id pri = .ok (c, .code Err.H3_ID_ERROR) := by
  unfold onPriorityUpdate
  rw [if_neg (by simp [hs]), if_pos]
  unfold clientBidi Conn.ordStreamId
  simp
  omega

/-- calls as above; stream identifiers in frames are below 2^62 because they are variable-length integers -/
def WithIds (_ : Conn E F) (o : Op F) : Prop := OpOk o ∧ ∀ x p, o = .priUpd x p → x < 2 ^ 62

theorem withIds_any {l : List (Op F)} (h : Hist encode WithIds c l c') : Hist encode AnyCall c l c' := by
  induction h with
  | nil => exact .nil
  | cons hp e _ ih => exact .cons hp.1 e ih
  | peer e _ ih => exact .peer e ih

/-- the tracker of stream identifiers knows all request streams -/
def Tracks (c : Conn E F) (l : List Nat) : Prop :=
  (∀ x ∈ l, x % 4 = 0 ∧ x < 2 ^ 62) ∧ c.gaps = (runConnOpens l).2 ∧ ∀ x, x % 4 = 0 → (c.str x).isSome = true → x ∈ l

theorem runConnOpens_snoc (l : List Nat) (a : Nat) : (runConnOpens (l ++ [a])).2 = (connBidiIdtrOpen (runConnOpens l).2 a).2 := by
  simp [runConnOpens, List.foldl_append]

theorem tracks_step (h : Inv False False c) (hs : c.server = true) {o : Op F} {r : Ret} (ho : WithIds c o) {l : List Nat} (ht : Tracks c l)
    (e : step encode c o = .ok (c', r)) : ∃ l', Tracks c' (l ++ l') := by
  have hg := step_glob h e
  have hl := step_life h ho.1 e
  have bx : ∀ {x : Nat}, x % 4 = 0 → clientBidi x = true := fun hx => by unfold clientBidi; simp [hx]
  -- the tracker as it was
  have keep : c'.gaps = c.gaps → (∀ x, x % 4 = 0 → (c'.str x).isSome = true → (c.str x).isSome = true) → ∃ l', Tracks c' (l ++ l') := by
    intro g1 g2
    refine ⟨[], ?_⟩
    rw [List.append_nil]
    exact ⟨ht.1, g1.trans ht.2.1, fun x hx g => ht.2.2 x hx (g2 x hx g)⟩
  have old : (∀ id b, o ≠ .«open» id b) → (∀ id p, o ≠ .priUpd id p) → ∀ x, x % 4 = 0 → (c'.str x).isSome = true → (c.str x).isSome = true := by
    intro n1 n2 x hx g
    cases hl with
    | same h1 h2 => rw [← h1 x (bx hx)]; exact g
    | made y ho' hy h0 h0' h1 h2 =>
      rcases ho' with ⟨n, d, rfl⟩ | ⟨b, rfl⟩ | ⟨p, rfl⟩
      · change submitRequest c y n d = _ at e
        unfold submitRequest at e
        rw [if_pos (by simp [hs])] at e; cases e
      · exact absurd rfl (n1 _ _)
      · exact absurd rfl (n2 _ _)
    | gone y s0 ho hy h0 h0' h1 h2 =>
      by_cases hxy : x = y
      · subst hxy; rw [h0'] at g; cases g
      · rw [← h1 x hxy (bx hx)]; exact g
  -- a new identifier
  have new : ∀ id : Nat, id < 2 ^ 62 → clientBidi id = true → glob c' = { glob c with maxBidi := max c.maxBidi id, gaps := (connBidiIdtrOpen c.gaps id).2 } →
      (∀ y, y ≠ id → clientBidi y = true → (c'.str y).isSome = true → (c.str y).isSome = true) → ∃ l', Tracks c' (l ++ l') := by
    intro id hid hb g1 g2
    have hb' : id % 4 = 0 := by unfold clientBidi at hb; simpa using hb
    refine ⟨[id], ?_, ?_, ?_⟩
    · intro x hx
      rcases List.mem_append.1 hx with k | k
      · exact ht.1 x k
      · simp at k; subst k; exact ⟨hb', hid⟩
    · rw [runConnOpens_snoc, ← ht.2.1]
      exact congrArg Glob.gaps g1
    · intro x hx g
      by_cases hxi : x = id
      · subst hxi; simp
      · exact List.mem_append.2 (.inl (ht.2.2 x hx (g2 x hxi (bx hx) g)))
  have others : ∀ id : Nat, ((∃ b, o = .«open» id b) ∨ ∃ p, o = .priUpd id p) → ∀ y, y ≠ id → clientBidi y = true → (c'.str y).isSome = true → (c.str y).isSome = true := by
    intro id hoo y hy hby g
    cases hl with
    | same h1 h2 => rw [← h1 y hby]; exact g
    | made z ho' hz h0 h0' h1 h2 =>
      have : z = id := by
        rcases hoo with ⟨b, rfl⟩ | ⟨p, rfl⟩ <;> rcases ho' with ⟨_, _, k⟩ | ⟨_, k⟩ | ⟨_, k⟩ <;> cases k <;> rfl
      subst this
      rw [← h1 y hy hby]; exact g
    | gone z s0 ho' hz h0 h0' h1 h2 =>
      rcases hoo with ⟨b, rfl⟩ | ⟨p, rfl⟩ <;> rcases ho' with k | ⟨_, _, k⟩ <;> cases k
  have same : ∀ id : Nat, ((∃ b, o = .«open» id b) ∨ ∃ p, o = .priUpd id p) → glob c' = glob c → ∃ l', Tracks c' (l ++ l') := by
    intro id hoo g
    by_cases hb : clientBidi id = true ∧ c.str id = none ∧ (c'.str id).isSome = true
    · -- then the tracker has been asked
      obtain ⟨hb, hn, hsome⟩ := hb
      refine new id ?_ hb ?_ (others id hoo)
      · rcases hoo with ⟨b, rfl⟩ | ⟨p, rfl⟩
        · by_contra hcon
          change openStream c id b = _ at e
          unfold openStream at e
          rw [if_pos (by simp; omega)] at e; cases e
        · exact ho.2 id p rfl
      · rcases hoo with ⟨b, rfl⟩ | ⟨p, rfl⟩
        · change openStream c id b = _ at e
          unfold openStream at e
          by_cases h1 : decide (id ≥ 2 ^ 62) = true
          · rw [if_pos h1] at e; cases e
          rw [if_neg h1, hn] at e
          dsimp only at e
          rw [if_pos hs, if_pos hb] at e
          split at e
          · cases e
          · rename_i hq
            obtain ⟨rfl, _⟩ := Prod.mk.inj (R.ok.inj e)
            rw [hq]; rfl
        · change onPriorityUpdate c id p = _ at e
          unfold onPriorityUpdate at e
          rw [if_neg (by simp [hs])] at e
          by_cases h2 : (!clientBidi id || decide (Conn.ordStreamId id > c.maxClient)) = true
          · rw [if_pos h2] at e; obtain ⟨rfl, _⟩ := Prod.mk.inj (R.ok.inj e); rw [hn] at hsome; cases hsome
          rw [if_neg h2, hn] at e
          dsimp only at e
          by_cases h3 : rejects c id = true
          · rw [if_pos h3] at e; obtain ⟨rfl, _⟩ := Prod.mk.inj (R.ok.inj e); rw [hn] at hsome; cases hsome
          rw [if_neg h3] at e
          split at e
          · cases e
          · obtain ⟨rfl, _⟩ := Prod.mk.inj (R.ok.inj e); rw [hn] at hsome; cases hsome
          · rename_i hq
            obtain ⟨rfl, _⟩ := Prod.mk.inj (R.ok.inj e)
            rw [hq]; rfl
    · refine keep (congrArg Glob.gaps g) fun x hx k => ?_
      by_cases hxi : x = id
      · subst hxi
        cases hh : c.str x with
        | none => exact absurd ⟨bx hx, hh, k⟩ hb
        | some s => rfl
      · exact others id hoo x hxi (bx hx) k
  cases o with
  | «open» id b =>
    rcases hg with g | ⟨k1, _, k2, g⟩
    · exact same id (.inl ⟨b, rfl⟩) g
    · refine new id ?_ k1 g (others id (.inl ⟨b, rfl⟩))
      by_contra hcon
      change openStream c id b = _ at e
      unfold openStream at e
      rw [if_pos (by simp; omega)] at e; cases e
  | priUpd id p =>
    rcases hg with g | ⟨k1, _, k2, g⟩
    · exact same id (.inr ⟨p, rfl⟩) g
    · exact new id (ho.2 id p rfl) k1 g (others id (.inr ⟨p, rfl⟩))
  | bindControl id => rcases hg with g | ⟨_, g⟩ <;> exact keep (congrArg Glob.gaps g) (old (by simp) (by simp))
  | bindQpack a b => rcases hg with g | ⟨_, _, g | g⟩ <;> exact keep (congrArg Glob.gaps g) (old (by simp) (by simp))
  | notice => obtain ⟨_, _, _, g⟩ := hg; exact keep (congrArg Glob.gaps g) (old (by simp) (by simp))
  | shutdown => obtain ⟨_, _, _, g⟩ := hg; exact keep (congrArg Glob.gaps g) (old (by simp) (by simp))
  | setMaxClient n => exact keep (congrArg Glob.gaps hg.2) (old (by simp) (by simp))
  | uni a b d => obtain ⟨_, _, _, g, _⟩ := hg; exact keep (congrArg Glob.gaps g) (old (by simp) (by simp))
  | recvGoaway => exact keep (congrArg Glob.gaps hg) (old (by simp) (by simp))
  | _ => exact keep (congrArg Glob.gaps hg) (old (by simp) (by simp))

theorem tracks_hist {l : List (Op F)} (hh : Hist encode WithIds c l c') (h : Inv False False c) (hs : c.server = true) {k : List Nat}
    (ht : Tracks c k) : ∃ k', Tracks c' (k ++ k') := by
  induction hh generalizing k with
  | nil => exact ⟨[], by rw [List.append_nil]; exact ht⟩
  | peer e _ ih => exact ih (h.withEnc e) hs ht
  | cons hp e _ ih =>
    obtain ⟨k1, t1⟩ := tracks_step h hs hp ht e
    obtain ⟨k2, t2⟩ := ih (any_step h hp.1 e) ((glob_down h e).1.trans hs) t1
    exact ⟨k1 ++ k2, by rw [← List.append_assoc]; exact t2⟩

/-- C41.  A PRIORITY_UPDATE never brings back a request stream that existed at any time before and was closed: it is ignored. -/
theorem C41_closed_stays_closed {st : Settings} {e0 : E} {l1 l2 : List (Op F)} {c1 c2 : Conn E F} {x : Nat} {pri : Http.Pri} {r : Ret}
    (h1 : Hist encode WithIds (init true st e0) l1 c1) (hx : x % 4 = 0) (hs : (c1.str x).isSome = true) (h2 : Hist encode WithIds c1 l2 c2)
    (hn : c2.str x = none) (e : onPriorityUpdate c2 x pri = .ok (c', r)) : c' = c2 ∧ (r = .code 0 ∨ r = .code Err.H3_ID_ERROR) := by
  have i0 : Inv False False (init true st e0 : Conn E F) := init_inv _ _ _
  have i1 := any_hist (withIds_any h1) i0
  obtain ⟨k1, t1⟩ := tracks_hist h1 i0 rfl (k := []) ⟨(fun _ h => by cases h), rfl, (fun _ _ h => by cases h)⟩
  have s1 : c1.server = true := (hist_down (withIds_any h1) i0).1
  obtain ⟨k2, t2⟩ := tracks_hist h2 i1 s1 t1
  have hm := (C04_conn_idtr _ t2.1).2.2 x (List.mem_append.2 (.inl (t1.2.2 x hx hs)))
  rw [← t2.2.1] at hm
  unfold onPriorityUpdate at e
  by_cases a1 : (!c2.server) = true
  · rw [if_pos a1] at e; cases e
  rw [if_neg a1] at e
  by_cases a2 : (!clientBidi x || decide (Conn.ordStreamId x > c2.maxClient)) = true
  · rw [if_pos a2] at e; obtain ⟨rfl, rfl⟩ := Prod.mk.inj (R.ok.inj e); exact ⟨rfl, .inr rfl⟩
  rw [if_neg a2, hn] at e
  dsimp only at e
  by_cases a3 : rejects c2 x = true
  · rw [if_pos a3] at e; obtain ⟨rfl, rfl⟩ := Prod.mk.inj (R.ok.inj e); exact ⟨rfl, .inl rfl⟩
  rw [if_neg a3] at e
  rcases hq : connBidiIdtrOpen c2.gaps x with ⟨_ | _ | _, g⟩ <;> rw [hq] at hm <;> dsimp only at hm <;> cases hm
  rw [hq] at e
  obtain ⟨rfl, rfl⟩ := Prod.mk.inj (R.ok.inj e); exact ⟨rfl, .inl rfl⟩

/-! ## The hypotheses can be met -/

/-- the peer opens its control stream and its QPACK encoder stream, byte by byte, one of unknown type, and two request streams, one of which is
closed -/
def demoUni : List (Op Bytes) :=
  [.setMaxClient 100, .open 2 false, .uni 2 [0] false, .open 6 false, .uni 6 [0x40] false, .uni 6 [2, 9] false, .open 10 false, .uni 10 [0x21, 1, 2] false,
   .open 0 false, .open 4 false, .close 4, .open 14 false]

def tyOf (c : Conn Unit Bytes) (x : Nat) : Option (Bool × Ty × RVInt) := (c.str x).map fun s => (s.ident, s.ty, s.rv)

/-- three streams have their types; stream 14 is a stream as in C40_routing and C40_refused; stream 4 was closed, and is not brought back -/
example : ∃ c, Reach safeEnc Fine (init true {} ()) c ∧ (tyOf c 2 == some (true, .control, {}) && tyOf c 6 == some (true, .qenc, {}) &&
    tyOf c 10 == some (true, .unknown, {}) && tyOf c 14 == some (false, .control, {}) && (c.str 4).isNone &&
    (match onPriorityUpdate c 4 ⟨1, true⟩ with | .ok (c', .code 0) => (c'.str 4).isNone | _ => false) &&
    (match onPriorityUpdate c 8 ⟨1, true⟩ with | .ok (c', .code 0) => (c'.str 8).isSome | _ => false) &&
    (match feed c 14 [[0x40], [3, 7], [8]] with | .ok (_, rs) => rs == [.route none, .route (some (.qdec, [7])), .route (some (.qdec, [8]))] | _ => false) &&
    (match feed c 14 [[0x40], [2, 7], [8]] with | .ok (_, rs) => rs == [.route none, .code Err.H3_STREAM_CREATION_ERROR] | _ => false)) = true :=
  fineThen_ok demoUni .init (by decide +kernel)

end Props
end Nghttp3
