import Verif.Lemmas.EndpointFault4
/-! Property theorems C72: the connection errors of nghttp3_conn_read_stream. -/
namespace Nghttp3
namespace Props
open Endpoint EpDemo
open Conn (Begins)
open Rfc9204 (AreInstrs Table)
open Spec.Control (Frame EncodesAll verdict)

/-- C72.  If nghttp3_conn_read_stream returns an error, then the violation that the error stands for has happened: `Fault` lists, for every error, what
the peer must have sent.  In particular no error is about a stream on which nothing wrong arrived, and all errors are among those listed there. -/
theorem C72_blame (P : Par) (server : Bool) (st : Settings) (l : Log) (ep : Ep) (id : Nat) (src : Bytes) (fin : Bool) (e : Int) (hP : ParOk P) (hst : SettingsOk st)
    (h : Endpoint.Hist P server st l ep) (ho : Permitted ep (.read id src fin)) (hf : Endpoint.step P ep (.read id src fin) = .fail e) :
    Fault P server st l ep id src fin e :=
  read_blame hP hst h ho hf

/-- C72.  A push stream is refused as soon as its type is complete. -/
theorem C72_push (P : Par) (server : Bool) (st : Settings) (l : Log) (ep : Ep) (id : Nat) (src : Bytes) (fin : Bool) (hP : ParOk P) (hst : SettingsOk st)
    (h : Endpoint.Hist P server st l ep) (hid : id < 2 ^ 62) (hpu : Conn.peerUni server id) (hb : Begins 1 (l.arrived id ++ src)) :
    Endpoint.step P ep (.read id src fin) = .fail Err.H3_STREAM_CREATION_ERROR :=
  must_push hP hst h hid hpu hb

/-- C72.  So is a second control stream, QPACK encoder stream or QPACK decoder stream. -/
theorem C72_second (P : Par) (server : Bool) (st : Settings) (l : Log) (ep : Ep) (id u v : Nat) (src : Bytes) (fin : Bool) (hP : ParOk P) (hst : SettingsOk st)
    (h : Endpoint.Hist P server st l ep) (hid : id < 2 ^ 62) (hpu : Conn.peerUni server id) (hv : critical v) (hb : Begins v (l.arrived id ++ src))
    (hu : HasType server l u v) (hne : u ≠ id) :
    Endpoint.step P ep (.read id src fin) = .fail Err.H3_STREAM_CREATION_ERROR :=
  must_second hP hst h hid hpu hv hb hu hne

/-- C72.  The end of a control stream, QPACK encoder stream or QPACK decoder stream is an error, unless it arrives in the same call as the last byte
of the stream type (finding 18). -/
theorem C72_ended (P : Par) (server : Bool) (st : Settings) (l : Log) (ep : Ep) (id v : Nat) (src p y : Bytes) (hP : ParOk P) (hst : SettingsOk st)
    (h : Endpoint.Hist P server st l ep) (hid : id < 2 ^ 62) (hpu : Conn.peerUni server id) (hv : critical v) (hp : Spec.IsVarint v p)
    (ha : l.arrived id ++ src = p ++ y) (hone : ∀ u, u ≠ id → ¬ HasType server l u v) (hsome : (src ≠ [] ∧ y ≠ []) ∨ HasType server l id v) :
    Endpoint.step P ep (.read id src true) = .fail Err.H3_CLOSED_CRITICAL_STREAM :=
  must_ended hP hst h hid hpu hv hp ha hone hsome

/-- C72.  An instruction on the encoder stream that is not valid (RFC 9204, section 4.3: an index that does not exist, an entry larger than the
table, a capacity above the limit), after whatever instructions, cut in whatever way, is an error. -/
theorem C72_instructions (P : Par) (server : Bool) (st : Settings) (l : Log) (ep : Ep) (id : Nat) (src p bytes rest : Bytes) (hP : ParOk P) (hst : SettingsOk st)
    (h : Endpoint.Hist P server st l ep) (hid : id < 2 ^ 62) (hpu : Conn.peerUni server id) (hp : Spec.IsVarint 2 p)
    (ha : l.arrived id ++ src = p ++ (bytes ++ rest)) (hone : ∀ u, u ≠ id → ¬ HasType server l u 2) {is : List Rfc9204.Instr} (hi : AreInstrs is bytes)
    (ht : Table.applyAll st.qpackMaxDtableCapacity {} is = none) :
    Endpoint.step P ep (.read id src false) = .fail Err.QPACK_ENCODER_STREAM_ERROR :=
  must_encoder hP hst h hid hpu hp ha hone hi ht

/-- C72.  The first frame on the control stream that must be refused (`verdict`) is refused with its error, however the frames were cut into calls.
Not excluded for a server: the error H3_ID_ERROR (which a PRIORITY_UPDATE frame for a stream that cannot exist gets), and the failed assertion of
C47; `C72_control_client` excludes both for a client. -/
theorem C72_control (P : Par) (server : Bool) (st : Settings) (l : Log) (ep : Ep) (id : Nat) (src p bs : Bytes) (a b : List Frame) (f : Frame) (e : Int)
    (hP : ParOk P) (hst : SettingsOk st) (hcb : ∀ ev, P.cb ev = true) (h : Endpoint.Hist P server st l ep) (hid : id < 2 ^ 62) (hpu : Conn.peerUni server id)
    (hp : Spec.IsVarint 0 p) (ha : l.arrived id ++ src = p ++ bs) (hone : ∀ u, u ≠ id → ¬ HasType server l u 0) (hsrc : src ≠ []) (hfs : EncodesAll (a ++ f :: b) bs)
    (hshort : ∀ id fld, Frame.priorityUpdate id fld ∈ a ++ f :: b → fld.length ≤ 8)
    (hok : ∀ a1 g a2, a = a1 ++ g :: a2 → verdict server a1 g = none) (hnp : ∀ id fld, Frame.priorityUpdate id fld ∉ a) (hf : verdict server a f = some e) :
    Endpoint.step P ep (.read id src false) = .fail e ∨
      server = true ∧ (Endpoint.step P ep (.read id src false) = .fail Err.H3_ID_ERROR ∨ Endpoint.step P ep (.read id src false) = .crash) :=
  must_control hP hst hcb h hid hpu hp ha hone hsrc hfs hshort hok hnp hf

/-- a client accepts no PRIORITY_UPDATE frame -/
theorem client_no_pri {a : List Frame} (hok : ∀ a1 g a2, a = a1 ++ g :: a2 → verdict false a1 g = none) (id : Nat) (fld : List UInt8) : Frame.priorityUpdate id fld ∉ a := by
  intro hm
  obtain ⟨a1, a2, k⟩ := List.append_of_mem hm
  have := hok a1 _ a2 k
  unfold verdict at this
  split_ifs at this <;> simp_all

/-- C72.  On a client, which accepts no PRIORITY_UPDATE frame, the error is always the one of the first frame that must be refused. -/
theorem C72_control_client (P : Par) (st : Settings) (l : Log) (ep : Ep) (id : Nat) (src p bs : Bytes) (a b : List Frame) (f : Frame) (e : Int)
    (hP : ParOk P) (hst : SettingsOk st) (hcb : ∀ ev, P.cb ev = true) (h : Endpoint.Hist P false st l ep) (hid : id < 2 ^ 62) (hpu : Conn.peerUni false id)
    (hp : Spec.IsVarint 0 p) (ha : l.arrived id ++ src = p ++ bs) (hone : ∀ u, u ≠ id → ¬ HasType false l u 0) (hsrc : src ≠ []) (hfs : EncodesAll (a ++ f :: b) bs)
    (hshort : ∀ id fld, Frame.priorityUpdate id fld ∈ a ++ f :: b → fld.length ≤ 8)
    (hok : ∀ a1 g a2, a = a1 ++ g :: a2 → verdict false a1 g = none) (hf : verdict false a f = some e) :
    Endpoint.step P ep (.read id src false) = .fail e := by
  rcases C72_control P false st l ep id src p bs a b f e hP hst hcb h hid hpu hp ha hone hsrc hfs hshort hok (client_no_pri hok) hf with g | ⟨g, _⟩
  · exact g
  · cases g

/-! ## example -/

/-- a client; the control stream and the encoder stream of the server have begun -/
def EpDemo.begun : List Call := [.bindControl 2, .bindQpack 6 10, .read 3 [0, 4, 2, 6] false, .read 7 [2] false, .read 3 [9] false, .read 11 [0x40] false]

set_option maxRecDepth 100000 in
/-- C72 is about such histories.  Afterwards a push stream, a second control stream, the end of the control stream, a reference to an entry that does
not exist, and a second SETTINGS frame are refused. -/
theorem C72_example : ∃ (l : Log) (ep : Ep), Endpoint.Hist anyPar false someSettings l ep ∧
    Endpoint.step anyPar ep (.read 11 [1] false) = .fail Err.H3_STREAM_CREATION_ERROR ∧
    Endpoint.step anyPar ep (.read 11 [0, 9] false) = .fail Err.H3_STREAM_CREATION_ERROR ∧
    Endpoint.step anyPar ep (.read 3 [] true) = .fail Err.H3_CLOSED_CRITICAL_STREAM ∧
    Endpoint.step anyPar ep (.read 7 [0] false) = .fail Err.QPACK_ENCODER_STREAM_ERROR ∧
    Endpoint.step anyPar ep (.read 3 [4, 0] false) = .fail Err.H3_FRAME_UNEXPECTED := by
  rcases h1 : makeCalls anyPar begun (init false someSettings) with _ | ⟨ep, l⟩
  · have : (makeCalls anyPar begun (init false someSettings)).isSome = true := by decide +kernel
    rw [h1] at this; cases this
  have v : ∀ n : Nat, n < 64 → Spec.IsVarint n [UInt8.ofNat n] := by
    intro n hn
    refine ⟨0, by decide, rfl, by omega, ?_⟩
    simp [Spec.bigEndian]
    omega
  have w : ∀ n : Nat, n < 64 → Spec.IsVarint n [0x40, UInt8.ofNat n] := by
    intro n hn
    refine ⟨1, by decide, rfl, by omega, ?_⟩
    simp [Spec.bigEndian]
    omega
  have k1 : (makeCalls anyPar begun (init false someSettings)).map (fun r => (r.2.arrived 3, r.2.arrived 7, r.2.arrived 11)) = some ([0, 4, 2, 6, 9], [2], [0x40]) := by
    decide +kernel
  rw [h1] at k1
  injection k1 with k1
  simp only [Prod.mk.injEq] at k1
  obtain ⟨k1, k2, k3⟩ := k1
  have hh : Endpoint.Hist anyPar false someSettings l ep := by simpa using makeCalls_hist _ .init h1
  have t3 : HasType false l 3 0 := ⟨rfl, [0], [4, 2, 6, 9], v 0 (by decide), k1⟩
  have t7 : HasType false l 7 2 := ⟨rfl, [2], [], v 2 (by decide), k2⟩
  have one3 : ∀ u, u ≠ 3 → ¬ HasType false l u 0 := fun u hu hc =>
    hu ((C65_one_each anyPar false someSettings l ep anyPar_ok someSettings_ok hh).1 0 u 3 (.inl rfl) hc t3)
  have one7 : ∀ u, u ≠ 7 → ¬ HasType false l u 2 := fun u hu hc =>
    hu ((C65_one_each anyPar false someSettings l ep anyPar_ok someSettings_ok hh).1 2 u 7 (.inr (.inl rfl)) hc t7)
  refine ⟨l, ep, hh, ?_, ?_, ?_, ?_, ?_⟩
  · exact C72_push anyPar false someSettings l ep 11 [1] false anyPar_ok someSettings_ok hh (by decide) rfl ⟨[0x40, 1], [], w 1 (by decide), by rw [k3]; rfl⟩
  · exact C72_second anyPar false someSettings l ep 11 3 0 [0, 9] false anyPar_ok someSettings_ok hh (by decide) rfl (.inl rfl)
      ⟨[0x40, 0], [9], w 0 (by decide), by rw [k3]; rfl⟩ t3 (by decide)
  · exact C72_ended anyPar false someSettings l ep 3 0 [] [0] [4, 2, 6, 9] anyPar_ok someSettings_ok hh (by decide) rfl (.inl rfl) (v 0 (by decide)) (by rw [k1]; rfl) one3 (.inr t3)
  · refine C72_instructions anyPar false someSettings l ep 7 [0] [2] [0] [] anyPar_ok someSettings_ok hh (by decide) rfl (v 2 (by decide)) (by rw [k2]; rfl) one7
      (is := [.duplicate 0]) ⟨[0], [], rfl, ⟨⟨0, [], rfl, rfl⟩, .inl (by decide), by decide, by decide⟩, rfl⟩ rfl
  · refine C72_control_client anyPar someSettings l ep 3 [4, 0] [0] ([4, 2, 6, 9] ++ ([4, 0] ++ [])) [.settings [(6, 9)]] [] (.settings []) _ anyPar_ok someSettings_ok (fun _ => rfl) hh (by decide) rfl
      (v 0 (by decide)) (by rw [k1]; rfl) one3 (by decide) ?_ (by simp) ?_ ?_
    · exact .cons ⟨[6, 9], .cons (bi := [6]) (bv := [9]) (v 6 (by decide)) (v 9 (by decide)) .nil, [4], [2], v 4 (by decide), v 2 (by decide), rfl⟩
        (.cons ⟨[], .nil, [4], [0], v 4 (by decide), v 0 (by decide), rfl⟩ .nil)
    · intro a1 g a2 k
      rcases a1 with _ | ⟨x, a1⟩
      · injection k with k _
        subst k
        unfold verdict
        dsimp only
        rw [if_neg (by simp), if_pos]
        refine ⟨by simp, by simp, (fun g => by cases g), ?_, ?_⟩ <;>
        · rintro x y ⟨a, b, c, k⟩
          have := congrArg List.length k
          simp at this
          omega
      · injection k with _ k
        simp at k
    · unfold verdict
      dsimp only
      rw [if_pos (by simp)]

end Props
end Nghttp3
