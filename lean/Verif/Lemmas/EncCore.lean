import Verif.Lemmas.QpackDs
/-! The state of the reader of the decoder stream does not matter to the rest of the QPACK encoder. -/
namespace Nghttp3
namespace Qpack

def NvOut.core (o : NvOut) : NvOut := { o with e := o.e.core }
def NvsOut.core (o : NvsOut) : NvsOut := { o with e := o.e.core }
def EncOut.core (o : EncOut) : EncOut := { o with e := o.e.core }

theorem core_core (e : Enc) : e.core.core = e.core := rfl

theorem core_setMaxCap (e : Enc) (n : Nat) : (e.core.setMaxCap n).core = (e.setMaxCap n).core := by
  unfold Enc.setMaxCap
  dsimp only
  split_ifs <;> first | rfl | simp_all [Enc.core]

theorem core_setMaxBlocked (e : Enc) (n : Nat) : (e.core.setMaxBlocked n).core = (e.setMaxBlocked n).core := rfl

theorem core_insertNv (e : Enc) (mx : Nat) (mn : Option Nat) (allow : Bool) (name value : Bytes) (token : Option Nat) (hash : Nat) (ins : EIns)
    (els els' : Enc → List EIns → NvOut) (h : ∀ e l, els' e.core l = (els e l).core) :
    e.core.insertNv mx mn allow name value token hash ins els' = (e.insertNv mx mn allow name value token hash ins els).map NvOut.core := by
  unfold Enc.insertNv
  rw [show e.core.ctx = e.ctx from rfl]
  rcases e.ctx.add name value token hash with _ | c
  · rfl
  · dsimp only
    cases allow
    · simp only [Bool.false_eq_true, if_false, Option.map_some]
      rw [← h]; rfl
    · rcases c.ents with _ | ⟨t, _⟩ <;> rfl

theorem core_exact (e : Enc) (mx : Nat) (mn : Option Nat) (allow : Bool) (x : Ent) :
    e.core.encodeExact mx mn allow x = (e.encodeExact mx mn allow x).map NvOut.core := by
  unfold Enc.encodeExact
  dsimp only
  rw [show e.core.ctx = e.ctx from rfl, show e.core.canIndex x.space mn = e.canIndex x.space mn from rfl]
  split_ifs
  · rcases e.canIndex x.space mn with _ | _ | _
    · rfl
    · rfl
    · dsimp only
      rcases e.ctx.add x.name x.value x.token x.hash with _ | c
      · rfl
      · dsimp only
        rcases c.ents with _ | ⟨t, _⟩ <;> rfl
  · rfl

theorem core_staticName (e : Enc) (mx : Nat) (mn : Option Nat) (allow just : Bool) (nv : Nv) (hash i : Nat) :
    e.core.encodeStaticName mx mn allow just nv hash i = (e.encodeStaticName mx mn allow just nv hash i).map NvOut.core := by
  unfold Enc.encodeStaticName
  dsimp only
  rw [show e.core.canIndex (tableSpace nv.name.length nv.value.length) mn = e.canIndex (tableSpace nv.name.length nv.value.length) mn from rfl]
  split_ifs
  · rcases e.canIndex (tableSpace nv.name.length nv.value.length) mn with _ | _ | _
    · rfl
    · rfl
    · dsimp only
      rcases stable[i]? with _ | ⟨n, _, t⟩
      · rfl
      · exact core_insertNv _ _ _ _ _ _ _ _ _ _ _ fun _ _ => rfl
  · rfl

theorem core_dynName (e : Enc) (mx : Nat) (mn : Option Nat) (allow just : Bool) (nv : Nv) (hash : Nat) (x : Ent) :
    e.core.encodeDynName mx mn allow just nv hash x = (e.encodeDynName mx mn allow just nv hash x).map NvOut.core := by
  unfold Enc.encodeDynName
  dsimp only
  generalize (if allow = true then mn else optMin mn (some (x.absidx + 1))) = m
  rw [show e.core.canIndex (tableSpace nv.name.length nv.value.length) m = e.canIndex (tableSpace nv.name.length nv.value.length) m from rfl]
  split_ifs
  · rcases e.canIndex (tableSpace nv.name.length nv.value.length) m with _ | _ | _
    · rfl
    · rfl
    · exact core_insertNv _ _ _ _ _ _ _ _ _ _ _ fun _ _ => rfl
  · rfl

theorem core_lit (e : Enc) (mx : Nat) (mn : Option Nat) (allow just : Bool) (nv : Nv) (token : Option Nat) (hash : Nat) :
    e.core.encodeLit mx mn allow just nv token hash = (e.encodeLit mx mn allow just nv token hash).map NvOut.core := by
  unfold Enc.encodeLit
  dsimp only
  rw [show e.core.canIndex (tableSpace nv.name.length nv.value.length) mn = e.canIndex (tableSpace nv.name.length nv.value.length) mn from rfl]
  split_ifs
  · rcases e.canIndex (tableSpace nv.name.length nv.value.length) mn with _ | _ | _
    · rfl
    · rfl
    · exact core_insertNv _ _ _ _ _ _ _ _ _ _ _ fun _ _ => rfl
  · rfl

theorem core_nvDyn (e : Enc) (mx : Nat) (mn : Option Nat) (allow : Bool) (nv : Nv) (token : Option Nat) (mode : Mode) (sidx : Option Nat) :
    e.core.encodeNvDyn mx mn allow nv token mode sidx = (e.encodeNvDyn mx mn allow nv token mode sidx).map NvOut.core := by
  unfold Enc.encodeNvDyn
  dsimp only
  rw [show e.core.streams = e.streams from rfl, show e.core.lookupDtable nv token (nvHash nv token) mode allow =
    e.lookupDtable nv token (nvHash nv token) mode allow from rfl]
  generalize (if e.streams.length < MAX_QPACK_STREAMS then e.lookupDtable nv token (nvHash nv token) mode allow else (false, none, none)) = d
  obtain ⟨b, m, p⟩ := d
  dsimp only
  rcases b with _ | _ <;> rcases m with _ | x <;> rcases sidx with _ | i <;> dsimp only
  · exact core_lit ..
  · exact core_staticName ..
  · exact core_dynName ..
  · exact core_staticName ..
  · exact core_lit ..
  · exact core_staticName ..
  · exact core_exact ..
  · exact core_exact ..

theorem core_nv (e : Enc) (mx : Nat) (mn : Option Nat) (allow : Bool) (nv : Nv) :
    e.core.encodeNv mx mn allow nv = (e.encodeNv mx mn allow nv).map NvOut.core := by
  unfold Enc.encodeNv
  dsimp only
  rw [show e.core.ctx = e.ctx from rfl]
  split
  · rfl
  · exact core_nvDyn ..

theorem core_nvs (e : Enc) (mx : Nat) (mn : Option Nat) (allow : Bool) (nvs : List Nv) :
    e.core.encodeNvs mx mn allow nvs = (e.encodeNvs mx mn allow nvs).map NvsOut.core := by
  induction nvs generalizing e mx mn with
  | nil => rfl
  | cons nv t ih =>
    unfold Enc.encodeNvs
    rw [core_nv]
    rcases e.encodeNv mx mn allow nv with _ | o
    · rfl
    · dsimp only [Option.map_some]
      rw [show o.core.e = o.e.core from rfl, ih]
      show (match Option.map NvsOut.core (o.e.encodeNvs o.max o.min allow t) with | none => none | some r => _) = _
      rcases o.e.encodeNvs o.max o.min allow t with _ | r <;> rfl

theorem core_shrink (e : Enc) : e.core.shrink = e.shrink.map Enc.core := by
  unfold Enc.shrink
  rw [show e.core.ctx = e.ctx from rfl, show e.core.minCnts = e.minCnts from rfl]
  rcases shrinkOld e.ctx.maxCap e.minCnts.min? e.ctx.ents.reverse e.ctx.size with _ | ⟨o, z⟩ <;> rfl

theorem core_update (e : Enc) : e.core.processUpdate = e.processUpdate.map fun r => (r.1.core, r.2) := by
  unfold Enc.processUpdate
  rw [core_shrink]
  rcases e.shrink with _ | g
  · rfl
  · dsimp only [Option.map_some]
    rw [show g.core.ctx = g.ctx from rfl, show g.core.pending = g.pending from rfl, show g.core.minUpd = g.minUpd from rfl, show g.core.lastUpd = g.lastUpd from rfl]
    split_ifs <;> rfl

theorem core_pushRef (e : Enc) (id : Nat) (refs : List Ref) (prev : Nat) (r : Ref) : e.core.pushRef id refs prev r = (e.pushRef id refs prev r).map Enc.core := by
  unfold Enc.pushRef
  dsimp only
  rw [show e.core.streams = e.streams from rfl, show e.core.minCnts = e.minCnts from rfl, show e.core.krcnt = e.krcnt from rfl, show e.core.blocked = e.blocked from rfl]
  split_ifs <;> rfl

theorem core_addRef (e : Enc) (id mx : Nat) (mn : Option Nat) : e.core.addStreamRef id mx mn = (e.addStreamRef id mx mn).map Enc.core := by
  unfold Enc.addStreamRef
  rcases mn with _ | m
  · rfl
  dsimp only
  rw [core_find]
  rcases e.find id with _ | refs <;> dsimp only
  · exact core_pushRef { e with streams := (id, []) :: e.streams } _ _ _ _
  · rw [show e.core.krcnt = e.krcnt from rfl]
    split_ifs
    · unfold Enc.unblockStream
      rw [show e.core.blocked = e.blocked from rfl]
      split_ifs
      · exact core_pushRef { e with blocked := e.blocked.erase (maxCnt refs, id) } _ _ _ _
      · rfl
    · exact core_pushRef ..

theorem core_encode (e : Enc) (id : Nat) (nvs : List Nv) : e.core.encode id nvs = (e.encode id nvs).map EncOut.core := by
  unfold Enc.encode
  rw [core_update]
  rcases e.processUpdate with _ | ⟨g, upd⟩
  · rfl
  dsimp only [Option.map_some]
  rw [core_nvs, show g.core.allowBlocking id = g.allowBlocking id from rfl, show g.core.ctx = g.ctx from rfl]
  rcases g.encodeNvs 0 none (g.allowBlocking id) nvs with _ | r
  · rfl
  dsimp only [Option.map_some]
  rw [show r.core.max = r.max from rfl]
  rcases prefixBytes g.ctx.hardMax r.max g.ctx.next with _ | pfx
  · rfl
  dsimp only
  split_ifs
  · rfl
  · have k := core_addRef { r.e with uninterrupted := 0 } id r.max r.min
    rw [show Enc.addStreamRef { r.core.e with uninterrupted := 0 } id r.max r.core.min = Enc.addStreamRef (Enc.core { r.e with uninterrupted := 0 }) id r.max r.min from rfl, k]
    rcases Enc.addStreamRef { r.e with uninterrupted := 0 } id r.max r.min with _ | q <;> rfl

/-- encoders that differ in the state of the reader only make the same of a field section -/
theorem encode_same {a b : Enc} (h : a.core = b.core) (id : Nat) (nvs : List Nv) : (a.encode id nvs).map EncOut.core = (b.encode id nvs).map EncOut.core := by
  rw [← core_encode, ← core_encode, h]

end Qpack
end Nghttp3
