/-! Model of lib/nghttp3_map.c (Robin Hood hashing with backward-shift deletion).

A bucket is `none` when its `data` is NULL (the code tests only `data` for emptiness; the stale key and
psl of an emptied bucket are never read).  `1u << hashbits` is the mathematical power of two (the C
expression is exact for hashbits < 32, i.e. up to 2^31 buckets).  Loops carry fuel equal to the
number of buckets plus one; `none` stands for running out of it (a non-terminating C loop) or a failed assert.
Allocation failure is not modelled. -/

namespace Nghttp3

/-- nghttp3_map_bucket, nghttp3_map.h:42-46 -/
structure Bkt (V : Type) where
  psl : Nat
  key : Nat
  data : V

abbrev Tbl (V : Type) := Nat → Option (Bkt V)

/-- nghttp3_map, nghttp3_map.h:48-53 -/
structure HMap (V : Type) where
  table : Tbl V
  hashbits : Nat
  size : Nat

inductive MapRv where
  | ok | invalidArgument
deriving DecidableEq, Repr

namespace HMap
variable {V : Type}

/-- hash, nghttp3_map.c:81-83: 64-bit product, top `bits` bits -/
def hash (key bits : Nat) : Nat := (key * 11400714819323198485 % 2 ^ 64) >>> (64 - bits)

/-- `(idx + 1) & mask` with mask = (1u << hashbits) - 1 -/
def next (hashbits idx : Nat) : Nat := (idx + 1) &&& (2 ^ hashbits - 1)

def setB (t : Tbl V) (i : Nat) (b : Option (Bkt V)) : Tbl V := fun j => if j = i then b else t j

/-- the loop of insert, nghttp3_map.c:130-150 -/
def insertLoop (hashbits key : Nat) : Nat → Tbl V → Nat → Bkt V → Option (MapRv × Tbl V)
  | 0, _, _, _ => none
  | fuel + 1, t, idx, b =>
    match t idx with
    | none => some (.ok, setB t idx (some b))
    | some bkt =>
      if b.psl > bkt.psl then
        -- map_bucket_swap(bkt, &b); ++b.psl
        insertLoop hashbits key fuel (setB t idx (some b)) (next hashbits idx) { bkt with psl := bkt.psl + 1 }
      else if bkt.key = key then some (.invalidArgument, t)
      else insertLoop hashbits key fuel t (next hashbits idx) { b with psl := b.psl + 1 }

/-- insert, nghttp3_map.c:120-151 -/
def insert' (t : Tbl V) (hashbits key : Nat) (data : V) : Option (MapRv × Tbl V) :=
  insertLoop hashbits key (2 ^ hashbits + 1) t (hash key hashbits) ⟨0, key, data⟩

/-- one iteration of the rehash loop of map_resize, nghttp3_map.c:171-178 -/
def rehashStep (old : Tbl V) (newBits : Nat) (nt : Tbl V) (i : Nat) : Option (Tbl V) :=
  match old i with
  | none => some nt
  | some b =>
    match insert' nt newBits b.key b.data with
    | some (.ok, nt') => some nt'
    | _ => none

/-- map_resize, nghttp3_map.c:153-187 -/
def resize (m : HMap V) (newBits : Nat) : Option (HMap V) :=
  let nt : Option (Tbl V) :=
    if m.size ≠ 0 then (List.range (2 ^ m.hashbits)).foldlM (rehashStep m.table newBits) (fun _ => none)
    else some (fun _ => none)
  nt.map fun nt => { m with hashbits := newBits, table := nt }

/-- the growth step of nghttp3_map_insert (load factor 0.75), nghttp3_map.c:194-209 -/
def grow (m : HMap V) : Option (HMap V) :=
  if (m.size + 1) * 4 > 2 ^ m.hashbits * 3 then
    if m.hashbits ≠ 0 then resize m (m.hashbits + 1) else resize m 4
  else some m

/-- nghttp3_map_insert, nghttp3_map.c:189-219 -/
def insert (m : HMap V) (key : Nat) (data : V) : Option (MapRv × HMap V) :=
  match grow m with
  | none => none
  | some m =>
    match insert' m.table m.hashbits key data with
    | none => none
    | some (.invalidArgument, t) => some (.invalidArgument, { m with table := t })
    | some (.ok, t) => some (.ok, { m with table := t, size := m.size + 1 })

/-- the loop of find, nghttp3_map.c:234-247 -/
def findLoop (hashbits key : Nat) (t : Tbl V) : Nat → Nat → Nat → Option (Option V)
  | 0, _, _ => none
  | fuel + 1, idx, psl =>
    match t idx with
    | none => some none
    | some bkt =>
      if psl > bkt.psl then some none
      else if bkt.key = key then some (some bkt.data)
      else findLoop hashbits key t fuel (next hashbits idx) (psl + 1)

/-- nghttp3_map_find, nghttp3_map.c:221-248 -/
def find (m : HMap V) (key : Nat) : Option (Option V) :=
  if m.size = 0 then some none
  else findLoop m.hashbits key m.table (2 ^ m.hashbits + 1) (hash key m.hashbits) 0

/-- the inner (backward shift) loop of remove, nghttp3_map.c:274-286; `b` is the hole -/
def shiftLoop (hashbits : Nat) : Nat → Tbl V → Nat → Nat → Option (Tbl V)
  | 0, _, _, _ => none
  | fuel + 1, t, b, idx =>
    match t idx with
    | none => some (setB t b none)
    | some bkt =>
      if bkt.psl = 0 then some (setB t b none)
      else
        let bkt' : Bkt V := { bkt with psl := bkt.psl - 1 }
        -- --bkt->psl; *b = *bkt
        shiftLoop hashbits fuel (setB (setB t idx (some bkt')) b (some bkt')) idx (next hashbits idx)

/-- the outer loop of remove, nghttp3_map.c:263-295 -/
def removeLoop (hashbits key : Nat) (t : Tbl V) : Nat → Nat → Nat → Option (MapRv × Tbl V)
  | 0, _, _ => none
  | fuel + 1, idx, psl =>
    match t idx with
    | none => some (.invalidArgument, t)
    | some bkt =>
      if psl > bkt.psl then some (.invalidArgument, t)
      else if bkt.key = key then
        (shiftLoop hashbits (2 ^ hashbits + 1) t idx (next hashbits idx)).map fun t' => (.ok, t')
      else removeLoop hashbits key t fuel (next hashbits idx) (psl + 1)

/-- nghttp3_map_remove, nghttp3_map.c:250-296 -/
def remove (m : HMap V) (key : Nat) : Option (MapRv × HMap V) :=
  if m.size = 0 then some (.invalidArgument, m)
  else
    match removeLoop m.hashbits key m.table (2 ^ m.hashbits + 1) (hash key m.hashbits) 0 with
    | none => none
    | some (.ok, t) => some (.ok, { m with table := t, size := m.size - 1 })
    | some (.invalidArgument, t) => some (.invalidArgument, { m with table := t })

/-- nghttp3_map_clear, nghttp3_map.c:298-305 -/
def clear (m : HMap V) : HMap V :=
  if m.size = 0 then m else { m with table := fun _ => none, size := 0 }

/-- nghttp3_map_init, nghttp3_map.c:37-42 -/
def init : HMap V := ⟨fun _ => none, 0, 0⟩

end HMap

inductive MapOp (V : Type) where
  | insert (k : Nat) (v : V) | find (k : Nat) | remove (k : Nat) | clear

inductive MapOut (V : Type) where
  | rv (r : MapRv) | found (v : Option V) | unit

/-- one API call; also reports nghttp3_map_size (nghttp3_map.c:307) afterwards -/
def HMap.step {V : Type} (m : HMap V) : MapOp V → Option (MapOut V × HMap V)
  | .insert k v => (m.insert k v).map fun r => (.rv r.1, r.2)
  | .find k => (m.find k).map fun r => (.found r, m)
  | .remove k => (m.remove k).map fun r => (.rv r.1, r.2)
  | .clear => some (.unit, m.clear)

end Nghttp3
