/-! Model of lib/nghttp3_pq.c.

Entries are intrusive: the C array holds pointers, and each entry stores its own position.  Here an
entry is a value of `α` (its identity), `q i` the array slot, `idx x` the `index` field of entry `x`.
Array growth (realloc) is not modelled; a failed assert is `none`. -/

namespace Nghttp3

/-- nghttp3_pq, nghttp3_pq.h -/
structure PQ (α : Type) where
  q : Nat → α
  idx : α → Nat
  len : Nat

namespace PQ
variable {α : Type} [DecidableEq α]

def upd {β γ : Type} [DecidableEq β] (f : β → γ) (a : β) (v : γ) : β → γ := fun x => if x = a then v else f x

/-- swap, nghttp3_pq.c:50-58 -/
def swap (pq : PQ α) (i j : Nat) : PQ α :=
  let a := pq.q i
  let b := pq.q j
  { pq with q := upd (upd pq.q i b) j a, idx := upd (upd pq.idx b i) a j }

/-- bubble_up, nghttp3_pq.c:60-72 -/
def bubbleUp (less : α → α → Bool) (pq : PQ α) (index : Nat) : PQ α :=
  if h : index = 0 then pq
  else
    let parent := (index - 1) / 2
    if !less (pq.q index) (pq.q parent) then pq
    else bubbleUp less (swap pq parent index) parent
termination_by index
decreasing_by omega

/-- the inner loop choosing `minindex`, nghttp3_pq.c:107-118 -/
def minChild (less : α → α → Bool) (pq : PQ α) (index : Nat) : Nat :=
  let j := index * 2 + 1
  if j ≥ pq.len then index
  else
    let m := if less (pq.q j) (pq.q index) then j else index
    let j2 := j + 1
    if j2 ≥ pq.len then m
    else if less (pq.q j2) (pq.q m) then j2 else m

/-- bubble_down, nghttp3_pq.c:104-128; the recursion stops by itself because the position grows and stays below
the length (`fuel` is the length at the call, shown sufficient in the proofs). -/
def bubbleDownF (less : α → α → Bool) : Nat → PQ α → Nat → PQ α
  | 0, pq, _ => pq
  | fuel + 1, pq, index =>
    let m := minChild less pq index
    if m = index then pq else bubbleDownF less fuel (swap pq index m) m

def bubbleDown (less : α → α → Bool) (pq : PQ α) (index : Nat) : PQ α :=
  bubbleDownF less pq.len pq index

/-- nghttp3_pq_push, nghttp3_pq.c:74-97 -/
def push (less : α → α → Bool) (pq : PQ α) (item : α) : PQ α :=
  bubbleUp less { q := upd pq.q pq.len item, idx := upd pq.idx item pq.len, len := pq.len + 1 } pq.len

/-- nghttp3_pq_top, nghttp3_pq.c:99-102 -/
def top (pq : PQ α) : Option α := if pq.len = 0 then none else some (pq.q 0)

/-- nghttp3_pq_pop, nghttp3_pq.c:130-137 -/
def pop (less : α → α → Bool) (pq : PQ α) : Option (PQ α) :=
  if pq.len = 0 then none
  else
    let last := pq.q (pq.len - 1)
    some (bubbleDown less { q := upd pq.q 0 last, idx := upd pq.idx last 0, len := pq.len - 1 } 0)

/-- nghttp3_pq_remove, nghttp3_pq.c:139-161 -/
def remove (less : α → α → Bool) (pq : PQ α) (item : α) : Option (PQ α) :=
  let i := pq.idx item
  if pq.q i ≠ item then none
  else if i = 0 then pop less pq
  else if i = pq.len - 1 then some { pq with len := pq.len - 1 }
  else
    let last := pq.q (pq.len - 1)
    let pq' : PQ α := { q := upd pq.q i last, idx := upd pq.idx last i, len := pq.len - 1 }
    -- `item->index` is still `i`: item is not the entry that was moved
    if less item last then some (bubbleDown less pq' i) else some (bubbleUp less pq' i)

/-- nghttp3_pq_clear, nghttp3_pq.c:167 -/
def clear (pq : PQ α) : PQ α := { pq with len := 0 }

end PQ
end Nghttp3
