/-! Model of lib/nghttp3_ringbuf.c.

Element storage is a function from slot number to contents, `none` standing for memory that was never
written.  A push returns the slot and the caller stores through it; the two are modelled together.
A failed allocation (NGHTTP3_ERR_NOMEM) is not modelled.  `none` as a result stands for a failed assert
or an access outside the allocation. -/

namespace Nghttp3

/-- nghttp3_ringbuf, nghttp3_ringbuf.h:37-50 (`size`, `mem` not represented) -/
structure RB (α : Type) where
  nmemb : Nat
  first : Nat
  len : Nat
  buf : Nat → Option α

namespace RB
variable {α : Type}

/-- ispow2, nghttp3_ringbuf.c:37-49 (the first of the equivalent variants) -/
def ispow2 (n : Nat) : Bool := n ≠ 0 && (n &&& (n - 1)) == 0

/-- nghttp3_ringbuf_init, nghttp3_ringbuf.c:52-72 -/
def init (nmemb : Nat) : Option (RB α) :=
  if nmemb ≠ 0 then
    if ispow2 nmemb then some ⟨nmemb, 0, 0, fun _ => none⟩ else none
  else some ⟨0, 0, 0, fun _ => none⟩

/-- `(x) & (rb->nmemb - 1)` on 64-bit size_t; nmemb = 0 gives an all-ones mask -/
def mask (rb : RB α) (x : Nat) : Nat := (x % 2 ^ 64) &&& ((rb.nmemb + 2 ^ 64 - 1) % 2 ^ 64)

/-- store through the pointer a push returned; a slot outside the allocation is an error -/
def store (rb : RB α) (slot : Nat) (x : α) : Option (RB α) :=
  if slot < rb.nmemb then some { rb with buf := fun i => if i = slot then some x else rb.buf i }
  else none

/-- nghttp3_ringbuf_push_front, nghttp3_ringbuf.c:82-87 -/
def pushFront (rb : RB α) (x : α) : Option (RB α) :=
  let first := mask rb (rb.first + 2 ^ 64 - 1)
  store { rb with first := first, len := min rb.nmemb (rb.len + 1) } first x

/-- nghttp3_ringbuf_push_back, nghttp3_ringbuf.c:89-99 -/
def pushBack (rb : RB α) (x : α) : Option (RB α) :=
  let offset := mask rb (rb.first + rb.len)
  let rb' := if rb.len = rb.nmemb then { rb with first := mask rb (rb.first + 1) }
             else { rb with len := rb.len + 1 }
  store rb' offset x

/-- nghttp3_ringbuf_pop_front, nghttp3_ringbuf.c:101-104; popping an empty buffer wraps `len`
(there is no assert), modelled as an error -/
def popFront (rb : RB α) : Option (RB α) :=
  if rb.len = 0 then none else some { rb with first := mask rb (rb.first + 1), len := rb.len - 1 }

/-- nghttp3_ringbuf_pop_back, nghttp3_ringbuf.c:106-109 -/
def popBack (rb : RB α) : Option (RB α) :=
  if rb.len = 0 then none else some { rb with len := rb.len - 1 }

/-- nghttp3_ringbuf_resize, nghttp3_ringbuf.c:111-114 -/
def resize (rb : RB α) (n : Nat) : Option (RB α) :=
  if n ≤ rb.nmemb then some { rb with len := n } else none

/-- nghttp3_ringbuf_get, nghttp3_ringbuf.c:116-120 (value read through the pointer) -/
def get (rb : RB α) (offset : Nat) : Option α :=
  if offset < rb.len then rb.buf (mask rb (rb.first + offset)) else none

/-- nghttp3_ringbuf_full, nghttp3_ringbuf.c:122 -/
def full (rb : RB α) : Bool := rb.len = rb.nmemb

/-- nghttp3_ringbuf_reserve, nghttp3_ringbuf.c:124-157 -/
def reserve (rb : RB α) (nmemb : Nat) : Option (RB α) :=
  if rb.nmemb ≥ nmemb then some rb
  else if !ispow2 nmemb then none
  else if rb.nmemb ≠ 0 then
    if rb.first + rb.len ≤ rb.nmemb then
      -- memcpy(buf, rb->buf + first, len)
      some { rb with nmemb := nmemb, first := 0,
                     buf := fun i => if i < rb.len then rb.buf (rb.first + i) else none }
    else
      let k := rb.nmemb - rb.first
      -- memcpy(buf, rb->buf + first, k); memcpy(buf + k, rb->buf, len - k)
      some { rb with nmemb := nmemb, first := 0,
                     buf := fun i => if i < k then rb.buf (rb.first + i)
                                     else if i < k + (rb.len - k) then rb.buf (i - k) else none }
  else some { rb with nmemb := nmemb, buf := fun _ => none }

end RB

/-- Operations a user may perform. -/
inductive RBOp (α : Type) where
  | pushFront (x : α) | pushBack (x : α) | popFront | popBack | resize (n : Nat) | reserve (n : Nat)

def RB.step {α : Type} (rb : RB α) : RBOp α → Option (RB α)
  | .pushFront x => rb.pushFront x
  | .pushBack x => rb.pushBack x
  | .popFront => rb.popFront
  | .popBack => rb.popBack
  | .resize n => rb.resize n
  | .reserve n => rb.reserve n

end Nghttp3
