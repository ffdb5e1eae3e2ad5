/-! Model of lib/nghttp3_ksl.c (a B+-tree called "deterministic paged skip list").

A block of height `h` is a list of nodes; a node is a key with data (height 0) or with a block of
the next lower height.  All leaves are at the same depth in the C code because only the root is ever split or
merged upward; the type builds this in.  The doubly linked list of leaf blocks (`next`, `prev`, `front`,
`back`) is represented by the left-to-right order of the leaves, and an iterator by the elements from
its position to the end.  Block allocation (and its failure) is not modelled.  `none` stands for a failed assert. -/

namespace Nghttp3
namespace Ksl

/-- NGHTTP3_KSL_DEGR, _MAX_NBLK, _MIN_NBLK, nghttp3_ksl.h:39-46 -/
def DEGR : Nat := 16
def MAX : Nat := 2 * DEGR - 1
def MIN : Nat := DEGR - 1

variable {K D : Type}

/-- what a node of a block of height `h` carries, nghttp3_ksl.h:63-76 -/
def Sub (K D : Type) : Nat → Type
  | 0 => D
  | h + 1 => List (K × Sub K D h)

/-- nghttp3_ksl_blk, nghttp3_ksl.h:80-105 -/
abbrev Blk (K D : Type) (h : Nat) := List (K × Sub K D h)

/-- the child block of a node of an inner block -/
def child {h : Nat} (c : Sub K D (h + 1)) : Blk K D h := c
def mkChild {h : Nat} (b : Blk K D h) : Sub K D (h + 1) := b

/-- elements of a block in leaf order (what iterating from begin to end visits) -/
def flat : (h : Nat) → Blk K D h → List (K × D)
  | 0, b => b
  | h + 1, b => b.flatMap (fun p => flat h (child p.2))

/-- nghttp3_ksl_search_def, nghttp3_ksl.h:132-145: first index whose key is not before `key` -/
def search {X : Type} (before : K → Bool) (b : List (K × X)) : Nat :=
  (b.takeWhile (fun p => before p.1)).length

/-- `nghttp3_ksl_nth_node(ksl, blk, blk->n - 1)->key` -/
def lastKey {X : Type} (b : List (K × X)) : Option K := b.getLast?.map (·.1)

/-- ksl_split_blk, nghttp3_ksl.c:141-171 (its asserts hold since it is only called on a full block) -/
def splitBlk {X : Type} (b : List (K × X)) : List (K × X) × List (K × X) :=
  let r := b.length / 2
  (b.take (b.length - r), b.drop (b.length - r))

/-- ksl_split_node, nghttp3_ksl.c:184-208 -/
def splitNode {h : Nat} (b : Blk K D (h + 1)) (i : Nat) : Blk K D (h + 1) :=
  match b[i]? with
  | none => b
  | some (k, c) =>
    let (l, r) := splitBlk (child c)
    b.take i ++ ((lastKey l).getD k, mkChild l) :: ((lastKey r).getD k, mkChild r) :: b.drop (i + 1)

/-- ksl_insert_node at index `i`, nghttp3_ksl.c:263-277 -/
def insertNode {X : Type} (b : List (K × X)) (i : Nat) (key : K) (d : X) : List (K × X) :=
  b.take i ++ (key, d) :: b.drop i

/-- ksl_remove_node at index `i`, nghttp3_ksl.c:377-382 -/
def removeNode {X : Type} (b : List (K × X)) (i : Nat) : List (K × X) := b.take i ++ b.drop (i + 1)

/-- nghttp3_ksl_insert at a leaf, nghttp3_ksl.c:305-323 -/
def leafIns (lt : K → K → Bool) (b : List (K × D)) (key : K) (d : D) : Bool × List (K × D) :=
  let i := search (fun k => lt k key) b
  match b[i]? with
  | some p => if !lt key p.1 then (false, b) else (true, insertNode b i key d)
  | none => (true, insertNode b i key d)

/-- nghttp3_ksl_remove at a leaf, nghttp3_ksl.c:562-593 -/
def leafRem (lt : K → K → Bool) (b : List (K × D)) (key : K) : Bool × List (K × D) :=
  let i := search (fun k => lt k key) b
  match b[i]? with
  | none => (false, b)
  | some p => if lt key p.1 then (false, b) else (true, removeNode b i)

/-- nghttp3_ksl_update_key at a leaf, nghttp3_ksl.c:695-700 -/
def leafUpd (lt : K → K → Bool) (b : List (K × D)) (old new : K) : Option (List (K × D)) :=
  let i := search (fun k => lt k old) b
  match b[i]? with
  | none => none
  | some (k, d) => if lt k old || lt old k then none else some (b.set i (new, d))

def leafDrop (before : K → Bool) (b rest : List (K × D)) : List (K × D) := b.drop (search before b) ++ rest

/-- the loop of nghttp3_ksl_insert extending the largest key of a subtree, nghttp3_ksl.c:325-350 -/
def insLast : (h : Nat) → Blk K D h → K → D → Blk K D h
  | 0, b, key, d => insertNode b b.length key d
  | h + 1, b, key, d =>
    let b1 : Blk K D (h + 1) := match b.getLast? with
      | some (_, c) => if (child c).length = MAX then splitNode b (b.length - 1) else b
      | none => b
    match b1.getLast? with
    | none => b1
    | some (_, c) => b1.dropLast ++ [(key, mkChild (insLast h (child c) key d))]

/-- the main loop of nghttp3_ksl_insert, nghttp3_ksl.c:302-370; `false`: NGHTTP3_ERR_INVALID_ARGUMENT -/
def ins (lt : K → K → Bool) : (h : Nat) → Blk K D h → K → D → Bool × Blk K D h
  | 0, b, key, d => leafIns lt b key d
  | h + 1, b, key, d =>
    let i := search (fun k => lt k key) b
    match b[i]? with
    | none => (true, insLast (h + 1) b key d)
    | some (k, c) =>
      if (child c).length = MAX then
        let b1 := splitNode b i
        match b1[i]?, b1[i + 1]? with
        | some (k0, c0), some (k1, c1) =>
          if lt k0 key then
            let k1' := if lt k1 key then key else k1
            let r := ins lt h (child c1) key d
            (r.1, b1.set (i + 1) (k1', mkChild r.2))
          else
            let r := ins lt h (child c0) key d
            (r.1, b1.set i (k0, mkChild r.2))
        | _, _ => (false, b1)
      else
        let r := ins lt h (child c) key d
        (r.1, b.set i (k, mkChild r.2))

/-- ksl_shift_left, nghttp3_ksl.c:439-470 -/
def shiftLeft {h : Nat} (b : Blk K D (h + 1)) (i : Nat) : Option (Blk K D (h + 1)) :=
  if i = 0 then none else
  match b[i - 1]?, b[i]? with
  | some (kl, l), some (kr, r) =>
    let lb := child l
    let rb := child r
    if ¬ (lb.length < MAX) ∨ ¬ (rb.length > MIN) then none else
    let n := (lb.length + rb.length + 1) / 2 - lb.length
    if ¬ (n > 0) ∨ ¬ (lb.length ≤ MAX - n) ∨ ¬ (rb.length ≥ MIN + n) then none else
    let lb' := lb ++ rb.take n
    some (b.take (i - 1) ++ ((lastKey lb').getD kl, mkChild lb') :: (kr, mkChild (rb.drop n)) :: b.drop (i + 1))
  | _, _ => none

/-- ksl_shift_right, nghttp3_ksl.c:477-508 -/
def shiftRight {h : Nat} (b : Blk K D (h + 1)) (i : Nat) : Option (Blk K D (h + 1)) :=
  match b[i]?, b[i + 1]? with
  | some (kl, l), some (kr, r) =>
    let lb := child l
    let rb := child r
    if ¬ (lb.length > MIN) ∨ ¬ (rb.length < MAX) then none else
    let n := (lb.length + rb.length + 1) / 2 - rb.length
    if ¬ (n > 0) ∨ ¬ (lb.length ≥ MIN + n) ∨ ¬ (rb.length ≤ MAX - n) then none else
    let lb' := lb.take (lb.length - n)
    let rb' := lb.drop (lb.length - n) ++ rb
    some (b.take i ++ ((lastKey lb').getD kl, mkChild lb') :: (kr, mkChild rb') :: b.drop (i + 2))
  | _, _ => none

/-- ksl_merge_node, nghttp3_ksl.c:394-432, without its replacement of the root (see `removeRoot`) -/
def mergeNode {h : Nat} (b : Blk K D (h + 1)) (i : Nat) : Option (Blk K D (h + 1)) :=
  match b[i]?, b[i + 1]? with
  | some (kl, l), some (_, r) =>
    let lb := child l
    let rb := child r
    if ¬ (lb.length + rb.length < MAX) then none else
    let m := lb ++ rb
    some (b.take i ++ ((lastKey m).getD kl, mkChild m) :: b.drop (i + 2))
  | _, _ => none

def lenAt {h : Nat} (b : Blk K D (h + 1)) (i : Nat) : Nat :=
  match b[i]? with
  | some (_, c) => (child c).length
  | none => 0

/-- one iteration of the loop of nghttp3_ksl_remove at an inner block, nghttp3_ksl.c:595-627: rebalance so that the
child to descend into has a node to spare; gives the block and the child's index.  `root` tells whether
this block is the head: merging its last two children there would replace the head (nghttp3_ksl.c:422-424);
that is done beforehand in `removeRoot`, and meeting it here is the outcome `none`. -/
def prep (root : Bool) {h : Nat} (b : Blk K D (h + 1)) (i : Nat) : Option (Blk K D (h + 1) × Nat) :=
  if lenAt b i > MIN then some (b, i)
  else if lenAt b i ≠ MIN then none
  else if i + 1 < b.length ∧ lenAt b (i + 1) > MIN then (shiftLeft b (i + 1)).map (·, i)
  else if i > 0 ∧ lenAt b (i - 1) > MIN then (shiftRight b (i - 1)).map (·, i)
  else if root ∧ b.length = 2 then none
  else if i + 1 < b.length then (mergeNode b i).map (·, i)
  else if i = 0 then none
  else (mergeNode b (i - 1)).map (·, i - 1)

/-- the loop of nghttp3_ksl_remove, nghttp3_ksl.c:561-628 -/
def rem (lt : K → K → Bool) (root : Bool) : (h : Nat) → Blk K D h → K → Option (Bool × Blk K D h)
  | 0, b, key => some (leafRem lt b key)
  | h + 1, b, key =>
    let i := search (fun k => lt k key) b
    if b.length ≤ i then some (false, b)
    else
      match prep root b i with
      | none => none
      | some (b1, j) =>
        match b1[j]? with
        | none => none
        | some (k, c) =>
          match rem lt false h (child c) key with
          | none => none
          | some (rv, c') => some (rv, b1.set j (k, mkChild c'))

/-- nghttp3_ksl, nghttp3_ksl.h: head (NULL or a block of some height) and the element count -/
structure T (K D : Type) where
  head : Option ((h : Nat) × Blk K D h)
  n : Nat

def init : T K D := ⟨none, 0⟩

/-- nghttp3_ksl_insert, nghttp3_ksl.c:279-371 with ksl_split_head (l.220-255) -/
def insert (lt : K → K → Bool) (t : T K D) (key : K) (d : D) : Bool × T K D :=
  let hd : (h : Nat) × Blk K D h := match t.head with
    | none => ⟨0, []⟩
    | some x => x
  let hd : (h : Nat) × Blk K D h :=
    if hd.2.length = MAX then
      let (l, r) := splitBlk hd.2
      ⟨hd.1 + 1, [((lastKey l).getD key, mkChild l), ((lastKey r).getD key, mkChild r)]⟩
    else hd
  let r := ins lt hd.1 hd.2 key d
  (r.1, ⟨some ⟨hd.1, r.2⟩, if r.1 then t.n + 1 else t.n⟩)

/-- the head of nghttp3_ksl_remove at an inner root, nghttp3_ksl.c:555-559: a root with two minimal children is
replaced by their merge -/
def removeRootS (lt : K → K → Bool) {h : Nat} (b : Blk K D (h + 1)) (key : K) :
    Option (Bool × ((h : Nat) × Blk K D h)) :=
  match b with
  | [(_, l), (_, r)] =>
    if (child l).length = MIN ∧ (child r).length = MIN then
      (rem lt true h (child l ++ child r) key).map fun r => (r.1, ⟨h, r.2⟩)
    else (rem lt true (h + 1) b key).map fun r => (r.1, ⟨h + 1, r.2⟩)
  | _ => (rem lt true (h + 1) b key).map fun r => (r.1, ⟨h + 1, r.2⟩)

/-- nghttp3_ksl_remove from the root on, nghttp3_ksl.c:555-628 -/
def removeRoot (lt : K → K → Bool) : (h : Nat) → Blk K D h → K → Option (Bool × ((h : Nat) × Blk K D h))
  | 0, b, key => (rem lt true 0 b key).map fun r => (r.1, ⟨0, r.2⟩)
  | _ + 1, b, key => removeRootS lt b key

/-- nghttp3_ksl_remove, nghttp3_ksl.c:545-629 -/
def remove (lt : K → K → Bool) (t : T K D) (key : K) : Option (Bool × T K D) :=
  match t.head with
  | none => some (false, t)
  | some hd =>
    match removeRoot lt hd.1 hd.2 key with
    | none => none
    | some (rv, hd') => some (rv, ⟨some hd', if rv then t.n - 1 else t.n⟩)

/-- nghttp3_ksl_lower_bound_search, nghttp3_ksl.c:636-682: the elements from the iterator returned to the end;
`rest` are the elements of the leaves to the right of this block -/
def lbAux (before : K → Bool) : (h : Nat) → Blk K D h → List (K × D) → List (K × D)
  | 0, b, rest => leafDrop before b rest
  | h + 1, b, rest =>
    let i := search before b
    match b[i]? with
    | none => rest
    | some (_, c) => lbAux before h (child c) (flat (h + 1) (b.drop (i + 1)) ++ rest)

def lowerBound (before : K → Bool) (t : T K D) : List (K × D) :=
  match t.head with
  | none => []
  | some hd => lbAux before hd.1 hd.2 []

/-- the leaf an iterator for `key` points into: its length, and its removal there
(nghttp3_ksl_remove_hint, nghttp3_ksl.c:519-543) -/
def hintLeafLen (lt : K → K → Bool) : (h : Nat) → Blk K D h → K → Nat
  | 0, b, _ => b.length
  | h + 1, b, key =>
    match b[search (fun k => lt k key) b]? with
    | none => 0
    | some (_, c) => hintLeafLen lt h (child c) key

def hintErase (lt : K → K → Bool) : (h : Nat) → Blk K D h → K → Blk K D h
  | 0, b, key => removeNode b (search (fun k => lt k key) b)
  | h + 1, b, key =>
    let i := search (fun k => lt k key) b
    match b[i]? with
    | none => b
    | some (k, c) => b.set i (k, mkChild (hintErase lt h (child c) key))

/-- nghttp3_ksl_remove_hint with an iterator obtained by looking `key` up, nghttp3_ksl.c:519-543 -/
def removeHint (lt : K → K → Bool) (t : T K D) (key : K) : Option (T K D) :=
  match t.head with
  | none => none
  | some hd =>
    if hintLeafLen lt hd.1 hd.2 key ≤ MIN then (remove lt t key).map (·.2)
    else some ⟨some ⟨hd.1, hintErase lt hd.1 hd.2 key⟩, t.n - 1⟩

/-- nghttp3_ksl_update_key, nghttp3_ksl.c:684-712 -/
def updKey (lt : K → K → Bool) : (h : Nat) → Blk K D h → K → K → Option (Blk K D h)
  | 0, b, old, new => leafUpd lt b old new
  | h + 1, b, old, new =>
    let i := search (fun k => lt k old) b
    match b[i]? with
    | none => none
    | some (k, c) =>
      let k' := if (!lt k old && !lt old k) || lt k new then new else k
      (updKey lt h (child c) old new).map fun c' => b.set i (k', mkChild c')

def updateKey (lt : K → K → Bool) (t : T K D) (old new : K) : Option (T K D) :=
  match t.head with
  | none => none
  | some hd => (updKey lt hd.1 hd.2 old new).map fun b => ⟨some ⟨hd.1, b⟩, t.n⟩

/-- nghttp3_ksl_clear, nghttp3_ksl.c:716-729 -/
def clear (_ : T K D) : T K D := init

/-- iteration from begin to end -/
def toList (t : T K D) : List (K × D) :=
  match t.head with
  | none => []
  | some hd => flat hd.1 hd.2

end Ksl
end Nghttp3
