/-! Model of lib/nghttp3_balloc.c, lib/nghttp3_opl.c and the object pools of lib/nghttp3_objalloc.h: addresses are natural numbers,
contents are not modelled, no address is near 2^64. -/
namespace Nghttp3

/-- nghttp3_balloc, nghttp3_balloc.h:54-63; `last`, `fin` are those of `buf` -/
structure Balloc where
  blklen : Nat
  /-- start addresses of the memory blocks, newest first -/
  head : List Nat
  last : Nat
  fin : Nat
deriving DecidableEq, Repr

/-- nghttp3_balloc_init, nghttp3_balloc.c:32-40; `e`: the address of the string "".  (The assertion that blklen is a multiple of 16
is not modelled: it is a hypothesis of the theorems.) -/
def Balloc.init (blklen e : Nat) : Balloc := { blklen, head := [], last := e, fin := e }

inductive BallocOut where
  /-- a failed assertion -/
  | crash
  | ok (addr : Nat) (a : Balloc)
deriving DecidableEq, Repr

/-- round up to a multiple of 16: `(n + 0xf) & ~0xf`, nghttp3_balloc.c:80-81, 88 -/
def align16 (n : Nat) : Nat := (n + 15) / 16 * 16

/-- the number of bytes asked from malloc, nghttp3_balloc.c:69-70, sizeof(nghttp3_memblock_hd) = 8 -/
def Balloc.mallocLen (blklen : Nat) : Nat := 8 + 8 + blklen

/-- nghttp3_balloc_get, nghttp3_balloc.c:62-91; `p`: what malloc would return (it does not fail) -/
def Balloc.get (a : Balloc) (n p : Nat) : BallocOut :=
  if ¬ n ≤ a.blklen then .crash
  else
    let a := if a.fin - a.last < n then
      { a with head := p :: a.head, last := align16 (p + 8), fin := align16 (p + 8) + a.blklen } else a
    if a.last % 16 ≠ 0 then .crash else .ok a.last { a with last := a.last + align16 n }

/-- nghttp3_objalloc: a pool of objects of one size, nghttp3_objalloc.h:45-48.  `opl`: addresses of the released objects
(nghttp3_opl links them through the objects), most recent first -/
structure ObjPool where
  balloc : Balloc
  opl : List Nat
deriving DecidableEq, Repr

inductive ObjOut where
  | crash
  | ok (addr : Nat) (a : ObjPool)
deriving DecidableEq, Repr

/-- nghttp3_objalloc_NAME_len_get (and _get with len = sizeof(TYPE)), nghttp3_objalloc.h:86-121; nghttp3_opl_pop, nghttp3_opl.c:35-45 -/
def ObjPool.get (a : ObjPool) (len p : Nat) : ObjOut :=
  match a.opl with
  | q :: t => .ok q { a with opl := t }
  | [] =>
    match a.balloc.get len p with
    | .crash => .crash
    | .ok q b => .ok q { a with balloc := b }

/-- nghttp3_objalloc_NAME_release, nghttp3_objalloc.h:81-84; nghttp3_opl_push, nghttp3_opl.c:30-33 -/
def ObjPool.release (a : ObjPool) (q : Nat) : ObjPool := { a with opl := q :: a.opl }

end Nghttp3
