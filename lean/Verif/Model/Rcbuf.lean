/-! Model of lib/nghttp3_rcbuf.c: reference counting.  Contents are not modelled. -/
namespace Nghttp3

/-- a buffer: its `int32_t ref` (nghttp3_rcbuf.h:35-45), or freed memory -/
inductive RcBuf where
  | live (ref : Int)
  | freed
deriving DecidableEq, Repr

inductive RcOut where
  /-- use after free, failed assertion or signed overflow -/
  | crash
  | ok (b : RcBuf)
deriving DecidableEq, Repr

/-- nghttp3_rcbuf_new, nghttp3_rcbuf.c:33-50 (memory allocation does not fail) -/
def RcBuf.new : RcBuf := .live 1

/-- a buffer of the static table, `ref` = -1, e.g. nghttp3_qpack.c:172-187 -/
def RcBuf.static : RcBuf := .live (-1)

/-- nghttp3_rcbuf_incref, nghttp3_rcbuf.c:81-87 -/
def RcBuf.incref : RcBuf → RcOut
  | .freed => .crash
  | .live r => if r = -1 then .ok (.live r) else if r = 2 ^ 31 - 1 then .crash else .ok (.live (r + 1))

/-- nghttp3_rcbuf_decref, nghttp3_rcbuf.c:89-99, nghttp3_rcbuf_del, nghttp3_rcbuf.c:77-79 -/
def RcBuf.decref : RcBuf → RcOut
  | .freed => .crash
  | .live r => if r = -1 then .ok (.live r) else if r ≤ 0 then .crash else if r - 1 = 0 then .ok .freed else .ok (.live (r - 1))

/-- nghttp3_rcbuf_is_static, nghttp3_rcbuf.c:106-108 -/
def RcBuf.isStatic : RcBuf → Bool
  | .freed => false
  | .live r => r == -1

end Nghttp3
