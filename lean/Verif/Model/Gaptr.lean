import Verif.Model.Conv

/-! Model of lib/nghttp3_range.c, lib/nghttp3_gaptr.c, lib/nghttp3_idtr.c and
`conn_bidi_idtr_open` (lib/nghttp3_conn.c).

The ordered index (`nghttp3_ksl`) holding the gaps is represented by the list of its keys in order;
`lower_bound_search` is "first key for which the comparison with the argument is false". -/

namespace Nghttp3

def UINT64_MAX : Nat := 2 ^ 64 - 1

/-- nghttp3_range, nghttp3_range.h: `[begin, end)` -/
structure Range where
  b : Nat
  e : Nat
deriving DecidableEq, Repr

/-- nghttp3_range_len, nghttp3_range.c:47 (only used with begin ≤ end) -/
def Range.len (r : Range) : Nat := r.e - r.b

/-- nghttp3_range_intersect, nghttp3_range.c:34-45 -/
def rangeIntersect (a c : Range) : Range :=
  let b := max a.b c.b
  let e := min a.e c.e
  if b < e then ⟨b, e⟩ else ⟨0, 0⟩

/-- nghttp3_range_cut, nghttp3_range.c:53-60 -/
def rangeCut (a c : Range) : Range × Range := (⟨a.b, c.b⟩, ⟨c.e, a.e⟩)

/-- nghttp3_ksl_range_exclusive_compar, nghttp3_ksl.c:823-828 -/
def rangeExclLess (a c : Range) : Bool := a.b < c.b && !(max a.b c.b < min a.e c.e)

/-- The loop of nghttp3_gaptr_push, nghttp3_gaptr.c:74-102. -/
def gapPushLoop (q : Range) : List Range → List Range
  | [] => []
  | k :: t =>
    let m := rangeIntersect q k
    if m.len = 0 then k :: t
    else if k = m then gapPushLoop q t
    else
      let (l, r) := rangeCut k m
      if l.len ≠ 0 then
        if r.len ≠ 0 then l :: r :: gapPushLoop q t
        else l :: gapPushLoop q t
      else if r.len ≠ 0 then r :: gapPushLoop q t
      else k :: gapPushLoop q t

/-- nghttp3_ksl_lower_bound_search followed by the loop (nghttp3_gaptr.c:71-102). -/
def gapPushFrom (q : Range) : List Range → List Range
  | [] => []
  | k :: t => if rangeExclLess k q then k :: gapPushFrom q t else gapPushLoop q (k :: t)

/-- `if (nghttp3_ksl_len == 0) gaptr_gap_init` (nghttp3_gaptr.c:38-44, 64-69) -/
def gapInit (gaps : List Range) : List Range :=
  if gaps.length = 0 then [⟨0, UINT64_MAX⟩] else gaps

/-- nghttp3_gaptr_push, nghttp3_gaptr.c:54-105; `offset + datalen` must not exceed UINT64_MAX
(the C sum wraps otherwise; theorems carry the bound). -/
def gaptrPush (gaps : List Range) (offset datalen : Nat) : List Range :=
  gapPushFrom ⟨offset, offset + datalen⟩ (gapInit gaps)

/-- nghttp3_gaptr_first_gap_offset, nghttp3_gaptr.c:107-117 -/
def gaptrFirstGapOffset (gaps : List Range) : Nat :=
  match gaps with
  | [] => 0
  | k :: _ => k.b

/-- nghttp3_gaptr_get_first_gap_after, nghttp3_gaptr.c:119-138; `none`: the assert fails -/
def gaptrGetFirstGapAfter (gaps : List Range) (offset : Nat) : Option Range :=
  if gaps.length = 0 then some ⟨0, UINT64_MAX⟩
  else gaps.find? (fun k => !rangeExclLess k ⟨offset, offset + 1⟩)

/-- nghttp3_gaptr_is_pushed, nghttp3_gaptr.c:140-161; `none`: the assert fails -/
def gaptrIsPushed (gaps : List Range) (offset datalen : Nat) : Option Bool :=
  if gaps.length = 0 then some false
  else
    let q : Range := ⟨offset, offset + datalen⟩
    match gaps.find? (fun k => !rangeExclLess k q) with
    | none => none
    | some k => some ((rangeIntersect q k).len == 0)

/-- nghttp3_gaptr_drop_first_gap, nghttp3_gaptr.c:163-178 -/
def gaptrDropFirstGap (gaps : List Range) : List Range := gaps.drop 1

/-- Result of an open. -/
inductive OpenRes where
  | ok
  | streamInUse
  | abort
deriving DecidableEq, Repr

/-- nghttp3_idtr_open, nghttp3_idtr.c:49-59; id_from_stream_id is `>> 2` (l.45-47) -/
def idtrOpen (gaps : List Range) (streamId : Nat) : OpenRes × List Range :=
  let q := streamId >>> 2
  match gaptrIsPushed gaps q 1 with
  | none => (.abort, gaps)
  | some true => (.streamInUse, gaps)
  | some false => (.ok, gaptrPush gaps q 1)

/-- nghttp3_idtr_is_open, nghttp3_idtr.c:61-67 -/
def idtrIsOpen (gaps : List Range) (streamId : Nat) : Option Bool :=
  gaptrIsPushed gaps (streamId >>> 2) 1

/-- conn_bidi_idtr_open, nghttp3_conn.c:367-380 -/
def connBidiIdtrOpen (gaps : List Range) (streamId : Nat) : OpenRes × List Range :=
  match idtrOpen gaps streamId with
  | (.ok, g) => (.ok, if g.length > 32 then gaptrDropFirstGap g else g)
  | r => r

end Nghttp3
