import Verif.Model.Ints
import Verif.Model.Xref
/-
  The content of cross-reference streams: `XrefStream::RecalculateContent`, `FileWriter::RecalculateXrefStreamWidth`
  and `Parser::ParseXrefStream`.
-/
namespace VPdf

/-- The array W.  Negative widths are left out (they read nothing, like 0). parser.cpp:547-705. -/
structure Widths where
  w1 : Nat
  w2 : Nat
  w3 : Nat
  deriving DecidableEq, Repr

/-- The parts of the stream object that carry the entries: the arrays W and Index and the decoded body.
xref.cpp:123-203, parser.cpp:547-705. -/
structure XrefStreamData where
  widths : Widths
  index : List Nat
  body : Bytes
  deriving DecidableEq, Repr

/-- The first field, xref.cpp:147, 156, 165. -/
def typeField (e : XEntry) : Nat :=
  match e.kind with
  | .free _ => 0
  | .used _ => 1
  | .compressed _ _ => 2

/-- The second field before it is converted to the parameter type of `WriteValue`, xref.cpp:71, 86, 101, 148, 157, 166. -/
def secondField (e : XEntry) : Int :=
  match e.kind with
  | .free next => next
  | .used offset => offset
  | .compressed stream _ => stream

/-- The third field, xref.cpp:72, 87, 102, 149, 158, 167. -/
def thirdField (e : XEntry) : Nat :=
  match e.kind with
  | .free _ => e.gen
  | .used _ => e.gen
  | .compressed _ index => index

/-- The widening of W, xref.cpp:62-121: the first width is never changed, the others never shrink. -/
def widenFields (w : Widths) (es : List XEntry) : Widths :=
  let m2 := es.foldl (fun m e => if contentWidth (secondField e) > m then contentWidth (secondField e) else m) 0
  let m3 := es.foldl (fun m e => if contentWidth (thirdField e) > m then contentWidth (thirdField e) else m) 0
  ⟨w.w1, if m2 > w.w2 then m2 else w.w2, if m3 > w.w3 then m3 else w.w3⟩

/-- The row of an entry, xref.cpp:144-170. -/
def writeRow (w : Widths) (e : XEntry) : Res Bytes := do
  let a ← writeValue (typeField e) w.w1
  let b ← writeValue (IntTy.u64.cast (secondField e)).toNat w.w2
  let c ← writeValue (thirdField e) w.w3
  return a ++ b ++ c

/-- The loop of xref.cpp:123-182: the rest of the array Index and of the body, given `section_index`,
`section_size` and `prev_number`. -/
def contentLoop (w : Widths) : List XEntry → Nat → Nat → Nat → Res (List Nat × Bytes)
  | [], index, size, _ => .ok ([index, size], [])
  | e :: es, index, size, prev => do
    let split ← (if size ≠ 0 then do
      let next ← safeAddition .u64 .u64 .i32 prev 1
      return decide ((e.num : Int) ≠ next)
    else return false : Res Bool)
    let row ← writeRow w e
    if split then do
      let (ix, body) ← contentLoop w es e.num 1 e.num
      return (index :: size :: ix, row ++ body)
    else do
      let (ix, body) ← contentLoop w es index (size + 1) e.num
      return (ix, row ++ body)

/-- `XrefStream::RecalculateContent`, xref.cpp:37-203, of a changed stream whose header has W with three integers. -/
def recalculateContent (w : Widths) (entries : EntrySet) : Res XrefStreamData := do
  let es := EntrySet.sorted entries
  let w := widenFields w es
  let (ix, body) ← contentLoop w es 0 0 0
  return ⟨w, ix, body⟩

/-- `FileWriter::RecalculateXrefStreamWidth`, file_writer.cpp:555-624: the new array W. -/
def recalculateWidths (entries : EntrySet) : Widths :=
  let m1 := entries.foldl (fun m _ => Nat.max m 1) 0
  let m2 := entries.foldl (fun m e => Nat.max m (IntTy.u64.cast (secondField e)).toNat) 0
  let m3 := entries.foldl (fun m e => Nat.max m (thirdField e)) 0
  ⟨writerWidth m1, writerWidth m2, writerWidth m3⟩

/-- The entry made of the three fields, parser.cpp:609-643.  The implicit conversions of the second field go through
`operator big_int` (integer_object.h:77). -/
def streamEntry (num : Nat) (f1 f2 f3 : Int) : Res XEntry :=
  if f1 = 0 then do
    let g ← safeConvert .u16 .i64 f3
    return ⟨num, g.toNat, .free (IntTy.u64.cast f2).toNat⟩
  else if f1 = 1 then do
    let g ← safeConvert .u16 .i64 f3
    return ⟨num, g.toNat, .used f2⟩
  else if f1 = 2 then do
    let i ← safeConvert .u64 .i64 f3
    return ⟨num, 0, .compressed (IntTy.u64.cast f2).toNat i.toNat⟩
  else .error .throw

/-- One round of the inner loop, parser.cpp:582-643. -/
def readRow (w : Widths) (base i : Nat) (s : Bytes) : Res (XEntry × Bytes) := do
  let (f1, s) ← readField w.w1 0 s
  let (f2, s) ← readField w.w2 0 s
  let (f3, s) ← readField w.w3 0 s
  let num ← safeAddition .u64 .u64 .i32 base i
  let e ← streamEntry num.toNat f1 f2 f3
  return (e, s)

/-- The inner loop, parser.cpp:580-643: `n` more rows, the counter is `i`, an `int` that must not overflow. -/
def readRows (w : Widths) (base : Nat) : Nat → Nat → Bytes → EntrySet → Res (EntrySet × Bytes)
  | 0, _, s, l => .ok (l, s)
  | n + 1, i, s, l => do
    if 2147483647 < i then throw .ub
    let (e, s) ← readRow w base i s
    let l ← EntrySet.add e l
    readRows w base n (i + 1) s l

/-- The outer loop, parser.cpp:575-644; `GetValue` behind the end of the array throws. -/
def readIndex (w : Widths) : List Nat → Bytes → EntrySet → Res EntrySet
  | [], _, l => .ok l
  | [_], _, _ => .error .throw
  | base :: size :: ix, s, l => do
    let (l, s) ← readRows w base size 0 s l
    readIndex w ix s l

/-- `Parser::ParseXrefStream`, parser.cpp:547-644: the entries of the section.  `index` is the array Index, or
`[0 Size]` when there is none.  The entry of the stream itself (646-699) is in UnlistedStreams. -/
def readXrefStream (d : XrefStreamData) : Res EntrySet := readIndex d.widths d.index d.body []

example : recalculateContent ⟨1, 1, 0⟩ [⟨3, 0, .used 500⟩, ⟨0, 65535, .free 0⟩, ⟨4, 0, .compressed 3 7⟩] =
    .ok ⟨⟨1, 2, 3⟩, [0, 1, 3, 2], [0, 0, 0, 0, 255, 255, 1, 1, 244, 0, 0, 0, 2, 0, 3, 0, 0, 7]⟩ := by decide

example : readXrefStream ⟨⟨1, 2, 3⟩, [0, 1, 3, 2], [0, 0, 0, 0, 255, 255, 1, 1, 244, 0, 0, 0, 2, 0, 3, 0, 0, 7]⟩ =
    .ok [⟨0, 65535, .free 0⟩, ⟨3, 0, .used 500⟩, ⟨4, 0, .compressed 3 7⟩] := by decide

end VPdf
