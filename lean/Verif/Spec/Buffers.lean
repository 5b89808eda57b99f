import Verif.Model.Buffers
/-
  Buffers and lists of buffers as a program sees them: contents that never go away, sequences of them, and the number of handles
  the program holds (C126).
-/
namespace VPdf.Spec

/-- What a program knows: the contents of each buffer, how many handles it holds of each, the sequences of the lists, how many
handles it holds of each list, and what is left to read in each stream. -/
structure BufferView where
  contents : List Bytes
  held : Nat → Nat
  lists : List (List Nat)
  listHeld : Nat → Nat
  unread : List Bytes

namespace BufferView

/-- One handle more, or less, of `i`. -/
def plus (h : Nat → Nat) (i : Nat) : Nat → Nat := fun j => if j = i then h j + 1 else h j
def minus (h : Nat → Nat) (i : Nat) : Nat → Nat := fun j => if j = i then h j - 1 else h j

/-- The program has the buffer, or the list. -/
def Has (v : BufferView) (b : Nat) : Prop := b < v.contents.length ∧ 0 < v.held b
def HasList (v : BufferView) (l : Nat) : Prop := l < v.lists.length ∧ 0 < v.listHeld l

/-- The calls of a correct program: it uses what it holds; it inserts and removes at positions up to the end of the list; it does
not set a buffer from its own memory. -/
def Correct (v : BufferView) : BufCall → Prop
  | .make _ | .newList => True
  | .getData b | .setData b _ | .copyTo b _ | .releaseBuffer b | .stream b => v.Has b
  | .setFrom b c => v.Has b ∧ v.Has c ∧ b ≠ c
  | .equals b c => v.Has b ∧ v.Has c
  | .size l | .releaseList l | .item l _ => v.HasList l
  | .append l b => v.HasList l ∧ v.Has b
  | .insert l i b => v.HasList l ∧ v.Has b ∧ i ≤ (v.lists.getD l []).length
  | .remove l i => v.HasList l ∧ i ≤ (v.lists.getD l []).length
  | .read s _ => s < v.unread.length

/-- What a call is to answer. -/
def answer (v : BufferView) : BufCall → Res BufAnswer
  | .make _ => .ok (.handle v.contents.length)
  | .getData b => .ok (.data (v.contents.getD b []))
  | .copyTo b room =>
    .ok (if (v.contents.getD b []).length ≤ room then .data (v.contents.getD b []) else .noRoom)
  | .equals b c => .ok (.yes (v.contents.getD b [] == v.contents.getD c []))
  | .newList => .ok (.handle v.lists.length)
  | .size l => .ok (.count (v.lists.getD l []).length)
  | .item l i =>
    match (v.lists.getD l [])[i]? with
    | some b => .ok (.handle b)
    | none => .error .conversion
  | .remove l i => .ok (if i < (v.lists.getD l []).length then .done else .absent)
  | .stream _ => .ok (.handle v.unread.length)
  | .read s n => .ok (.data ((v.unread.getD s []).take n))
  | _ => .ok .done

/-- What a call changes. -/
def next (v : BufferView) : BufCall → BufferView
  | .make d => { v with contents := v.contents ++ [d], held := plus v.held v.contents.length }
  | .setData b d => { v with contents := v.contents.set b d }
  | .setFrom b c => { v with contents := v.contents.set b (v.contents.getD c []) }
  | .releaseBuffer b => { v with held := minus v.held b }
  | .newList => { v with lists := v.lists ++ [[]], listHeld := plus v.listHeld v.lists.length }
  | .item l i =>
    match (v.lists.getD l [])[i]? with
    | some b => { v with held := plus v.held b }
    | none => v
  | .append l b => { v with lists := v.lists.set l (v.lists.getD l [] ++ [b]) }
  | .insert l i b => { v with lists := v.lists.set l ((v.lists.getD l []).insertIdx i b) }
  | .remove l i => { v with lists := v.lists.set l ((v.lists.getD l []).eraseIdx i) }
  | .releaseList l =>
    { v with listHeld := minus v.listHeld l, lists := if v.listHeld l = 1 then v.lists.set l [] else v.lists }
  | .stream b => { v with unread := v.unread ++ [v.contents.getD b []] }
  | .read s n => { v with unread := v.unread.set s ((v.unread.getD s []).drop n) }
  | _ => v

/-- All calls of a history are those of a correct program. -/
def AllCorrect (v : BufferView) : List BufCall → Prop
  | [] => True
  | c :: cs => v.Correct c ∧ AllCorrect (v.next c) cs

/-- The answers of a history. -/
def answersAll (v : BufferView) : List BufCall → List (Res BufAnswer)
  | [] => []
  | c :: cs => v.answer c :: answersAll (v.next c) cs

/-- What there is at the end of a history. -/
def final (v : BufferView) : List BufCall → BufferView
  | [] => v
  | c :: cs => final (v.next c) cs

/-- Nothing was made yet. -/
def start : BufferView := ⟨[], fun _ => 0, [], fun _ => 0, []⟩

end BufferView
end VPdf.Spec
