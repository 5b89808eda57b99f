import Verif.Spec.Shown
import Verif.Lemmas.Merge
import Verif.Lemmas.WriteChain
/-
  Lemmas about what a reader sees of a document.
-/
namespace VPdf
open Spec

/-! ### The trees of Spec/Graph and what is shown -/

/-- A leaf with the mark of null. -/
def nullTree {α : Type} : Spec.Tree (α × Bool) → Bool
  | .leaf (_, b) => b
  | _ => false

mutual
/-- What is left when entries with the value null and the entry Length of streams are not looked at. -/
def bareTree {α : Type} : Spec.Tree (α × Bool) → Shown α
  | .cut => .cut
  | .leaf a => .leaf a.1
  | .arr l => .arr (stripItems l)
  | .dict l => .dict (stripAt l)
  | .stream h b => .stream (fun k => if k = b! "Length" then none else stripAt h k) b
  | .ref t => .ref (bareTree t)
/-- The items. -/
def stripItems {α : Type} : List (Spec.Tree (α × Bool)) → List (Shown α)
  | [] => []
  | t :: ts => bareTree t :: stripItems ts
/-- One entry. -/
def stripAt {α : Type} : List (Bytes × Spec.Tree (α × Bool)) → Bytes → Option (Shown α)
  | [], _ => none
  | (k, t) :: es, q => if q = k then (if nullTree t then none else some (bareTree t)) else stripAt es q
end

/-- The view with a mark for null. -/
def marked {α : Type} (view : Obj → α) (o : Obj) : α × Bool := (view o, absentValue o)

theorem nullTree_of {α : Type} (view : Obj → α) (f : Nat × Nat → Spec.Tree (α × Bool)) (o : Obj) :
    nullTree (treeOf (marked view) f o) = absentValue o := by
  cases o <;> rfl

mutual
theorem strip_tree {α : Type} (view : Obj → α) (f : Nat × Nat → Spec.Tree (α × Bool)) : ∀ o : Obj,
    bareTree (treeOf (marked view) f o) = shownOf view (fun r => bareTree (f r)) o
  | .ref n g => rfl
  | .arr l => by rw [treeOf, bareTree, shownOf, strip_items view f l]
  | .dict l => by rw [treeOf, bareTree, shownOf, funext (strip_at view f l)]
  | .null => rfl
  | .bool _ => rfl
  | .int _ => rfl
  | .real _ _ => rfl
  | .name _ => rfl
  | .lit _ => rfl
  | .hex _ => rfl
theorem strip_items {α : Type} (view : Obj → α) (f : Nat × Nat → Spec.Tree (α × Bool)) : ∀ l : List Obj,
    stripItems (treeItems (marked view) f l) = shownItems view (fun r => bareTree (f r)) l
  | [] => rfl
  | o :: os => by rw [treeItems, stripItems, shownItems, strip_tree view f o, strip_items view f os]
theorem strip_at {α : Type} (view : Obj → α) (f : Nat × Nat → Spec.Tree (α × Bool)) : ∀ (l : List (Bytes × Obj)) (q : Bytes),
    stripAt (treeEntries (marked view) f l) q = shownAt view (fun r => bareTree (f r)) l q
  | [], _ => rfl
  | (k, o) :: es, q => by rw [treeEntries, stripAt, shownAt, nullTree_of, strip_tree view f o, strip_at view f es q]
end

theorem strip_treeS {α : Type} (view : Obj → α) (f : Nat × Nat → Spec.Tree (α × Bool)) (o : SObj) :
    bareTree (treeOfS (marked view) f o) = shownS view (fun r => bareTree (f r)) o := by
  cases o with
  | direct o => exact strip_tree view f o
  | stream d b =>
    rw [treeOfS, bareTree, shownS]
    congr 1
    funext k
    rw [strip_at]

/-! ### Entries with the value null -/

theorem shownAt_find {α : Type} (view : Obj → α) (f : Nat × Nat → Shown α) (q : Bytes) : ∀ d : Dict,
    shownAt view f d q = (valueAt q d).bind fun o => if absentValue o then none else some (shownOf view f o)
  | [] => rfl
  | (k, o) :: es => by
    rw [shownAt, valueAt]
    by_cases h : q = k
    · rw [if_pos h, if_pos h]; rfl
    · rw [if_neg h, if_neg h, shownAt_find view f q es]

theorem absent_dropNulls (o : Obj) : absentValue (dropNulls o) = absentValue o := by cases o <;> rfl

theorem shownAt_absent {α : Type} (view : Obj → α) (f : Nat × Nat → Shown α) (q : Bytes) : ∀ d : Dict,
    (∀ x ∈ d, x.1 ≠ q) → shownAt view f (dropNullsEntries d) q = none
  | [], _ => rfl
  | (k, o) :: es, h => by
    have ih := shownAt_absent view f q es fun x hx => h x (by simp [hx])
    have hk := h (k, o) (by simp)
    cases o with
    | null => exact ih
    | _ => rw [dropNullsEntries, shownAt, if_neg (fun e => hk e.symm), ih]; simp

mutual
theorem shownOf_dropNulls {α : Type} (view : Obj → α) (f : Nat × Nat → Shown α) : ∀ o : Obj, Holdable o →
    shownOf view f (dropNulls o) = shownOf view f o
  | .arr l, h => by
    rw [dropNulls, shownOf, shownOf, shownItems_dropNulls view f l (by cases h with | arr _ h => exact h)]
  | .dict l, h => by
    rw [dropNulls, shownOf, shownOf]
    obtain ⟨h1, h2⟩ := holdable_dict h
    rw [funext (shownAt_dropNulls view f l h1 h2)]
  | .ref n g, _ => rfl
  | .null, _ => rfl
  | .bool _, _ => rfl
  | .int _, _ => rfl
  | .real _ _, _ => rfl
  | .name _, _ => rfl
  | .lit _, _ => rfl
  | .hex _, _ => rfl
theorem shownItems_dropNulls {α : Type} (view : Obj → α) (f : Nat × Nat → Shown α) : ∀ l : List Obj, (∀ o ∈ l, Holdable o) →
    shownItems view f (dropNullsItems l) = shownItems view f l
  | [], _ => rfl
  | o :: os, h => by
    rw [dropNullsItems, shownItems, shownItems, shownOf_dropNulls view f o (h o (by simp)),
      shownItems_dropNulls view f os fun x hx => h x (by simp [hx])]
theorem shownAt_dropNulls {α : Type} (view : Obj → α) (f : Nat × Nat → Shown α) : ∀ l : List (Bytes × Obj), SortedKeys l →
    (∀ x ∈ l, Holdable x.2) → ∀ q, shownAt view f (dropNullsEntries l) q = shownAt view f l q
  | [], _, _, _ => rfl
  | (k, o) :: es, hs, h, q => by
    have hs' := List.pairwise_cons.mp hs
    have ih := shownAt_dropNulls view f es hs'.2 (fun x hx => h x (by simp [hx])) q
    have ho := shownOf_dropNulls view f o (h (k, o) (by simp))
    by_cases hn : o = .null
    · subst hn
      rw [dropNullsEntries, shownAt]
      by_cases hq : q = k
      · rw [if_pos hq, shownAt_absent view f q es]
        · rfl
        · intro x hx e
          have := hs'.1 x hx
          rw [e, hq] at this
          rw [bytesLt_irrefl] at this
          cases this
      · rw [if_neg hq, ih]
    · have : dropNullsEntries ((k, o) :: es) = (k, dropNulls o) :: dropNullsEntries es := by
        cases o <;> first | rfl | exact absurd rfl hn
      rw [this, shownAt, shownAt, absent_dropNulls, ho, ih]
end

/-- An object and the same object read from a file look the same. -/
theorem shownS_same {α : Type} (view : Obj → α) (f : Nat × Nat → Shown α) {o o' : SObj} (hs : Storable o) (h : SameObject o o') :
    shownS view f o' = shownS view f o := by
  cases h with
  | direct o => exact shownOf_dropNulls view f o hs
  | stream d d' body hk =>
    rw [shownS, shownS]
    congr 1
    funext k
    by_cases hl : k = b! "Length"
    · rw [if_pos hl, if_pos hl]
    · obtain ⟨h1, h2⟩ := holdable_dict (show Holdable (.dict d) from hs)
      rw [if_neg hl, if_neg hl, ← shownAt_dropNulls view f d h1 h2 k, shownAt_find, shownAt_find, hk k hl]

/-! ### A document of one table -/

theorem docObject_one {s : WSection} (h : s.own = none) (r : Nat × Nat) : docObject [s] r = objectAt s r := by
  rw [docObject, objectAt, h]
  cases hf : s.entries.find? fun e => e.num == r.1 && e.gen == r.2 with
  | none => simp [hf]
  | some e => simp [hf]

theorem docBehind_one {α : Type} (view : Obj → α) {s : WSection} (h : s.own = none) : ∀ k r,
    docBehind view [s] k r = bareTree (behind (marked view) s k r) := by
  intro k
  induction k with
  | zero => intro r; rfl
  | succ k ih =>
    intro r
    rw [docBehind, behind, strip_treeS, docObject_one h, funext ih]

theorem docShows_one {α : Type} (view : Obj → α) {s : WSection} (h : s.own = none) (k : Nat) (key : Bytes) :
    docShows view [s] k key = stripAt (seen (marked view) s k) key := by
  rw [docShows, seen, strip_at, funext (docBehind_one view h k)]

end VPdf
