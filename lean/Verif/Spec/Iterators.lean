import Verif.Model.Iterators

/-! # What a walk over a dictionary is -/
namespace VPdf.Spec

/-- A dictionary as a finite map. -/
abbrev KeyMap (α : Type) := Bytes → Option α

/-- The map that a dictionary object is. -/
def mapOf {α : Type} (d : NodeDict α) : KeyMap α := fun k => (d.nodes.find? fun n => n.2.1 == k).map (·.2.2)

/-- Dictionaries as they arise: ordered keys, different nodes, at least one reference. -/
structure LiveDict {α : Type} (d : NodeDict α) : Prop where
  sorted : d.nodes.Pairwise fun a b => bytesLt a.2.1 b.2.1 = true
  ids : d.nodes.Pairwise fun a b => a.1 ≠ b.1
  below : ∀ n ∈ d.nodes, n.1 < d.fresh
  owned : 0 < d.owners

/-- An edit of a map. -/
def editMap {α : Type} (m : KeyMap α) : DictEdit α → KeyMap α
  | .insert k v => fun q => if q = k ∧ m k = none then some v else m q
  | .remove k => fun q => if q = k then none else m q
  | .clear => fun _ => none
  | .release => m

/-- `k` comes behind `last` (behind nothing: any key). -/
def behindKey (last : Option Bytes) (k : Bytes) : Prop := ∀ l, last = some l → bytesLt l k = true

/-- `k` is the first key of the map behind `last`. -/
def FirstBehind {α : Type} (m : KeyMap α) (last : Option Bytes) (k : Bytes) : Prop :=
  behindKey last k ∧ m k ≠ none ∧ ∀ q, m q ≠ none → behindKey last q → q = k ∨ bytesLt k q = true

/-- A walk: each round shows the first key behind the one shown before and its value, as the map is then; the walk ends when
no key is left behind. -/
inductive Walk {α : Type} (body : Nat → Bytes × α → List (DictEdit α)) : Nat → KeyMap α → Option Bytes → List (Bytes × α) → Prop
  | done {round m last} (h : ∀ q, m q ≠ none → ¬ behindKey last q) : Walk body round m last []
  | show {round m last k v rest} (h : FirstBehind m last k) (hv : m k = some v)
      (hr : Walk body (round + 1) ((body round (k, v)).foldl editMap m) (some k) rest) : Walk body round m last ((k, v) :: rest)

end VPdf.Spec
