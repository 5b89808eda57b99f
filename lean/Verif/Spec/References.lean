import Verif.Model.References
/-
  Chains of references in a file.
-/
namespace VPdf.Spec

/-- The object `k` of the file is nothing but a reference to the object `k'`. -/
def OnlyRefers (objs : Objects) (k k' : Nat × Nat) : Prop := getIndirect objs k.1 k.2 = .direct (.ref k'.1 k'.2)

/-- The chain of references that begins with one to `k` ends at the object `v`, after `n` objects that are references. -/
inductive ChainEnds (objs : Objects) : Nat → Nat × Nat → PObj → Prop
  | last {k v} : getIndirect objs k.1 k.2 = v → (∀ n g, v ≠ .direct (.ref n g)) → ChainEnds objs 0 k v
  | step {n k k' v} : OnlyRefers objs k k' → ChainEnds objs n k' v → ChainEnds objs (n + 1) k v

/-- The chain of references that begins with one to `k` never ends: it consists of objects that are references to others of
these objects. -/
def ChainCycles (objs : Objects) (k : Nat × Nat) : Prop :=
  ∃ on : Nat × Nat → Prop, on k ∧ ∀ j, on j → ∃ j', on j' ∧ OnlyRefers objs j j'

end VPdf.Spec
