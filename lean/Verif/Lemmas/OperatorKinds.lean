import Verif.Spec.OperatorKinds
/-!
# Lemmas on the kinds of operators
-/
namespace VPdf
open Spec

/-- A text that is in the table of the standard is treated as the table says. -/
theorem table_treated : ∀ x ∈ isoOperators,
    shownKind ⟨[], x.1⟩ = x.2 ∧ (shownValue ⟨[], x.1⟩ = some x.1 ∨ x.1 ∈ ownOperations ∧ shownValue ⟨[], x.1⟩ = none) ∧
      x.2 ≠ .unknown := by
  decide +kernel

/-- The texts of the tokens are those of the standard. -/
theorem tokens_listed : ∀ x ∈ contentTokenTable, x.1 ∈ isoOperators.map (·.1) := by
  decide +kernel

/-- A text that is in no entry is found in none. -/
theorem lookup_absent {β : Type} (t : List (Bytes × β)) (w : Bytes) (h : w ∉ t.map (·.1)) : t.lookup w = none := by
  induction t with
  | nil => rfl
  | cons x t ih =>
    obtain ⟨k, v⟩ := x
    simp only [List.map_cons, List.mem_cons, not_or] at h
    have hk : (w == k) = false := by simpa using h.1
    rw [List.lookup_cons, hk]
    exact ih h.2

/-- A text that is not in the table of the standard makes an unknown operator. -/
theorem unlisted_made (w : Bytes) (h : w ∉ isoOperators.map (·.1)) : operationMade w = .generic ⟨.unknown, w⟩ := by
  have hl : contentTokenTable.lookup w = none := by
    apply lookup_absent
    intro hm
    obtain ⟨x, hx, rfl⟩ := List.mem_map.1 hm
    exact h (tokens_listed x hx)
  simp [operationMade, contentToken, hl, operationOf]

/-- The kind in the standard of a text that is in its table. -/
theorem isoKind_listed : ∀ x ∈ isoOperators, isoKind x.1 = x.2 := by
  decide +kernel

/-- The kind in the standard of a text that is not in its table. -/
theorem isoKind_unlisted (w : Bytes) (h : w ∉ isoOperators.map (·.1)) : isoKind w = .unknown := by
  have hf : isoOperators.find? (fun x => x.1 == w) = none := by
    rw [List.find?_eq_none]
    intro x hx he
    exact h (List.mem_map.2 ⟨x, hx, by simpa using he⟩)
  simp [isoKind, hf]

/-- The table of the standard has no two lines of one kind. -/
theorem iso_kinds_differ : ∀ x ∈ isoOperators, ∀ y ∈ isoOperators, x.2 = y.2 → x.1 = y.1 := by
  decide +kernel

/-- The operations of instructions and their operators. -/
theorem ops_operators (is : List Instr) : (is.flatMap instrOps).map (·.op) = operatorsIn is := by
  induction is with
  | nil => rfl
  | cons i is ih => cases i <;> simp [operatorsIn, instrOps, ← ih]

end VPdf
