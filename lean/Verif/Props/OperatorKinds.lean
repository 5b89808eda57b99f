import Verif.Lemmas.OperatorKinds
import Verif.Props.Content
/-!
# C128: operators are reported as what they are
-/
namespace VPdf
open Spec

/-- C128 (partial: of the operator, see `C128_type_counterexample` for the type of the operation): for every operation,
whatever its operands, the kind a program sees is the one of ISO 32000 for the text of the operator, and unknown for every text that is not an operator of ISO 32000. -/
theorem C128_kind_partial (o : COp) : shownKind o = isoKind o.op := by
  by_cases h : o.op ∈ isoOperators.map (·.1)
  · obtain ⟨x, hx, he⟩ := List.mem_map.1 h
    have h1 := (table_treated x hx).1
    rw [← he, isoKind_listed x hx, ← h1]
    simp [shownKind, he]
  · rw [isoKind_unlisted _ h]
    simp [shownKind, unlisted_made _ h, MadeOperation.type, MadeOperation.operator]

example : shownKind ⟨[.int 1], b! "w"⟩ = .lineWidth ∧ shownKind ⟨[], b! "W"⟩ = .clipPathNonzero ∧
    shownKind ⟨[], b! "obj"⟩ = .unknown ∧ shownKind ⟨[], b! "TJ"⟩ = .textShowArray := by decide +kernel

/-- C128: the text of the operator is given back as it stands in the stream, also that of an unknown operator, except for
the eight operations that have no operator. -/
theorem C128_text (o : COp) (h : o.op ∉ ownOperations) : shownValue o = some o.op := by
  by_cases hm : o.op ∈ isoOperators.map (·.1)
  · obtain ⟨x, hx, he⟩ := List.mem_map.1 hm
    have h2 := (table_treated x hx).2.1
    rw [he] at h2
    rcases h2 with h2 | h2
    · simpa [shownValue] using h2
    · exact absurd h2.1 h
  · simp [shownValue, unlisted_made _ hm, MadeOperation.operator]

example : b! "scn" ∉ ownOperations ∧ shownValue ⟨[], b! "scn"⟩ = some (b! "scn") := by decide +kernel
example : b! "scnx" ∉ ownOperations ∧ shownValue ⟨[], b! "scnx"⟩ = some (b! "scnx") := by decide +kernel

/-- C128: two operators that are reported as the same known kind have the same text: nothing a program does by kind
confuses operators, such as those that differ only in case. -/
theorem C128_apart (o p : COp) (h : shownKind o = shownKind p) (hk : shownKind o ≠ .unknown) : o.op = p.op := by
  have known : ∀ w, isoKind w ≠ .unknown → ∃ x ∈ isoOperators, x.1 = w := by
    intro w hw
    apply Classical.byContradiction
    intro hc
    apply hw
    apply isoKind_unlisted
    intro hm
    obtain ⟨x, hx, he⟩ := List.mem_map.1 hm
    exact hc ⟨x, hx, he⟩
  rw [C128_kind_partial] at hk
  rw [C128_kind_partial, C128_kind_partial] at h
  obtain ⟨x, hx, hxo⟩ := known _ hk
  obtain ⟨y, hy, hyp⟩ := known _ (h ▸ hk)
  rw [← hxo, ← hyp] at h ⊢
  rw [isoKind_listed x hx, isoKind_listed y hy] at h
  exact iso_kinds_differ x hx y hy h

example : shownKind ⟨[], b! "s"⟩ ≠ shownKind ⟨[], b! "S"⟩ ∧ shownKind ⟨[], b! "s"⟩ ≠ .unknown := by decide +kernel

/-- C128: a program that goes through any content stream meets the operators of the stream, in their order, each as the
kind it has in ISO 32000. -/
theorem C128_stream_partial (is : List Instr) (s : Bytes) (h : ContentText is s) :
    (readInstructions s).map shownKinds = .ok ((operatorsIn is).map isoKind) := by
  rw [C53_reads is s h]
  show Except.ok (shownKinds is) = _
  rw [shownKinds, ← ops_operators is, List.map_map]
  congr 1
  apply List.map_congr_left
  intro o _
  exact C128_kind_partial o

example : (readInstructions (b! "%c\n" ++ writeInstructions sampleInstrs)).map shownKinds =
    .ok ((operatorsIn (sampleInstrs.map reread)).map isoKind) :=
  C128_stream_partial _ _
    (writeInstructions_text _ sampleInstrs_savable _ (.comment (b! "c") 10 [] (by decide) (Or.inr rfl) .nil))
example : (operatorsIn (sampleInstrs.map reread)).map isoKind =
    [.saveGraphicsState, .setNonstrokingColorSpaceRGB, .textFont, .textShow, .textShowArray,
      .beginMarkedContentSequenceWithPropertyList, .restoreGraphicsState] := by decide +kernel

/-- C128 fails for the types of operations: every operation other than the eight with classes of their own is reported as
generic, although there is a type for each of them. -/
theorem C128_type_counterexample (w : Bytes) :
    (operationMade w).type = .generic ↔ w ∉ ownOperations := by
  constructor
  · intro h hm
    have : ∀ v ∈ ownOperations, (operationMade v).type ≠ .generic := by decide +kernel
    exact this w hm h
  · intro h
    by_cases hm : w ∈ isoOperators.map (·.1)
    · have : ∀ v ∈ isoOperators.map (·.1), v ∉ ownOperations → (operationMade v).type = .generic := by decide +kernel
      exact this w hm h
    · simp [unlisted_made _ hm, MadeOperation.type]

example : (operationMade (b! "w")).type ≠ .named .lineWidth := by decide +kernel

end VPdf
