import Verif.Props.XrefStream
/-
  More of C61: cross-reference streams whose data end too early.
-/
namespace VPdf
open Spec

theorem readField_short : ∀ (w : Nat) (acc : Int) (s : Bytes), s.length < w → readField w acc s = .error .ub
  | 0, _, _, h => by omega
  | w + 1, acc, [], _ => rfl
  | w + 1, acc, b :: s, h => by
    rw [readField]
    unfold readFieldStep
    split
    · rfl
    · rw [ok_bind]
      exact readField_short w _ s (by simpa using h)

theorem readField_long : ∀ (w : Nat) (acc : Int) (s : Bytes), w ≤ s.length →
    readField w acc s = .error .ub ∨ ∃ v, readField w acc s = .ok (v, s.drop w)
  | 0, acc, s, _ => .inr ⟨acc, rfl⟩
  | w + 1, acc, [], h => by simp at h
  | w + 1, acc, b :: s, h => by
    rw [readField]
    unfold readFieldStep
    split
    · exact .inl rfl
    · rw [ok_bind]
      simpa using readField_long w _ s (by simpa using h)

theorem readRow_short (w : Widths) (base i : Nat) (t : Bytes) (h : t.length < w.w1 + w.w2 + w.w3) :
    readRow w base i t = .error .ub := by
  unfold readRow
  by_cases h1 : t.length < w.w1
  · rw [readField_short _ _ _ h1]; rfl
  rcases readField_long w.w1 0 t (by omega) with e | ⟨v1, e⟩
  · rw [e]; rfl
  rw [e, ok_bind]
  dsimp only
  by_cases h2 : (t.drop w.w1).length < w.w2
  · rw [readField_short _ _ _ h2]; rfl
  rcases readField_long w.w2 0 (t.drop w.w1) (by omega) with e | ⟨v2, e⟩
  · rw [e]; rfl
  rw [e, ok_bind]
  dsimp only
  rw [readField_short _ _ _ (by simp at h2 ⊢; omega)]
  rfl

/-- **C61** is false of streams whose data end too early: when the array Index announces more entries than there are complete
rows, the bytes behind the data are read, whatever the complete rows and the bytes left over are. -/
theorem C61_short_counterexample (w : Widths) (base : Nat) (es : List XEntry) (s t : Bytes) (n : Nat) (ix : List Nat)
    (h : StreamRows w base es s) (hw : w.w1 ≠ 0) (hl : es.length < 2147483648) (ht : t.length < w.w1 + w.w2 + w.w3) :
    readXrefStream ⟨w, base :: (es.length + (n + 1)) :: ix, s ++ t⟩ = .error .ub := by
  have key : ∀ (es : List XEntry) (first : Nat) (s : Bytes), StreamRows w first es s → ∀ (i : Nat), first = base + i →
      i + es.length < 2147483648 → ∀ l, Distinct l → readRows w base (es.length + (n + 1)) i (s ++ t) l = .error .ub := by
    intro es first s h
    induction h with
    | nil first =>
      intro i _ hi l _
      rw [List.length_nil, Nat.zero_add, List.nil_append, readRows, if_neg (by simp at hi; omega), readRow_short w base i t ht]
      rfl
    | cons e es a s hm hr hrs ih =>
      intro i hf hi l hd
      simp only [List.length_cons] at hi ⊢
      rw [show es.length + 1 + (n + 1) = (es.length + (n + 1)) + 1 by omega, readRows, if_neg (by omega), List.append_assoc,
        readRow_spec hr hw base i hf hm (by omega)]
      obtain ⟨l1, e1, e2, e3⟩ := add_spec hd e
      show (EntrySet.add e l >>= fun l => readRows w base (es.length + (n + 1)) (i + 1) (s ++ t) l) = _
      rw [e1, ok_bind]
      exact ih (i + 1) (by omega) (by omega) l1 e2
  unfold readXrefStream readIndex
  dsimp only
  rw [key es base s h 0 rfl (by omega) [] List.Pairwise.nil]
  rfl

/-- A stream with the widths 1, 2, 1 that announces two entries and has one and a half. -/
example : readXrefStream ⟨⟨1, 2, 1⟩, [0, 2], [1, 0, 9, 0, 1, 0]⟩ = .error .ub ∧
    StreamRows ⟨1, 2, 1⟩ 0 [⟨0, 0, .used (9 : Nat)⟩] [1, 0, 9, 0] := by
  refine ⟨by decide +kernel, ?_⟩
  have := StreamRows.cons (w := ⟨1, 2, 1⟩) ⟨0, 0, .used (9 : Nat)⟩ [] ([1] ++ [0, 9] ++ [0]) [] (by decide)
    (.used 0 0 9 [1] [0, 9] [0] ⟨rfl, by decide⟩ ⟨rfl, by decide⟩ ⟨rfl, by decide⟩ (by decide) (by decide)) (.nil _)
  simpa using this

end VPdf
