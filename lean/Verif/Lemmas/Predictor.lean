import Verif.Lemmas.Filters
import Verif.Props.Ints
/-
  Lemmas about the predictor loops.
-/
namespace VPdf

theorem bindOk {α β : Type} (a : α) (f : α → Res β) : ((Except.ok a : Res α) >>= f) = f a := rfl

theorem addAt_length (row : Bytes) (i : Nat) (v : Byte) : (addAt row i v).length = row.length := by
  simp [addAt]

theorem at0_addAt (row : Bytes) (i j : Nat) (v : Byte) :
    at0 (addAt row i v) j = if i = j ∧ i < row.length then at0 row i + v else at0 row j := by
  unfold at0 addAt
  rw [List.getD_eq_getElem?_getD, List.getElem?_set]
  by_cases h : i = j
  · subst h
    by_cases h2 : i < row.length
    · simp [h2, at0, List.getD_eq_getElem?_getD]
    · simp [h2, List.getD_eq_getElem?_getD]
  · simp [h, List.getD_eq_getElem?_getD]

theorem ext_at0 {a b : Bytes} (hl : a.length = b.length) (h : ∀ i < a.length, at0 a i = at0 b i) : a = b := by
  apply List.ext_getElem hl
  intro i h1 h2
  have := h i h1
  unfold at0 at this
  rw [List.getD_eq_getElem?_getD, List.getD_eq_getElem?_getD, List.getElem?_eq_getElem h1, List.getElem?_eq_getElem h2] at this
  simpa using this

/-- A loop that adds to place `i` a value that does not depend on the row. -/
theorem fold_add (g : Nat → Byte) (row : Bytes) : ∀ k, k ≤ row.length →
    let out := (List.range k).foldl (fun cur i => addAt cur i (g i)) row
    out.length = row.length ∧ ∀ j, at0 out j = if j < k then at0 row j + g j else at0 row j
  | 0, _ => by simp
  | k + 1, hk => by
    obtain ⟨h1, h2⟩ := fold_add g row k (by omega)
    dsimp only
    rw [List.range_succ, List.foldl_append]
    generalize (List.range k).foldl (fun cur i => addAt cur i (g i)) row = out at *
    simp only [List.foldl_cons, List.foldl_nil]
    refine ⟨by rw [addAt_length, h1], ?_⟩
    intro j
    rw [at0_addAt, h2 j, h1]
    by_cases hj : k = j
    · subst hj
      rw [if_pos ⟨rfl, by omega⟩, h2 k, if_neg (by omega), if_pos (by omega)]
    · rw [if_neg (fun h => hj h.1)]
      by_cases h3 : j < k
      · rw [if_pos h3, if_pos (by omega)]
      · rw [if_neg h3, if_neg (by omega)]

theorem pngFilterRow_length (ty bpp : Nat) (prior row : Bytes) : (Spec.pngFilterRow ty bpp prior row).length = row.length := by
  simp [Spec.pngFilterRow]

theorem at0_pngFilterRow (ty bpp : Nat) (prior row : Bytes) (i : Nat) (h : i < row.length) :
    at0 (Spec.pngFilterRow ty bpp prior row) i = at0 row i -
      UInt8.ofNat (Spec.pngPredict ty (Spec.leftOf bpp row i) (at0 prior i).toNat (Spec.leftOf bpp prior i)) := by
  conv => lhs; unfold at0 Spec.pngFilterRow
  rw [List.getD_eq_getElem?_getD, List.getElem?_map, List.getElem?_range h]
  rfl

theorem undoSub_filter (bpp : Nat) (hb : 0 < bpp) (prior row : Bytes) :
    undoSub bpp (Spec.pngFilterRow 1 bpp prior row) = row := by
  unfold undoSub
  rw [pngFilterRow_length]
  have key : ∀ k, k ≤ row.length - bpp →
      let out := (List.range k).foldl (fun cur i => addAt cur (bpp + i) (at0 cur i)) (Spec.pngFilterRow 1 bpp prior row)
      out.length = row.length ∧ ∀ j < row.length, at0 out j =
        if j < bpp + k then at0 row j else at0 (Spec.pngFilterRow 1 bpp prior row) j := by
    intro k
    induction k with
    | zero =>
      intro _
      simp only [List.range_zero, List.foldl_nil]
      refine ⟨pngFilterRow_length _ _ _ _, ?_⟩
      intro j hj
      by_cases h : j < bpp + 0
      · rw [if_pos h, at0_pngFilterRow _ _ _ _ _ hj]
        have hl : Spec.leftOf bpp row j = 0 := by unfold Spec.leftOf; rw [if_pos (by omega)]
        rw [hl]; simp [Spec.pngPredict]
      · rw [if_neg h]
    | succ k ih =>
      intro hk
      obtain ⟨h1, h2⟩ := ih (by omega)
      dsimp only
      rw [List.range_succ, List.foldl_append]
      generalize (List.range k).foldl (fun cur i => addAt cur (bpp + i) (at0 cur i)) (Spec.pngFilterRow 1 bpp prior row) = out at *
      simp only [List.foldl_cons, List.foldl_nil]
      refine ⟨by rw [addAt_length, h1], ?_⟩
      intro j hj
      rw [at0_addAt, h1]
      by_cases hj2 : bpp + k = j
      · subst hj2
        rw [if_pos ⟨rfl, hj⟩, h2 _ hj, if_neg (by omega), if_pos (by omega), h2 k (by omega), if_pos (by omega),
          at0_pngFilterRow _ _ _ _ _ hj]
        have : Spec.pngPredict 1 (Spec.leftOf bpp row (bpp + k)) (at0 prior (bpp + k)).toNat (Spec.leftOf bpp prior (bpp + k))
            = (at0 row k).toNat := by
          simp [Spec.pngPredict, Spec.leftOf, at0]
        rw [this, UInt8.ofNat_toNat, UInt8.sub_add_cancel]
      · rw [if_neg (fun h => hj2 h.1), h2 j hj]
        by_cases h3 : j < bpp + k
        · rw [if_pos h3, if_pos (by omega)]
        · rw [if_neg h3, if_neg (by omega)]
  obtain ⟨h1, h2⟩ := key (row.length - bpp) (Nat.le_refl _)
  refine ext_at0 h1 ?_
  intro i hi
  rw [h1] at hi
  rw [h2 i hi, if_pos (by omega)]

theorem undoUp_filter (bpp : Nat) (prior row : Bytes) : undoUp prior (Spec.pngFilterRow 2 bpp prior row) = row := by
  unfold undoUp
  rw [pngFilterRow_length]
  obtain ⟨h1, h2⟩ := fold_add (at0 prior) (Spec.pngFilterRow 2 bpp prior row) row.length (by rw [pngFilterRow_length])
  rw [pngFilterRow_length] at h1
  refine ext_at0 h1 ?_
  intro i hi
  rw [h1] at hi
  rw [h2 i, if_pos hi, at0_pngFilterRow _ _ _ _ _ hi]
  simp [Spec.pngPredict]

theorem filter_none (bpp : Nat) (prior row : Bytes) : Spec.pngFilterRow 0 bpp prior row = row := by
  refine ext_at0 (pngFilterRow_length _ _ _ _) ?_
  intro i hi
  rw [pngFilterRow_length] at hi
  rw [at0_pngFilterRow _ _ _ _ _ hi]
  simp [Spec.pngPredict]

theorem half_byte (b : Byte) : UInt8.ofNat (b.toNat / 2) = b / 2 := by
  apply UInt8.toNat_inj.1
  have := b.toNat_lt
  simp
  omega

theorem undoAverage_filter (prior row : Bytes) :
    undoAverage row.length prior (Spec.pngFilterRow 3 row.length prior row) = row := by
  unfold undoAverage
  rw [pngFilterRow_length, Nat.sub_self]
  simp only [List.range_zero, List.foldl_nil]
  obtain ⟨h1, h2⟩ := fold_add (fun i => at0 prior i / 2) (Spec.pngFilterRow 3 row.length prior row) row.length
    (by rw [pngFilterRow_length])
  rw [pngFilterRow_length] at h1
  refine ext_at0 h1 ?_
  intro i hi
  rw [h1] at hi
  rw [h2 i, if_pos hi, at0_pngFilterRow _ _ _ _ _ hi]
  have : Spec.leftOf row.length row i = 0 := by simp [Spec.leftOf, hi]
  rw [this]
  simp only [Spec.pngPredict, Nat.zero_add]
  rw [half_byte, UInt8.sub_add_cancel]

theorem undoPaeth_filter (prior row : Bytes) :
    undoPaeth row.length prior (Spec.pngFilterRow 4 row.length prior row) = row := by
  unfold undoPaeth
  rw [pngFilterRow_length, Nat.sub_self]
  simp only [List.range_zero, List.foldl_nil]
  obtain ⟨h1, h2⟩ := fold_add (at0 prior) (Spec.pngFilterRow 4 row.length prior row) row.length
    (by rw [pngFilterRow_length])
  rw [pngFilterRow_length] at h1
  refine ext_at0 h1 ?_
  intro i hi
  rw [h1] at hi
  rw [h2 i, if_pos hi, at0_pngFilterRow _ _ _ _ _ hi]
  have : Spec.leftOf row.length row i = 0 := by simp [Spec.leftOf, hi]
  rw [this]
  have : Spec.leftOf row.length prior i = 0 := by simp [Spec.leftOf, hi]
  rw [this]
  have : Spec.pngPredict 4 0 (at0 prior i).toNat 0 = (at0 prior i).toNat := by
    simp only [Spec.pngPredict]
    split
    · omega
    · split <;> omega
  rw [this, UInt8.ofNat_toNat, UInt8.sub_add_cancel]

/-- The rows the library decodes correctly, for a row of `rowBytes` bytes and `bpp` bytes per pixel. -/
def RowOk (bpp rowBytes ty : Nat) : Prop :=
  ty = 0 ∨ ty = 2 ∨ (ty = 1 ∧ 0 < bpp) ∨ ((ty = 3 ∨ ty = 4) ∧ rowBytes = bpp)

theorem undoRow_filter (bpp ty : Nat) (prior row : Bytes) (h : RowOk bpp row.length ty) :
    undoRow bpp (UInt8.ofNat ty) prior (Spec.pngFilterRow ty bpp prior row) = .ok row := by
  rcases h with rfl | rfl | ⟨rfl, hb⟩ | ⟨rfl | rfl, hb⟩
  · unfold undoRow; simp; exact filter_none _ _ _
  · unfold undoRow; simp; exact undoUp_filter _ _ _
  · unfold undoRow; simp; exact undoSub_filter _ hb _ _
  · unfold undoRow; rw [pngFilterRow_length, if_neg (by decide), if_neg (by decide), if_pos (by decide), if_neg (by omega), ← hb]
    rw [undoAverage_filter]
  · unfold undoRow
    rw [pngFilterRow_length, if_neg (by decide), if_neg (by decide), if_neg (by decide), if_pos (by decide), if_neg (by omega), ← hb]
    rw [undoPaeth_filter]

theorem undoRows_filter (bpp rowBytes : Nat) : ∀ (rows : List (Nat × Bytes)) (prior : Bytes),
    (∀ r ∈ rows, r.2.length = rowBytes ∧ RowOk bpp rowBytes r.1) →
    undoRows bpp rowBytes prior (Spec.pngFilter bpp prior rows) = .ok (rows.flatMap (·.2))
  | [], prior, _ => by simp [Spec.pngFilter, undoRows]
  | (ty, row) :: rows, prior, h => by
    obtain ⟨h1, h2⟩ := h (ty, row) (by simp)
    simp only at h1 h2
    unfold Spec.pngFilter
    rw [List.cons_append]
    unfold undoRows
    rw [if_neg (by rw [List.length_append, pngFilterRow_length]; omega)]
    have hl : (Spec.pngFilterRow ty bpp prior row).length = rowBytes := by rw [pngFilterRow_length, h1]
    rw [← hl, List.take_left, List.drop_left, hl]
    rw [undoRow_filter bpp ty prior row (by rw [h1]; exact h2)]
    show (undoRows bpp rowBytes row _ >>= _) = _
    rw [undoRows_filter bpp rowBytes rows row (fun r hr => h r (by simp [hr]))]
    rfl

end VPdf
