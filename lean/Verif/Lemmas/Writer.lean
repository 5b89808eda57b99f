import Verif.Lemmas.WriteObject
import Verif.Lemmas.HeapSteps
import Verif.Lemmas.Opening
import Verif.Spec.Writer
/-
  Writing sections: dictionaries, entries, objects.
-/
namespace VPdf
open Spec

/-! ### dictionaries -/

theorem holdable_dict {d : Dict} (h : Holdable (.dict d)) : SortedKeys d ∧ ∀ x ∈ d, Holdable x.2 := by
  cases h with | dict _ h1 h2 => exact ⟨h1, h2⟩

theorem holdable_insert {d : Dict} (h : Holdable (.dict d)) {v : Obj} (hv : Holdable v) (k : Bytes) :
    Holdable (.dict (mapInsert k v d)) := by
  obtain ⟨h1, h2⟩ := holdable_dict h
  refine .dict _ (mapInsert_sorted h1) fun x hx => ?_
  rcases mapInsert_mem hx with rfl | hx
  · exact hv
  · exact h2 x hx

theorem holdable_erase {d : Dict} (h : Holdable (.dict d)) (k : Bytes) : Holdable (.dict (mapErase k d)) := by
  obtain ⟨h1, h2⟩ := holdable_dict h
  exact .dict _ (mapErase_sorted h1) fun x hx => h2 x (List.mem_filter.mp hx).1

theorem dictSet_find (k q : Bytes) (v : Obj) (d : Dict) :
    mapFind q (dictSet k v d) = if q = k then (mapFind k d).map (fun _ => v) else mapFind q d := by
  induction d with
  | nil => by_cases h : q = k <;> simp [dictSet, mapFind, h]
  | cons x d ih =>
    obtain ⟨k', v'⟩ := x
    rw [dictSet, List.map_cons]
    by_cases hk : k' = k
    · subst hk
      simp only [beq_self_eq_true, if_true]
      rw [mapFind, mapFind, mapFind]
      by_cases hq : q = k'
      · subst hq; simp
      · rw [if_neg (by simpa using hq), if_neg hq, if_neg (by simpa using hq)]
        show mapFind q (dictSet k' v d) = _
        rw [ih, if_neg hq]
    · rw [if_neg (by simpa using hk), mapFind, mapFind, mapFind]
      show (if _ then _ else mapFind q (dictSet k v d)) = _
      rw [ih]
      by_cases hq : q = k
      · subst hq
        simp only [beq_iff_eq, if_neg (show ¬ q = k' from fun h => hk h.symm), if_true]
      · rw [if_neg hq, if_neg hq]

theorem holdable_dictSet {d : Dict} (h : Holdable (.dict d)) {v : Obj} (hv : Holdable v) (k : Bytes) :
    Holdable (.dict (dictSet k v d)) := by
  obtain ⟨h1, h2⟩ := holdable_dict h
  refine .dict _ ?_ fun x hx => ?_
  · unfold SortedKeys at h1 ⊢
    rw [dictSet, List.pairwise_map]
    refine h1.imp fun {a b} hab => ?_
    have key : ∀ x : Bytes × Obj, (if x.1 == k then (k, v) else x).1 = x.1 := by
      intro x
      by_cases hx : x.1 = k <;> simp [hx]
    rw [key, key]; exact hab
  · rw [dictSet, List.mem_map] at hx
    obtain ⟨y, hy, rfl⟩ := hx
    by_cases hk : y.1 = k
    · simpa [hk] using hv
    · simpa [hk] using h2 y hy

/-- What a reader finds in a dictionary with null entries. -/
theorem dropNullsEntries_value {d : Dict} (hs : SortedKeys d) (k : Bytes) :
    mapFind k (dropNullsEntries d) = match mapFind k d with
      | none => none
      | some .null => none
      | some o => some (dropNulls o) := by
  cases h : mapFind k d with
  | some o =>
    by_cases ho : o = .null
    · subst ho
      induction d with
      | nil => cases h
      | cons x d ih =>
        obtain ⟨k', v⟩ := x
        rw [SortedKeys, List.pairwise_cons] at hs
        have hfin : ∀ e ∈ dropNullsEntries d, ∃ y ∈ d, y.1 = e.1 := fun e he => by
          clear ih hs h
          induction d with
          | nil => simp [dropNullsEntries] at he
          | cons y d ih =>
            obtain ⟨k2, v2⟩ := y
            by_cases hv : v2 = .null
            · subst hv; rw [dropNullsEntries] at he
              obtain ⟨y, hy, hy'⟩ := ih he; exact ⟨y, by simp [hy], hy'⟩
            · rw [dropNullsEntries_cons _ _ _ hv] at he
              rcases List.mem_cons.mp he with rfl | he
              · exact ⟨_, List.mem_cons_self .., rfl⟩
              · obtain ⟨y, hy, hy'⟩ := ih he; exact ⟨y, by simp [hy], hy'⟩
        rw [mapFind] at h
        by_cases hk : k = k'
        · subst hk
          simp at h; subst h
          rw [dropNullsEntries]
          exact mapFind_none_of_lt fun e he => by
            obtain ⟨y, hy, hy'⟩ := hfin e he
            rw [← hy']; exact hs.1 y hy
        · rw [if_neg (by simpa using hk)] at h
          by_cases hv : v = .null
          · subst hv; rw [dropNullsEntries]; exact ih hs.2 h
          · rw [dropNullsEntries_cons _ _ _ hv, mapFind, if_neg (by simpa using hk)]; exact ih hs.2 h
    · rw [dropNullsEntries_find h ho hs]
      cases o <;> first | rfl | exact absurd rfl ho
  | none =>
    dsimp only
    induction d with
    | nil => rfl
    | cons x d ih =>
      obtain ⟨k', v⟩ := x
      rw [SortedKeys, List.pairwise_cons] at hs
      rw [mapFind] at h
      by_cases hk : k = k'
      · subst hk; simp at h
      · rw [if_neg (by simpa using hk)] at h
        by_cases hv : v = .null
        · subst hv; rw [dropNullsEntries]; exact ih hs.2 h
        · rw [dropNullsEntries_cons _ _ _ hv, mapFind, if_neg (by simpa using hk)]; exact ih hs.2 h

theorem dropNullsEntries_congr {d d' : Dict} (hs : SortedKeys d) (hs' : SortedKeys d') {k : Bytes}
    (h : mapFind k d' = mapFind k d) : mapFind k (dropNullsEntries d') = mapFind k (dropNullsEntries d) := by
  rw [dropNullsEntries_value hs, dropNullsEntries_value hs', h]

theorem setInteger_spec {k : Bytes} {v : Int} {d d' : Dict} (h : setInteger k v d = .ok d') (hd : Holdable (.dict d))
    (hv : Holdable (.int v)) :
    Holdable (.dict d') ∧ mapFind k d' = some (.int v) ∧ ∀ q, q ≠ k → mapFind q d' = mapFind q d := by
  have hs := (holdable_dict hd).1
  rw [setInteger] at h
  cases hf : mapFind k d with
  | none =>
    rw [hf] at h
    injection h with h; subst h
    refine ⟨holdable_insert hd hv k, ?_, fun q hq => ?_⟩
    · rw [mapInsert_find hs hf, if_pos rfl]
    · rw [mapInsert_find hs hf, if_neg hq]
  | some o =>
    rw [hf] at h
    cases o with
    | int i =>
      injection h with h; subst h
      refine ⟨holdable_dictSet hd hv k, ?_, fun q hq => ?_⟩
      · rw [dictSet_find, if_pos rfl, hf]; rfl
      · rw [dictSet_find, if_neg hq]
    | _ => cases h

/-- `Remove` and `Insert`: the value is replaced. -/
theorem replace_find {d : Dict} (hd : SortedKeys d) (k q : Bytes) (v : Obj) :
    mapFind q (mapInsert k v (mapErase k d)) = if q = k then some v else mapFind q d := by
  have h0 : mapFind k (mapErase k d) = none := by rw [mapErase_find, if_pos rfl]
  rw [mapInsert_find (mapErase_sorted hd) h0, mapErase_find]
  by_cases hq : q = k <;> simp [hq]

theorem recalcLength_spec {resolve : Nat → Nat → Res Int} {size : Nat} {d d' : Dict}
    (h : recalcLength resolve size d = .ok d') (hd : Holdable (.dict d)) (hsize : size ≤ 9223372036854775807) :
    Holdable (.dict d') ∧ (∀ q, q ≠ b! "Length" → mapFind q d' = mapFind q d) ∧
    ∃ lo, mapFind (b! "Length") d' = some lo ∧ asInt ⟨[], true, resolve⟩ lo = .ok size ∧
      (lo = .int size ∨ mapFind (b! "Length") d = some lo) := by
  have hs := (holdable_dict hd).1
  have hi : Holdable (.int size) := .int _ (by omega) (by omega)
  rw [recalcLength] at h
  cases hf : mapFind (b! "Length") d with
  | none =>
    rw [hf] at h
    injection h with h; subst h
    refine ⟨holdable_insert hd hi _, fun q hq => ?_, .int size, ?_, rfl, Or.inl rfl⟩
    · rw [mapInsert_find hs hf, if_neg hq]
    · rw [mapInsert_find hs hf, if_pos rfl]
  | some o =>
    rw [hf] at h
    dsimp only at h
    cases ha : asInt ⟨[], true, resolve⟩ o with
    | error x => rw [ha] at h; cases h
    | ok i =>
      rw [ha, ok_bind] at h
      by_cases hneg : i < 0
      · rw [if_pos hneg] at h; cases h
      · rw [if_neg hneg] at h
        have h : (if i = (size : Int) then Except.ok d else Except.ok (mapInsert (b! "Length") (.int size) (mapErase (b! "Length") d))) =
          Except.ok d' := h
        by_cases he : i = (size : Int)
        · rw [if_pos he] at h
          injection h with h; subst h; subst he
          exact ⟨hd, fun _ _ => rfl, o, hf, ha, Or.inr rfl⟩
        · rw [if_neg he] at h
          injection h with h; subst h
          refine ⟨holdable_insert (holdable_erase hd _) hi _, fun q hq => ?_, .int size, ?_, rfl, Or.inl rfl⟩
          · rw [replace_find hs, if_neg hq]
          · rw [replace_find hs, if_pos rfl]

end VPdf
