import Verif.Spec.ViewSettings
import Verif.Props.Annotations
/-
  C99: settings of the catalog and the viewer preferences.
-/
namespace VPdf
open Spec

theorem nameEntry_of_has {s : PStore} {d : Dict} {k n : Bytes} (h : HasEntry s d k (.name n)) : nameEntry s d k = .ok (some n) := by
  obtain ⟨o, ho, _⟩ := deref_has h
  unfold nameEntry
  rw [ho, treeEntry_of_has h]
  rfl

theorem nameEntry_of_absent {s : PStore} {d : Dict} {k : Bytes} (h : Absent d k) : nameEntry s d k = .ok none := by
  unfold nameEntry
  rw [absent_iff.mp h]

theorem nameEntry_some {s : PStore} {d : Dict} {k n : Bytes} (h : nameEntry s d k = .ok (some n)) :
    ∃ o, valueAt k d = some o ∧ Refers s o (.name n) := by
  unfold nameEntry at h
  cases ho : mapFind k d with
  | none => rw [ho] at h; cases h
  | some o =>
    rw [ho] at h
    dsimp only at h
    refine ⟨o, by rw [valueAt_eq]; exact ho, ?_⟩
    unfold treeEntry at h
    rw [ho] at h
    have hd : derefOne s o = .name n := by
      cases o with
      | ref a b =>
        dsimp only at h
        rw [ok_bind] at h
        dsimp only [derefOne]
        cases hs : s (a, b) <;> rw [hs] at h <;> cases h
        rfl
      | name m => cases h; rfl
      | _ => cases h
    exact refers_of_derefOne hd (by simp)

/-- **C99: settings are reported as they stand**, however they are stored; those that are not there are reported so. -/
theorem C99_setting (s : PStore) (d : Dict) (e : ViewEntry) :
    (∀ name v, Chosen e name v → HasEntry s d (entryName e) (.name name) → viewEntry s d e = .ok (some v)) ∧
    (Absent d (entryName e) → viewEntry s d e = .ok none) := by
  have hk : e.key = entryName e := by cases e <;> rfl
  refine ⟨fun name v hc h => ?_, fun h => ?_⟩
  · unfold viewEntry
    rw [hk, nameEntry_of_has h, ok_bind]
    dsimp only
    have hf : firstNamed name e.choices = some v := by cases hc <;> decide +kernel
    rw [hf]
    rfl
  · unfold viewEntry
    rw [hk, nameEntry_of_absent h]
    rfl

/-- **C99: nothing else is reported.**  A value is reported only for the name the standard gives it. -/
theorem C99_only (s : PStore) (d : Dict) (e : ViewEntry) (v : ViewValue) (h : viewEntry s d e = .ok (some v)) :
    ∃ name o, Chosen e name v ∧ valueAt (entryName e) d = some o ∧ Refers s o (.name name) := by
  have hk : e.key = entryName e := by cases e <;> rfl
  unfold viewEntry at h
  rw [hk] at h
  obtain ⟨r, hr, h⟩ := bind_ok h
  cases r with
  | none => cases h
  | some n =>
    dsimp only at h
    obtain ⟨o, h1, h2⟩ := nameEntry_some hr
    cases hf : firstNamed n e.choices with
    | none => rw [hf] at h; cases h
    | some v' =>
      rw [hf] at h
      cases h
      refine ⟨n, o, ?_, h1, h2⟩
      have hm := firstNamed_mem hf
      cases e <;> simp only [ViewEntry.choices, List.mem_cons, List.not_mem_nil, or_false, Prod.mk.injEq] at hm
      · rcases hm with ⟨rfl, rfl⟩ | ⟨rfl, rfl⟩ | ⟨rfl, rfl⟩ | ⟨rfl, rfl⟩ | ⟨rfl, rfl⟩ | ⟨rfl, rfl⟩ <;> constructor
      · rcases hm with ⟨rfl, rfl⟩ | ⟨rfl, rfl⟩ | ⟨rfl, rfl⟩ | ⟨rfl, rfl⟩ | ⟨rfl, rfl⟩ | ⟨rfl, rfl⟩ <;> constructor
      · rcases hm with ⟨rfl, rfl⟩ | ⟨rfl, rfl⟩ | ⟨rfl, rfl⟩ | ⟨rfl, rfl⟩ <;> constructor
      · rcases hm with ⟨rfl, rfl⟩ | ⟨rfl, rfl⟩ <;> constructor
      · rcases hm with ⟨rfl, rfl⟩ | ⟨rfl, rfl⟩ <;> constructor
      · rcases hm with ⟨rfl, rfl⟩ | ⟨rfl, rfl⟩ | ⟨rfl, rfl⟩ <;> constructor

/-- **C99: settings are not lost.**  An entry is reported to be missing only if it is. -/
theorem C99_missing (s : PStore) (d : Dict) (e : ViewEntry) (h : viewEntry s d e = .ok none) : Absent d (entryName e) := by
  have hk : e.key = entryName e := by cases e <;> rfl
  unfold viewEntry at h
  rw [hk] at h
  obtain ⟨r, hr, h⟩ := bind_ok h
  cases r with
  | some n =>
    dsimp only at h
    cases hf : firstNamed n e.choices <;> rw [hf] at h <;> cases h
  | none =>
    unfold nameEntry at hr
    cases ho : mapFind (entryName e) d with
    | none => exact absent_iff.mpr ho
    | some o =>
      rw [ho] at hr
      dsimp only at hr
      obtain ⟨v, _, hr⟩ := bind_ok hr
      cases v <;> cases hr

/-- A catalog with a layout stored elsewhere. -/
example : viewEntry (fun r => if r = (9, 0) then .name (b! "TwoPageLeft") else .null)
    [(b! "PageLayout", .ref 9 0), (b! "PageMode", .name (b! "UseOC"))] .pageLayout = .ok (some .twoPageLeft) := by
  decide +kernel

theorem version_of_name : ∀ e ∈ versionNames, versionFromName e.1 = .ok e.2 := by decide +kernel

theorem version_name {n : Bytes} {v : Nat × Nat} (h : versionFromName n = .ok v) : (n, v) ∈ versionNames := by
  match n with
  | [a, p, b] =>
    rw [versionFromName] at h
    split at h
    · rename_i hc
      obtain ⟨⟨ha, ha'⟩, rfl, hb, hb'⟩ := hc
      have h1 : ∀ x : UInt8, 0x30 ≤ x → x ≤ 0x39 → x = UInt8.ofNat (x.toNat - 0x30 + 0x30) := by
        intro x hx _
        rw [Nat.sub_add_cancel (show 0x30 ≤ x.toNat from hx)]
        simp
      dsimp only at h
      split at h
      · rename_i hv
        cases h
        rw [h1 a ha ha', h1 b hb hb', hv.1]
        have : b.toNat - 48 ≤ 7 := hv.2
        generalize b.toNat - 48 = m at this ⊢
        match m, this with
        | 0, _ => decide +kernel
        | 1, _ => decide +kernel
        | 2, _ => decide +kernel
        | 3, _ => decide +kernel
        | 4, _ => decide +kernel
        | 5, _ => decide +kernel
        | 6, _ => decide +kernel
        | 7, _ => decide +kernel
        | k + 8, h => exact absurd h (by omega)
      · split at h
        · rename_i hv
          cases h
          rw [h1 a ha ha', h1 b hb hb', hv.1, hv.2]
          decide +kernel
        · cases h
    · cases h
  | [] => cases h
  | [_] => cases h
  | [_, _] => cases h
  | _ :: _ :: _ :: _ :: _ => cases h

/-- **C99: the version of the catalog** is reported for exactly the names of versions. -/
theorem C99_version (s : PStore) (d : Dict) :
    (∀ name v, (name, v) ∈ versionNames → HasEntry s d (b! "Version") (.name name) → catalogVersion s d = .ok (some v)) ∧
    (Absent d (b! "Version") → catalogVersion s d = .ok none) ∧
    ∀ v, catalogVersion s d = .ok (some v) →
      ∃ name o, (name, v) ∈ versionNames ∧ valueAt (b! "Version") d = some o ∧ Refers s o (.name name) := by
  refine ⟨fun name v hv h => ?_, fun h => ?_, fun v h => ?_⟩
  · unfold catalogVersion
    rw [nameEntry_of_has h, ok_bind]
    dsimp only
    rw [show versionFromName name = .ok v from version_of_name (name, v) hv]
    rfl
  · unfold catalogVersion
    rw [nameEntry_of_absent h]
    rfl
  · unfold catalogVersion at h
    obtain ⟨r, hr, h⟩ := bind_ok h
    cases r with
    | none => cases h
    | some n =>
      dsimp only at h
      obtain ⟨o, h1, h2⟩ := nameEntry_some hr
      obtain ⟨w, hw, h⟩ := bind_ok h
      cases h
      exact ⟨n, o, version_name hw, h1, h2⟩

theorem rangesArray_length (ps : List (Int × Int)) : (rangesArray ps).length = 2 * ps.length := by
  induction ps with
  | nil => rfl
  | cons p ps ih => obtain ⟨a, b⟩ := p; simp only [rangesArray, List.length_cons, ih]; omega

theorem rangesArray_at (ps : List (Int × Int)) : ∀ (i : Nat) (p : Int × Int), ps[i]? = some p →
    (rangesArray ps)[2 * i]? = some (.int p.1) ∧ (rangesArray ps)[2 * i + 1]? = some (.int p.2) := by
  induction ps with
  | nil => intro i p h; simp at h
  | cons q ps ih =>
    obtain ⟨a, b⟩ := q
    intro i p h
    match i with
    | 0 => cases h; exact ⟨rfl, rfl⟩
    | j + 1 => exact ih j p h

/-- **C99 (partial): ranges of pages to print.**  Their number is right, and so is the first one.
Missing: the other ranges, for which the claim is false (below). -/
theorem C99_ranges_partial (s : PStore) (d : Dict) (ps : List (Int × Int))
    (h : HasEntry s d (b! "PrintPageRange") (.arr (rangesArray ps))) :
    printRanges s d = .ok (some (rangesArray ps)) ∧ rangeCount (rangesArray ps) = ps.length ∧
      ∀ p, ps[0]? = some p → rangeAt s (rangesArray ps) 0 = .ok p := by
  refine ⟨?_, ?_, fun p hp => ?_⟩
  · obtain ⟨o, ho, _⟩ := deref_has h
    unfold printRanges
    rw [ho]
    dsimp only
    rw [treeArray_of_has h, ok_bind, if_neg (by rw [rangesArray_length]; omega)]
    rfl
  · rw [rangeCount, rangesArray_length]; omega
  · obtain ⟨h1, h2⟩ := rangesArray_at ps 0 p hp
    have h1 : (rangesArray ps)[0]? = some (.int p.1) := h1
    have h2 : (rangesArray ps)[0 + 1]? = some (.int p.2) := h2
    unfold rangeAt rangeItem
    rw [h1, h2]
    rfl

/-- C99 (partial), the first range when its pages stand there by reference: the numbers the references lead to are reported. -/
theorem C99_ranges_reference_partial (s : PStore) (l : List Obj) (x y : Obj) (a b : Int)
    (hx : x = .int a ∨ ∃ n g, x = .ref n g ∧ s (n, g) = .int a) (hy : y = .int b ∨ ∃ n g, y = .ref n g ∧ s (n, g) = .int b) :
    rangeAt s (x :: y :: l) 0 = .ok (a, b) := by
  have hx' : derefOne s x = .int a := by
    rcases hx with rfl | ⟨n, g, rfl, h⟩
    · rfl
    · exact h
  have hy' : derefOne s y = .int b := by
    rcases hy with rfl | ⟨n, g, rfl, h⟩
    · rfl
    · exact h
  have h1 : rangeItem s (x :: y :: l) 0 = .ok a := by
    unfold rangeItem
    simp only [List.getElem?_cons_zero, hx']
  have h2 : rangeItem s (x :: y :: l) (0 + 1) = .ok b := by
    unfold rangeItem
    simp only [List.getElem?_cons_succ, List.getElem?_cons_zero, hy']
  unfold rangeAt
  rw [h1, h2]
  rfl

example : rangeAt (fun _ => .int 7) [.ref 4 0, .int 9] 0 = .ok (7, 9) :=
  C99_ranges_reference_partial _ _ _ _ 7 9 (.inr ⟨4, 0, rfl, rfl⟩) (.inl rfl)

theorem ascending_from {n : Int} : ∀ {ps : List (Int × Int)}, RangesAscend n ps → ∀ (i : Nat) (p : Int × Int), ps[i]? = some p → n < p.1 ∧ p.1 ≤ p.2 := by
  intro ps
  induction ps generalizing n with
  | nil => intro _ i p h; simp at h
  | cons q ps ih =>
    obtain ⟨a, b⟩ := q
    intro hs i p h
    match i with
    | 0 => cases h; exact ⟨hs.1, hs.2.1⟩
    | j + 1 =>
      obtain ⟨h1, h2⟩ := ih hs.2.2 j p h
      have := hs.1; have := hs.2.1
      exact ⟨by omega, h2⟩

theorem ascending_before : ∀ {n : Int} {ps : List (Int × Int)}, RangesAscend n ps → ∀ (i j : Nat) (p q : Int × Int), i < j → ps[i]? = some p → ps[j]? = some q →
    p.2 < q.1 := by
  intro n ps
  induction ps generalizing n with
  | nil => intro _ i j p q _ h; simp at h
  | cons r ps ih =>
    obtain ⟨a, b⟩ := r
    intro hs i j p q hij hp hq
    match i, j with
    | 0, j + 1 =>
      cases hp
      exact (ascending_from hs.2.2 j q hq).1
    | i + 1, j + 1 => exact ih hs.2.2 i j p q (by omega) hp hq

/-- **C99 is false of all ranges but the first.**  For ranges in ascending order, every range but the first is reported with a wrong
first page. -/
theorem C99_ranges_counterexample (s : PStore) (n : Int) (ps : List (Int × Int)) (i : Nat) (p : Int × Int) (hi : 0 < i)
    (hs : RangesAscend n ps) (hp : ps[i]? = some p) : ∃ a b, rangeAt s (rangesArray ps) i = .ok (a, b) ∧ a < p.1 := by
  have hlen : i < ps.length := (List.getElem?_eq_some_iff.mp hp).1
  have key : ∀ m, m ≤ i + 1 → ∃ x, (rangesArray ps)[m]? = some (.int x) ∧ (m ≤ i → x < p.1) := by
    intro m hm
    obtain ⟨q, hq⟩ : ∃ q, ps[m / 2]? = some q := ⟨_, List.getElem?_eq_getElem (by omega)⟩
    obtain ⟨h1, h2⟩ := rangesArray_at ps (m / 2) q hq
    have ha := (ascending_from hs (m / 2) q hq).2
    rcases Nat.mod_two_eq_zero_or_one m with e | e
    · rw [show 2 * (m / 2) = m by omega] at h1
      refine ⟨_, h1, fun hmi => ?_⟩
      have := ascending_before hs (m / 2) i q p (by omega) hq hp
      omega
    · rw [show 2 * (m / 2) + 1 = m by omega] at h2
      exact ⟨_, h2, fun hmi => ascending_before hs (m / 2) i q p (by omega) hq hp⟩
  obtain ⟨a, ha, hap⟩ := key i (by omega)
  obtain ⟨b, hb, _⟩ := key (i + 1) (by omega)
  refine ⟨a, b, ?_, hap (by omega)⟩
  unfold rangeAt rangeItem
  rw [ha, hb]
  rfl

/-- Pages 1 to 2, 5 to 9 and 12: the second range is reported as 2 to 5. -/
example : RangesAscend 0 [(1, 2), (5, 9), (12, 12)] ∧
    rangeAt (fun _ => .null) (rangesArray [(1, 2), (5, 9), (12, 12)]) 1 = .ok (2, 5) := by
  refine ⟨by simp [RangesAscend], by decide +kernel⟩

end VPdf
