import Verif.Lemmas.Graph
import Verif.Lemmas.Incremental
/-
  Lemmas about merging the sections of a document.
-/
namespace VPdf
open Spec

theorem find_cons_num (e : WEntry) (n : Nat) (l : List WEntry) :
    (e :: l).find? (fun x => x.num == n) = if e.num = n then some e else l.find? (fun x => x.num == n) := by
  by_cases h : e.num = n
  · rw [if_pos h, List.find?_cons_of_pos (by simpa using h)]
  · rw [if_neg h, List.find?_cons_of_neg (by simpa using h)]

theorem entryAdd_find (e : WEntry) (n : Nat) : ∀ l : List WEntry,
    (entryAdd e l).find? (fun x => x.num == n) = if e.num = n then some e else l.find? (fun x => x.num == n) := by
  intro l
  induction l with
  | nil => rw [entryAdd, find_cons_num]
  | cons x l ih =>
    rw [entryAdd]
    by_cases h1 : e.num < x.num
    · rw [if_pos h1, find_cons_num]
    · rw [if_neg h1]
      by_cases h2 : e.num = x.num
      · rw [if_pos h2, find_cons_num, find_cons_num]
        by_cases h : e.num = n
        · rw [if_pos h, if_pos h]
        · rw [if_neg h, if_neg h, if_neg (by omega)]
      · rw [if_neg h2, find_cons_num, find_cons_num, ih]
        by_cases h : e.num = n
        · rw [if_pos h, if_neg (by omega), if_pos h]
        · rw [if_neg h, if_neg h]

theorem foldAdd_find (n : Nat) : ∀ (l acc : List WEntry),
    (l.foldl (fun acc e => entryAdd e acc) acc).find? (fun x => x.num == n) =
      (l.reverse.find? (fun x => x.num == n)).or (acc.find? (fun x => x.num == n)) := by
  intro l
  induction l with
  | nil => intro acc; rfl
  | cons e l ih =>
    intro acc
    rw [List.foldl_cons, ih, entryAdd_find, List.reverse_cons, List.find?_append]
    by_cases h : e.num = n
    · simp [h]
    · simp [h]

theorem foldAdd_sorted : ∀ (l acc : List WEntry), (acc.Pairwise fun a b => a.num < b.num) →
    (l.foldl (fun acc e => entryAdd e acc) acc).Pairwise fun a b => a.num < b.num := by
  intro l
  induction l with
  | nil => intro acc h; exact h
  | cons e l ih => intro acc h; exact ih _ (entryAdd_sorted e h)

/-- The entries of the merged section. -/
def mergedEntries (chain : List WSection) : List WEntry :=
  ((chain.flatMap WSection.entries).filter WEntry.inUse).foldl (fun acc e => entryAdd e acc) [⟨0, 65535, .free 0⟩]

theorem mergedEntries_sorted (chain : List WSection) : (mergedEntries chain).Pairwise fun a b => a.num < b.num :=
  foldAdd_sorted _ _ (List.pairwise_singleton _ _)

theorem flat_find {n : Nat} {e : WEntry} : ∀ {ss : List WSection}, (∀ s ∈ ss, s.entries.Pairwise fun a b => a.num < b.num) →
    NewestEntry ss n e → e.inUse = true →
    ((ss.reverse.flatMap WSection.entries).filter WEntry.inUse).reverse.find? (fun x => x.num == n) = some e := by
  intro ss hs h hu
  induction h with
  | here s ss e he =>
    rw [List.reverse_cons, List.flatMap_append, List.filter_append, List.reverse_append, List.find?_append]
    have hsort := hs s List.mem_cons_self
    have : (List.filter WEntry.inUse ([s].flatMap WSection.entries)).reverse.find? (fun x => x.num == e.num) = some e := by
      simp only [List.flatMap_cons, List.flatMap_nil, List.append_nil]
      have hm : e ∈ (s.entries.filter WEntry.inUse).reverse := List.mem_reverse.mpr (List.mem_filter.mpr ⟨he, hu⟩)
      cases hf : (s.entries.filter WEntry.inUse).reverse.find? (fun x => x.num == e.num) with
      | none => exact absurd (List.find?_eq_none.mp hf e hm) (by simp)
      | some x =>
        have h1 := List.mem_filter.mp (List.mem_reverse.mp (List.mem_of_find?_eq_some hf))
        have h2 := List.find?_some hf
        rw [sorted_entry_unique hsort h1.1 he (by simpa using h2)]
    rw [this]
    rfl
  | older s ss n e hn _ ih =>
    rw [List.reverse_cons, List.flatMap_append, List.filter_append, List.reverse_append, List.find?_append]
    have : (List.filter WEntry.inUse ([s].flatMap WSection.entries)).reverse.find? (fun x => x.num == n) = none := by
      rw [List.find?_eq_none]
      intro x hx
      have := (List.mem_filter.mp (List.mem_reverse.mp hx)).1
      simp only [List.flatMap_cons, List.flatMap_nil, List.append_nil] at this
      simpa using hn x this
    rw [this, Option.none_or]
    exact ih (fun s hs' => hs s (List.mem_cons_of_mem _ hs')) hu

theorem mergedEntries_newest {ss : List WSection} (hs : ∀ s ∈ ss, s.entries.Pairwise fun a b => a.num < b.num) {n : Nat} {e : WEntry}
    (h : NewestEntry ss n e) (hu : e.inUse = true) (x : WEntry) : (x ∈ mergedEntries ss.reverse ∧ x.num = n) ↔ x = e := by
  have hf : (mergedEntries ss.reverse).find? (fun x => x.num == n) = some e := by
    rw [mergedEntries, foldAdd_find, flat_find hs h hu]; rfl
  have h1 := List.mem_of_find?_eq_some hf
  have h2 : e.num = n := by simpa using List.find?_some hf
  constructor
  · rintro ⟨hx, hxn⟩
    exact sorted_entry_unique (mergedEntries_sorted _) hx h1 (by omega)
  · rintro rfl; exact ⟨h1, h2⟩

/-- Nothing else comes in. -/
theorem mergedEntries_from (chain : List WSection) (x : WEntry) (hx : x ∈ mergedEntries chain) :
    x = ⟨0, 65535, .free 0⟩ ∨ (x.inUse = true ∧ ∃ s ∈ chain, x ∈ s.entries) := by
  have key : ∀ (l acc : List WEntry), x ∈ l.foldl (fun acc e => entryAdd e acc) acc → x ∈ l ∨ x ∈ acc := by
    intro l
    induction l with
    | nil => intro acc h; exact .inr h
    | cons e l ih =>
      intro acc h
      rcases ih _ h with h | h
      · exact .inl (List.mem_cons_of_mem _ h)
      · rcases entryAdd_mem h with rfl | h
        · exact .inl List.mem_cons_self
        · exact .inr h
  rcases key _ _ hx with h | h
  · obtain ⟨h1, h2⟩ := List.mem_filter.mp h
    obtain ⟨s, hs, hxs⟩ := List.mem_flatMap.mp h1
    exact .inr ⟨h2, s, hs, hxs⟩
  · exact .inl (by simpa using h)

/-! ### Trailers -/

theorem dictMerge_spec : ∀ (other d : Dict), SortedKeys d →
    SortedKeys (dictMerge d other) ∧
    ∀ q, mapFind q (dictMerge d other) = match mapFind q d with | some v => some v | none => mapFind q other := by
  intro other
  induction other with
  | nil =>
    intro d hd
    refine ⟨hd, fun q => ?_⟩
    rw [dictMerge, List.foldl_nil]
    cases mapFind q d <;> rfl
  | cons x other ih =>
    intro d hd
    obtain ⟨k, v⟩ := x
    have h0 : SortedKeys (mapInsert k v d) := mapInsert_sorted hd
    obtain ⟨h1, h2⟩ := ih (mapInsert k v d) h0
    refine ⟨h1, fun q => ?_⟩
    have : dictMerge d ((k, v) :: other) = dictMerge (mapInsert k v d) other := rfl
    rw [this, h2, mapFind_insert hd, mapFind]
    by_cases hq : q = k
    · subst hq
      rw [if_pos rfl]
      cases mapFind q d <;> simp
    · rw [if_neg hq]
      simp only [show (q == k) = false from by simpa using hq]
      cases mapFind q d <;> rfl

end VPdf
