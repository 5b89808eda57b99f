import Verif.Lemmas.Unreferenced
/-
  Lemmas about the renumbering of objects.
-/
namespace VPdf
open Spec

/-- The entry after the renumbering. -/
def renumbered (s : WSection) (i : Nat) (e : WEntry) : WEntry :=
  ⟨i, e.gen, match e.kind with
    | .free n => .free n
    | .used off o => .used off (o.map (mapRefsS (squashRef s)))
    | .compressed sn ix o => .compressed ((newNumber s.entries 0 sn).getD sn) ix (mapRefsS (squashRef s) o)⟩

theorem renumber_cons (s : WSection) (i : Nat) (e : WEntry) (es : List WEntry) :
    renumber s i (e :: es) = renumbered s i e :: renumber s (i + 1) es := rfl

theorem renumber_length (s : WSection) : ∀ (es : List WEntry) (i : Nat), (renumber s i es).length = es.length
  | [], _ => rfl
  | e :: es, i => by rw [renumber_cons, List.length_cons, renumber_length s es, List.length_cons]

theorem renumber_numbers (s : WSection) : ∀ (es : List WEntry) (i : Nat),
    (renumber s i es).map WEntry.num = List.range' i es.length
  | [], _ => rfl
  | e :: es, i => by
    rw [renumber_cons, List.map_cons, renumber_numbers s es, List.length_cons, List.range'_succ]
    rfl

theorem renumber_get (s : WSection) : ∀ (es : List WEntry) (i j : Nat) (e : WEntry), es[j]? = some e →
    (renumber s i es)[j]? = some (renumbered s (i + j) e)
  | [], i, j, e, h => by simp at h
  | x :: es, i, 0, e, h => by simp at h; subst h; rw [renumber_cons]; rfl
  | x :: es, i, j + 1, e, h => by
    rw [renumber_cons, List.getElem?_cons_succ, renumber_get s es (i + 1) j e (by simpa using h), Nat.add_right_comm, Nat.add_assoc]

theorem newNumber_get : ∀ (es : List WEntry) (i j : Nat) (e : WEntry), (es.Pairwise fun a b => a.num < b.num) →
    es[j]? = some e → newNumber es i e.num = some (i + j)
  | [], i, j, e, _, h => by simp at h
  | x :: es, i, 0, e, _, h => by simp at h; subst h; rw [newNumber, if_pos rfl, Nat.add_zero]
  | x :: es, i, j + 1, e, hs, h => by
    rw [List.pairwise_cons] at hs
    have h' : es[j]? = some e := by simpa using h
    have := hs.1 e (List.mem_of_getElem? h')
    rw [newNumber, if_neg (by omega), newNumber_get es (i + 1) j e hs.2 h', Nat.add_right_comm, Nat.add_assoc]

theorem renumber_sorted (s : WSection) (es : List WEntry) (i : Nat) :
    (renumber s i es).Pairwise fun a b => a.num < b.num := by
  have : ((renumber s i es).map WEntry.num).Pairwise (· < ·) := by
    rw [renumber_numbers]; exact List.pairwise_lt_range'
  exact List.pairwise_map.mp this

/-- The entry at its new place. -/
theorem squash_entry {s : WSection} (hs : s.entries.Pairwise fun a b => a.num < b.num) {e : WEntry} (he : e ∈ s.entries) :
    ∃ j, s.entries[j]? = some e ∧ newNumber s.entries 0 e.num = some j ∧ renumbered s j e ∈ (squash s).entries := by
  obtain ⟨j, hj⟩ := List.getElem?_of_mem he
  refine ⟨j, hj, by rw [newNumber_get _ 0 j e hs hj, Nat.zero_add], ?_⟩
  have := renumber_get s s.entries 0 j e hj
  rw [Nat.zero_add] at this
  exact List.mem_of_getElem? this

theorem entryObject_renumbered (s : WSection) (i : Nat) (e : WEntry) :
    entryObject (renumbered s i e) = mapRefsS (squashRef s) (entryObject e) := by
  rw [entryObject, entryObject, renumbered]
  cases e.kind with
  | free n => rfl
  | used off o => cases o <;> rfl
  | compressed a b c => rfl

theorem squashRef_of {s : WSection} (hs : s.entries.Pairwise fun a b => a.num < b.num) {e : WEntry} (he : e ∈ s.entries)
    (hn : sectionObject s e ≠ .direct .null) {j : Nat} (hj : newNumber s.entries 0 e.num = some j) :
    squashRef s (e.num, e.gen) = (j, e.gen) := by
  rw [squashRef, (findEntry_some hs e.num e.gen e).mpr ⟨he, rfl, rfl⟩]
  dsimp only
  cases ho : sectionObject s e with
  | stream d b => dsimp only; rw [hj]; rfl
  | direct o =>
    cases o with
    | null => exact absurd ho hn
    | _ => dsimp only; rw [hj]; rfl

theorem squash_object {s : WSection} (ht : Tidy s) {r : Nat × Nat} (hn : objectAt s r ≠ .direct .null) :
    objectAt (squash s) (squashRef s r) = mapRefsS (squashRef s) (objectAt s r) := by
  by_cases hex : ∃ x ∈ s.entries, (x.num, x.gen) = r
  · obtain ⟨e, he, rfl⟩ := hex
    rw [objectAt_mem ht.sorted he] at hn ⊢
    obtain ⟨j, hj, hnum, hmem⟩ := squash_entry ht.sorted he
    rw [squashRef_of ht.sorted he hn hnum]
    have h1 := objectAt_mem (s := squash s) (renumber_sorted s s.entries 0) hmem
    have h2 : ((renumbered s j e).num, (renumbered s j e).gen) = (j, e.gen) := rfl
    rw [h2] at h1
    rw [h1, sectionObject_eq, sectionObject_eq, h2, entryObject_renumbered]
    by_cases ho : s.own = some (e.num, e.gen)
    · rw [if_pos ho, if_pos (by rw [squash, ho]; simp only [Option.map_some]; rw [hnum]; rfl)]
      rfl
    · rw [if_neg ho, if_neg]
      intro ho'
      apply ho
      cases hown : s.own with
      | none => rw [squash, hown] at ho'; cases ho'
      | some q =>
        rw [squash, hown] at ho'
        simp only [Option.map_some, Option.some.injEq, Prod.mk.injEq] at ho'
        obtain ⟨x, hx, hxr, _⟩ := ht.own q hown
        obtain ⟨i, hi, hinum, _⟩ := squash_entry ht.sorted hx
        rw [← hxr] at ho'
        dsimp only at ho'
        rw [hinum] at ho'
        obtain ⟨h3, h4⟩ := ho'
        have : i = j := h3
        subst this
        rw [hi] at hj
        cases hj
        rw [← hxr]
  · exact absurd (objectAt_none (by intro x hx hxx; exact hex ⟨x, hx, by rw [hxx.1, hxx.2]⟩)) hn

theorem squash_seen {α : Type} (view : Obj → α) {s : WSection} (ht : Tidy s)
    (hn : ∀ r, FromTrailer s r → objectAt s r ≠ .direct .null) (k : Nat) : seen view (squash s) k = seen view s k := by
  rw [seen, seen, show (squash s).trailer = mapRefsEntries (squashRef s) s.trailer from rfl, treeEntries_map]
  apply treeEntries_congr
  intro r hr
  exact behind_rename view s (squash s) (squashRef s) (FromTrailer s)
    (fun r hr q hq => .object r q hr ((refsS_iff _ _).mp hq))
    (fun r hr => squash_object ht (hn r hr)) k r (.trailer r ((refsEntries_iff _ _).mp hr))

/-! ### Removal of free entries -/

theorem removeFreed_sub (s : WSection) : (removeFreed s).entries.Sublist s.entries := by
  rw [removeFreed]
  cases s.entries with
  | nil => exact .slnil
  | cons e es => exact List.filter_sublist.cons_cons _

theorem removeFreed_inUse {s : WSection} {e : WEntry} (he : e ∈ s.entries) (hu : e.inUse = true) : e ∈ (removeFreed s).entries := by
  rw [removeFreed]
  cases h : s.entries with
  | nil => rw [h] at he; simp at he
  | cons x es =>
    rw [h] at he
    rcases List.mem_cons.mp he with rfl | he
    · exact List.mem_cons_self
    · exact List.mem_cons_of_mem _ (List.mem_filter.mpr ⟨he, hu⟩)

/-- Only entries that are not in use are removed, except for the first. -/
theorem removeFreed_mem (s : WSection) (e : WEntry) (he : e ∈ s.entries) :
    e ∈ (removeFreed s).entries ↔ e.inUse = true ∨ s.entries.head? = some e := by
  constructor
  · intro h
    rw [removeFreed] at h
    cases hl : s.entries with
    | nil => rw [hl] at he; simp at he
    | cons x es =>
      rw [hl] at h
      rcases List.mem_cons.mp h with rfl | h
      · exact .inr rfl
      · exact .inl (List.mem_filter.mp h).2
  · rintro (h | h)
    · exact removeFreed_inUse he h
    · rw [removeFreed]
      cases hl : s.entries with
      | nil => rw [hl] at he; simp at he
      | cons x es =>
        rw [hl] at h
        cases h
        exact List.mem_cons_self

theorem removeFreed_object {s : WSection} (ht : Tidy s) (hu : ∀ r e, s.own = some r → e ∈ s.entries → (e.num, e.gen) = r → e.inUse = true)
    (r : Nat × Nat) : objectAt (removeFreed s) r = objectAt s r := by
  have hs' : (removeFreed s).entries.Pairwise fun a b => a.num < b.num := ht.sorted.sublist (removeFreed_sub s)
  by_cases hex : ∃ x ∈ s.entries, (x.num, x.gen) = r
  · obtain ⟨x, hx, rfl⟩ := hex
    by_cases hk : x ∈ (removeFreed s).entries
    · rw [objectAt_mem ht.sorted hx, objectAt_mem hs' hk]; rfl
    · rw [objectAt_mem ht.sorted hx, objectAt_none (s := removeFreed s), sectionObject_eq, if_neg]
      · cases hu' : x.inUse with
        | true => exact absurd (removeFreed_inUse hx hu') hk
        | false => rw [entryObject_unused hu']
      · intro ho
        exact hk (removeFreed_inUse hx (hu _ x ho hx rfl))
      · intro e he hee
        rw [sorted_entry_unique ht.sorted ((removeFreed_sub s).subset he) hx hee.1] at he
        exact hk he
  · rw [objectAt_none (s := s) (by intro x hx hxx; exact hex ⟨x, hx, by rw [hxx.1, hxx.2]⟩), objectAt_none]
    intro x hx hxx
    exact hex ⟨x, (removeFreed_sub s).subset hx, by rw [hxx.1, hxx.2]⟩

end VPdf
