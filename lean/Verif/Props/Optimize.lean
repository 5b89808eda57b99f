import Verif.Lemmas.Merge
import Verif.Lemmas.Squash
import Verif.Lemmas.Unreferenced
import Verif.Lemmas.WriteSection
/-
  C36-C38: merging revisions, removing unreferenced objects, renumbering.
-/
namespace VPdf
open Spec

/-! ### C36 -/

/-- The merge gives one section. -/
theorem C36_one_section (chain : List WSection) (h : chain ≠ []) : ∃ m, mergeSections chain = [m] ∧ m.entries = mergedEntries chain := by
  rw [mergeSections]
  cases hl : chain.getLast? with
  | none => exact absurd (List.getLast?_eq_none_iff.mp hl) h
  | some last => exact ⟨_, rfl, rfl⟩

/-- **C36**, partial: if the newest section that mentions a number (`ss` has the newest section first) has an object for it,
that is the entry with this number after the merge.  Missing: numbers that the newest section has as free, see the
counterexample. -/
theorem C36_newest_partial (ss : List WSection) (hs : ∀ s ∈ ss, s.entries.Pairwise fun a b => a.num < b.num) (n : Nat) (e : WEntry)
    (h : NewestEntry ss n e) (hu : e.inUse = true) (m : WSection) (hm : m ∈ mergeSections ss.reverse) (x : WEntry) :
    (x ∈ m.entries ∧ x.num = n) ↔ x = e := by
  have hne : ss.reverse ≠ [] := by
    intro h0
    rw [h0] at hm
    cases h with
    | here => simp at h0
    | older => simp at h0
  obtain ⟨m', h1, h2⟩ := C36_one_section ss.reverse hne
  rw [h1, List.mem_singleton] at hm
  subst hm
  rw [h2]
  exact mergedEntries_newest hs h hu x

/-- **C36**: the merge adds nothing but the free entry of number 0, and the result is sorted. -/
theorem C36_nothing_else (chain : List WSection) (m : WSection) (hm : m ∈ mergeSections chain) :
    (m.entries.Pairwise fun a b => a.num < b.num) ∧
    ∀ x ∈ m.entries, x = ⟨0, 65535, .free 0⟩ ∨ (x.inUse = true ∧ ∃ s ∈ chain, x ∈ s.entries) := by
  by_cases hne : chain = []
  · subst hne
    simp [mergeSections] at hm
  · obtain ⟨m', h1, h2⟩ := C36_one_section chain hne
    rw [h1, List.mem_singleton] at hm
    subst hm
    rw [h2]
    exact ⟨mergedEntries_sorted chain, mergedEntries_from chain⟩

/-- **C36**, the trailer, partial: without cross-reference streams every entry the writer copies, except Prev, is that of the
newest section.  Missing: chains with cross-reference streams, see the counterexample. -/
theorem C36_trailer_partial (s : WSection) (ss : List WSection) (ht : ∀ x ∈ s :: ss, x.own = none) (hd : Holdable (.dict s.trailer))
    (hl : s.entries.length ≤ 9223372036854775807) (m : WSection) (hm : m ∈ mergeSections (s :: ss).reverse) (q : Bytes)
    (hq : q ∈ trailerKeys) (hp : q ≠ b! "Prev") : mapFind q m.trailer = mapFind q s.trailer := by
  rw [mergeSections] at hm
  have hlast : (s :: ss).reverse.getLast? = some s := by simp
  rw [hlast] at hm
  have hbase : (s :: ss).reverse.find? (fun s => s.own.isSome) = none := by
    rw [List.find?_eq_none]
    intro x hx
    rw [ht x (List.mem_reverse.mp hx)]
    simp
  dsimp only at hm
  rw [hbase, List.mem_singleton] at hm
  subst hm
  dsimp only
  rw [mapErase_find, if_neg hp]
  have := (dictMerge_spec (cloneTrailer s.entries.length s.trailer) [] .nil).2 q
  rw [show (Option.map WSection.trailer none).getD [] = ([] : Dict) from rfl, this, mapFind]
  exact (cloneTrailer_spec _ _ hd hl).2 q hq

/-- The hypotheses are met, and the newer one of two objects is kept. -/
example : ∃ ss : List WSection, (∀ s ∈ ss, s.entries.Pairwise fun a b => a.num < b.num) ∧
    NewestEntry ss 4 ⟨4, 0, .used 30 (some (.direct (.int 2)))⟩ ∧ NewestEntry ss 5 ⟨5, 0, .used 20 (some (.direct (.int 3)))⟩ :=
  ⟨[⟨none, [⟨0, 65535, .free 0⟩, ⟨4, 0, .used 30 (some (.direct (.int 2)))⟩], []⟩,
    ⟨none, [⟨0, 65535, .free 0⟩, ⟨4, 0, .used 10 (some (.direct (.int 1)))⟩, ⟨5, 0, .used 20 (some (.direct (.int 3)))⟩], []⟩],
   by
    intro s hs
    rcases List.mem_cons.mp hs with rfl | hs
    · simp
    · rw [List.mem_singleton.mp hs]; simp,
   .here _ _ ⟨4, 0, .used 30 (some (.direct (.int 2)))⟩ (by simp),
   .older _ _ _ _ (by simp) (.here _ _ ⟨5, 0, .used 20 (some (.direct (.int 3)))⟩ (by simp))⟩

example : ∃ s : WSection, (∀ x ∈ [s, s], x.own = none) ∧ Holdable (.dict s.trailer) ∧ mapFind (b! "Root") s.trailer = some (.ref 4 0) :=
  ⟨⟨none, [⟨0, 65535, .free 0⟩], [(b! "Root", .ref 4 0)]⟩, by simp, .dict _ (List.pairwise_singleton _ _) (by
    intro x hx; simp at hx; subst hx; exact .ref _ _ (by decide) (by decide)), rfl⟩

/-- **C36** fails for every document in which a newer section frees an object: the merge brings the object back. -/
theorem C36_freed_counterexample (old new : WSection) (ho : old.entries.Pairwise fun a b => a.num < b.num)
    (hn : new.entries.Pairwise fun a b => a.num < b.num) (e : WEntry) (he : e ∈ old.entries) (hu : e.inUse = true) (g k : Nat)
    (hf : ⟨e.num, g, .free k⟩ ∈ new.entries) :
    NewestEntry [new, old] e.num ⟨e.num, g, .free k⟩ ∧ ∃ m, mergeSections [old, new] = [m] ∧ e ∈ m.entries := by
  refine ⟨.here _ _ ⟨e.num, g, .free k⟩ hf, ?_⟩
  obtain ⟨m, h1, h2⟩ := C36_one_section [old, new] (by simp)
  refine ⟨m, h1, ?_⟩
  rw [h2]
  have hnew : NewestEntry [⟨none, new.entries.filter WEntry.inUse, []⟩, old] e.num e := by
    refine .older _ _ _ _ ?_ (.here _ _ _ he)
    intro x hx hxe
    dsimp only at hx
    rw [List.mem_filter] at hx
    have : x = ⟨e.num, g, .free k⟩ := sorted_entry_unique hn hx.1 hf hxe
    rw [this] at hx
    cases hx.2
  have hsorted : ∀ s ∈ [(⟨none, new.entries.filter WEntry.inUse, []⟩ : WSection), old], s.entries.Pairwise fun a b => a.num < b.num := by
    intro s hs
    rcases List.mem_cons.mp hs with rfl | hs
    · exact hn.filter _
    · rw [List.mem_singleton.mp hs]; exact ho
  have := ((mergedEntries_newest hsorted hnew hu e).mpr rfl).1
  rw [mergedEntries] at this ⊢
  simpa [List.filter_append, List.filter_filter] using this

/-- The references in an entry of the trailer. -/
def trailerRefs (k : Bytes) (l : List WSection) : List (Option (List (Nat × Nat))) := l.map fun s => (mapFind k s.trailer).map refsOf

/-- **C36** fails with cross-reference streams: the document's root after the merge is that of the oldest one. -/
theorem C36_trailer_counterexample :
    let old : WSection := ⟨some (2, 0), [⟨0, 65535, .free 0⟩, ⟨1, 0, .used 10 (some (.direct (.int 1)))⟩,
      ⟨2, 0, .used 20 (some (.stream [] []))⟩], [(b! "Root", .ref 1 0)]⟩
    let new : WSection := ⟨some (4, 0), [⟨0, 65535, .free 0⟩, ⟨3, 0, .used 30 (some (.direct (.int 3)))⟩,
      ⟨4, 0, .used 40 (some (.stream [] []))⟩], [(b! "Root", .ref 3 0)]⟩
    trailerRefs (b! "Root") [new] = [some [(3, 0)]] ∧
    trailerRefs (b! "Root") (mergeSections [old, new]) = [some [(1, 0)]] := by
  decide +kernel

/-! ### C37 -/

/-- **C37**: of the objects, exactly those are kept that are needed: met from the trailer, the cross-reference stream or the
object streams, through any path of references. -/
theorem C37_exactly_needed (s : WSection) (ht : Tidy s) (e : WEntry) (he : e ∈ s.entries) (hu : e.inUse = true) :
    e ∈ (removeUnreferenced s).entries ↔ Needed s (e.num, e.gen) := by
  rw [removeUnreferenced_mem]
  constructor
  · rintro ⟨_, ⟨n, hn⟩ | hm⟩
    · rw [WEntry.inUse, hn] at hu; cases hu
    · obtain ⟨x, hx, hxn, hr⟩ := finalMarks_sound ht _ hm
      rw [sorted_entry_unique ht.sorted hx he hxn] at hr
      exact hr
  · intro h
    exact ⟨he, .inr (finalMarks_complete ht h e he rfl hu)⟩

theorem needed_table {s : WSection} (hown : s.own = none) {r : Nat × Nat} (h : Needed s r) : FromTrailer s r := by
  induction h with
  | trailer r h => exact .trailer r h
  | own r h => rw [hown] at h; cases h
  | holder n g sn i o h => exact absurd hown h
  | object r q _ h ih => exact .object r q ih h

/-- **C37** for a section without cross-reference stream: kept are exactly the objects met from the trailer. -/
theorem C37_exactly_reachable (s : WSection) (ht : Tidy s) (hown : s.own = none) (e : WEntry) (he : e ∈ s.entries) (hu : e.inUse = true) :
    e ∈ (removeUnreferenced s).entries ↔ FromTrailer s (e.num, e.gen) := by
  rw [C37_exactly_needed s ht e he hu]
  exact ⟨needed_table hown, reached_needed⟩

/-- **C37**: nothing is added, the trailer stays, free entries stay. -/
theorem C37_nothing_new (s : WSection) :
    (removeUnreferenced s).entries.Sublist s.entries ∧ (removeUnreferenced s).trailer = s.trailer ∧
    ∀ e ∈ s.entries, ∀ n, e.kind = .free n → e ∈ (removeUnreferenced s).entries :=
  ⟨List.filter_sublist, rfl, fun e he n hn => (removeUnreferenced_mem s e).mpr ⟨he, .inl ⟨n, hn⟩⟩⟩

/-- **C37**: no object that is kept, and not the trailer, refers to a removed one: what is referred to is as before. -/
theorem C37_no_dangling (s : WSection) (ht : Tidy s) (q : Nat × Nat)
    (h : Mentions q (.dict s.trailer) ∨
      ∃ e ∈ (removeUnreferenced s).entries, e.inUse = true ∧ MentionsS q (objectAt (removeUnreferenced s) (e.num, e.gen))) :
    objectAt (removeUnreferenced s) q = objectAt s q := by
  refine removeUnreferenced_object ht ?_
  rcases h with h | ⟨e, he, hu, h⟩
  · exact .trailer q h
  · have he' := ((removeUnreferenced_mem s e).mp he).1
    have hn := (C37_exactly_needed s ht e he' hu).mp he
    rw [removeUnreferenced_object ht hn] at h
    exact .object _ q hn h

/-- **C37**: a reader of the document sees no difference, however many references are followed. -/
theorem C37_same_document {α : Type} (view : Obj → α) (s : WSection) (ht : Tidy s) (k : Nat) :
    seen view (removeUnreferenced s) k = seen view s k := removeUnreferenced_seen view ht k

/-- A cyclic document: 1 and 2 refer to each other, 3 refers to 1 and is not referred to. -/
def cyclicSection : WSection :=
  ⟨none, [⟨0, 65535, .free 0⟩, ⟨1, 0, .used 10 (some (.direct (.arr [.ref 2 0])))⟩,
    ⟨2, 0, .used 20 (some (.direct (.dict [(b! "Parent", .ref 1 0)])))⟩, ⟨3, 0, .used 30 (some (.direct (.ref 1 0)))⟩],
    [(b! "Root", .ref 1 0)]⟩

/-- The hypotheses are met, and the object that is not referred to goes. -/
example : Tidy cyclicSection ∧ (removeUnreferenced cyclicSection).entries.map WEntry.num = [0, 1, 2] :=
  ⟨⟨by unfold cyclicSection; simp, by intro r h; cases h⟩, by decide +kernel⟩

/-! ### C38 -/

/-- **C38**: after the renumbering the numbers are 0, 1, 2, ... without gaps. -/
theorem C38_numbers (s : WSection) : (squash s).entries.map WEntry.num = List.range s.entries.length := by
  rw [squash, List.range_eq_range']
  exact renumber_numbers s s.entries 0

/-- **C38**: the numbers rise in the old order, and generations stay. -/
theorem C38_order (s : WSection) (i : Nat) (e : WEntry) (h : s.entries[i]? = some e) :
    ∃ x, (squash s).entries[i]? = some x ∧ x.num = i ∧ x.gen = e.gen := by
  have := renumber_get s s.entries 0 i e h
  rw [Nat.zero_add] at this
  exact ⟨_, this, rfl, rfl⟩

/-- **C38**, partial: a reader of the document sees no difference, however many references are followed.  Missing: references
to missing objects, see the counterexample. -/
theorem C38_same_document_partial {α : Type} (view : Obj → α) (s : WSection) (ht : Tidy s)
    (hn : ∀ r, FromTrailer s r → objectAt s r ≠ .direct .null) (k : Nat) : seen view (squash s) k = seen view s k :=
  squash_seen view ht hn k

/-- **C38**, partial: every object is found under its new number, which is that of the references to it. -/
theorem C38_object_partial (s : WSection) (ht : Tidy s) (r : Nat × Nat) (hn : objectAt s r ≠ .direct .null) :
    objectAt (squash s) (squashRef s r) = mapRefsS (squashRef s) (objectAt s r) := squash_object ht hn

/-- **C38**: two objects never get the same number. -/
theorem C38_injective (s : WSection) (ht : Tidy s) (r q : Nat × Nat) (hr : objectAt s r ≠ .direct .null)
    (hq : objectAt s q ≠ .direct .null) (h : squashRef s r = squashRef s q) : r = q := by
  have key : ∀ r, objectAt s r ≠ .direct .null →
      ∃ e j, r = (e.num, e.gen) ∧ e ∈ s.entries ∧ s.entries[j]? = some e ∧ squashRef s r = (j, e.gen) := by
    intro r hr
    by_cases hex : ∃ e ∈ s.entries, (e.num, e.gen) = r
    · obtain ⟨e, he, rfl⟩ := hex
      obtain ⟨j, hj, hnew, _⟩ := squash_entry ht.sorted he
      rw [objectAt_mem ht.sorted he] at hr
      exact ⟨e, j, rfl, he, hj, squashRef_of ht.sorted he hr hnew⟩
    · exact absurd (objectAt_none (by intro x hx hxx; exact hex ⟨x, hx, by rw [hxx.1, hxx.2]⟩)) hr
  obtain ⟨e, j, rfl, _, hj, h1⟩ := key r hr
  obtain ⟨e', j', rfl, _, hj', h2⟩ := key q hq
  rw [h1, h2, Prod.mk.injEq] at h
  obtain ⟨rfl, _⟩ := h
  rw [hj] at hj'
  injection hj' with hj'
  rw [hj']

/-- **C38**, the step before: removing the free entries, except the first, changes no object. -/
theorem C38_freed (s : WSection) (ht : Tidy s)
    (hu : ∀ r e, s.own = some r → e ∈ s.entries → (e.num, e.gen) = r → e.inUse = true) :
    (∀ r, objectAt (removeFreed s) r = objectAt s r) ∧ (removeFreed s).trailer = s.trailer ∧
    ∀ e ∈ s.entries, e ∈ (removeFreed s).entries ↔ e.inUse = true ∨ s.entries.head? = some e :=
  ⟨removeFreed_object ht hu, rfl, fun e he => removeFreed_mem s e he⟩

/-- The numbers of the section with the references of its objects. -/
def refNumbers (s : WSection) : List (Nat × List (Nat × Nat)) := s.entries.map fun e => (e.num, refsS (entryObject e))

/-- A document with a gap in its numbers. -/
def gapSection : WSection :=
  ⟨none, [⟨0, 65535, .free 0⟩, ⟨4, 0, .used 10 (some (.direct (.arr [.ref 7 0])))⟩,
    ⟨7, 0, .used 20 (some (.direct (.dict [(b! "Parent", .ref 4 0)])))⟩], [(b! "Root", .ref 4 0)]⟩

/-- The hypotheses are met, and the gap is closed. -/
example : Tidy gapSection ∧ (∀ r, FromTrailer gapSection r → objectAt gapSection r ≠ .direct .null) ∧
    refNumbers gapSection = [(0, []), (4, [(7, 0)]), (7, [(4, 0)])] ∧
    refNumbers (squash gapSection) = [(0, []), (1, [(2, 0)]), (2, [(1, 0)])] := by
  have h4 : objectAt gapSection (4, 0) = .direct (.arr [.ref 7 0]) := rfl
  have h7 : objectAt gapSection (7, 0) = .direct (.dict [(b! "Parent", .ref 4 0)]) := rfl
  refine ⟨⟨by unfold gapSection; simp, by intro r h; cases h⟩, ?_, by decide +kernel, by decide +kernel⟩
  have : ∀ r, FromTrailer gapSection r → r = (4, 0) ∨ r = (7, 0) := by
    intro r h
    induction h with
    | trailer r h =>
      have := (refsOf_iff r _).mpr h
      simp [gapSection, refsOf, refsEntries] at this
      exact .inl this
    | object r q _ h ih =>
      have := (refsS_iff q _).mpr h
      rcases ih with rfl | rfl
      · rw [h4] at this
        simp [refsS, refsOf, refsItems] at this
        exact .inr this
      · rw [h7] at this
        simp [refsS, refsOf, refsEntries] at this
        exact .inl this
  intro r h
  rcases this r h with rfl | rfl
  · rw [h4]; simp
  · rw [h7]; simp

/-- **C38** fails for references to missing objects, which keep their number: object 2 refers to the missing object 1 and
becomes object 1, which refers to itself. -/
theorem C38_null_reference_counterexample :
    let s : WSection := ⟨none, [⟨0, 65535, .free 0⟩, ⟨2, 0, .used 10 (some (.direct (.arr [.ref 1 0])))⟩], [(b! "Root", .ref 2 0)]⟩
    objectAt s (1, 0) = .direct .null ∧ refsEntries (squash s).trailer = [(1, 0)] ∧ refNumbers (squash s) = [(0, []), (1, [(1, 0)])] := by
  refine ⟨rfl, by decide +kernel, by decide +kernel⟩

end VPdf
