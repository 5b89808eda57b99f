import Verif.Lemmas.CodeCmp
import Verif.Lemmas.Squash
import Verif.Lemmas.NullSeen
import Verif.Lemmas.Unreferenced
import Verif.Props.Hash
import Verif.Props.Optimize
/-
  C39: removing duplicate objects.  C65: all optimisations together.
-/
namespace VPdf
open Spec

/-- **C39**, partial: a reader that does not tell apart objects of the same type and content sees no difference after the
removal of duplicates, however many references are followed, and in whatever order the entries are met.  Missing: documents
with objects that cannot be compared, and those where an object below a duplicate has a duplicate, at the beginning or after
some round; see the counterexamples. -/
theorem C39_same_document_partial {α : Type} (view : Obj → α) (hv : ∀ a b, Same a b → view a = view b) (H : StdHash)
    (order : WSection → List WEntry) (hord : ∀ s, (order s).Perm s.entries) (s : WSection)
    (hs : s.entries.Pairwise fun a b => a.num < b.num) (hc : Comparable s)
    (hq : ∀ t, Rounds (codeCmp H) order s t → QuietTwins t) (k : Nat) :
    seen view (removeDups (codeCmp H) order s) k = seen view s k :=
  (codeRounds_seen view hv H hord hs hc hq (removeDups_none hord hs).2).1 k

/-- **C39**: no two of the remaining objects outside object streams are the same. -/
theorem C39_unique (H : StdHash) (hr : RealHash H) (order : WSection → List WEntry) (hord : ∀ s, (order s).Perm s.entries)
    (s : WSection) (hs : s.entries.Pairwise fun a b => a.num < b.num) (x y : WEntry) : ¬Twins (removeDups (codeCmp H) order s) x y := by
  obtain ⟨hnone, hrounds⟩ := removeDups_none (c := codeCmp H) hord hs
  have hst := rounds_sorted hord hs hrounds
  generalize removeDups (codeCmp H) order s = t at *
  rintro ⟨⟨hx, hpx⟩, ⟨hy, hpy⟩, hne, hsame⟩
  have hf : findDups (codeCmp H) t (order t) [] [] = [] := by
    rw [removeDupsOnce] at hnone
    cases h : findDups (codeCmp H) t (order t) [] [] with
    | nil => rfl
    | cons d l => rw [h] at hnone; cases hnone
  obtain ⟨_, _, hp⟩ := findDups_nil _ _ _ _ _ hf
  rw [objectAt_mem hst hx, objectAt_mem hst hy] at hsame
  have key : ∀ a b : WEntry, plainUsed a = true → plainUsed b = true → SameS (sectionObject t b) (sectionObject t a) →
      ¬(plainUsed a = true → plainUsed b = true → ¬sameFor (codeCmp H) t (sectionObject t b) (sectionObject t a)) := by
    intro a b ha hb hab h
    exact h ha hb ⟨hashS_same H hr hab, (eqS_right t _ _ (sameS_comparable hab)).mpr hab⟩
  have hsym : SameS (sectionObject t y) (sectionObject t x) := by
    cases h1 : sectionObject t x <;> cases h2 : sectionObject t y <;> rw [h1, h2] at hsame <;> cases hsame
    · exact .direct _ _ (same_symm (by assumption))
    · exact .stream _ _ _ (same_symm (by assumption))
  have hx' := (plainUsed_iff x).mpr hpx
  have hy' := (plainUsed_iff y).mpr hpy
  have hxo := (hord t).mem_iff.mpr hx
  have hyo := (hord t).mem_iff.mpr hy
  have : ∀ l : List WEntry, x ∈ l → y ∈ l →
      l.Pairwise (fun a b => plainUsed a = true → plainUsed b = true → ¬sameFor (codeCmp H) t (sectionObject t b) (sectionObject t a)) → False := by
    intro l
    induction l with
    | nil => intro h; cases h
    | cons a l ih =>
      intro hxl hyl hpl
      rw [List.pairwise_cons] at hpl
      rcases List.mem_cons.mp hxl with rfl | hxl'
      · rcases List.mem_cons.mp hyl with rfl | hyl'
        · exact hne rfl
        · exact key x y hx' hy' hsym (hpl.1 y hyl')
      · rcases List.mem_cons.mp hyl with rfl | hyl'
        · exact key y x hy' hx' hsame (hpl.1 x hxl')
        · exact ih hxl' hyl' hpl.2
  exact this _ hxo hyo hp

/-- **C39**: no entry is added or renumbered; the entries that go become free. -/
theorem C39_entries (c : Cmp) (order : WSection → List WEntry) (hord : ∀ s, (order s).Perm s.entries) (s : WSection)
    (hs : s.entries.Pairwise fun a b => a.num < b.num) :
    (removeDups c order s).own = s.own ∧ (removeDups c order s).entries.map WEntry.num = s.entries.map WEntry.num := by
  obtain ⟨_, hr⟩ := removeDups_none (c := c) hord hs
  refine ⟨rounds_own hord hr, ?_⟩
  generalize removeDups c order s = t at hr
  induction hr with
  | start => rfl
  | next t t' _ h ih =>
    obtain ⟨dups, _, _, rfl⟩ := removeDupsOnce_some hord h
    rw [releaseDups_num hord, ← ih]
    have := congrArg (List.map Prod.fst) (redirectAll_shape (c := c) hord dups (order t) t)
    rw [List.map_map, List.map_map] at this
    exact this

/-- A section by its objects and the root. -/
def smallSection (root : Nat) (l : List (Nat × Obj)) : WSection :=
  ⟨none, ⟨0, 65535, .free 0⟩ :: l.map (fun x => ⟨x.1, 0, .used 0 (some (.direct x.2))⟩), [(b! "Root", .ref root 0)]⟩

/-- The entries met in the order of their numbers. -/
def inOrder (s : WSection) : List WEntry := s.entries

/-- 2 and 3 are the same, 4 is below them. -/
def twinSection : WSection :=
  smallSection 1 [(1, .dict [(b! "A", .ref 2 0), (b! "B", .ref 3 0)]), (2, .arr [.ref 4 0]), (3, .arr [.ref 4 0]), (4, .name (b! "X"))]

/-- The hypotheses are met: in the first round 3 is replaced by 2, and the second finds no duplicates. -/
example : (twinSection.entries.Pairwise fun a b => a.num < b.num) ∧ Comparable twinSection ∧
    (∀ t, Rounds (codeCmp gnuHash) inOrder twinSection t → QuietTwins t) ∧
    refNumbers (removeDups (codeCmp gnuHash) inOrder twinSection) = [(0, []), (1, [(2, 0), (2, 0)]), (2, [(4, 0)]), (3, []), (4, [])] := by
  have hs : twinSection.entries.Pairwise fun a b => a.num < b.num := by unfold twinSection smallSection; simp
  have hord : ∀ s, (inOrder s).Perm s.entries := fun s => List.Perm.refl _
  refine ⟨hs, comparable_of_check (by decide +kernel) hs, ?_, by decide +kernel⟩
  intro t ht
  cases h1 : removeDupsOnce (codeCmp gnuHash) inOrder twinSection with
  | none => exact absurd h1 (by
      have : (removeDupsOnce (codeCmp gnuHash) inOrder twinSection).isSome = true := by decide +kernel
      intro h; rw [h] at this; cases this)
  | some u =>
    have h2 : removeDupsOnce (codeCmp gnuHash) inOrder u = none := by
      have : ((removeDupsOnce (codeCmp gnuHash) inOrder twinSection).bind (removeDupsOnce (codeCmp gnuHash) inOrder)).isNone = true := by
        decide +kernel
      rw [h1] at this
      exact Option.isNone_iff_eq_none.mp this
    rcases rounds_two h1 h2 ht with rfl | rfl
    · exact quiet_of_check (fun _ => [(4, 0)]) (by decide +kernel) hs
    · have : ((removeDupsOnce (codeCmp gnuHash) inOrder twinSection).map fun s => quietCheck s fun _ => [(4, 0)]) = some true := by
        decide +kernel
      rw [h1] at this
      injection this with this
      exact quiet_of_check _ this (removeDupsOnce_sorted hord hs h1)

/-- **C39** fails if an object below a duplicate has a duplicate: 5 and 6 are the same, and so are 7 and 8.  While references
are redirected 8 changes, so that the reference from 9 to 8 is not recognised; then 8 is removed, and 9 refers to a missing
object. -/
theorem C39_lost_counterexample :
    let s := smallSection 9 [(5, .name (b! "X")), (6, .name (b! "X")), (7, .arr [.ref 6 0]), (8, .arr [.ref 6 0]),
      (9, .arr [.ref 7 0, .ref 8 0])]
    let t := removeDups (codeCmp gnuHash) inOrder s
    objectAt s (9, 0) = .direct (.arr [.ref 7 0, .ref 8 0]) ∧ objectAt s (8, 0) = .direct (.arr [.ref 6 0]) ∧
    objectAt t (9, 0) = .direct (.arr [.ref 7 0, .ref 8 0]) ∧ objectAt t (8, 0) = .direct .null :=
  ⟨rfl, rfl, rfl, rfl⟩

/-- Two equal elements cancel in the hash value of an array, whatever the hash function. -/
theorem hash_pair (H : StdHash) (x y : Obj) : hashObj H (.arr [x, x]) = hashObj H (.arr [y, y]) := by
  simp [hashObj, hashItems]

/-- **C39** fails for numbers: the array [0 0] is replaced by [0.5 0.5], as an integer equals a real that has it as its integer
part and the hash values are the same. -/
theorem C39_number_counterexample :
    let s := smallSection 1 [(1, .arr [.ref 2 0, .ref 3 0]), (2, .arr [.real 5 1, .real 5 1]), (3, .arr [.int 0, .int 0])]
    let t := removeDups (codeCmp gnuHash) inOrder s
    objectAt s (1, 0) = .direct (.arr [.ref 2 0, .ref 3 0]) ∧ objectAt s (3, 0) = .direct (.arr [.int 0, .int 0]) ∧
    objectAt t (1, 0) = .direct (.arr [.ref 2 0, .ref 2 0]) ∧ objectAt t (2, 0) = .direct (.arr [.real 5 1, .real 5 1]) :=
  ⟨rfl, rfl, rfl, rfl⟩

/-! ### C65 -/

/-- **C65**, partial: if the merged section `m` is sorted and has an entry for its cross-reference stream, its objects can be
compared, no object below a duplicate has a duplicate, and no reference met from the trailer leads to a missing object, then
the optimisations together give one section with the numbers 0, 1, 2, ..., in which a reader that does not tell apart objects
of the same type and content sees what was there before.  Missing: the cases left out by the hypotheses, see C36, C38 and
C39. -/
theorem C65_optimize_partial {α : Type} (view : Obj → α) (hv : ∀ a b, Same a b → view a = view b) (H : StdHash)
    (order : WSection → List WEntry) (hord : ∀ s, (order s).Perm s.entries) (chain : List WSection) (m : WSection)
    (hm : mergeSections chain = [m]) (ht : Tidy m) (hc : Comparable m)
    (hq : ∀ t, Rounds (codeCmp H) order (removeUnreferenced m) t → QuietTwins t)
    (hn : ∀ r, FromTrailer m r → objectAt m r ≠ .direct .null) :
    ∃ t, optimize (codeCmp H) order chain = [t] ∧ (∀ k, seen view t k = seen view m k) ∧
      t.entries.map WEntry.num = List.range t.entries.length := by
  rw [optimize, hm]
  refine ⟨_, rfl, ?_, ?_⟩
  · dsimp only
    have hs1 := removeUnreferenced_sorted ht.sorted
    have hc1 : Comparable (removeUnreferenced m) := by
      intro r q
      have : ∀ r, ∃ r', objectAt (removeUnreferenced m) r = objectAt m r' := by
        intro r
        by_cases hex : ∃ x ∈ (removeUnreferenced m).entries, (x.num, x.gen) = r
        · obtain ⟨x, hx, rfl⟩ := hex
          refine ⟨(x.num, x.gen), ?_⟩
          rw [objectAt_mem hs1 hx, objectAt_mem ht.sorted ((removeUnreferenced_mem m x).mp hx).1]
          rfl
        · refine ⟨((m.entries.map WEntry.num).sum + 1, 0), ?_⟩
          rw [objectAt_none (by intro x hx hxx; exact hex ⟨x, hx, by rw [hxx.1, hxx.2]⟩), objectAt_none]
          intro x hx hxx
          have := le_sum_num m.entries x hx
          have := hxx.1
          omega
      obtain ⟨r', hr'⟩ := this r
      obtain ⟨q', hq'⟩ := this q
      rw [hr', hq']
      exact hc r' q'
    obtain ⟨_, hrounds⟩ := removeDups_none (c := codeCmp H) hord hs1
    have hseen : ∀ {β : Type} (view : Obj → β), (∀ a b, Same a b → view a = view b) → ∀ k,
        seen view (removeDups (codeCmp H) order (removeUnreferenced m)) k = seen view m k := by
      intro β view hv k
      rw [C39_same_document_partial view hv H order hord _ hs1 hc1 hq k, removeUnreferenced_seen view ht k]
    have hst := rounds_sorted hord hs1 hrounds
    have hqt := hq _ hrounds
    generalize removeDups (codeCmp H) order (removeUnreferenced m) = t at *
    have hnt := no_null_of_seen (fun k => hseen _ (by
      intro a b hab
      cases hab <;> rfl) k) hn
    have htt : Tidy t := ⟨hst, fun r hr => by
      obtain ⟨e, he, her, h1, _⟩ := hqt.own r hr
      exact ⟨e, he, her, h1⟩⟩
    have hown : ∀ r e, t.own = some r → e ∈ t.entries → (e.num, e.gen) = r → e.inUse = true := by
      intro r e hr he her
      obtain ⟨e', he', her', h1, h2, _⟩ := hqt.own r hr
      have : e = e' := sorted_entry_unique hst he he' (congrArg Prod.fst (her.trans her'.symm))
      subst this
      obtain ⟨n, g, k⟩ := e
      cases k with
      | free a => exact absurd rfl (h1 a)
      | compressed a b o => rfl
      | used off o =>
        cases o with
        | none => exact absurd rfl (h2 off)
        | some o => rfl
    have hobj := removeFreed_object htt hown
    have hbehind : ∀ {β : Type} (view : Obj → β) k r, behind view (removeFreed t) k r = behind view t k r := by
      intro β view k
      induction k with
      | zero => intro r; rfl
      | succ k ih => intro r; rw [behind, behind, hobj, show behind view (removeFreed t) k = behind view t k from funext ih]
    have hfseen : ∀ {β : Type} (view : Obj → β) k, seen view (removeFreed t) k = seen view t k := by
      intro β view k
      rw [seen, seen, show behind view (removeFreed t) k = behind view t k from funext (hbehind view k)]
      rfl
    have htf : Tidy (removeFreed t) := ⟨hst.sublist (removeFreed_sub t), fun r hr => by
      obtain ⟨e, he, her, h1⟩ := htt.own r hr
      exact ⟨e, removeFreed_inUse he (hown r e hr he her), her, h1⟩⟩
    intro k
    rw [squash_seen view htf (no_null_of_seen (fun k => hfseen _ k) hnt) k, hfseen view k, hseen view hv k]
  · rw [C38_numbers]
    congr 1
    exact (renumber_length _ _ _).symm

/-- A document of two revisions: 1 was replaced by a newer object, 6 is not referred to, 2 and 3 are the same. -/
def twoRevisionChain : List WSection :=
  [smallSection 1 [(1, .dict [(b! "A", .ref 2 0)]), (2, .arr [.ref 5 0]), (5, .name (b! "X")), (6, .name (b! "Y"))],
    smallSection 1 [(1, .dict [(b! "A", .ref 2 0), (b! "B", .ref 3 0)]), (3, .arr [.ref 5 0])]]

/-- The section they are merged into. -/
def mergedRevision : WSection :=
  smallSection 1 [(1, .dict [(b! "A", .ref 2 0), (b! "B", .ref 3 0)]), (2, .arr [.ref 5 0]), (3, .arr [.ref 5 0]), (5, .name (b! "X")),
    (6, .name (b! "Y"))]

/-- The hypotheses are met. -/
example : mergeSections twoRevisionChain = [{ mergedRevision with trailer := [(b! "Root", .ref 1 0), (b! "Size", .int 3)] }] ∧
    (optimize (codeCmp gnuHash) inOrder twoRevisionChain).map refNumbers = [[(0, []), (1, [(2, 0), (2, 0)]), (2, [(3, 0)]), (3, [])]] :=
  ⟨rfl, by decide +kernel⟩

example : ∃ m, mergeSections twoRevisionChain = [m] ∧ Tidy m ∧ Comparable m ∧
    (∀ t, Rounds (codeCmp gnuHash) inOrder (removeUnreferenced m) t → QuietTwins t) ∧
    (∀ r, FromTrailer m r → objectAt m r ≠ .direct .null) := by
  refine ⟨{ mergedRevision with trailer := [(b! "Root", .ref 1 0), (b! "Size", .int 3)] }, rfl, ?_⟩
  generalize hm : ({ mergedRevision with trailer := [(b! "Root", .ref 1 0), (b! "Size", .int 3)] } : WSection) = m
  have hs : m.entries.Pairwise fun a b => a.num < b.num := by subst hm; unfold mergedRevision smallSection; simp
  have hord : ∀ s, (inOrder s).Perm s.entries := fun s => List.Perm.refl _
  refine ⟨⟨hs, by subst hm; intro r h; cases h⟩, comparable_of_check (by subst hm; decide +kernel) hs, ?_, ?_⟩
  · intro t ht
    have hs1 := removeUnreferenced_sorted hs
    cases h1 : removeDupsOnce (codeCmp gnuHash) inOrder (removeUnreferenced m) with
    | none => exact absurd h1 (by
        have : (removeDupsOnce (codeCmp gnuHash) inOrder (removeUnreferenced m)).isSome = true := by subst hm; decide +kernel
        intro h; rw [h] at this; cases this)
    | some u =>
      have h2 : removeDupsOnce (codeCmp gnuHash) inOrder u = none := by
        have : ((removeDupsOnce (codeCmp gnuHash) inOrder (removeUnreferenced m)).bind
            (removeDupsOnce (codeCmp gnuHash) inOrder)).isNone = true := by subst hm; decide +kernel
        rw [h1] at this
        exact Option.isNone_iff_eq_none.mp this
      rcases rounds_two h1 h2 ht with rfl | rfl
      · exact quiet_of_check (fun _ => [(5, 0)]) (by subst hm; decide +kernel) hs1
      · have : ((removeDupsOnce (codeCmp gnuHash) inOrder (removeUnreferenced m)).map fun s => quietCheck s fun _ => [(5, 0)]) =
            some true := by subst hm; decide +kernel
        rw [h1] at this
        injection this with this
        exact quiet_of_check _ this (removeDupsOnce_sorted hord hs1 h1)
  · have key : ∀ r, FromTrailer m r → r ∈ [(1, 0), (2, 0), (3, 0), (5, 0)] := by
      intro r hr
      induction hr with
      | trailer r h =>
        have := (refsOf_iff r _).mpr h
        subst hm
        simp [refsOf, refsEntries] at this
        simp [this]
      | object r q _ h ih =>
        have := (refsS_iff q _).mpr h
        have hall : [((1 : Nat), (0 : Nat)), (2, 0), (3, 0), (5, 0)].all (fun r =>
            (refsS (objectAt m r)).all fun q => [((1 : Nat), (0 : Nat)), (2, 0), (3, 0), (5, 0)].contains q) = true := by
          subst hm; decide +kernel
        simpa using List.all_eq_true.mp (List.all_eq_true.mp hall r ih) q this
    have hall : [((1 : Nat), (0 : Nat)), (2, 0), (3, 0), (5, 0)].all (fun r =>
        match objectAt m r with | .direct .null => false | _ => true) = true := by subst hm; decide +kernel
    intro r hr hnull
    have := List.all_eq_true.mp hall r (key r hr)
    rw [hnull] at this
    cases this

end VPdf
