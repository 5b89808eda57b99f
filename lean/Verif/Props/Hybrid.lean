import Verif.Spec.Hybrid
import Verif.Props.Xref
import Verif.Lemmas.ParseTerm
/-
  C112: hybrid-reference files.
-/
namespace VPdf
open Spec

/-! ### Looking up -/

theorem shows_of_apart {s : Section} (ha : Apart s) (e : XEntry) : SectionShows s e ↔ Holds s e := by
  constructor
  · rintro (⟨h1, h2⟩ | ⟨h, h1, h2, h3⟩ | ⟨h1, h2, h3⟩)
    · exact Or.inl h1
    · exact Or.inr ⟨h, h1, h2, fun x hx => ha h h1 x hx e h2⟩
    · exact Or.inl h1
  · rintro (h1 | ⟨h, h1, h2, h3⟩)
    · by_cases hu : e.inUse = true
      · exact .object h1 hu
      · exact .free h1 (by simpa using hu) (fun h hh x hx => (ha h hh e h1 x hx).symm)
    · exact .hidden h h1 h2 (fun x hx hn => absurd hn (h3 x hx))

/-- **C112, looking up, partial: tables without entries for hidden objects.**  The object found is the one the newest section
shows. -/
theorem C112_lookup_partial (c : Chain) (hw : ∀ s ∈ c, WellFormed s) (ha : ∀ s ∈ c, Apart s) (n g : Nat) (e : XEntry) :
    c.find n g = .ok e ↔ ShowsNewest c n g e := by
  rw [C17_newest_match c hw n g e]
  constructor
  · rintro ⟨newer, s, older, rfl, h1, h2, h3, h4⟩
    exact ⟨newer, s, older, rfl, (shows_of_apart (ha s (by simp)) e).2 h1, h2, h3,
      fun s' hs' e' he' => h4 s' hs' e' ((shows_of_apart (ha s' (by simp [hs'])) e').1 he')⟩
  · rintro ⟨newer, s, older, rfl, h1, h2, h3, h4⟩
    exact ⟨newer, s, older, rfl, (shows_of_apart (ha s (by simp)) e).1 h1, h2, h3,
      fun s' hs' e' he' => h4 s' hs' e' ((shows_of_apart (ha s' (by simp [hs'])) e').2 he')⟩

/-! ### Merging -/

/-- The entry fits into a section of the kind. -/
def Spec.Addable (k : SectionKind) (e : XEntry) : Prop := k = .table → ∀ s i, e.kind ≠ .compressed s i

theorem section_add_spec {s : Section} (hd : Distinct s.entries) {e : XEntry} (ha : Addable s.kind e) :
    ∃ t, s.add e = .ok t ∧ t.kind = s.kind ∧ Distinct t.entries ∧
      ∀ k, EntrySet.find k t.entries = if k = e.num then some e else EntrySet.find k s.entries := by
  obtain ⟨l, h1, h2, h3⟩ := add_spec hd e
  refine ⟨{ s with entries := l }, ?_, rfl, h2, h3⟩
  rw [Section.add, if_neg, h1]
  · rfl
  · intro hc
    simp only [Bool.and_eq_true, beq_iff_eq] at hc
    obtain ⟨hk, hc⟩ := hc
    cases hq : e.kind with
    | compressed a b => exact ha hk a b hq
    | free n => rw [hq] at hc; simp at hc
    | used n => rw [hq] at hc; simp at hc

theorem addAll_spec (l : List XEntry) : ∀ {s : Section}, Distinct s.entries → (∀ e ∈ l, Addable s.kind e) →
    ∃ t, l.foldlM (fun s e => s.add e) s = .ok t ∧ Distinct t.entries ∧
      (∀ k, (∀ e ∈ l, e.num ≠ k) → EntrySet.find k t.entries = EntrySet.find k s.entries) ∧
      ∀ pre e post, l = pre ++ e :: post → (∀ x ∈ post, x.num ≠ e.num) → EntrySet.find e.num t.entries = some e := by
  induction l with
  | nil =>
    intro s hd _
    exact ⟨s, rfl, hd, fun _ _ => rfl, fun pre e post h => by simp at h⟩
  | cons x l ih =>
    intro s hd ha
    obtain ⟨t1, e1, k1, d1, f1⟩ := section_add_spec hd (ha x (by simp))
    obtain ⟨t, e2, d2, f2, g2⟩ := ih d1 (fun e he => by rw [k1]; exact ha e (by simp [he]))
    refine ⟨t, ?_, d2, ?_, ?_⟩
    · rw [List.foldlM_cons, e1]
      exact e2
    · intro k hk
      rw [f2 k (fun e he => hk e (by simp [he])), f1, if_neg (hk x (by simp)).symm]
    · intro pre e post hl hp
      cases pre with
      | nil =>
        simp only [List.nil_append, List.cons.injEq] at hl
        obtain ⟨rfl, rfl⟩ := hl
        rw [f2 _ hp, f1, if_pos rfl]
      | cons y pre =>
        simp only [List.cons_append, List.cons.injEq] at hl
        exact g2 pre e post hl.2 hp

/-- Sections as they are read: the entries have different numbers, only streams have compressed entries, and only tables a
hybrid stream. -/
structure Spec.HybridSound (s : HybridSection) : Prop where
  entries : Distinct s.entries
  hidden : ∀ n g h, s.stm = some (n, g, h) → Distinct h
  table : s.kind ≠ .stream → ∀ e ∈ s.entries, ∀ a b, e.kind ≠ .compressed a b
  hybrid : s.kind ≠ .table → s.stm = none

theorem addable_merged {chain : List HybridSection} (hs : ∀ s ∈ chain, HybridSound s) {e : XEntry}
    (he : e ∈ (chain.flatMap HybridSection.all).filter XEntry.inUse) : Addable (mergedKind chain) e := by
  intro hk a b hc
  rw [List.mem_filter, List.mem_flatMap] at he
  obtain ⟨⟨s, hsm, hes⟩, -⟩ := he
  rw [mergedKind] at hk
  split at hk
  · simp at hk
  · rename_i hany
    simp only [List.any_eq_true, not_exists, not_and] at hany
    have h1 := hany s hsm
    simp only [Bool.or_eq_true, beq_iff_eq, Bool.and_eq_true, not_or, not_and] at h1
    rw [HybridSection.all, List.mem_append] at hes
    rcases hes with hes | hes
    · exact (hs s hsm).table h1.1 e hes a b hc
    · split at hes
      · rename_i ht
        cases hq : s.stm with
        | none => rw [hq] at hes; simp at hes
        | some x => exact h1.2 (by simpa using ht) (by rw [hq]; rfl)
      · simp at hes

theorem all_of_hybrid {s : HybridSection} (hs : HybridSound s) {n g : Nat} {h : List XEntry} (he : s.stm = some (n, g, h)) :
    s.all = s.entries ++ h := by
  have hk : s.kind = .table := by
    cases hq : s.kind with
    | table => rfl
    | stream => rw [hs.hybrid (by rw [hq]; simp)] at he; simp at he
    | virtual => rw [hs.hybrid (by rw [hq]; simp)] at he; simp at he
  rw [HybridSection.all, he, hk]
  rfl

theorem all_of_none {s : HybridSection} (he : s.stm = none) : s.all = s.entries := by
  rw [HybridSection.all, he]
  simp

theorem distinct_split {l : List XEntry} (hd : Distinct l) {e : XEntry} (he : e ∈ l) :
    ∃ pre post, l = pre ++ e :: post ∧ ∀ x ∈ post, x.num ≠ e.num := by
  obtain ⟨pre, post, rfl⟩ := List.append_of_mem he
  refine ⟨pre, post, rfl, ?_⟩
  unfold Distinct at hd
  rw [List.pairwise_append] at hd
  intro x hx
  exact ((List.pairwise_cons.1 hd.2.1).1 x hx).symm

theorem mergeHybrids_last {chain : List HybridSection} (hs : ∀ s ∈ chain, HybridSound s) {pre post : List XEntry} {e : XEntry}
    (hl : chain.flatMap HybridSection.all = pre ++ e :: post) (hu : e.inUse = true)
    (hp : ∀ x ∈ post, x.inUse = true → x.num ≠ e.num) :
    ∃ m, mergeHybrids chain = .ok m ∧ ∀ x, (x ∈ m.entries ∧ x.num = e.num) ↔ x = e := by
  obtain ⟨s0, e0, k0, d0, -⟩ := section_add_spec (s := ⟨mergedKind chain, [], none⟩) (e := ⟨0, 65535, .free 0⟩)
    (by simp [Distinct]) (by intro _ a b; simp)
  obtain ⟨m, e1, d1, -, g1⟩ := addAll_spec ((chain.flatMap HybridSection.all).filter XEntry.inUse) d0
    (fun e he => by rw [k0]; exact addable_merged hs he)
  refine ⟨m, ?_, ?_⟩
  · rw [mergeHybrids, e0]
    exact e1
  · have hf := g1 (pre.filter XEntry.inUse) e (post.filter XEntry.inUse) (by rw [hl]; simp [hu])
      (fun x hx => hp x (List.mem_filter.1 hx).1 (List.mem_filter.1 hx).2)
    intro x
    constructor
    · rintro ⟨hx, hn⟩
      have := find_of_mem d1 hx
      rw [hn, hf] at this
      simpa using this.symm
    · rintro rfl
      exact ⟨(find_some hf).1, rfl⟩

/-- **C112, merging, partial: tables without entries for hidden objects.**  The sections (the oldest first) are merged into
one.  The entry it has for a number is that of the newest section with an object of that number, in its table or
hidden. -/
theorem C112_merge_partial (older newer : List HybridSection) (s : HybridSection)
    (hs : ∀ t ∈ older ++ s :: newer, HybridSound t) (e : XEntry) (he : Holds s.view e) (hu : e.inUse = true)
    (hn : ∀ t ∈ newer, ∀ x ∈ t.all, x.inUse = true → x.num ≠ e.num) (ha : Apart s.view) :
    ∃ m, mergeHybrids (older ++ s :: newer) = .ok m ∧ ∀ x, (x ∈ m.entries ∧ x.num = e.num) ↔ x = e := by
  have hss := hs s (by simp)
  have key : ∃ pre post, s.all = pre ++ e :: post ∧ ∀ x ∈ post, x.num ≠ e.num := by
    cases hq : s.stm with
    | none =>
      rw [all_of_none hq]
      rcases he with he | ⟨h, hh, -⟩
      · exact distinct_split hss.entries he
      · rw [HybridSection.view, hq] at hh
        simp at hh
    | some x =>
      obtain ⟨n, g, h⟩ := x
      have hv : s.view.hybrid = some h := by rw [HybridSection.view, hq]; rfl
      rw [all_of_hybrid hss hq]
      rcases he with he | ⟨h', hh, hm, -⟩
      · obtain ⟨pre, post, h1, h2⟩ := distinct_split hss.entries he
        refine ⟨pre, post ++ h, by rw [show s.entries = pre ++ e :: post from h1]; simp, ?_⟩
        intro x hx
        rcases List.mem_append.1 hx with hx | hx
        · exact h2 x hx
        · exact (ha h hv e he x hx).symm
      · rw [hv] at hh
        simp only [Option.some.injEq] at hh
        subst hh
        obtain ⟨pre, post, h1, h2⟩ := distinct_split (hss.hidden n g h hq) hm
        exact ⟨s.entries ++ pre, post, by rw [h1]; simp, h2⟩
  obtain ⟨pre, post, h1, h2⟩ := key
  refine mergeHybrids_last hs (pre := older.flatMap HybridSection.all ++ pre) (post := post ++ newer.flatMap HybridSection.all) ?_ hu ?_
  · simp [h1]
  · intro x hx hxu
    rcases List.mem_append.1 hx with hx | hx
    · exact h2 x hx
    · obtain ⟨t, ht, hxt⟩ := List.mem_flatMap.1 hx
      exact hn t ht x hxt hxu

/-- A hidden object that the table has as free, as the standard asks for, is not found: the free entry is returned, or
whatever older sections have.  Saving brings it to light: the merged section has it. -/
theorem C112_hidden_counterexample (s : HybridSection) (rest : Chain) (hs : HybridSound s) (n g : Nat) (h : List XEntry)
    (hq : s.stm = some (n, g, h)) (x e : XEntry) (hx : x ∈ s.entries) (hxf : x.inUse = false) (he : e ∈ h) (hu : e.inUse = true)
    (hn : e.num = x.num) :
    ShowsNewest (s.view :: rest) e.num e.gen e ∧
    Chain.find (s.view :: rest) e.num e.gen = (if x.gen = e.gen then .ok x else Chain.find rest e.num e.gen) ∧
    ∃ m, mergeHybrids [s] = .ok m ∧ e ∈ m.entries := by
  have hv : s.view.hybrid = some h := by rw [HybridSection.view, hq]; rfl
  refine ⟨⟨[], s.view, rest, rfl, ?_, rfl, rfl, by simp⟩, ?_, ?_⟩
  · refine .hidden h hv he fun y hy hyn => ?_
    have h1 := find_of_mem hs.entries hy
    have h2 := find_of_mem hs.entries hx
    rw [hyn, hn, h2] at h1
    simp only [Option.some.injEq] at h1
    rw [← h1]
    exact hxf
  · have hf : EntrySet.find e.num s.view.entries = some x := by
      rw [hn]
      exact find_of_mem hs.entries hx
    rw [Chain.find, Section.contains, hf]
    simp only [Bool.not_true, Bool.false_eq_true, if_false, Section.find, hf]
    by_cases hg : x.gen = e.gen
    · rw [if_pos hg]
      simp [hg, bind, Except.bind, pure, Except.pure]
    · rw [if_neg hg]
      simp [hg, bind, Except.bind]
  · obtain ⟨pre, post, h1, h2⟩ := distinct_split (hs.hidden n g h hq) he
    obtain ⟨m, m1, m2⟩ := mergeHybrids_last (chain := [s]) (by simpa using hs) (pre := s.entries ++ pre) (post := post) (e := e)
      (by simp [all_of_hybrid hs hq, h1]) hu (fun y hy _ => h2 y hy)
    exact ⟨m, m1, ((m2 e).2 rfl).1⟩

/-- If both the table and its stream have an object for a number, that of the table is found, and the other one is saved. -/
theorem C112_overlap_counterexample (s : HybridSection) (hs : HybridSound s) (n g : Nat) (h : List XEntry)
    (hq : s.stm = some (n, g, h)) (x e : XEntry) (hx : x ∈ s.entries) (he : e ∈ h) (hu : e.inUse = true)
    (hn : e.num = x.num) :
    Chain.find [s.view] x.num x.gen = .ok x ∧ ∃ m, mergeHybrids [s] = .ok m ∧ ∀ y, (y ∈ m.entries ∧ y.num = x.num) ↔ y = e := by
  refine ⟨?_, ?_⟩
  · have hf : EntrySet.find x.num s.view.entries = some x := find_of_mem hs.entries hx
    rw [Chain.find, Section.contains, hf]
    simp [Section.find, hf, bind, Except.bind, pure, Except.pure]
  · obtain ⟨pre, post, h1, h2⟩ := distinct_split (hs.hidden n g h hq) he
    rw [← hn]
    exact mergeHybrids_last (chain := [s]) (by simpa using hs) (pre := s.entries ++ pre) (post := post) (e := e)
      (by simp [all_of_hybrid hs hq, h1]) hu (fun y hy _ => h2 y hy)

/-! ### The streams of the copy -/

theorem wellFormed_view {s : HybridSection} (hs : HybridSound s) : WellFormed s.view := by
  refine ⟨hs.entries, fun h hh => ?_⟩
  cases hq : s.stm with
  | none => rw [HybridSection.view, hq] at hh; simp at hh
  | some x =>
    rw [HybridSection.view, hq] at hh
    simp only [Option.map_some, Option.some.injEq] at hh
    exact hh ▸ hs.hidden x.1 x.2.1 x.2.2 hq

theorem wellFormed_plain {s : HybridSection} (hs : HybridSound s) : WellFormed s.plain :=
  ⟨hs.entries, fun h hh => by simp [HybridSection.plain] at hh⟩

/-- The object has an entry in a table or stream of the file that is not a hybrid stream, and all its entries are in use. -/
def Spec.ListedInUse (chain : List HybridSection) (n g : Nat) : Prop :=
  (∃ s ∈ chain, ∃ e ∈ s.entries, e.num = n ∧ e.gen = g) ∧
  ∀ s ∈ chain, ∀ e, Holds s.view e → e.num = n → e.gen = g → e.inUse = true

theorem findHybridStream_listed {isStream : Nat × Nat → Bool} {a b : List HybridSection} {n g : Nat}
    (hs : ∀ s ∈ a ++ b, HybridSound s) (hl : ListedInUse (a ++ b) n g) (hi : isStream (n, g) = true) :
    findHybridStream isStream (a.map HybridSection.view ++ b.map HybridSection.plain) n g = .ok () := by
  obtain ⟨⟨s, hsm, e, he, hen, heg⟩, hall⟩ := hl
  have hw : ∀ t ∈ a.map HybridSection.view ++ b.map HybridSection.plain, WellFormed t := by
    intro t ht
    rcases List.mem_append.1 ht with ht | ht
    · obtain ⟨x, hx, rfl⟩ := List.mem_map.1 ht
      exact wellFormed_view (hs x (by simp [hx]))
    · obtain ⟨x, hx, rfl⟩ := List.mem_map.1 ht
      exact wellFormed_plain (hs x (by simp [hx]))
  have hfound : Chain.find (a.map HybridSection.view ++ b.map HybridSection.plain) n g ≠ .error .missing := by
    intro hm
    have := (C17_missing _ hw n g).1.1 hm
    rcases List.mem_append.1 hsm with hx | hx
    · exact this s.view (by simp only [List.mem_append, List.mem_map]; exact Or.inl ⟨s, hx, rfl⟩) e (Or.inl he) ⟨hen, heg⟩
    · exact this s.plain (by simp only [List.mem_append, List.mem_map]; exact Or.inr ⟨s, hx, rfl⟩) e (Or.inl he) ⟨hen, heg⟩
  rcases (C17_missing _ hw n g).2.1 with hm | ⟨x, hx⟩
  · exact absurd hm hfound
  · rw [findHybridStream, hx]
    obtain ⟨newer, t, older, hc, ht, htn, htg, -⟩ := (C17_newest_match _ hw n g x).1 hx
    have htm : t ∈ a.map HybridSection.view ++ b.map HybridSection.plain := by rw [hc]; simp
    have hxu : x.inUse = true := by
      rcases List.mem_append.1 htm with hm | hm
      · obtain ⟨y, hy, rfl⟩ := List.mem_map.1 hm
        exact hall y (by simp [hy]) x ht htn htg
      · obtain ⟨y, hy, rfl⟩ := List.mem_map.1 hm
        rcases ht with ht | ⟨h, hh, -⟩
        · exact hall y (by simp [hy]) x (Or.inl ht) htn htg
        · simp [HybridSection.plain] at hh
    simp [hxu, hi, bind, Except.bind]

theorem cloneHybrids_listed {isStream : Nat × Nat → Bool} (b : List HybridSection) : ∀ (a : List HybridSection),
    (∀ s ∈ a ++ b, HybridSound s) →
    (∀ s ∈ b, ∀ n g h, s.stm = some (n, g, h) → ListedInUse (a ++ b) n g ∧ isStream (n, g) = true) →
    cloneHybrids isStream (a.map HybridSection.view) b = .ok ((a ++ b).map HybridSection.view) := by
  induction b with
  | nil => intro a _ _; simp [cloneHybrids]
  | cons s b ih =>
    intro a hs hl
    have hab : a ++ s :: b = (a ++ [s]) ++ b := by simp
    have next := ih (a ++ [s]) (by rw [← hab]; exact hs) (by
      rw [← hab]
      intro t ht
      exact hl t (by simp [ht]))
    rw [← hab, List.map_append, List.map_singleton] at next
    cases hq : s.stm with
    | none =>
      have hv : s.view = s.plain := by rw [HybridSection.view, hq]; rfl
      rw [hv] at next
      rw [cloneHybrids, hq]
      cases s.kind <;> exact next
    | some x =>
      obtain ⟨n, g, h⟩ := x
      have hk : s.kind = .table := by
        cases hk : s.kind with
        | table => rfl
        | stream => rw [(hs s (by simp)).hybrid (by rw [hk]; simp)] at hq; simp at hq
        | virtual => rw [(hs s (by simp)).hybrid (by rw [hk]; simp)] at hq; simp at hq
      obtain ⟨h1, h2⟩ := hl s (by simp) n g h hq
      have hf := findHybridStream_listed (a := a) (b := s :: b) hs h1 h2
      rw [List.map_cons] at hf
      rw [cloneHybrids, hk, hq]
      simp only []
      rw [hf]
      exact next

/-- **C112, copying, partial: streams listed in a table.**  The copy of the file has the hybrid streams of the original. -/
theorem C112_copy_partial (isStream : Nat × Nat → Bool) (chain : List HybridSection) (hs : ∀ s ∈ chain, HybridSound s)
    (hl : ∀ s ∈ chain, ∀ n g h, s.stm = some (n, g, h) → ListedInUse chain n g ∧ isStream (n, g) = true) :
    cloneHybrids isStream [] chain = .ok (chain.map HybridSection.view) :=
  cloneHybrids_listed chain [] hs hl

/-- A hybrid stream that is listed by itself only, as cross-reference streams usually are, makes saving fail. -/
theorem C112_self_counterexample (isStream : Nat × Nat → Bool) (s : HybridSection) (rest : List HybridSection)
    (hs : ∀ t ∈ s :: rest, HybridSound t) (n g : Nat) (h : List XEntry) (hq : s.stm = some (n, g, h)) (o : Int)
    (_he : (⟨n, g, .used o⟩ : XEntry) ∈ h) (hn : ∀ t ∈ s :: rest, ∀ x ∈ t.entries, ¬ (x.num = n ∧ x.gen = g)) :
    cloneHybrids isStream [] (s :: rest) = .error .missing := by
  have hk : s.kind = .table := by
    cases hk : s.kind with
    | table => rfl
    | stream => rw [(hs s (by simp)).hybrid (by rw [hk]; simp)] at hq; simp at hq
    | virtual => rw [(hs s (by simp)).hybrid (by rw [hk]; simp)] at hq; simp at hq
  have hf : Chain.find ([] ++ s.plain :: rest.map HybridSection.plain) n g = .error .missing := by
    refine (C17_missing _ ?_ n g).1.2 ?_
    · intro t ht
      rw [List.nil_append, ← List.map_cons] at ht
      obtain ⟨x, hx, rfl⟩ := List.mem_map.1 ht
      exact wellFormed_plain (hs x hx)
    · intro t ht e he
      rw [List.nil_append, ← List.map_cons] at ht
      obtain ⟨x, hx, rfl⟩ := List.mem_map.1 ht
      rcases he with he | ⟨h, hh, -⟩
      · exact hn x hx e he
      · simp [HybridSection.plain] at hh
  rw [cloneHybrids, hk, hq]
  simp only []
  rw [findHybridStream, hf]
  rfl

/-! ### Without merging -/

/-- **C112, written objects.**  A file whose sections are not merged has every object of its tables. -/
theorem C112_written (chain : List HybridSection) (w : List (Nat × Nat)) (h : hybridFile chain = .ok w) (s : HybridSection)
    (hs : s ∈ chain) (hd : HybridSound s) (e : XEntry) (he : e ∈ s.entries) (hu : e.inUse = true) : (e.num, e.gen) ∈ w := by
  obtain ⟨-, -, h⟩ := bind_ok h
  simp only [Except.ok.injEq] at h
  subst h
  rw [List.mem_flatMap]
  refine ⟨s, hs, ?_⟩
  have hm := ((sorted_spec hd.entries).2.1 e).2 he
  rw [hybridWritten]
  cases hq : s.stm with
  | none => exact List.mem_map.2 ⟨e, List.mem_filter.2 ⟨hm, hu⟩, rfl⟩
  | some x =>
    obtain ⟨n, g, l⟩ := x
    simp only [List.mem_append, List.mem_map, List.mem_filter, List.mem_singleton]
    by_cases hx : e.num = n ∧ e.gen = g
    · exact Or.inr (by rw [hx.1, hx.2])
    · refine Or.inl ⟨e, ⟨hm, ?_⟩, rfl⟩
      simp only [Bool.and_eq_true, Bool.not_eq_true', Bool.and_eq_false_iff, beq_eq_false_iff_ne]
      refine ⟨?_, hu⟩
      by_cases h1 : e.num = n
      · exact Or.inr fun h2 => hx ⟨h1, h2⟩
      · exact Or.inl h1

/-- A hidden object is not written: whatever the streams of the file list, only objects of the tables and the streams themselves
are in the file. -/
theorem C112_lost_counterexample (chain : List HybridSection) (w : List (Nat × Nat)) (h : hybridFile chain = .ok w) (e : XEntry)
    (hs : ∀ s ∈ chain, HybridSound s)
    (hn : ∀ s ∈ chain, (∀ x ∈ s.entries, x.num ≠ e.num) ∧ ∀ n g l, s.stm = some (n, g, l) → n ≠ e.num) :
    (e.num, e.gen) ∉ w := by
  obtain ⟨-, -, h⟩ := bind_ok h
  simp only [Except.ok.injEq] at h
  subst h
  rw [List.mem_flatMap]
  rintro ⟨s, hsm, hw⟩
  obtain ⟨h1, h2⟩ := hn s hsm
  have hm := (sorted_spec (hs s hsm).entries).2.1
  rw [hybridWritten] at hw
  cases hq : s.stm with
  | none =>
    rw [hq] at hw
    obtain ⟨x, hx, hxe⟩ := List.mem_map.1 hw
    simp only [Prod.mk.injEq] at hxe
    exact h1 x ((hm x).1 (List.mem_filter.1 hx).1) hxe.1
  | some y =>
    obtain ⟨n, g, l⟩ := y
    rw [hq] at hw
    simp only [List.mem_append, List.mem_map, List.mem_filter, List.mem_singleton, Prod.mk.injEq] at hw
    rcases hw with ⟨x, ⟨hx, -⟩, hxe, -⟩ | ⟨hne, -⟩
    · exact h1 x ((hm x).1 hx) hxe
    · exact h2 n g l hq hne.symm

/-- A file whose oldest section has a hybrid stream cannot be saved without merging. -/
theorem C112_oldest_counterexample (s : HybridSection) (rest : List HybridSection) (hk : s.kind = .table)
    (hq : s.stm.isSome = true) : hybridFile (s :: rest) = .error .throw := by
  rw [hybridFile, List.length_cons, List.range_succ_eq_map, List.mapM_cons]
  have : hybridSize (s :: rest) 0 = .error .throw := by
    rw [hybridSize]
    simp [hk, hq]
  rw [this]
  rfl

/-- The entry Size of the trailer is to be greater than all object numbers.  It is the number of entries of the section and of
the one before it, whatever the numbers of the hidden objects. -/
theorem C112_size_counterexample (p s : HybridSection) (hk : s.kind = .table) (n g : Nat) (h : List XEntry)
    (hq : s.stm = some (n, g, h)) (e : XEntry) (_he : e ∈ h) (hn : p.entries.length + s.entries.length ≤ e.num) :
    ∃ size, hybridSize [p, s] 1 = .ok size ∧ ¬ e.num < size := by
  refine ⟨s.entries.length + p.entries.length, ?_, by omega⟩
  rw [hybridSize]
  simp [hk, hq]

/-! ### The hypotheses are met -/

/-- A file as a word processor makes them: a table that lists the stream, and an empty table with the hidden objects. -/
def sampleHybrid : List HybridSection :=
  [⟨.table, [], some (4, 0, [⟨5, 0, .compressed 3 0⟩, ⟨6, 0, .compressed 3 1⟩])⟩,
   ⟨.table, [⟨0, 65535, .free 0⟩, ⟨1, 0, .used 15⟩, ⟨3, 0, .used 90⟩, ⟨4, 0, .used 300⟩], none⟩]

theorem sampleHybrid_sound : ∀ s ∈ sampleHybrid, HybridSound s := by
  intro s hs
  simp only [sampleHybrid, List.mem_cons, List.not_mem_nil, or_false] at hs
  rcases hs with rfl | rfl
  · refine ⟨by simp [Distinct], fun n g h e => ?_, by simp, by simp⟩
    simp only [Option.some.injEq, Prod.mk.injEq] at e
    obtain ⟨-, -, rfl⟩ := e
    simp [Distinct]
  · exact ⟨by simp [Distinct], by simp, by simp, by simp⟩

example : cloneHybrids (· == (4, 0)) [] sampleHybrid = .ok (sampleHybrid.map HybridSection.view) := by
  refine C112_copy_partial _ sampleHybrid sampleHybrid_sound ?_
  intro s hs n g h e
  simp only [sampleHybrid, List.mem_cons, List.not_mem_nil, or_false] at hs
  rcases hs with rfl | rfl
  · simp only [Option.some.injEq, Prod.mk.injEq] at e
    obtain ⟨rfl, rfl, rfl⟩ := e
    refine ⟨⟨⟨_, List.mem_cons_of_mem _ List.mem_cons_self, ⟨4, 0, .used 300⟩, by simp, rfl, rfl⟩, ?_⟩, rfl⟩
    intro t ht x hx h1 h2
    simp only [sampleHybrid, List.mem_cons, List.not_mem_nil, or_false] at ht
    rcases ht with rfl | rfl
    · simp only [HybridSection.view, Holds] at hx
      simp at hx
      rcases hx with rfl | rfl <;> rfl
    · simp only [HybridSection.view, Holds] at hx
      simp at hx
      rcases hx with rfl | rfl | rfl | rfl <;> first | rfl | (simp at h1)
  · simp at e

example : Chain.find (sampleHybrid.map HybridSection.view) 6 0 = .ok ⟨6, 0, .compressed 3 1⟩ := by rfl
example : (mergeHybrids sampleHybrid.reverse).toOption.map (·.entries.map XEntry.num) = some [0, 1, 3, 4, 5, 6] := by decide +kernel
example : hybridFile sampleHybrid.reverse = .ok [(1, 0), (3, 0), (4, 0), (4, 0)] := by rfl

/-- The same hidden object, as the standard has it: free in the table. -/
example : Chain.find [(⟨.table, [⟨6, 65535, .free 0⟩], some (4, 0, [⟨6, 0, .compressed 3 1⟩])⟩ : HybridSection).view] 6 0
    = .error .missing := by rfl

end VPdf
