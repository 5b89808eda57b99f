import Verif.Lemmas.OptimizedSave
import Verif.Props.Optimize
/-
  Lemmas about the merge of the sections of a document of tables.
-/
namespace VPdf
open Spec

theorem cloneEntry_object (e : WEntry) : entryObject (cloneEntry e) = entryObject e := by
  obtain ⟨n, g, k⟩ := e
  cases k with
  | free n => rfl
  | compressed a b o => rfl
  | used off o => cases o <;> rfl

theorem foldAdd_length : ∀ (l acc : List WEntry), (l.foldl (fun acc e => entryAdd e acc) acc).length ≤ acc.length + l.length
  | [], acc => Nat.le_refl _
  | e :: l, acc => by
    have h1 := foldAdd_length l (entryAdd e acc)
    have h2 := entryAdd_length e acc
    rw [List.foldl_cons, List.length_cons]
    omega

/-- The entry a document has for a reference, newest section first. -/
def docEntry (ss : List WSection) (r : Nat × Nat) : Option WEntry :=
  ss.findSome? fun s => s.entries.find? fun e => e.num == r.1 && e.gen == r.2

theorem docEntry_mem {ss : List WSection} {r : Nat × Nat} {e : WEntry} (h : docEntry ss r = some e) :
    (∃ s ∈ ss, e ∈ s.entries) ∧ (e.num, e.gen) = r := by
  obtain ⟨s, hs, hf⟩ := List.exists_of_findSome?_eq_some h
  have hp := List.find?_some hf
  simp only [Bool.and_eq_true, beq_iff_eq] at hp
  exact ⟨⟨s, hs, List.mem_of_find?_eq_some hf⟩, by rw [hp.1, hp.2]⟩

theorem docEntry_none {ss : List WSection} {r : Nat × Nat} (h : docEntry ss r = none) {s : WSection} (hs : s ∈ ss) {e : WEntry}
    (he : e ∈ s.entries) : (e.num, e.gen) ≠ r := by
  rintro rfl
  have := List.findSome?_eq_none_iff.mp h s hs
  have := List.find?_eq_none.mp this e he
  simp at this

theorem docEntry_newest : ∀ {ss : List WSection}, (∀ s ∈ ss, ∀ s' ∈ ss, ∀ e ∈ s.entries, ∀ e' ∈ s'.entries, e.num = e'.num → e.gen = e'.gen) →
    ∀ {r : Nat × Nat} {e : WEntry}, docEntry ss r = some e → NewestEntry (ss.map cloneSection) r.1 (cloneEntry e)
  | [], _, _, _, h => by cases h
  | s :: ss, hst, r, e, h => by
    have hall := docEntry_mem h
    rw [docEntry, List.findSome?_cons] at h
    cases hf : s.entries.find? fun e => e.num == r.1 && e.gen == r.2 with
    | some x =>
      rw [hf] at h
      injection h with h
      subst h
      have := NewestEntry.here (cloneSection s) (ss.map cloneSection) (cloneEntry x)
        (List.mem_map.mpr ⟨x, List.mem_of_find?_eq_some hf, rfl⟩)
      rw [(cloneEntry_num x).1] at this
      rw [← hall.2]
      exact this
    | none =>
      rw [hf] at h
      have h' : docEntry ss r = some e := h
      obtain ⟨⟨s', hs', he'⟩, hr⟩ := docEntry_mem h'
      refine .older _ _ _ _ ?_ (docEntry_newest (fun a ha b hb => hst a (by simp [ha]) b (by simp [hb])) h')
      intro x hx hn
      obtain ⟨y, hy, rfl⟩ := List.mem_map.mp hx
      rw [(cloneEntry_num y).1] at hn
      have hen : e.num = r.1 := by rw [← hr]
      have hg := hst s (by simp) s' (by simp [hs']) y hy e he' (by rw [hn, hen])
      have hne := List.find?_eq_none.mp hf y hy
      rw [hn, hg, ← hr] at hne
      simp at hne

theorem objectAt_plain {m : WSection} (hown : m.own = none) (hs : m.entries.Pairwise fun a b => a.num < b.num) {x : WEntry}
    (hx : x ∈ m.entries) : objectAt m (x.num, x.gen) = entryObject x := by
  rw [objectAt_mem hs hx, sectionObject_eq, hown]
  simp

/-- A document of tables is merged into a table with the same objects, which is ready for the other optimisations. -/
theorem merged_ready {P : SObj → Prop} (hnul : P (.direct .null)) {s0 : WSection} {rest : List WSection} (hd : PlainDoc (s0 :: rest))
    (hobj : ∀ s ∈ s0 :: rest, ∀ e ∈ s.entries, P (entryObject e)) :
    ∃ m, mergeSections ((s0 :: rest).map cloneSection).reverse = [m] ∧ WriteReady P m ∧ (∀ r, objectAt m r = docObject (s0 :: rest) r) ∧
      (∀ q ∈ trailerKeys, q ≠ b! "Prev" → mapFind q m.trailer = mapFind q s0.trailer) := by
  have hne : ((s0 :: rest).map cloneSection).reverse ≠ [] := by simp
  have hbase : ((s0 :: rest).map cloneSection).reverse.find? (fun s => s.own.isSome) = none := by
    rw [List.find?_eq_none]
    intro x hx
    rw [List.mem_reverse, List.mem_map] at hx
    obtain ⟨y, hy, rfl⟩ := hx
    have : (cloneSection y).own = none := (hd.good y hy).2
    rw [this]; simp
  have hlast : ((s0 :: rest).map cloneSection).reverse.getLast? = some (cloneSection s0) := by simp
  have good0 := (hd.good s0 (by simp)).1
  have hown0 := (hd.good s0 (by simp)).2
  have hc0 := good0.count
  obtain ⟨t1, t2⟩ := cloneTrailer_spec s0.entries.length s0.trailer good0.trailer (by omega)
  have htr : (cloneSection s0).trailer = cloneTrailer s0.entries.length s0.trailer := by rw [cloneSection, hown0]
  have hlen0 : (cloneSection s0).entries.length = s0.entries.length := by simp [cloneSection]
  have hs0 : Holdable (.dict [(b! "Size", .int s0.entries.length)]) :=
    .dict _ (List.pairwise_singleton _ _) (by intro x hx; simp at hx; subst hx; exact .int _ (by omega) (by omega))
  obtain ⟨u1, u2⟩ := cloneTrailer_fold (cloneSection s0).trailer trailerKeys _ (by rw [htr]; exact t1) hs0
  have hm : mergeSections ((s0 :: rest).map cloneSection).reverse = [⟨none, mergedEntries ((s0 :: rest).map cloneSection).reverse,
      mapErase (b! "Prev") (dictMerge [] (cloneTrailer s0.entries.length (cloneSection s0).trailer))⟩] := by
    rw [mergeSections, hlast]
    dsimp only
    rw [hbase, hlen0]
    rfl
  have hmerge : dictMerge [] (cloneTrailer s0.entries.length (cloneSection s0).trailer) = cloneTrailer s0.entries.length (cloneSection s0).trailer := by
    obtain ⟨a, b⟩ := dictMerge_spec (cloneTrailer s0.entries.length (cloneSection s0).trailer) [] List.Pairwise.nil
    exact sorted_ext a (holdable_dict u1).1 fun q => by rw [b]; rfl
  rw [hmerge] at hm
  have hsorted := mergedEntries_sorted ((s0 :: rest).map cloneSection).reverse
  have hfrom := mergedEntries_from ((s0 :: rest).map cloneSection).reverse
  have hnew : ∀ {n e}, NewestEntry ((s0 :: rest).map cloneSection) n e → e.inUse = true → ∀ x,
      (x ∈ mergedEntries ((s0 :: rest).map cloneSection).reverse ∧ x.num = n) ↔ x = e := fun h hu x =>
    mergedEntries_newest (fun s hs => by
      obtain ⟨y, hy, rfl⟩ := List.mem_map.mp hs
      show (y.entries.map cloneEntry).Pairwise _
      rw [List.pairwise_map]
      refine (hd.good y hy).1.sorted.imp fun {a b} hab => ?_
      rw [(cloneEntry_num a).1, (cloneEntry_num b).1]; exact hab) h hu x
  refine ⟨_, hm, ⟨rfl, hsorted, ?_, ?_, ?_, ?_, ?_, ?_⟩, ?_, ?_⟩
  · -- the number of entries
    show (mergedEntries ((s0 :: rest).map cloneSection).reverse).length ≤ _
    rw [mergedEntries]
    have h1 := foldAdd_length (((((s0 :: rest).map cloneSection).reverse).flatMap WSection.entries).filter WEntry.inUse) [⟨0, 65535, .free 0⟩]
    have h2 := List.length_filter_le WEntry.inUse ((((s0 :: rest).map cloneSection).reverse).flatMap WSection.entries)
    have h3 : ((((s0 :: rest).map cloneSection).reverse).flatMap WSection.entries).length = ((s0 :: rest).map fun s => s.entries.length).sum := by
      rw [List.length_flatMap, List.map_reverse, List.sum_reverse, List.map_map]
      congr 1
      refine List.map_congr_left fun s _ => ?_
      simp [cloneSection]
    have h4 := hd.few
    simp only [List.length_singleton] at h1
    omega
  · intro x hx
    rcases hfrom x hx with rfl | ⟨hu, s, hs, hxs⟩
    · exact ⟨⟨by decide, by decide⟩, .inl rfl⟩
    · rw [List.mem_reverse, List.mem_map] at hs
      obtain ⟨y, hy, rfl⟩ := hs
      obtain ⟨e, he, rfl⟩ := List.mem_map.mp hxs
      have good := (hd.good y hy).1
      have hn := good.numbers e he
      have ho := good.objects e he
      have hp := hobj y hy e he
      refine ⟨by rw [(cloneEntry_num e).1, (cloneEntry_num e).2]; exact hn, .inr ?_⟩
      obtain ⟨n, g, k⟩ := e
      cases k with
      | free a => cases hu
      | compressed a b o => exact ho.elim
      | used off o =>
        cases o with
        | none => exact ⟨off, _, rfl, .null, hnul⟩
        | some o => exact ⟨off, o, rfl, ho o rfl, hp⟩
  · obtain ⟨a, b⟩ := holdable_dict u1
    exact .dict _ (mapErase_sorted a) fun x hx => b x ((List.mem_filter.mp hx).1)
  · intro q h1 h2
    rw [mapFind_erase]
    split
    · rfl
    · refine (u2 q).trans ?_
      rw [mapFind, if_neg (by simpa using h2), mapFind]
      dsimp only
      rw [if_neg h1]
  · refine ⟨s0.entries.length, ?_⟩
    rw [mapFind_erase, if_neg (by decide)]
    exact (u2 _).trans rfl
  · rw [mapFind_erase, if_pos rfl]
  · -- the objects
    intro r
    have hsteady := hd.steady
    generalize hmm : (⟨none, mergedEntries ((s0 :: rest).map cloneSection).reverse,
      mapErase (b! "Prev") (cloneTrailer s0.entries.length (cloneSection s0).trailer)⟩ : WSection) = m
    have hment : m.entries = mergedEntries ((s0 :: rest).map cloneSection).reverse := by rw [← hmm]
    have hmown : m.own = none := by rw [← hmm]
    have hmsorted : m.entries.Pairwise fun a b => a.num < b.num := by rw [hment]; exact hsorted
    have hdoc : docObject (s0 :: rest) r = match docEntry (s0 :: rest) r with | none => .direct .null | some e => entryObject e := rfl
    have hnull : (∀ e, docEntry (s0 :: rest) r = some e → ∃ n, e.kind = .free n) → objectAt m r = .direct .null := by
      intro hfree
      by_cases hex : ∃ x ∈ m.entries, (x.num, x.gen) = r
      · obtain ⟨x, hx, rfl⟩ := hex
        rw [objectAt_plain hmown hmsorted hx]
        rw [hment] at hx
        rcases hfrom x hx with rfl | ⟨hu, s, hs, hxs⟩
        · rfl
        · rw [List.mem_reverse, List.mem_map] at hs
          obtain ⟨y, hy, rfl⟩ := hs
          obtain ⟨e', he', rfl⟩ := List.mem_map.mp hxs
          rw [(cloneEntry_num e').1, (cloneEntry_num e').2] at hfree
          cases hde : docEntry (s0 :: rest) (e'.num, e'.gen) with
          | none => exact absurd rfl (docEntry_none hde hy he')
          | some e =>
            obtain ⟨⟨s2, hs2, he2⟩, hr⟩ := docEntry_mem hde
            injection hr with hr1 hr2
            obtain ⟨n, hn⟩ := ((hsteady s2 hs2 y hy e he2 e' he' hr1).2).mp (hfree e hde)
            obtain ⟨a, b, k⟩ := e'
            dsimp only at hn
            subst hn
            cases hu
      · exact objectAt_none fun x hx hxx => hex ⟨x, hx, by rw [hxx.1, hxx.2]⟩
    rw [hdoc]
    cases hde : docEntry (s0 :: rest) r with
    | none => exact hnull fun e he => by rw [hde] at he; cases he
    | some e =>
      dsimp only
      by_cases hfree : ∃ n, e.kind = .free n
      · rw [hnull fun e' he' => by rw [hde] at he'; injection he' with he'; rw [← he']; exact hfree]
        obtain ⟨n, hn⟩ := hfree
        rw [entryObject, hn]
      · have hu : (cloneEntry e).inUse = true := by
          obtain ⟨⟨s2, hs2, he2⟩, _⟩ := docEntry_mem hde
          have ho := (hd.good s2 hs2).1.objects e he2
          obtain ⟨n, g, k⟩ := e
          cases k with
          | free a => exact absurd ⟨a, rfl⟩ hfree
          | compressed a b o => exact ho.elim
          | used off o => cases o <;> rfl
        have hmem := (hnew (docEntry_newest (fun a ha b hb x hx y hy hxy => (hsteady a ha b hb x hx y hy hxy).1) hde) hu (cloneEntry e)).mpr rfl
        rw [← hment] at hmem
        have := objectAt_plain hmown hmsorted hmem.1
        rw [(cloneEntry_num e).1, (cloneEntry_num e).2, (docEntry_mem hde).2, cloneEntry_object] at this
        exact this
  · intro q hq hp
    rw [mapFind_erase, if_neg hp]
    refine (u2 q).trans ?_
    have : q ≠ b! "Size" := by rintro rfl; revert hq; decide
    rw [mapFind, if_neg (by simpa using this), mapFind]
    dsimp only
    rw [if_pos hq, htr, t2 q hq]

end VPdf
