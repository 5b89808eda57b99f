import Verif.Lemmas.XrefStream
import Verif.Lemmas.Destinations
import Verif.Props.CopyObjects
/-
  Properties of named destinations when documents are appended (C83).
-/
namespace VPdf
open Spec

/-- **C83, what a name leads to.**  A name of the document that has a destination is found, with the page and the kind of the view. -/
theorem C83_find (t : MergeTarget) (dests : Dict) (key : Bytes) (o : Obj) (page : ObjRef) (kind : Bytes) (params : List Obj)
    (hd : t.dests = some dests) (hn : named t key = some o) (hs : DestShows t.doc.objs o page (.name kind :: params)) :
    findDestination (pageView t.doc.objs) dests key = .ok (.ref page.1 page.2, kind) := by
  obtain ⟨v, h1, h2⟩ := hs
  unfold named at hn
  rw [hd, Option.bind_some, valueAt_eq] at hn
  unfold findDestination
  rw [hn]
  dsimp only
  rw [behind_deref h1]
  cases h2 with
  | array n g k params hk =>
    unfold createDestination destinationArray
    rw [ok_bind]
    exact if_pos hk
  | dict d n g k params hk hd =>
    rw [valueAt_eq] at hd
    unfold createDestination destinationArray treeArray treeEntry
    simp only [hd]
    exact if_pos hk

/-- **C83, appending a document with named destinations.**  The pages are appended as in C80; every name of the source whose destination
shows a page leads, in the merged document, to the copy of that page, with the same view and the same other entries; the names of the
destination document keep their values; there are no other names.  The objects of the destination document other than the nodes of its
page tree are unchanged.
Missing: destinations that are dictionaries with their array by reference, page numbers, and sources with an entry that is no
destination, for which the claim is false (below); a name that both documents use (`C83_conflict`). -/
theorem C83_append_partial (src : SStore) (t : MergeTarget) (sroot root : ObjRef) (kids ts : List PageTree) (l : List ObjRef) (names : Dict)
    (hs : StoredTree (pageView src) (.node sroot kids)) (hp : ∀ p ∈ pagesOf kids, Shaped (pageView src) (.page p))
    (hpn : (pagesOf kids).Nodup) (hl : ∀ r, DocObjects.Has src r → r ∈ l) (hc : Complete src)
    (hnk : (names.map (·.1)).Nodup) (hpr : ∀ e ∈ names, ProperDest src e.2)
    (hcf : ∀ e ∈ names, ∀ p ∈ pagesOf kids, ∀ view, DestShows src e.2 p view → named t e.1 = none)
    (hds : ∀ d, t.dests = some d → SortedKeys d)
    (ht : Shaped (pageView t.doc.objs) (.node root ts)) (ht' : StoredTree (pageView t.doc.objs) (.node root ts))
    (hnd : (PageTree.node root ts).nodes.Nodup)
    (hr : Roomy t.doc.alloc ((pagesOf kids).length * (l.length + names.length) + 1))
    (hd : Listed t.doc.objs t.doc.alloc.chain) (hsize : ts.length + (pagesOf kids).length < 2 ^ 64 - 1)
    (hpages : (pagesOf ts).length + (pagesOf kids).length + 1 < 2 ^ 63) :
    ∃ n, ∀ f, n ≤ f → ∃ (src' : SStore) (t' : MergeTarget) (new : List ObjRef),
      appendPagesNamed f sroot root names (pagesOf kids).length 1 src t = .ok (new, src', t') ∧
      ShowsPages (pageView t'.doc.objs) root (pagesOf ts ++ new) ∧ new.length = (pagesOf kids).length ∧
      (∀ (j : Nat) (p c : ObjRef), (pagesOf kids)[j]? = some p → new[j]? = some c →
        LooksLike (withoutParents src) p (withoutParents t'.doc.objs) c ∧
        ∀ e ∈ names, ∀ view, DestShows src e.2 p view → ∃ o, named t' e.1 = some o ∧ DestShows t'.doc.objs o c view ∧
          ∀ a, a ≠ b! "D" → a ≠ b! "Parent" → attributeOf src e.2 a = attributeOf t'.doc.objs o a) ∧
      (∀ q v, named t q = some v → named t' q = some v) ∧
      (∀ q, named t' q ≠ none → named t q ≠ none ∨ ∃ e ∈ names, e.1 = q ∧ ∃ p ∈ pagesOf kids, ∃ view, DestShows src e.2 p view) ∧
      new.Nodup ∧ (∀ c ∈ new, ¬ DocObjects.Has t.doc.objs c) ∧
      (∀ r, r ∉ (PageTree.node root ts).nodes → DocObjects.Has t.doc.objs r → t'.doc.objs r = t.doc.objs r) ∧
      (∀ r, withoutParents src' r = withoutParents src r) ∧ (∀ r, r ∉ pagesOf kids → src' r = src r) := by
  refine ⟨l.length + 1 + (PageTree.node sroot kids).depth + (depthOf ts + 2), fun f hf => ?_⟩
  obtain ⟨src', t', new, b1, b2, b3, b4, b5, b6, b7, b8, b9, b10, b11, b12⟩ := appendPagesNamed_spec (f := f) (k := 0) (l := l) (names := names)
    (sroot := sroot) (root := root) (kids := kids) (by omega) (by omega) (by omega) hnk hpn _ 0 src t ts (by omega) hs hp hl hc ht ht' hnd
    (roomy_mono hr (by split <;> omega)) hd (by omega) hsize hpages hpr hds
    (fun e he j p view hj hv => hcf e he p (List.mem_of_getElem? hj) view hv)
  refine ⟨src', t', new, b1, ?_, b2, fun j p c h1 h2 => ⟨?_, fun e he view hv => ?_⟩, b10, ?_, b6, b5, b7, fun r => ?_, b9⟩
  · have := C47_page_number _ _ _ b3
    rwa [PageTree.pages, pagesOf_append, pagesOf_pages] at this
  · exact (b4 j p c (by rw [Nat.zero_add]; exact h1) h2).looks
  · exact b11 e he j p c view (by rw [Nat.zero_add]; exact h1) h2 hv
  · intro q hq
    rcases b12 q hq with h | ⟨e, he, hk, p, view, hm, hv⟩
    · exact .inl h
    · exact .inr ⟨e, he, hk, p, hm, view, hv⟩
  · rw [withoutParents_eq, withoutParents_eq, b8]

/-- **C83, names of both documents.**  Whatever the documents are, when a page is appended, no name that leads to the page was used
by the destination document before: such a page is refused. The names of the destination document keep their values. -/
theorem C83_conflict (f : Nat) (src src' : SStore) (names : Dict) (t t' : MergeTarget) (root page c : ObjRef)
    (h : appendPageNamed f src names t root page = .ok (c, src', t')) :
    (∀ e ∈ names, ∀ view, DestShows src e.2 page view → named t e.1 = none) ∧ ∀ q v, named t q = some v → named t' q = some v := by
  unfold appendPageNamed at h
  obtain ⟨⟨c1, src1, doc⟩, h1, h⟩ := bind_ok h
  dsimp only at h
  obtain ⟨t1, h2, h⟩ := bind_ok h
  cases h
  obtain ⟨a1, a2⟩ := mergeDestinations_names _ _ _ h2
  refine ⟨fun e he view hv => ?_, a2⟩
  obtain ⟨d, _, _, hd, _⟩ := C80_only_pages f src src' root page c t.doc doc h1
  unfold appendForeignPage at h1
  rw [hd, ok_bind] at h1
  obtain ⟨x, _, h1⟩ := bind_ok h1
  obtain ⟨_, _, h1⟩ := bind_ok h1
  obtain ⟨_, _, h1⟩ := bind_ok h1
  cases h1
  refine a1 e he view ((destShows_drop ?_ _ _ _).1.2 hv)
  unfold dictAt at hd
  split at hd
  · rename_i d' hpv
    cases hd
    exact pageView_dict hpv
  · cases hd

/-- A document with two pages and an object that is a destination. -/
def namedSource : SStore := fun r =>
  if r = (1, 0) then .direct (.dict [(b! "Count", .int 2), (b! "Kids", .arr [.ref 2 0, .ref 3 0]), (b! "Type", .name (b! "Pages"))])
  else if r = (2, 0) then .direct (.dict [(b! "Parent", .ref 1 0), (b! "Type", .name (b! "Page"))])
  else if r = (3, 0) then .direct (.dict [(b! "Parent", .ref 1 0), (b! "Type", .name (b! "Page"))])
  else if r = (4, 0) then .direct (.dict [(b! "D", .arr [.ref 2 0, .name (b! "FitH"), .int 7]), (b! "X", .int 1)])
  else if r = (5, 0) then .direct (.arr [.ref 2 0, .name (b! "Fit")])
  else .direct .null

/-- Its names: a destination held directly that shows the second page, and one that is an object of its own and shows the first. -/
def namedNames : Dict := [(b! "last", .arr [.ref 3 0, .name (b! "Fit")]), (b! "start", .ref 4 0)]

/-- A document with one page, which has the name "here". -/
def namedTarget : MergeTarget := ⟨sampleTarget, some [(b! "here", .arr [.ref 2 0, .name (b! "Fit")])]⟩

/-- What appending the document leads to: "start" shows the first appended page, "last" the second one. -/
theorem named_appended : ∃ src' t', appendPagesNamed 20 (1, 0) (1, 0) namedNames 2 1 namedSource namedTarget = .ok ([(3, 0), (5, 0)], src', t') ∧
    named t' (b! "here") = some (.arr [.ref 2 0, .name (b! "Fit")]) ∧
    named t' (b! "start") = some (.ref 4 0) ∧
    t'.doc.objs (4, 0) = .direct (.dict [(b! "D", .arr [.ref 3 0, .name (b! "FitH"), .int 7]), (b! "X", .int 1)]) ∧
    named t' (b! "last") = some (.arr [.ref 5 0, .name (b! "Fit")]) :=
  ⟨_, _, rfl, rfl, rfl, rfl, rfl⟩

theorem namedSource_has {r : ObjRef} (h : DocObjects.Has namedSource r) : r ∈ [(1, 0), (2, 0), (3, 0), (4, 0), (5, 0)] := by
  unfold DocObjects.Has namedSource at h
  simp only [List.mem_cons, List.not_mem_nil, or_false]
  by_cases h1 : r = (1, 0)
  · exact .inl h1
  by_cases h2 : r = (2, 0)
  · exact .inr (.inl h2)
  by_cases h3 : r = (3, 0)
  · exact .inr (.inr (.inl h3))
  by_cases h4 : r = (4, 0)
  · exact .inr (.inr (.inr (.inl h4)))
  by_cases h5 : r = (5, 0)
  · exact .inr (.inr (.inr (.inr h5)))
  simp [h1, h2, h3, h4, h5] at h

theorem namedSource_complete : Complete namedSource := by
  intro r q h
  have hq : q ∈ refsS (namedSource r) := (refsS_iff _ _).mpr h
  have hr : DocObjects.Has namedSource r := fun e => by rw [e] at hq; cases hq
  have := namedSource_has hr
  simp only [List.mem_cons, List.not_mem_nil, or_false] at this
  have key : q ∈ [((1, 0) : ObjRef), (2, 0), (3, 0)] := by
    rcases this with rfl | rfl | rfl | rfl | rfl
    · have e : refsS (namedSource (1, 0)) = [(2, 0), (3, 0)] := rfl
      rw [e] at hq; simp at hq; rcases hq with rfl | rfl <;> simp
    · have e : refsS (namedSource (2, 0)) = [(1, 0)] := rfl
      rw [e] at hq; simp at hq; subst hq; simp
    · have e : refsS (namedSource (3, 0)) = [(1, 0)] := rfl
      rw [e] at hq; simp at hq; subst hq; simp
    · have e : refsS (namedSource (4, 0)) = [(2, 0)] := rfl
      rw [e] at hq; simp at hq; subst hq; simp
    · have e : refsS (namedSource (5, 0)) = [(2, 0)] := rfl
      rw [e] at hq; simp at hq; subst hq; simp
  simp only [List.mem_cons, List.not_mem_nil, or_false] at key
  unfold DocObjects.Has
  rcases key with rfl | rfl | rfl <;> intro e <;> cases e

theorem namedSource_stored : StoredTree (pageView namedSource) (.node (1, 0) sampleSourceKids) := by
  refine stored_of_counted _ ?_ ?_ (by decide)
  · simp [sampleSourceKids, Shaped, ShapedAll, pageView, namedSource, kidRefs, mapFind, PageTree.ref]
  · simp [sampleSourceKids, Counted, CountedAll, pageView, namedSource, mapFind, pagesOf, PageTree.pages]

theorem namedStart_shows : DestShows namedSource (.ref 4 0) (2, 0) [.name (b! "FitH"), .int 7] :=
  ⟨_, rfl, .dict _ 2 0 _ _ (by simp [viewKinds]) rfl⟩

theorem namedLast_shows : DestShows namedSource (.arr [.ref 3 0, .name (b! "Fit")]) (3, 0) [.name (b! "Fit")] :=
  ⟨_, rfl, .array 3 0 _ _ (by simp [viewKinds])⟩

/-- The hypotheses of `C83_append_partial` hold for the samples. -/
example : ∃ n, ∀ f, n ≤ f → ∃ (src' : SStore) (t' : MergeTarget) (new : List ObjRef),
    appendPagesNamed f (1, 0) (1, 0) namedNames 2 1 namedSource namedTarget = .ok (new, src', t') ∧
      ShowsPages (pageView t'.doc.objs) (1, 0) ((2, 0) :: new) ∧
      (∃ o c, named t' (b! "start") = some o ∧ new[0]? = some c ∧ DestShows t'.doc.objs o c [.name (b! "FitH"), .int 7] ∧
        attributeOf t'.doc.objs o (b! "X") = some (.int 1)) ∧
      named t' (b! "here") = some (.arr [.ref 2 0, .name (b! "Fit")]) := by
  obtain ⟨n, h⟩ := C83_append_partial namedSource namedTarget (1, 0) (1, 0) sampleSourceKids [.page (2, 0)] _ namedNames namedSource_stored
    (by
      intro p hp
      simp only [sampleSourceKids, pagesOf, PageTree.pages, List.singleton_append, List.mem_cons, List.not_mem_nil, or_false] at hp
      rcases hp with rfl | rfl <;> simp [Shaped, pageView, namedSource, mapFind])
    (by decide) (fun r => namedSource_has) namedSource_complete (by decide)
    (by
      intro e he
      simp only [namedNames, List.mem_cons, List.not_mem_nil, or_false] at he
      rcases he with rfl | rfl
      · exact ⟨_, _, _, namedLast_shows, rfl⟩
      · exact ⟨_, _, _, namedStart_shows, rfl⟩)
    (by
      intro e he p _ view _
      simp only [namedNames, List.mem_cons, List.not_mem_nil, or_false] at he
      rcases he with rfl | rfl <;> rfl)
    (by
      intro d hd
      cases hd
      simp [SortedKeys])
    sampleTarget_shaped sampleTarget_stored (by simp [PageTree.nodes, nodesOf])
    (by
      obtain ⟨h1, h2, N, h3, h4, h5⟩ := sampleTarget_roomy
      refine ⟨h1, h2, 3, by decide, ?_, by decide⟩
      rintro n ⟨s, hs, e, he, rfl⟩
      simp only [namedTarget, sampleTarget, List.mem_singleton] at hs
      subst hs
      rcases he with he | ⟨h, hh, _⟩
      · simp only [List.mem_cons, List.not_mem_nil, or_false] at he
        rcases he with rfl | rfl | rfl <;> decide
      · cases hh)
    sampleTarget_listed (by decide) (by decide)
  refine ⟨n, fun f hf => ?_⟩
  obtain ⟨src', t', new, h1, h2, h3, h4, h5, _⟩ := h f hf
  refine ⟨src', t', new, h1, h2, ?_, h5 _ _ rfl⟩
  have hlen : new.length = 2 := h3
  have hc : new[0]? = some new[0] := List.getElem?_eq_getElem (by omega)
  obtain ⟨o, a1, a2, a3⟩ := (h4 0 (2, 0) _ rfl hc).2 (b! "start", .ref 4 0) (by simp [namedNames]) _ namedStart_shows
  exact ⟨o, _, a1, hc, a2, by rw [← a3 _ (by decide) (by decide)]; rfl⟩

/-- `C83_find` and `C83_conflict` for the samples: "start" is found in the merged document. -/
example : ∃ c src' t' dests, appendPageNamed 20 namedSource namedNames namedTarget (1, 0) (2, 0) = .ok (c, src', t') ∧ t'.dests = some dests ∧
    findDestination (pageView t'.doc.objs) dests (b! "start") = .ok (.ref c.1 c.2, b! "FitH") := ⟨_, _, _, _, rfl, rfl, rfl⟩

/-- A document that uses the name "start" is refused the page. -/
example : appendPageNamed 20 namedSource namedNames ⟨sampleTarget, some [(b! "start", .arr [.ref 2 0, .name (b! "Fit")])]⟩ (1, 0) (2, 0) =
    .error .notSupported := rfl

/-- C83: a destination that gives the number of a page refers to the page that has this number (from 1) in the whole document,
however deep the page stands in the page tree. -/
theorem C83_number (s : PStore) (k f : Nat) (page root r : ObjRef) (h : RootAbove s k page root) (hf : k < f) (i : Nat)
    (hi : (i : Int) ≤ 9223372036854775807) (hr : pageAt s f root i = .ok r) :
    isReferencing s f page (.int i) = .ok (decide (r = page)) := by
  have hroot : ∀ f, k < f → pageRoot s f page = .ok root := by
    clear hr
    induction h with
    | top r d h1 h2 =>
      intro f hf
      obtain ⟨f, rfl⟩ : ∃ f', f = f' + 1 := ⟨f - 1, by omega⟩
      rw [valueAt_eq] at h2
      simp [pageRoot, dictAt, h1, h2, ok_bind]
      rfl
    | up k r root d d' n g h1 h2 h3 h4 h5 ih =>
      intro f hf
      obtain ⟨f, rfl⟩ : ∃ f', f = f' + 1 := ⟨f - 1, by omega⟩
      rw [valueAt_eq] at h2 h4
      have := ih (by omega) f (by omega)
      have hn : ∃ x, pageTreeNode s (n, g) = .ok x := by
        have ht : treeEntry s d' (b! "Type") = .ok (.name (b! "Pages")) := by simp [treeEntry, h4]
        have hd' : dictAt s (n, g) = .ok d' := by simp [dictAt, h3]
        refine ⟨d', ?_⟩
        rw [pageTreeNode, hd', ok_bind, if_neg (by simp [h4])]
        rw [ht]
        rfl
      obtain ⟨x, hx⟩ := hn
      have hd : dictAt s r = .ok d := by simp [dictAt, h1]
      rw [pageRoot, hd, ok_bind]
      simp only [h2]
      rw [hx, ok_bind, this]
  have hc : safeConvert .u64 .i64 (i : Int) = .ok (i : Int) := safeConvert_u64 (by omega)
  unfold isReferencing
  dsimp only
  rw [hroot f hf, ok_bind, hc, ok_bind, Int.toNat_natCast, hr, ok_bind]
  rfl

/-- A page below a root: it has the number 1, and not 2. -/
example : let s : PStore := fun r => if r = (1, 0) then .dict [(b! "Count", .int 2), (b! "Kids", .arr [.ref 2 0, .ref 3 0]),
        (b! "Type", .name (b! "Pages"))]
      else if r = (2, 0) ∨ r = (3, 0) then .dict [(b! "Parent", .ref 1 0), (b! "Type", .name (b! "Page"))] else .null
    RootAbove s 1 (2, 0) (1, 0) ∧ pageAt s 9 (1, 0) 1 = .ok (2, 0) ∧ pageAt s 9 (1, 0) 2 = .ok (3, 0) :=
  ⟨.up 0 _ _ _ _ 1 0 rfl rfl rfl rfl (.top _ _ rfl rfl), rfl, rfl⟩

/-- **C83: false for a source with an entry that is no destination.**  One entry that is null, whose page does not exist, or that has a
page number: then no page of the document can be appended, also those without destinations. -/
theorem C83_bad_counterexample :
    (∀ p ∈ pagesOf sampleSourceKids, ∃ e, appendPageNamed 20 namedSource [(b! "gone", .null)] namedTarget (1, 0) p = .error e) ∧
    (∀ p ∈ pagesOf sampleSourceKids,
      ∃ e, appendPageNamed 20 namedSource [(b! "gone", .arr [.ref 9 0, .name (b! "Fit")])] namedTarget (1, 0) p = .error e) ∧
    (∀ p ∈ pagesOf sampleSourceKids,
      ∃ e, appendPageNamed 20 namedSource [(b! "first", .arr [.int 1, .name (b! "Fit")])] namedTarget (1, 0) p = .error e) ∧
    ∀ p ∈ pagesOf sampleSourceKids, ∃ x, appendPageNamed 20 namedSource [] namedTarget (1, 0) p = .ok x := by
  have hp : ∀ {P : ObjRef → Prop}, P (2, 0) → P (3, 0) → ∀ p ∈ pagesOf sampleSourceKids, P p := by
    intro P h1 h2 p hp
    simp only [sampleSourceKids, pagesOf, PageTree.pages, List.singleton_append, List.mem_cons, List.not_mem_nil, or_false] at hp
    rcases hp with rfl | rfl
    · exact h1
    · exact h2
  exact ⟨hp ⟨_, rfl⟩ ⟨_, rfl⟩, hp ⟨_, rfl⟩ ⟨_, rfl⟩, hp ⟨_, rfl⟩ ⟨_, rfl⟩, hp ⟨_, rfl⟩ ⟨_, rfl⟩⟩

/-- A document with one page and, as object 5, a destination without a name. -/
def sharedTarget : MergeTarget :=
  ⟨⟨fun r => if r = (5, 0) then .direct (.arr [.ref 2 0, .name (b! "FitB")]) else sampleTarget.objs r,
    { chain := [{ kind := .table, entries := [⟨0, 65535, .free 0⟩, ⟨1, 0, .used 10⟩, ⟨2, 0, .used 20⟩, ⟨5, 0, .used 30⟩] }] }⟩, some []⟩

/-- **C83: false for a destination that is a dictionary with its array by reference.**  The reference is kept as it is: the name leads
to the object of the destination document with this number, here with another view, and that object is changed; in a document that has
no such object the page is refused. -/
theorem C83_shared_counterexample :
    (∃ c src' t', appendPageNamed 20 namedSource [(b! "q", .dict [(b! "D", .ref 5 0)])] sharedTarget (1, 0) (2, 0) = .ok (c, src', t') ∧
      namedSource (5, 0) = .direct (.arr [.ref 2 0, .name (b! "Fit")]) ∧
      named t' (b! "q") = some (.dict [(b! "D", .ref 5 0)]) ∧
      sharedTarget.doc.objs (5, 0) = .direct (.arr [.ref 2 0, .name (b! "FitB")]) ∧
      t'.doc.objs (5, 0) = .direct (.arr [.ref c.1 c.2, .name (b! "FitB")]) ∧ c ≠ (2, 0)) ∧
    ∃ e, appendPageNamed 20 namedSource [(b! "q", .dict [(b! "D", .ref 5 0)])] namedTarget (1, 0) (2, 0) = .error e :=
  ⟨⟨_, _, _, rfl, rfl, rfl, rfl, rfl, by decide⟩, ⟨_, rfl⟩⟩

end VPdf
