import Verif.Lemmas.CopyObjects
import Verif.Props.PageTree
/-
  Properties of copying objects and of appending documents (C80).
-/
namespace VPdf
open Spec

/-- **C80, copying an object.**  The copy shows, however far references are followed, what the object shows; also for objects that
refer to each other in circles.  Each object that is met has one copy, with a new number; nothing else is added, and no object of the
destination is changed.  The references that are met must lead to objects. -/
theorem C80_copy_partial (src : SStore) (dst : CopyTarget) (q : ObjRef) (l : List ObjRef)
    (hl : ∀ r, DocObjects.Has src r → r ∈ l) (hc : ∀ r, Leads src q r → DocObjects.Has src r) (hr : Roomy dst.alloc l.length)
    (hd : Listed dst.objs dst.alloc.chain) :
    ∃ n, ∀ f, n ≤ f → ∃ copy : ObjRef → ObjRef, ∃ dst', deepCopy src f dst q = .ok (copy q, dst') ∧
      (∀ r, Leads src q r → LooksLike src r dst'.objs (copy r) ∧ ¬ Occurs dst.alloc.chain (copy r).1) ∧
      (∀ r r', Leads src q r → Leads src q r' → copy r = copy r' → r = r') ∧
      (∀ c, DocObjects.Has dst'.objs c → DocObjects.Has dst.objs c ∨ ∃ r, Leads src q r ∧ copy r = c) ∧
      ∀ c, DocObjects.Has dst.objs c → dst'.objs c = dst.objs c := by
  refine ⟨l.length + 1, fun f hf => ?_⟩
  obtain ⟨φ, dst', h1, h2, h3, h4, _⟩ := deepCopy_spec (f := f) (k := 0) hl hc (by rw [Nat.zero_add]; exact hr) hd (by omega)
  refine ⟨φ, dst', h1, fun r hr => ⟨fun k => ?_, (h2 r hr).2⟩, h3, ?_, ?_⟩
  · exact look_rename (Leads src q) (fun r hr x hx => .next r x hr ((refsS_iff _ _).mp hx)) (fun r hr => (h2 r hr).1) k r hr
  · intro c hcc
    by_cases he : ∃ r, Leads src q r ∧ φ r = c
    · exact .inr he
    · refine .inl ?_
      unfold DocObjects.Has at hcc ⊢
      rwa [h4 c fun r hr e => he ⟨r, hr, e⟩] at hcc
  · intro c hcc
    exact h4 c fun r hr e => (h2 r hr).2 (by rw [e]; exact hd c hcc)

/-- **C80, appending a document.**  When every reference of the source leads to an object, all pages of the source are appended, in
their order, behind the pages of the destination; every new page shows what the page of the source shows (its place in the page tree
aside), also through references to other objects; the new pages are new objects; the objects of the destination other than the nodes of
its page tree are unchanged, and so are the objects of the source other than its pages.
Missing: references that lead nowhere, inherited attributes, the Parent entries of the source and links between the pages, for which the
claim is false (below); named destinations (see C83, C78); a source whose pages hold their Type by reference. -/
theorem C80_append_partial (src : SStore) (dst : CopyTarget) (sroot root : ObjRef) (kids ts : List PageTree) (l : List ObjRef)
    (hs : StoredTree (pageView src) (.node sroot kids)) (hp : ∀ p ∈ pagesOf kids, Shaped (pageView src) (.page p))
    (hl : ∀ r, DocObjects.Has src r → r ∈ l) (hc : Complete src)
    (ht : Shaped (pageView dst.objs) (.node root ts)) (ht' : StoredTree (pageView dst.objs) (.node root ts))
    (hnd : (PageTree.node root ts).nodes.Nodup) (hr : Roomy dst.alloc ((pagesOf kids).length * l.length))
    (hd : Listed dst.objs dst.alloc.chain) (hsize : ts.length + (pagesOf kids).length < 2 ^ 64 - 1)
    (hpages : (pagesOf ts).length + (pagesOf kids).length + 1 < 2 ^ 63) :
    ∃ n, ∀ f, n ≤ f → ∃ (src' : SStore) (dst' : CopyTarget) (new : List ObjRef),
      appendDocument f sroot src root dst = .ok (src', dst') ∧
      ShowsPages (pageView dst'.objs) root (pagesOf ts ++ new) ∧ new.length = (pagesOf kids).length ∧
      (∀ (j : Nat) (p c : ObjRef), (pagesOf kids)[j]? = some p → new[j]? = some c →
        LooksLike (withoutParents src) p (withoutParents dst'.objs) c) ∧
      new.Nodup ∧ (∀ c ∈ new, ¬ DocObjects.Has dst.objs c) ∧
      (∀ r, r ∉ (PageTree.node root ts).nodes → DocObjects.Has dst.objs r → dst'.objs r = dst.objs r) ∧
      (∀ r, withoutParents src' r = withoutParents src r) ∧ (∀ r, r ∉ pagesOf kids → src' r = src r) := by
  refine ⟨l.length + 1 + (PageTree.node sroot kids).depth + (depthOf ts + 2), fun f hf => ?_⟩
  obtain ⟨src', dst', new, h1, h2, h3, h4, h5, h6, h7, h8, h9⟩ := appendDocument_spec (f := f) (k := 0) (by omega) (by omega) (by omega)
    hs hp hl hc ht ht' hnd (by rw [Nat.zero_add]; exact hr) hd (by omega) hsize hpages
  refine ⟨src', dst', new, h1, ?_, h2, fun j p c a b => (h4 j p c a b).looks, h6, h5, h7, fun r => ?_, h9⟩
  · have := C47_page_number _ _ _ h3
    rwa [PageTree.pages, pagesOf_append, pagesOf_pages] at this
  · rw [withoutParents_eq, withoutParents_eq, h8]

/-- A document with two pages; the first has contents and refers to the second one, the page tree has a MediaBox. -/
def sampleSource : SStore := fun r =>
  if r = (1, 0) then .direct (.dict [(b! "Count", .int 2), (b! "Kids", .arr [.ref 2 0, .ref 3 0]), (b! "MediaBox", .arr [.int 9]),
    (b! "Type", .name (b! "Pages"))])
  else if r = (2, 0) then .direct (.dict [(b! "Contents", .ref 4 0), (b! "Next", .ref 3 0), (b! "Parent", .ref 1 0),
    (b! "Type", .name (b! "Page"))])
  else if r = (3, 0) then .direct (.dict [(b! "Parent", .ref 1 0), (b! "Type", .name (b! "Page"))])
  else if r = (4, 0) then .stream [(b! "Length", .int 1)] [65]
  else .direct .null

/-- Its page tree. -/
def sampleSourceKids : List PageTree := [.page (2, 0), .page (3, 0)]

/-- A document with one page. -/
def sampleTarget : CopyTarget where
  objs := fun r =>
    if r = (1, 0) then .direct (.dict [(b! "Count", .int 1), (b! "Kids", .arr [.ref 2 0]), (b! "Type", .name (b! "Pages"))])
    else if r = (2, 0) then .direct (.dict [(b! "Parent", .ref 1 0), (b! "Type", .name (b! "Page"))])
    else .direct .null
  alloc := { chain := [{ kind := .table, entries := [⟨0, 65535, .free 0⟩, ⟨1, 0, .used 10⟩, ⟨2, 0, .used 20⟩] }] }

theorem sampleSource_has {r : ObjRef} (h : DocObjects.Has sampleSource r) : r ∈ [(1, 0), (2, 0), (3, 0), (4, 0)] := by
  unfold DocObjects.Has sampleSource at h
  simp only [List.mem_cons, List.not_mem_nil, or_false]
  by_cases h1 : r = (1, 0)
  · exact .inl h1
  by_cases h2 : r = (2, 0)
  · exact .inr (.inl h2)
  by_cases h3 : r = (3, 0)
  · exact .inr (.inr (.inl h3))
  by_cases h4 : r = (4, 0)
  · exact .inr (.inr (.inr h4))
  simp [h1, h2, h3, h4] at h

theorem sampleSource_complete : Complete sampleSource := by
  intro r q h
  have hq : q ∈ refsS (sampleSource r) := (refsS_iff _ _).mpr h
  have hr : DocObjects.Has sampleSource r := fun e => by rw [e] at hq; cases hq
  have := sampleSource_has hr
  simp only [List.mem_cons, List.not_mem_nil, or_false] at this
  have key : q ∈ [((1, 0) : ObjRef), (2, 0), (3, 0), (4, 0)] := by
    rcases this with rfl | rfl | rfl | rfl
    · have e : refsS (sampleSource (1, 0)) = [(2, 0), (3, 0)] := rfl
      rw [e] at hq; simp at hq; rcases hq with rfl | rfl <;> simp
    · have e : refsS (sampleSource (2, 0)) = [(4, 0), (3, 0), (1, 0)] := rfl
      rw [e] at hq; simp at hq; rcases hq with rfl | rfl | rfl <;> simp
    · have e : refsS (sampleSource (3, 0)) = [(1, 0)] := rfl
      rw [e] at hq; simp at hq; subst hq; simp
    · have e : refsS (sampleSource (4, 0)) = [] := rfl
      rw [e] at hq; cases hq
  simp only [List.mem_cons, List.not_mem_nil, or_false] at key
  unfold DocObjects.Has
  rcases key with rfl | rfl | rfl | rfl <;> intro e <;> cases e

theorem sampleSource_stored : StoredTree (pageView sampleSource) (.node (1, 0) sampleSourceKids) := by
  refine stored_of_counted _ ?_ ?_ (by decide)
  · simp [sampleSourceKids, Shaped, ShapedAll, pageView, sampleSource, kidRefs, mapFind, PageTree.ref]
  · simp [sampleSourceKids, Counted, CountedAll, pageView, sampleSource, mapFind, pagesOf, PageTree.pages]

theorem sampleTarget_shaped : Shaped (pageView sampleTarget.objs) (.node (1, 0) [.page (2, 0)]) := by
  simp [Shaped, ShapedAll, pageView, sampleTarget, kidRefs, mapFind, PageTree.ref]

theorem sampleTarget_stored : StoredTree (pageView sampleTarget.objs) (.node (1, 0) [.page (2, 0)]) := by
  refine stored_of_counted _ sampleTarget_shaped ?_ (by decide)
  simp [Counted, CountedAll, pageView, sampleTarget, mapFind, pagesOf, PageTree.pages]

theorem sampleTarget_roomy : Roomy sampleTarget.alloc 8 := by
  refine ⟨by simp [sampleTarget], ?_, 3, by decide, ?_, by decide⟩
  · intro s hs
    simp only [sampleTarget, List.mem_singleton] at hs
    subst hs
    exact ⟨by simp [Distinct], fun h hh => by cases hh⟩
  · rintro n ⟨s, hs, e, he, rfl⟩
    simp only [sampleTarget, List.mem_singleton] at hs
    subst hs
    rcases he with he | ⟨h, hh, _⟩
    · simp only [List.mem_cons, List.not_mem_nil, or_false] at he
      rcases he with rfl | rfl | rfl <;> decide
    · cases hh

theorem sampleTarget_listed : Listed sampleTarget.objs sampleTarget.alloc.chain := by
  intro r h
  unfold DocObjects.Has sampleTarget at h
  dsimp only at h
  by_cases h1 : r = (1, 0)
  · subst h1
    exact ⟨_, List.mem_singleton.mpr rfl, ⟨1, 0, .used 10⟩, .inl (by simp), rfl⟩
  by_cases h2 : r = (2, 0)
  · subst h2
    exact ⟨_, List.mem_singleton.mpr rfl, ⟨2, 0, .used 20⟩, .inl (by simp), rfl⟩
  simp [h1, h2] at h

/-- The hypotheses of `C80_append_partial` hold for the samples. -/
example : ∃ n, ∀ f, n ≤ f → ∃ (src' : SStore) (dst' : CopyTarget) (new : List ObjRef),
    appendDocument f (1, 0) sampleSource (1, 0) sampleTarget = .ok (src', dst') ∧
      ShowsPages (pageView dst'.objs) (1, 0) ((2, 0) :: new) ∧ new.length = 2 := by
  obtain ⟨n, h⟩ := C80_append_partial sampleSource sampleTarget (1, 0) (1, 0) sampleSourceKids [.page (2, 0)] _ sampleSource_stored
    (by
      intro p hp
      simp only [sampleSourceKids, pagesOf, PageTree.pages, List.singleton_append, List.mem_cons, List.not_mem_nil, or_false] at hp
      rcases hp with rfl | rfl <;> simp [Shaped, pageView, sampleSource, mapFind])
    (fun r => sampleSource_has) sampleSource_complete sampleTarget_shaped sampleTarget_stored (by simp [PageTree.nodes, nodesOf])
    sampleTarget_roomy sampleTarget_listed (by decide) (by decide)
  refine ⟨n, fun f hf => ?_⟩
  obtain ⟨src', dst', new, h1, h2, h3, _⟩ := h f hf
  exact ⟨src', dst', new, h1, h2, h3⟩

/-- A circle of objects can be copied. -/
example : ∃ n, ∀ f, n ≤ f → ∃ c dst', deepCopy sampleSource f sampleTarget (3, 0) = .ok (c, dst') ∧
    LooksLike sampleSource (3, 0) dst'.objs c := by
  obtain ⟨n, h⟩ := C80_copy_partial sampleSource sampleTarget (3, 0) _ (fun r => sampleSource_has)
    (fun r hr => by
      cases hr with
      | here => exact fun e => by cases e
      | next a b _ hm => exact sampleSource_complete a r hm)
    (by
      obtain ⟨h1, h2, N, h3, h4, h5⟩ := sampleTarget_roomy
      exact ⟨h1, h2, N, h3, h4, Nat.lt_of_le_of_lt (Nat.add_le_add_left (by decide) _) h5⟩)
    sampleTarget_listed
  refine ⟨n, fun f hf => ?_⟩
  obtain ⟨copy, dst', h1, h2, _⟩ := h f hf
  exact ⟨_, dst', h1, (h2 _ .here).1⟩

/-- A document whose object 1 has a reference that leads nowhere. -/
def danglingSource : SStore := fun r => if r = (1, 0) then .direct (.arr [.ref 2 0]) else .direct .null

/-- A document that has an object 2. -/
def danglingTarget : CopyTarget where
  objs := fun r => if r = (1, 0) then .direct (.int 5) else if r = (2, 0) then .direct (.arr [.ref 1 0]) else .direct .null
  alloc := sampleTarget.alloc

/-- **C80**: only pages are appended. When an object is appended as a page, its copy is a dictionary whose Type is Page; anything
else is refused. -/
theorem C80_only_pages (f : Nat) (src src' : SStore) (root page c : ObjRef) (dst dst' : CopyTarget)
    (h : appendForeignPage f src dst root page = .ok (c, src', dst')) :
    ∃ (d : Dict) (copied : CopyTarget) (d' : Dict), dictAt (pageView src) page = .ok d ∧
      deepCopy (dropParent src page d) f dst page = .ok (c, copied) ∧ dictAt (pageView copied.objs) c = .ok d' ∧
      treeEntry (pageView copied.objs) d' (b! "Type") = .ok (.name (b! "Page")) := by
  unfold appendForeignPage at h
  cases h1 : dictAt (pageView src) page with
  | error e => rw [h1] at h; cases h
  | ok d =>
    rw [h1, ok_bind] at h; dsimp only at h
    cases h2 : deepCopy (dropParent src page d) f dst page with
    | error e => rw [h2] at h; cases h
    | ok x =>
      obtain ⟨c', copied⟩ := x
      rw [h2, ok_bind] at h; dsimp only at h
      unfold pageObject at h
      cases h3 : dictAt (pageView copied.objs) c' with
      | error e => rw [h3] at h; cases h
      | ok d' =>
        rw [h3, ok_bind] at h
        cases h4 : treeEntry (pageView copied.objs) d' (b! "Type") with
        | error e => rw [h4] at h; cases h
        | ok v =>
          rw [h4, ok_bind] at h
          cases v with
          | name n =>
            dsimp only at h
            by_cases hn : n = b! "Page"
            · rw [if_pos hn] at h
              cases h5 : appendPage (pageView copied.objs) f root c' with
              | error e => simp only [h5] at h; cases h
              | ok s =>
                simp only [h5] at h
                cases h
                exact ⟨d, copied, d', rfl, h2, h3, by rw [h4, hn]⟩
            · rw [if_neg hn] at h; cases h
          | _ => cases h

/-- **C80: false for references that lead nowhere.**  A reference of the source to an object that does not exist leads, in the copy, to
the object of the destination that has this number, and copying changes that object of the destination. -/
theorem C80_dangling_counterexample :
    ∃ (dst' : CopyTarget) (c : ObjRef), deepCopy danglingSource 9 danglingTarget (1, 0) = .ok (c, dst') ∧
      ¬ LooksLike danglingSource (1, 0) dst'.objs c ∧ DocObjects.Has danglingTarget.objs (2, 0) ∧
      ¬ LooksLike danglingTarget.objs (2, 0) dst'.objs (2, 0) := by
  have h : ∃ dst', deepCopy danglingSource 9 danglingTarget (1, 0) = .ok ((3, 0), dst') ∧
      dst'.objs (3, 0) = .direct (.arr [.ref 2 0]) ∧ dst'.objs (2, 0) = .direct (.arr [.ref 3 0]) := ⟨_, rfl, rfl, rfl⟩
  obtain ⟨dst', h1, h2, h3⟩ := h
  refine ⟨dst', (3, 0), h1, fun h => ?_, ?_, fun h => ?_⟩
  · have := h 2
    simp [treeOfS, treeOf, treeItems, danglingSource, look, h2, h3] at this
  · unfold DocObjects.Has danglingTarget
    simp
  · have := h 2
    simp [treeOfS, treeOf, treeItems, danglingTarget, look, h2, h3] at this

/-- What appending the samples leads to. -/
theorem sample_appended :
    ∃ (src' : SStore) (dst' : CopyTarget), appendDocument 20 (1, 0) sampleSource (1, 0) sampleTarget = .ok (src', dst') ∧
      pageView dst'.objs (1, 0) = .dict [(b! "Count", .int 3), (b! "Kids", .arr [.ref 2 0, .ref 3 0, .ref 7 0]),
        (b! "Type", .name (b! "Pages"))] ∧
      pageView dst'.objs (3, 0) = .dict [(b! "Contents", .ref 4 0), (b! "Next", .ref 5 0), (b! "Parent", .ref 1 0),
        (b! "Type", .name (b! "Page"))] ∧
      pageCount (pageView dst'.objs) (1, 0) = .ok 3 ∧ pageAt (pageView dst'.objs) 20 (1, 0) 1 = .ok (2, 0) ∧
      pageAt (pageView dst'.objs) 20 (1, 0) 2 = .ok (3, 0) ∧ pageAt (pageView dst'.objs) 20 (1, 0) 3 = .ok (7, 0) ∧
      src' (2, 0) = .direct (.dict [(b! "Contents", .ref 4 0), (b! "Next", .ref 3 0), (b! "Type", .name (b! "Page"))]) :=
  ⟨_, _, rfl, rfl, rfl, rfl, rfl, rfl, rfl, rfl⟩

/-- **C80: false for inherited attributes.**  The first page of the sample has a MediaBox, which it inherits from its page tree; the page
of the merged document has none. -/
theorem C80_inherited_counterexample :
    ∃ (src' : SStore) (dst' : CopyTarget) (c : ObjRef),
      appendDocument 20 (1, 0) sampleSource (1, 0) sampleTarget = .ok (src', dst') ∧
      pageAt (pageView sampleSource) 20 (1, 0) 1 = .ok (2, 0) ∧ pageAt (pageView dst'.objs) 20 (1, 0) 2 = .ok c ∧
      Inherits (pageView sampleSource) (b! "MediaBox") (.arr [.int 9]) (2, 0) ∧
      ∀ v, ¬ Inherits (pageView dst'.objs) (b! "MediaBox") v c := by
  obtain ⟨src', dst', h1, h2, h3, _, _, h6, _⟩ := sample_appended
  refine ⟨src', dst', (3, 0), h1, rfl, h6, .up _ _ 1 0 rfl rfl rfl (.own _ _ rfl rfl), fun v h => ?_⟩
  cases h with
  | own _ d e1 e2 =>
    rw [h3] at e1
    cases e1
    cases e2
  | up _ d n g e1 _ e3 e4 =>
    rw [h3] at e1
    cases e1
    cases e3
    cases e4 with
    | own _ d e1 e2 =>
      rw [h2] at e1
      cases e1
      cases e2
    | up _ d n g e1 _ e3 _ =>
      rw [h2] at e1
      cases e1
      cases e3

/-- **C80: false for links between the pages.**  The first page of the sample has a link to the second one; in the merged document the
link leads to an object that is no page of the document. -/
theorem C80_link_counterexample :
    ∃ (src' : SStore) (dst' : CopyTarget) (c : ObjRef) (d d' : Dict),
      appendDocument 20 (1, 0) sampleSource (1, 0) sampleTarget = .ok (src', dst') ∧
      pageView sampleSource (2, 0) = .dict d ∧ mapFind (b! "Next") d = some (.ref 3 0) ∧
      pageAt (pageView sampleSource) 20 (1, 0) 1 = .ok (2, 0) ∧ pageAt (pageView sampleSource) 20 (1, 0) 2 = .ok (3, 0) ∧
      pageAt (pageView dst'.objs) 20 (1, 0) 2 = .ok c ∧ pageView dst'.objs c = .dict d' ∧
      mapFind (b! "Next") d' = some (.ref 5 0) ∧ pageCount (pageView dst'.objs) (1, 0) = .ok 3 ∧
      ∀ n, 1 ≤ n → n ≤ 3 → pageAt (pageView dst'.objs) 20 (1, 0) n ≠ .ok (5, 0) := by
  obtain ⟨src', dst', h1, _, h3, h4, h5, h6, h7, _⟩ := sample_appended
  refine ⟨src', dst', (3, 0), _, _, h1, rfl, rfl, rfl, rfl, h6, h3, rfl, h4, fun n a b e => ?_⟩
  have : n = 1 ∨ n = 2 ∨ n = 3 := by omega
  rcases this with rfl | rfl | rfl
  · rw [h5] at e; cases e
  · rw [h6] at e; cases e
  · rw [h7] at e; cases e

/-- **C80: the source document is changed.**  Its pages lose the entry Parent, and with it what they inherit. -/
theorem C80_source_counterexample :
    ∃ (src' : SStore) (dst' : CopyTarget), appendDocument 20 (1, 0) sampleSource (1, 0) sampleTarget = .ok (src', dst') ∧
      Inherits (pageView sampleSource) (b! "MediaBox") (.arr [.int 9]) (2, 0) ∧
      ∀ v, ¬ Inherits (pageView src') (b! "MediaBox") v (2, 0) := by
  obtain ⟨src', dst', h1, _, _, _, _, _, _, h8⟩ := sample_appended
  refine ⟨src', dst', h1, .up _ _ 1 0 rfl rfl rfl (.own _ _ rfl rfl), fun v h => ?_⟩
  have h8 := pageView_direct h8
  cases h with
  | own _ d e1 e2 =>
    rw [h8] at e1
    cases e1
    cases e2
  | up _ d n g e1 _ e3 e4 =>
    rw [h8] at e1
    cases e1
    cases e3

end VPdf
