import Verif.Lemmas.PageChange
/-
  Properties of the page tree (C47, C48, C69).
-/
namespace VPdf
open Spec

/-- What the user sees of the pages of a document: the number of pages and page number `n` for every `n` that a 64-bit number can
hold.  Numbers without a page are reported by an exception. -/
def ShowsPages (s : PStore) (root : ObjRef) (l : List ObjRef) : Prop :=
  pageCount s root = .ok l.length ∧
  ∃ depth, ∀ f, depth ≤ f → ∀ n, n < 2 ^ 64 → pageAt s f root n =
    if n = 0 then .error .throw
    else match l[n - 1]? with
      | some r => .ok r
      | none => .error .throw

/-- **C47.**  When every Count is right, the number of pages is the number of leaves of the tree, page `n` is the `n`-th leaf, and any
other number is reported as an error. -/
theorem C47_page_number (s : PStore) (root : ObjRef) (kids : List PageTree) (h : StoredTree s (.node root kids)) :
    ShowsPages s root (PageTree.node root kids).pages := by
  have hs := h
  rw [StoredTree] at h
  obtain ⟨⟨d, h1, h2, h3, h4, h5⟩, h6⟩ := h
  have hp : (PageTree.node root kids).pages = pagesOf kids := rfl
  refine ⟨?_, (PageTree.node root kids).depth, fun f hf n hn => ?_⟩
  · unfold pageCount
    rw [pageTreeNode_eq h1 h2, ok_bind, kidCount_eq h4 h5, hp]
  · unfold pageAt
    by_cases h0 : n < 1
    · rw [if_pos h0, if_pos (by omega)]
    · rw [if_neg h0, pageTreeNode_eq h1 h2, ok_bind]
      have := pageInternal_stored s n hn (.node root kids) hs rfl f 1 hf (by omega) (by rw [hp]; omega)
      have hr : (PageTree.node root kids).ref = root := rfl
      rw [hr] at this
      rw [this, if_neg (by omega)]
      cases (PageTree.node root kids).pages[n - 1]? <;> rfl

/-- A document with the pages 4, 5 and 6 (the first two below an inner node) and a page 7 outside the tree. -/
def sampleDoc : PStore := fun r =>
  if r = (2, 0) then .dict [(b! "Count", .int 3), (b! "Kids", .arr [.ref 3 0, .ref 6 0]), (b! "Type", .name (b! "Pages"))]
  else if r = (3, 0) then .dict [(b! "Count", .int 2), (b! "Kids", .arr [.ref 4 0, .ref 5 0]), (b! "Type", .name (b! "Pages"))]
  else if r = (4, 0) ∨ r = (5, 0) ∨ r = (6, 0) ∨ r = (7, 0) then .dict [(b! "Type", .name (b! "Page"))]
  else .null

/-- Its page tree. -/
def sampleTree : PageTree := .node (2, 0) [.node (3, 0) [.page (4, 0), .page (5, 0)], .page (6, 0)]

theorem sampleTree_shaped : Shaped sampleDoc sampleTree := by
  simp [sampleTree, Shaped, ShapedAll, sampleDoc, kidRefs, mapFind, PageTree.ref]

theorem sampleTree_stored : StoredTree sampleDoc sampleTree := by
  refine stored_of_counted _ sampleTree_shaped ?_ (by decide)
  simp [sampleTree, Counted, CountedAll, sampleDoc, mapFind, pagesOf, PageTree.pages]

example : ShowsPages sampleDoc (2, 0) [(4, 0), (5, 0), (6, 0)] := C47_page_number _ _ _ sampleTree_stored

/-- **C48, one insertion.**  For every tree without shared nodes: the page goes in front of entry `i` of the *top level* of the tree,
and afterwards all counts are right.
Missing: "before page `i`", which is the same only when the first `i - 1` entries are pages (see `C48_insert_counterexample`). -/
theorem C48_insert_partial (s : PStore) (root p : ObjRef) (kids : List PageTree) (i f : Nat) (h : Shaped s (.node root kids))
    (hnd : (PageTree.node root kids).nodes.Nodup) (hp : Shaped s (.page p)) (hf : (PageTree.node root kids).depth < f)
    (hsize : kids.length < 2 ^ 64 - 1) (hpages : (pagesOf kids).length + 1 < 2 ^ 63) (hi : 1 ≤ i ∧ i ≤ kids.length + 1) :
    ∃ s', insertPage s f root p i = .ok s' ∧
      ShowsPages s' root (pagesOf (kids.take (i - 1)) ++ p :: pagesOf (kids.drop (i - 1))) := by
  obtain ⟨s', e1, _, e3, _⟩ := insertPage_shaped h hnd hp hi.1 hi.2 hsize hf hpages
  refine ⟨s', e1, ?_⟩
  have := C47_page_number s' root _ e3
  rw [PageTree.pages, insertIdx_split _ _ _ (by omega), pagesOf_append, pagesOf] at this
  exact this

example : ∃ s', insertPage sampleDoc 3 (2, 0) (7, 0) 2 = .ok s' ∧ ShowsPages s' (2, 0) [(4, 0), (5, 0), (7, 0), (6, 0)] :=
  C48_insert_partial sampleDoc (2, 0) (7, 0) [.node (3, 0) [.page (4, 0), .page (5, 0)], .page (6, 0)] 2 3 sampleTree_shaped
    (by decide) ⟨_, rfl, rfl⟩ (by decide) (by decide) (by decide) (by decide)

/-- **C48, insertion out of range.**  An index outside the top level is reported as an error. -/
theorem C48_insert_outside (s : PStore) (root p : ObjRef) (kids : List PageTree) (i f : Nat) (h : Shaped s (.node root kids))
    (hsize : kids.length < 2 ^ 64 - 1) (hi : i = 0 ∨ kids.length + 1 < i) (hi2 : i < 2 ^ 64) :
    insertPage s f root p i = .error .throw :=
  insertPage_outside h hi hi2 hsize

example : insertPage sampleDoc 3 (2, 0) (7, 0) 0 = .error .throw :=
  C48_insert_outside sampleDoc (2, 0) (7, 0) _ 0 3 sampleTree_shaped (by decide) (Or.inl rfl) (by decide)

/-- **C48, appending.**  For every tree without shared nodes, the page becomes the last page of the document. -/
theorem C48_append (s : PStore) (root p : ObjRef) (kids : List PageTree) (f : Nat) (h : Shaped s (.node root kids))
    (hnd : (PageTree.node root kids).nodes.Nodup) (hp : Shaped s (.page p)) (hf : (PageTree.node root kids).depth < f)
    (hsize : kids.length < 2 ^ 64 - 1) (hpages : (pagesOf kids).length + 1 < 2 ^ 63) :
    ∃ s', appendPage s f root p = .ok s' ∧ ShowsPages s' root ((PageTree.node root kids).pages ++ [p]) := by
  rw [appendPage_eq h hsize]
  have := C48_insert_partial s root p kids (kids.length + 1) f h hnd hp hf hsize hpages ⟨by omega, by omega⟩
  simpa [PageTree.pages, pagesOf] using this

example : ∃ s', appendPage sampleDoc 3 (2, 0) (7, 0) = .ok s' ∧ ShowsPages s' (2, 0) [(4, 0), (5, 0), (6, 0), (7, 0)] :=
  C48_append sampleDoc (2, 0) (7, 0) [.node (3, 0) [.page (4, 0), .page (5, 0)], .page (6, 0)] 3 sampleTree_shaped
    (by decide) ⟨_, rfl, rfl⟩ (by decide) (by decide) (by decide)

/-- **C48, the first page.**  A page tree that has no Kids yet gets them with the first page. -/
theorem C48_first_page (s : PStore) (root p : ObjRef) (d : Dict) (c : Int) (f : Nat) (hroot : s root = .dict d)
    (ht : mapFind (b! "Type") d = some (.name (b! "Pages"))) (hc : mapFind (b! "Count") d = some (.int c))
    (hk : mapFind (b! "Kids") d = none) (hp : Shaped s (.page p)) (hne : p ≠ root) (hf : 1 < f) :
    ∃ s', appendPage s f root p = .ok s' ∧ ShowsPages s' root [p] := by
  have e : ∀ (t : PStore) (o : Obj), t root = o → t.set root o = t := by
    intro t o h
    funext q
    unfold PStore.set
    split
    · rename_i hq
      rw [hq, h]
    · rfl
  generalize hs1 : s.set root (.dict (mapInsert (b! "Kids") (.arr []) d)) = s1
  have h1 : s1 root = .dict (mapInsert (b! "Kids") (.arr []) d) := by
    rw [← hs1, PStore.set, if_pos rfl]
  have hfind : mapFind (b! "Kids") (mapInsert (b! "Kids") (.arr []) d) = some (.arr []) := by
    exact mapFind_insert_new hk
  have hsame : getKidsInternal s root = getKidsInternal s1 root := by
    have a1 : dictAt s root = .ok d := by rw [dictAt, hroot]
    have a2 : dictAt s1 root = .ok (mapInsert (b! "Kids") (.arr []) d) := by rw [dictAt, h1]
    unfold getKidsInternal
    rw [a1, a2, ok_bind, ok_bind]
    dsimp only
    simp only [hk, hfind, Option.isNone_none, Option.isNone_some, if_true, if_false, Bool.false_eq_true]
    rw [hs1, e s1 _ h1]
  have hshape : Shaped s1 (.node root []) := by
    rw [Shaped]
    refine ⟨⟨_, c, h1, ?_, ?_, ?_⟩, trivial⟩
    · rw [mapFind_insert_ne (by decide)]
      exact ht
    · exact hfind
    · rw [mapFind_insert_ne (by decide)]
      exact hc
  have hp1 : Shaped s1 (.page p) := by
    rw [Shaped] at hp ⊢
    obtain ⟨d', g1, g2⟩ := hp
    refine ⟨d', ?_, g2⟩
    rw [← hs1, PStore.set, if_neg hne]
    exact g1
  have := C48_append s1 root p [] f hshape (by simp [PageTree.nodes, nodesOf]) hp1 (by simpa [PageTree.depth, depthOf] using hf)
    (by decide) (by decide)
  have hap : appendPage s f root p = appendPage s1 f root p := by
    unfold appendPage
    rw [hsame]
  rw [hap]
  exact this

/-- A page tree without Kids and a page outside of it. -/
def emptyDoc : PStore := fun r =>
  if r = (2, 0) then .dict [(b! "Count", .int 0), (b! "Type", .name (b! "Pages"))]
  else if r = (7, 0) then .dict [(b! "Type", .name (b! "Page"))]
  else .null

example : ∃ s', appendPage emptyDoc 2 (2, 0) (7, 0) = .ok s' ∧ ShowsPages s' (2, 0) [(7, 0)] :=
  C48_first_page emptyDoc (2, 0) (7, 0) _ 0 2 rfl rfl rfl rfl ⟨_, rfl, rfl⟩ (by decide) (by decide)

/-- **C48, one removal.**  For every tree without shared nodes: entry `i` of the top level is removed with all its pages, and
afterwards all counts are right.
Missing: "page `i` is removed" (see `C48_remove_counterexample`). -/
theorem C48_remove_partial (s : PStore) (root : ObjRef) (kids : List PageTree) (i f : Nat) (h : Shaped s (.node root kids))
    (hnd : (PageTree.node root kids).nodes.Nodup) (hf : (PageTree.node root kids).depth < f) (hsize : kids.length < 2 ^ 64)
    (hpages : (pagesOf kids).length < 2 ^ 63) (hi : 1 ≤ i ∧ i ≤ kids.length) :
    ∃ s', removePage s f root i = .ok s' ∧ ShowsPages s' root (pagesOf (kids.take (i - 1)) ++ pagesOf (kids.drop i)) := by
  obtain ⟨s', e1, _, e3, _⟩ := removePage_shaped h hnd hi.1 hi.2 hsize hf hpages
  refine ⟨s', e1, ?_⟩
  have := C47_page_number s' root _ e3
  rw [PageTree.pages, List.eraseIdx_eq_take_drop_succ, pagesOf_append, Nat.sub_add_cancel hi.1] at this
  exact this

example : ∃ s', removePage sampleDoc 3 (2, 0) 2 = .ok s' ∧ ShowsPages s' (2, 0) [(4, 0), (5, 0)] :=
  C48_remove_partial sampleDoc (2, 0) [.node (3, 0) [.page (4, 0), .page (5, 0)], .page (6, 0)] 2 3 sampleTree_shaped
    (by decide) (by decide) (by decide) (by decide) (by decide)

/-- **C48, removal out of range.**  The removal of an entry that does not exist is not reported; nothing is removed. -/
theorem C48_remove_outside (s : PStore) (root : ObjRef) (kids : List PageTree) (i f : Nat) (h : Shaped s (.node root kids))
    (hnd : (PageTree.node root kids).nodes.Nodup) (hf : (PageTree.node root kids).depth < f) (hsize : kids.length < 2 ^ 64 - 1)
    (hpages : (pagesOf kids).length < 2 ^ 63) (hi : i = 0 ∨ kids.length < i) (hi2 : i < 2 ^ 64) :
    ∃ s', removePage s f root i = .ok s' ∧ ShowsPages s' root (PageTree.node root kids).pages := by
  obtain ⟨s', e1, _, e3⟩ := removePage_outside h hnd hi hi2 hsize hf hpages
  exact ⟨s', e1, C47_page_number s' root _ e3⟩

example : ∃ s', removePage sampleDoc 3 (2, 0) 3 = .ok s' ∧ ShowsPages s' (2, 0) [(4, 0), (5, 0), (6, 0)] :=
  C48_remove_outside sampleDoc (2, 0) _ 3 3 sampleTree_shaped (by decide) (by decide) (by decide) (by decide) (by decide) (by decide)

/-- Two lists that are shown by the same document are the same. -/
theorem shows_unique {s : PStore} {root : ObjRef} {l l' : List ObjRef} (h : ShowsPages s root l) (h' : ShowsPages s root l')
    (hb : l.length < 2 ^ 63) : l = l' := by
  obtain ⟨h1, d1, h2⟩ := h
  obtain ⟨h1', d2, h2'⟩ := h'
  have hl : l.length = l'.length := Except.ok.inj (h1.symm.trans h1')
  refine List.ext_getElem hl fun i hi hi' => ?_
  have a := h2 (max d1 d2) (by omega) (i + 1) (by omega)
  have b := h2' (max d1 d2) (by omega) (i + 1) (by omega)
  rw [a, if_neg (by omega), if_neg (by omega)] at b
  simp only [Nat.add_sub_cancel, List.getElem?_eq_getElem hi, List.getElem?_eq_getElem hi'] at b
  exact Except.ok.inj b

/-- **C48 fails for trees with inner nodes (insertion).**  In a document with the pages 4, 5, 6, a page inserted as page 2 becomes
page 3. -/
theorem C48_insert_counterexample :
    ∃ (s s' : PStore) (root p : ObjRef) (l : List ObjRef) (i f : Nat), ShowsPages s root l ∧ 1 ≤ i ∧ i ≤ l.length + 1 ∧
      Shaped s (.page p) ∧ insertPage s f root p i = .ok s' ∧ ¬ShowsPages s' root (l.insertIdx (i - 1) p) := by
  obtain ⟨s', e1, e2⟩ := C48_insert_partial sampleDoc (2, 0) (7, 0) [.node (3, 0) [.page (4, 0), .page (5, 0)], .page (6, 0)] 2 3
    sampleTree_shaped (by decide) ⟨_, rfl, rfl⟩ (by decide) (by decide) (by decide) (by decide)
  refine ⟨sampleDoc, s', (2, 0), (7, 0), [(4, 0), (5, 0), (6, 0)], 2, 3, C47_page_number _ _ _ sampleTree_stored, by decide, by decide,
    ⟨_, rfl, rfl⟩, e1, fun h => ?_⟩
  exact absurd (shows_unique e2 h (by decide)) (by decide)

/-- **C48 fails for trees with inner nodes (removal).**  In a document with the pages 4, 5, 6, the removal of page 1 removes the
pages 1 and 2, and the removal of page 3 removes nothing. -/
theorem C48_remove_counterexample :
    ∃ (s s₁ s₃ : PStore) (root : ObjRef) (f : Nat), ShowsPages s root [(4, 0), (5, 0), (6, 0)] ∧
      removePage s f root 1 = .ok s₁ ∧ ShowsPages s₁ root [(6, 0)] ∧
      removePage s f root 3 = .ok s₃ ∧ ShowsPages s₃ root [(4, 0), (5, 0), (6, 0)] := by
  obtain ⟨s₁, a1, a2⟩ := C48_remove_partial sampleDoc (2, 0) [.node (3, 0) [.page (4, 0), .page (5, 0)], .page (6, 0)] 1 3
    sampleTree_shaped (by decide) (by decide) (by decide) (by decide) (by decide)
  obtain ⟨s₃, b1, b2⟩ := C48_remove_outside sampleDoc (2, 0) [.node (3, 0) [.page (4, 0), .page (5, 0)], .page (6, 0)] 3 3
    sampleTree_shaped (by decide) (by decide) (by decide) (by decide) (by decide) (by decide)
  exact ⟨sampleDoc, s₁, s₃, (2, 0), 3, C47_page_number _ _ _ sampleTree_stored, a1, a2, b1, b2⟩

/-- One change of a document whose tree has no inner nodes. -/
theorem C48_flat_step (s : PStore) (root : ObjRef) (l : List ObjRef) (o : PageOp) (f : Nat)
    (h : Shaped s (.node root (l.map .page))) (hr : inRange l o) (hf : 2 ≤ f) (hl : l.length + 1 < 2 ^ 63)
    (ho : ∀ p i, o = .insert p i ∨ o = .append p → Shaped s (.page p)) :
    ∃ s', o.run f root s = .ok s' ∧ Shaped s' (.node root ((changePages l o).map .page)) ∧
      StoredTree s' (.node root ((changePages l o).map .page)) ∧ (∀ q, Shaped s (.page q) → Shaped s' (.page q)) := by
  have hnd : (PageTree.node root (l.map .page)).nodes.Nodup := by rw [PageTree.nodes, nodesOf_pages]; simp
  have hf' : depthOf (l.map PageTree.page) + 1 < f := by rw [depthOf_pages]; omega
  have hpl : (pagesOf (l.map PageTree.page)).length = l.length := by rw [pagesOf_pages]
  have hml : (l.map PageTree.page).length = l.length := by rw [List.length_map]
  cases o with
  | insert p i =>
    have := insertPage_shaped (i := i) h hnd (ho p i (Or.inl rfl)) hr.1 (by rw [hml]; exact hr.2) (by omega) hf' (by omega)
    rw [← map_insertIdx'] at this
    exact this
  | append p =>
    have := insertPage_shaped (i := l.length + 1) h hnd (ho p 0 (Or.inr rfl)) (by omega) (by omega) (by omega) hf' (by omega)
    rw [← map_insertIdx', Nat.add_sub_cancel, List.insertIdx_length_self] at this
    obtain ⟨s', e1, e2⟩ := this
    refine ⟨s', ?_, e2⟩
    change appendPage s f root p = _
    rw [appendPage_eq h (by omega), hml, e1]
  | remove i =>
    have := removePage_shaped (i := i) h hnd hr.1 (by rw [hml]; exact hr.2) (by omega) hf' (by omega)
    rw [← map_eraseIdx'] at this
    exact this

/-- The pages after a sequence of changes all of which are in range. -/
def historyInRange : List ObjRef → List PageOp → Prop
  | _, [] => True
  | l, o :: os => inRange l o ∧ historyInRange (changePages l o) os

/-- **C48, histories.**  When the tree has no inner nodes, every sequence of changes has the effect of the list operations, and
afterwards the document shows exactly the resulting list, with the right number of pages.
Missing: trees with inner nodes, for which the claim is false. -/
theorem C48_history_partial (s : PStore) (root : ObjRef) (l : List ObjRef) (os : List PageOp) (f : Nat)
    (h : Shaped s (.node root (l.map .page))) (hc : ShowsPages s root l) (hr : historyInRange l os) (hf : 2 ≤ f)
    (hl : l.length + os.length < 2 ^ 63)
    (ho : ∀ o ∈ os, ∀ p i, o = .insert p i ∨ o = .append p → Shaped s (.page p)) :
    ∃ s', os.foldlM (PageOp.run f root) s = .ok s' ∧ ShowsPages s' root (os.foldl changePages l) := by
  induction os generalizing s l with
  | nil => exact ⟨s, rfl, hc⟩
  | cons o os ih =>
    rw [List.length_cons] at hl
    obtain ⟨s1, e1, e2, e3, e4⟩ := C48_flat_step s root l o f h hr.1 hf (by omega) (ho o (by simp))
    have hlen : (changePages l o).length ≤ l.length + 1 := by
      cases o with
      | insert p i => exact List.length_insertIdx_le_succ
      | append p => simp [changePages]
      | remove i => exact Nat.le_trans (List.length_eraseIdx_le l (i - 1)) (by omega)
    have hsh := C47_page_number s1 root _ e3
    rw [PageTree.pages, pagesOf_pages] at hsh
    obtain ⟨s', e5, e6⟩ := ih s1 (changePages l o) e2 hsh hr.2 (by omega) fun o' ho' p i hpi => e4 p (ho o' (by simp [ho']) p i hpi)
    refine ⟨s', ?_, e6⟩
    rw [List.foldlM_cons, e1, ok_bind, e5]

/-- A document with the pages 4 and 5 and a page 7 outside the tree. -/
def sampleFlat : PStore := fun r =>
  if r = (2, 0) then .dict [(b! "Count", .int 2), (b! "Kids", .arr [.ref 4 0, .ref 5 0]), (b! "Type", .name (b! "Pages"))]
  else if r = (4, 0) ∨ r = (5, 0) ∨ r = (7, 0) then .dict [(b! "Type", .name (b! "Page"))]
  else .null

theorem sampleFlat_shaped : Shaped sampleFlat (.node (2, 0) ([(4, 0), (5, 0)].map .page)) := by
  simp [Shaped, ShapedAll, sampleFlat, kidRefs, mapFind, PageTree.ref]

theorem sampleFlat_stored : StoredTree sampleFlat (.node (2, 0) ([(4, 0), (5, 0)].map .page)) := by
  refine stored_of_counted _ sampleFlat_shaped ?_ (by decide)
  simp [Counted, CountedAll, sampleFlat, mapFind, pagesOf, PageTree.pages]

example : ∃ s', [PageOp.insert (7, 0) 1, .remove 2, .append (4, 0)].foldlM (PageOp.run 2 (2, 0)) sampleFlat = .ok s' ∧
    ShowsPages s' (2, 0) [(7, 0), (5, 0), (4, 0)] :=
  C48_history_partial sampleFlat (2, 0) [(4, 0), (5, 0)] _ 2 sampleFlat_shaped (C47_page_number _ _ _ sampleFlat_stored)
    (by simp [historyInRange, inRange, changePages]) (by decide) (by decide) (by
      intro o ho p i hpi
      simp only [List.mem_cons, List.not_mem_nil, or_false] at ho
      rcases ho with rfl | rfl | rfl <;> rcases hpi with h | h <;> cases h <;> exact ⟨_, rfl, rfl⟩)

/-- A document whose page tree contains itself. -/
def sampleCyclic : PStore := fun r =>
  if r = (2, 0) then .dict [(b! "Count", .int 1), (b! "Kids", .arr [.ref 2 0]), (b! "Type", .name (b! "Pages"))]
  else .null

/-- **C69 fails.**  There is a document for which the request for page 1 recurses without end, and so do the changes of the page
list. -/
theorem C69_counterexample :
    ∃ (s : PStore) (root : ObjRef), pageCount s root = .ok 1 ∧
      (∀ f, pageAt s f root 1 = .error .timeout) ∧ (∀ f i, removePage s f root (i + 2) = .error .timeout ∨ i + 2 ≥ 2 ^ 64) := by
  have hd : sampleCyclic (2, 0) = .dict [(b! "Count", .int 1), (b! "Kids", .arr [.ref 2 0]), (b! "Type", .name (b! "Pages"))] := rfl
  have h1 : ∀ p n f, p = 1 → n = 1 → pageInternal sampleCyclic n f p (2, 0) = .error .timeout := by
    rintro p n f rfl rfl
    induction f with
    | zero => rfl
    | succ f ih =>
      rw [pageInternal]
      exact ih
  have h2 : ∀ f, updateKidsCount f sampleCyclic (2, 0) = .error .timeout := by
    intro f
    induction f with
    | zero => rfl
    | succ f ih =>
      rw [updateKidsCount]
      change (updateKidsLoop (updateKidsCount f) sampleCyclic [.ref 2 0] 0 >>= _) = _
      rw [updateKidsLoop]
      change ((updateKidsCount f sampleCyclic (2, 0) >>= _) >>= _) = _
      rw [ih]
      rfl
  refine ⟨sampleCyclic, (2, 0), rfl, fun f => ?_, fun f i => ?_⟩
  · unfold pageAt
    rw [if_neg (by omega)]
    exact h1 1 1 f rfl rfl
  · by_cases hi : i + 2 ≥ 2 ^ 64
    · exact Or.inr hi
    · refine Or.inl ?_
      unfold removePage
      rw [getKidsInternal_eq hd rfl, ok_bind]
      dsimp only
      have : ¬((2 ^ 64 + (i + 2) - 1) % 2 ^ 64 < [Obj.ref 2 0].length) := by simp; omega
      rw [if_neg this]
      change (updateKidsCount f sampleCyclic (2, 0) >>= _) = _
      rw [h2]
      rfl

/-- **C69, what holds.**  For a document that contains a page tree (of whatever size, with right counts), there is a depth of the
recursion that no request exceeds.
Missing: documents whose Kids contain a cycle. -/
theorem C69_terminates_partial (s : PStore) (root : ObjRef) (kids : List PageTree) (h : StoredTree s (.node root kids)) :
    ∃ depth, ∀ f, depth ≤ f → ∀ n, n < 2 ^ 64 → pageAt s f root n ≠ .error .timeout := by
  obtain ⟨_, d, hd⟩ := C47_page_number s root kids h
  refine ⟨d, fun f hf n hn he => ?_⟩
  rw [hd f hf n hn] at he
  split at he
  · exact absurd he (by decide)
  · split at he
    · cases he
    · exact absurd he (by decide)

example : ∃ depth, ∀ f, depth ≤ f → ∀ n, n < 2 ^ 64 → pageAt sampleDoc f (2, 0) n ≠ .error .timeout :=
  C69_terminates_partial _ _ _ sampleTree_stored

end VPdf
