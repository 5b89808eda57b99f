import Verif.Lemmas.NewDocument
import Verif.Props.Writer
import Verif.Props.PageTree
/-
  C114: documents made from nothing.
-/
namespace VPdf
open Spec

/-- The objects `s` with the trailer are the document that was planned: the page tree is found from the trailer; the pages are
different objects; their order is the planned one; each page has the planned entries, of which `seen` says how a value appears; the
pages that are in the tree say so; the information dictionary and the identifier are those given. -/
def ShowsPlan (id producer : Bytes) (now : DateFields) (seen : Option Obj → Option Obj) (s : PStore) (trailer : Dict) (p : Plan) : Prop :=
  ∃ (root : ObjRef) (refs : List ObjRef), documentTree s trailer = .ok root ∧ refs.Nodup ∧ refs.length = p.pages.length ∧ (∀ k ∈ p.order, k < refs.length) ∧
    ShowsPages s root (p.order.filterMap fun k => refs[k]?) ∧
    (∀ k r l, refs[k]? = some r → p.pages[k]? = some l → ∃ d, s r = .dict d ∧
      (∀ key, key ≠ b! "Parent" → valueAt key d = seen (valueAt key l)) ∧
      (k ∈ p.order → valueAt (b! "Parent") d = some (.ref root.1 root.2))) ∧
    (∃ n g info, valueAt (b! "Info") trailer = some (.ref n g) ∧ s (n, g) = .dict info ∧
      valueAt (b! "Producer") info = some (.lit producer) ∧ valueAt (b! "CreationDate") info = some (.lit (dateText now))) ∧
    valueAt (b! "ID") trailer = some (.arr [.hex id, .hex id])

theorem showsPages_flat (s : PStore) (root : ObjRef) (l : List ObjRef) (hr : s root = .dict (treeDict (l.length : Nat) l))
    (hp : ∀ r ∈ l, IsPage s r) (hb : l.length < 2 ^ 63) : ShowsPages s root l := by
  have h := C47_page_number s root (l.map PageTree.page) (by
    rw [StoredTree, pagesOf_pages]
    refine ⟨⟨_, hr, ⟨by simp, Or.inl rfl⟩, ⟨by simp, Or.inl ?_⟩, ⟨by simp, Or.inl rfl⟩, hb⟩, ?_⟩
    · rw [(treeDict_find _ _).2.1, kidRefs, List.map_map]; rfl
    · clear hr hb
      induction l with
      | nil => exact trivial
      | cons r l ih =>
        rw [List.map_cons, StoredTrees]
        refine ⟨?_, ih fun r h => hp r (by simp [h])⟩
        obtain ⟨d, h1, h2⟩ := hp r (by simp)
        rw [StoredTree]
        exact ⟨d, h1, ⟨by simp, Or.inl h2⟩⟩)
  rwa [show (PageTree.node root (l.map PageTree.page)).pages = pagesOf (l.map PageTree.page) from rfl, pagesOf_pages] at h

theorem order_refs {p : Plan} (h : ∀ k ∈ p.order, k < p.pages.length) :
    (p.order.filterMap fun k => ((List.range p.pages.length).map handleRef)[k]?) = p.order.map handleRef := by
  obtain ⟨pages, order⟩ := p
  dsimp only at h ⊢
  induction order with
  | nil => rfl
  | cons k l ih =>
    have hk : ((List.range pages.length).map handleRef)[k]? = some (handleRef k) := by
      rw [List.getElem?_map, List.getElem?_range (h k (by simp))]; rfl
    rw [List.filterMap_cons, hk, List.map_cons]
    dsimp only
    rw [ih fun k h' => h k (by simp [h'])]

theorem range_refs_nodup (n : Nat) : ((List.range n).map handleRef).Nodup := by
  rw [List.nodup_iff_pairwise_ne, List.pairwise_map]
  exact (List.nodup_iff_pairwise_ne.1 List.nodup_range).imp fun h e => h (handleRef_inj e)

/-- Objects that hold what `Ready` says, with the entries of the pages as `seen` says. -/
theorem shows_of {id producer : Bytes} {now : DateFields} {p : Plan} {s : PStore} {trailer : Dict} {seen : Option Obj → Option Obj}
    (htr : ∀ k ∈ [b! "Root", b! "Info", b! "ID"], valueAt k trailer =
      valueAt k [(b! "ID", Obj.arr [.hex id, .hex id]), (b! "Info", .ref 4 0), (b! "Root", .ref 1 0)])
    (hcat : s (1, 0) = .dict [(b! "Pages", .ref 2 0), (b! "Type", .name (b! "Catalog"))])
    (htree : s (2, 0) = .dict (treeDict (p.order.length : Nat) (p.order.map handleRef)))
    (hinfo : s (4, 0) = .dict [(b! "CreationDate", .lit (dateText now)), (b! "Producer", .lit producer)])
    (horder : ∀ k ∈ p.order, k < p.pages.length) (hb : p.order.length < 2 ^ 63)
    (hseen : seen (some (.name (b! "Page"))) = some (.name (b! "Page")))
    (hpage : ∀ k l, p.pages[k]? = some l → ∃ d, s (handleRef k) = .dict d ∧ valueAt (b! "Type") l = some (.name (b! "Page")) ∧
      (∀ key, key ≠ b! "Parent" → valueAt key d = seen (valueAt key l)) ∧
      (k ∈ p.order → valueAt (b! "Parent") d = some (.ref 2 0))) :
    ShowsPlan id producer now seen s trailer p := by
  refine ⟨(2, 0), (List.range p.pages.length).map handleRef, ?_, range_refs_nodup _, by simp, by simpa using horder, ?_, ?_, ?_, ?_⟩
  · refine documentTree_ok s trailer (1, 0) (2, 0) _ _ ?_ hcat rfl rfl htree
    rw [← valueAt_eq, htr _ (by simp)]; rfl
  · rw [order_refs horder]
    refine showsPages_flat s _ _ (by rw [htree, List.length_map]) ?_ (by rwa [List.length_map])
    intro r hr
    obtain ⟨k, hk, rfl⟩ := List.mem_map.1 hr
    obtain ⟨d, h1, h2, h3, -⟩ := hpage k _ (List.getElem?_eq_getElem (horder k hk))
    exact ⟨d, h1, by rw [← valueAt_eq, h3 _ (by decide), h2, hseen]⟩
  · intro k r l hr hl
    obtain ⟨d, h1, -, h3, h4⟩ := hpage k l hl
    rw [List.getElem?_map, List.getElem?_range (List.getElem?_eq_some_iff.1 hl).1] at hr
    cases hr
    exact ⟨d, h1, h3, h4⟩
  · exact ⟨4, 0, _, by rw [htr _ (by simp)]; rfl, hinfo, rfl, rfl⟩
  · rw [htr _ (by simp)]; rfl

theorem Ready.shows {id producer : Bytes} {now : DateFields} {d : NewDoc} {p : Plan} (h : Ready id producer now d p)
    (hb : p.order.length < 2 ^ 63) : ShowsPlan id producer now (fun v => v) d.store d.trailer p := by
  refine shows_of (fun k _ => by rw [h.trailer]) h.catalog h.tree h.info h.order hb rfl ?_
  intro k l hk
  obtain ⟨pd, g1, -, g3, g4⟩ := h.page k l hk
  refine ⟨pd, g1, g3, fun key hkey => by rw [valueAt_eq, g4 key hkey], fun hin => ?_⟩
  obtain ⟨pd', e1, e2⟩ := h.parent k hin
  rw [g1] at e1
  cases e1
  rw [valueAt_eq, e2]

theorem entriesTo_distinct (m : Nat) : Distinct (entriesTo m) := by
  rw [Distinct, entriesTo, List.pairwise_cons, List.pairwise_map]
  refine ⟨?_, (List.nodup_iff_pairwise_ne.1 List.nodup_range).imp fun h e => h (Nat.succ.inj e)⟩
  intro e he
  obtain ⟨i, -, rfl⟩ := List.mem_map.1 he
  exact Nat.succ_ne_zero i |>.symm

theorem sortedKeys_of_keys {d : Dict} (h : (d.map Prod.fst).Pairwise fun a b => bytesLt a b = true) : SortedKeys d :=
  List.pairwise_map.1 h

/-- An object of a document and its text. -/
theorem Ready.held {id producer : Bytes} {now : DateFields} {d : NewDoc} {p : Plan} (h : Ready id producer now d p)
    (hb : p.pages.length + p.order.length + 10 ≤ 2147483648) (i : Nat) (hi : i < p.pages.length + 3) : Holdable (d.store (i + 1, 0)) := by
  match i, hi with
  | 0, _ =>
    rw [h.catalog]
    refine .dict _ (by unfold SortedKeys; decide) ?_
    intro x hx
    simp only [List.mem_cons, List.not_mem_nil, or_false] at hx
    rcases hx with rfl | rfl
    · exact .ref _ _ (by decide) (by decide)
    · exact .name _
  | 1, _ =>
    rw [h.tree]
    refine .dict _ (sortedKeys_of_keys (show [b! "Count", b! "Kids", b! "Type"].Pairwise _ by decide)) ?_
    intro x hx
    simp only [treeDict, List.mem_cons, List.not_mem_nil, or_false] at hx
    rcases hx with rfl | rfl | rfl
    · exact .int _ (by omega) (by omega)
    · refine .arr _ fun o ho => ?_
      simp only [List.mem_map] at ho
      obtain ⟨r, ⟨k, hk, rfl⟩, rfl⟩ := ho
      have := h.order k hk
      refine .ref _ _ ?_ ?_ <;> unfold handleRef <;> split <;> simp
      omega
    · exact .name _
  | 2, _ =>
    obtain ⟨pd, g1, g2, -⟩ := h.page 0 _ (List.getElem?_eq_getElem h.nonempty)
    rw [show ((2 + 1, 0) : ObjRef) = handleRef 0 from rfl, g1]
    exact g2
  | 3, _ =>
    rw [h.info]
    refine .dict _ (sortedKeys_of_keys (show [b! "CreationDate", b! "Producer"].Pairwise _ by decide)) ?_
    intro x hx
    simp only [List.mem_cons, List.not_mem_nil, or_false] at hx
    rcases hx with rfl | rfl <;> exact .lit _
  | i + 4, hi =>
    have hk : i + 1 < p.pages.length := by omega
    obtain ⟨pd, g1, g2, -⟩ := h.page (i + 1) _ (List.getElem?_eq_getElem hk)
    have : ((i + 4 + 1, 0) : ObjRef) = handleRef (i + 1) := by
      rw [handleRef, if_neg (by omega)]
      congr 1; omega
    rw [this, g1]
    exact g2

theorem Ready.sections {id producer : Bytes} {now : DateFields} {d : NewDoc} {p : Plan} (h : Ready id producer now d p)
    (hb : p.pages.length + p.order.length + 10 ≤ 2147483648) :
    ∃ s, d.sections = [s] ∧ GoodSection s ∧ s.own = none ∧
      s.trailer = [(b! "ID", .arr [.hex id, .hex id]), (b! "Info", .ref 4 0), (b! "Root", .ref 1 0)] ∧
      (∀ e ∈ s.entries, ∃ x, entryObject e = .direct x) ∧
      ∀ i, i < p.pages.length + 3 → DocHolds [s] (i + 1) 0 (.direct (d.store (i + 1, 0))) := by
  obtain ⟨q1, q2, q3⟩ := sorted_spec (entriesTo_distinct (p.pages.length + 3))
  have hnum : ∀ e : XEntry, (d.entry e).num = e.num ∧ (d.entry e).gen = e.gen := by
    intro e; unfold NewDoc.entry; split <;> exact ⟨rfl, rfl⟩
  have hmem : ∀ w, w ∈ (EntrySet.sorted (entriesTo (p.pages.length + 3))).map d.entry → w = ⟨0, 65535, .free 0⟩ ∨
      ∃ i, i < p.pages.length + 3 ∧ w = ⟨i + 1, 0, .used (-1) (some (.direct (d.store (i + 1, 0))))⟩ := by
    intro w hw
    obtain ⟨e, he, rfl⟩ := List.mem_map.1 hw
    rw [q2, entriesTo, List.mem_cons, List.mem_map] at he
    rcases he with rfl | ⟨i, hi, rfl⟩
    · exact Or.inl rfl
    · exact Or.inr ⟨i, List.mem_range.1 hi, rfl⟩
  refine ⟨⟨none, (EntrySet.sorted (entriesTo (p.pages.length + 3))).map d.entry, d.trailer⟩, ?_, ⟨?_, ?_, ?_, ?_, ?_, ?_⟩, rfl, h.trailer, ?_, ?_⟩
  · rw [NewDoc.sections, h.alloc]; rfl
  · dsimp only
    rw [List.pairwise_map]
    exact q1.imp fun hab => by rw [(hnum _).1, (hnum _).1]; exact hab
  · simp only [List.length_map, q3]
    simp only [entriesTo, List.length_cons, List.length_map, List.length_range]; omega
  · intro e he
    rcases hmem e he with rfl | ⟨i, hi, rfl⟩
    · decide
    · exact ⟨by dsimp only; omega, Nat.zero_le _⟩
  · intro e he
    rcases hmem e he with rfl | ⟨i, hi, rfl⟩
    · exact trivial
    · rintro x ⟨⟩
      exact h.held hb i hi
  · dsimp only
    rw [h.trailer]
    refine .dict _ (sortedKeys_of_keys (show [b! "ID", b! "Info", b! "Root"].Pairwise _ by decide)) ?_
    intro x hx
    simp only [List.mem_cons, List.not_mem_nil, or_false] at hx
    rcases hx with rfl | rfl | rfl
    · exact .arr _ (by intro o ho; simp at ho; subst ho; exact .hex _)
    · exact .ref _ _ (by decide) (by decide)
    · exact .ref _ _ (by decide) (by decide)
  · intro n g hn; cases hn
  · intro e he
    rcases hmem e he with rfl | ⟨i, hi, rfl⟩
    · exact ⟨_, rfl⟩
    · exact ⟨_, rfl⟩
  · intro i hi
    exact .here _ [] ⟨i + 1, 0, .used (-1) (some (.direct (d.store (i + 1, 0))))⟩
      (List.mem_map.2 ⟨⟨i + 1, 0, .used (-1)⟩, (q2 _).2 (by rw [entriesTo, List.mem_cons, List.mem_map]; exact Or.inr ⟨i, List.mem_range.2 hi, rfl⟩), rfl⟩)
      (by simp)

theorem dropNullsItems_refs (l : List ObjRef) : dropNullsItems (l.map fun r => .ref r.1 r.2) = l.map fun r => .ref r.1 r.2 := by
  induction l with
  | nil => rfl
  | cons r l ih => rw [List.map_cons, dropNullsItems, ih]; rfl

/-- **C114.**  A document that is made by Document_Create, whose pages are made, filled, inserted, appended and removed by any
calls in any order, shows the pages that the calls describe; it is saved, and the file, when opened, shows the same pages in the
same order with the same entries, the same producer, date and identifier. -/
theorem C114_new_document (c : Codec) (hc : Faithful c) (id producer : Bytes) (now : DateFields) (ops : List DocOp)
    (ho : ∀ o ∈ ops, Allowed o) (hb : ops.length + 20 ≤ 2147483648) :
    ∃ d file, createDocument id producer now = .ok d ∧
      ShowsPlan id producer now (fun v => v) (DocOp.runAll d ops).store (DocOp.runAll d ops).trailer (ops.foldl Plan.edit .start) ∧
      (DocOp.runAll d ops).save c = .ok file ∧
      (file.length ≤ 9223372036854775807 → ∃ x, openFile c file = .ok (.v17, [x]) ∧
        ∀ f, ShowsPlan id producer now valueRead (openedStore file [x] (f + 2)) x.2 (ops.foldl Plan.edit .start)) := by
  obtain ⟨d, h1, h2⟩ := createDocument_ready id producer now
  have hlen := edits_length ops .start
  have hst : Plan.start.pages.length + Plan.start.order.length = 2 := rfl
  have hr := h2.run ops ho (by omega)
  generalize hp : ops.foldl Plan.edit .start = p at hr hlen ⊢
  obtain ⟨e, hd⟩ : ∃ e, DocOp.runAll d ops = e := ⟨_, rfl⟩
  rw [hd] at hr
  obtain ⟨s, s1, s2, s3, s4, s5, s6⟩ := hr.sections (by omega)
  obtain ⟨file, hf⟩ := C32_tables_are_saved c .v17 [s] (by simpa using s2) (by simpa using s3)
    (by intro s' hs'; obtain rfl := List.mem_singleton.1 hs'; rw [s4]; exact Or.inl rfl)
    (by
      intro s' hs' w hw dd body hx
      obtain rfl := List.mem_singleton.1 hs'
      obtain ⟨x, hx'⟩ := s5 w hw
      rw [hx'] at hx; cases hx)
  refine ⟨d, file, h1, by rw [hd]; exact hr.shows (by omega), by rw [hd, NewDoc.save, s1, hf], fun hfl => ?_⟩
  obtain ⟨xs, o1, o2, o3, -, o5⟩ := C32_saved_document_partial c hc .v17 [s] file (by simp)
    ⟨by simpa using s2, by intro s' hs'; obtain rfl : s = s' := Option.some.inj hs'; rw [s4]; rfl⟩
    (by
      intro s' hs' w hw dd body n g hx
      obtain rfl := List.mem_singleton.1 hs'
      obtain ⟨x, hx'⟩ := s5 w hw
      rw [hx'] at hx; cases hx) hf hfl
  match xs, o2 with
  | [x], _ =>
    refine ⟨x, o1, fun f => ?_⟩
    have hload : ∀ i, i < p.pages.length + 3 → openedStore file [x] (f + 2) (i + 1, 0) = dropNulls (e.store (i + 1, 0)) := by
      intro i hi
      obtain ⟨o', l1, l2, -⟩ := o3 _ _ _ (s6 i hi) f
      rw [openedStore, l1]
      cases l2
      rfl
    have hsome := hr.nonempty
    refine shows_of ?_ ?_ ?_ ?_ hr.order (by omega) rfl ?_
    · intro k hk
      rw [o5 k (by simp only [List.mem_cons, List.not_mem_nil, or_false] at hk ⊢; rcases hk with rfl | rfl | rfl <;> simp) s x rfl rfl, s4]
      rfl
    · rw [hload 0 (by omega), hr.catalog]; rfl
    · rw [hload 1 (by omega), hr.tree]
      simp only [treeDict, dropNulls, dropNullsEntries, dropNullsItems_refs]
    · rw [hload 3 (by omega), hr.info]; rfl
    · intro k l hk
      obtain ⟨pd, g1, g2, g3, g4⟩ := hr.page k l hk
      have hlt := (List.getElem?_eq_some_iff.1 hk).1
      have hs : openedStore file [x] (f + 2) (handleRef k) = .dict (dropNullsEntries pd) := by
        have : ∃ i, i < p.pages.length + 3 ∧ handleRef k = (i + 1, 0) := by
          unfold handleRef
          split
          · exact ⟨2, by omega, rfl⟩
          · exact ⟨3 + k, by omega, by congr 1; omega⟩
        obtain ⟨i, hi, e⟩ := this
        rw [e, hload i hi, ← e, g1]; rfl
      refine ⟨_, hs, g3, ?_, ?_⟩
      · intro key hkey
        rw [valueAt_eq, dropNullsEntries_value (holdable_dict g2).1, g4 key hkey]
        cases valueAt key l with
        | none => rfl
        | some o => cases o <;> rfl
      · intro hin
        obtain ⟨pd', e1, e2⟩ := hr.parent k hin
        rw [g1] at e1
        cases e1
        rw [valueAt_eq, dropNullsEntries_value (holdable_dict g2).1, e2]
        rfl

/-- Calls that fill the first page, make two more, put them around it, take one away, and try what is refused. -/
def sampleEdits : List DocOp :=
  [.put 0 (b! "MediaBox") (.arr [.int 0, .int 0, .int 612, .int 792]), .newPage, .newPage, .insert 1 1, .append 2, .put 2 (b! "Rotate") (.int 90),
    .put 2 (b! "Rotate") (.int 0), .insert 7 1, .insert 1 9, .remove 2, .append 1, .remove 0, .remove 40, .put 1 (b! "Tabs") .null]

/-- The hypotheses of `C114_new_document` hold of these calls. -/
example : ∀ o ∈ sampleEdits, Allowed o := by
  intro o ho
  simp only [sampleEdits, List.mem_cons, List.not_mem_nil, or_false] at ho
  rcases ho with rfl | rfl | rfl | rfl | rfl | rfl | rfl | rfl | rfl | rfl | rfl | rfl | rfl | rfl <;>
    first
    | exact trivial
    | (show (_ : Nat) < 2 ^ 64; decide)
    | skip
  · refine ⟨by decide, .arr _ fun o ho => ?_⟩
    simp only [List.mem_cons, List.not_mem_nil, or_false] at ho
    rcases ho with rfl | rfl | rfl | rfl <;> exact .int _ (by decide) (by decide)
  · exact ⟨by decide, .int _ (by decide) (by decide)⟩
  · exact ⟨by decide, .int _ (by decide) (by decide)⟩
  · exact ⟨by decide, .null⟩

/-- The plan of these calls: of three pages the second, the third, and the second again. -/
example : (sampleEdits.foldl Plan.edit .start).order = [1, 2, 1] ∧ (sampleEdits.foldl Plan.edit .start).pages.length = 3 := by
  decide +kernel

/-- A document is made, changed and saved, and the file is opened: the page tree, its number of pages, and the pages are as planned. -/
example : (match createDocument (b! "0123456789abcdef") (b! "Vanilla.PDF") { year := 2026, month := 11, day := 17 } with
    | .ok d =>
      match (DocOp.runAll d sampleEdits).save plainCodec with
      | .ok file =>
        match openFile plainCodec file with
        | .ok (_, [x]) =>
          decide (documentTree (openedStore file [x] 3) x.2 = .ok (2, 0)) && decide (pageCount (openedStore file [x] 3) (2, 0) = .ok 3) &&
          decide (pageAt (openedStore file [x] 3) 3 (2, 0) 1 = .ok (5, 0)) && decide (pageAt (openedStore file [x] 3) 3 (2, 0) 2 = .ok (6, 0)) &&
          decide (pageAt (openedStore file [x] 3) 3 (2, 0) 3 = .ok (5, 0)) && decide (pageAt (openedStore file [x] 3) 3 (2, 0) 4 = .error .throw)
        | _ => false
      | _ => false
    | _ => false) = true := by
  decide +kernel

end VPdf
