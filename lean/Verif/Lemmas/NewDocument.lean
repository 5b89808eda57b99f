import Verif.Spec.NewDocument
import Verif.Lemmas.PageChange
import Verif.Lemmas.Writer
import Verif.Lemmas.HeapSteps
/-
  Lemmas for C114: what the calls do to a document made from nothing.
-/
namespace VPdf
open Spec

/-- The root of the page tree of a new document. -/
def treeDict (c : Int) (l : List ObjRef) : Dict :=
  [(b! "Count", .int c), (b! "Kids", .arr (l.map fun r => .ref r.1 r.2)), (b! "Type", .name (b! "Pages"))]

/-- The object is a page. -/
def IsPage (s : PStore) (r : ObjRef) : Prop := ∃ d, s r = .dict d ∧ mapFind (b! "Type") d = some (.name (b! "Page"))

theorem treeDict_find (c : Int) (l : List ObjRef) :
    mapFind (b! "Type") (treeDict c l) = some (.name (b! "Pages")) ∧
    mapFind (b! "Kids") (treeDict c l) = some (.arr (l.map fun r => .ref r.1 r.2)) ∧
    mapFind (b! "Count") (treeDict c l) = some (.int c) := ⟨rfl, rfl, rfl⟩

theorem treeDict_replace (c c' : Int) (l l' : List ObjRef) :
    replaceEntry (b! "Count") (.int c') (treeDict c l) = treeDict c' l ∧
    replaceEntry (b! "Kids") (.arr (l'.map fun r => .ref r.1 r.2)) (treeDict c l) = treeDict c l' := ⟨rfl, rfl⟩

theorem store_set_self (s : PStore) (r : ObjRef) (o : Obj) (h : s r = o) : s.set r o = s := by
  funext q
  rw [PStore.set]
  split
  · rename_i hq; rw [hq, h]
  · rfl

theorem store_set_set (s : PStore) (r : ObjRef) (a b : Obj) : (s.set r a).set r b = s.set r b := by
  funext q
  simp only [PStore.set]
  split <;> rfl

theorem store_set_comm (s : PStore) {r q : ObjRef} (h : r ≠ q) (a b : Obj) : (s.set r a).set q b = (s.set q b).set r a := by
  funext x
  simp only [PStore.set]
  split
  · rename_i h1
    split
    · rename_i h2; exact absurd (h2.symm.trans h1) h
    · rfl
  · rfl

theorem store_at (s : PStore) (r : ObjRef) (a : Obj) : (s.set r a) r = a := by simp [PStore.set]

theorem store_other (s : PStore) {r q : ObjRef} (h : q ≠ r) (a : Obj) : (s.set r a) q = s q := by simp [PStore.set, h]

theorem IsPage.node {s : PStore} {r : ObjRef} (h : IsPage s r) : createPageNode s r = .ok .page := by
  obtain ⟨d, h1, h2⟩ := h
  simp [createPageNode, dictAt, h1, h2, treeEntry, ok_bind]
  decide

theorem tree_node {s : PStore} {r : ObjRef} {c : Int} {l : List ObjRef} (h : s r = .dict (treeDict c l)) :
    createPageNode s r = .ok .tree ∧ pageTreeNode s r = .ok (treeDict c l) := by
  obtain ⟨h1, -, -⟩ := treeDict_find c l
  constructor
  · simp [createPageNode, dictAt, h, h1, treeEntry, ok_bind, pure, Except.pure]
  · simp [pageTreeNode, dictAt, h, h1, treeEntry, ok_bind, pure, Except.pure]

theorem updateLoop_pages (f : Nat) (s : PStore) (l : List ObjRef) (h : ∀ r ∈ l, IsPage s r) : ∀ acc, acc + l.length < 2 ^ 64 →
    updateKidsLoop (updateKidsCount (f + 1)) s (l.map fun r => .ref r.1 r.2) acc = .ok (acc + l.length, s) := by
  induction l with
  | nil => intro acc _; rfl
  | cons r l ih =>
    intro acc hb
    have hr := (h r (by simp)).node
    rw [List.map_cons, updateKidsLoop, kidNode, hr, ok_bind]
    have hu : updateKidsCount (f + 1) s r = .ok (1, s) := by rw [updateKidsCount, hr, ok_bind]; rfl
    simp only [pure, Except.pure, ok_bind, hu]
    rw [List.length_cons] at hb ⊢
    rw [Nat.mod_eq_of_lt (by omega), ih (fun q hq => h q (by simp [hq])) _ (by omega)]
    congr 2
    omega

theorem update_tree (f : Nat) (s : PStore) (root : ObjRef) (c : Int) (l : List ObjRef) (hr : s root = .dict (treeDict c l))
    (h : ∀ r ∈ l, IsPage s r) (hb : l.length < 2 ^ 64) :
    updateKidsCount (f + 2) s root = .ok (l.length, s.set root (.dict (treeDict l.length l))) := by
  obtain ⟨h1, h2, h3⟩ := treeDict_find c l
  rw [updateKidsCount, (tree_node hr).1, ok_bind]
  have he : treeEntry s (treeDict c l) (b! "Count") = .ok (.int c) := by rw [treeEntry, h3]
  have hk : kidsOf s (treeDict c l) = .ok (l.map fun r => .ref r.1 r.2) := by
    rw [kidsOf, treeEntry, h2, ok_bind]; rfl
  simp only [dictAt, hr, ok_bind, he, hk, updateLoop_pages f s l h 0 (by omega), Nat.zero_add, pure, Except.pure, placeOf, h3, assign,
    (treeDict_replace c l.length l l).1]

theorem getKids_tree {s : PStore} {root : ObjRef} {c : Int} {l : List ObjRef} (hr : s root = .dict (treeDict c l)) :
    getKidsInternal s root = .ok (s, .entry root (b! "Kids"), l.map fun r => .ref r.1 r.2) := by
  obtain ⟨h1, h2, h3⟩ := treeDict_find c l
  have hk : kidsOf s (treeDict c l) = .ok (l.map fun r => .ref r.1 r.2) := by
    rw [kidsOf, treeEntry, h2, ok_bind]; rfl
  simp only [getKidsInternal, dictAt, hr, ok_bind, h2, Option.isNone_some, Bool.false_eq_true, if_false,
    store_set_self s root _ hr, hk, placeOf, pure, Except.pure]

/-- The dictionary of a page that is put into the tree. -/
def underParent (root : ObjRef) (d : Dict) : Dict := mapInsert (b! "Parent") (.ref root.1 root.2) (mapErase (b! "Parent") d)

theorem underParent_find (root : ObjRef) (d : Dict) (k : Bytes) (h : k ≠ b! "Parent") : mapFind k (underParent root d) = mapFind k d := by
  rw [underParent, mapFind_insert_ne h, mapErase_find, if_neg h]

theorem underParent_parent (root : ObjRef) (d : Dict) : mapFind (b! "Parent") (underParent root d) = some (.ref root.1 root.2) := by
  rw [underParent, mapFind_insert_new]
  rw [mapErase_find, if_pos rfl]

theorem IsPage.set_parent {s : PStore} {root p q : ObjRef} {d : Dict} (hp : s p = .dict d) (h : IsPage s q) (o : Obj) (hne : q ≠ root) :
    IsPage ((s.set root o).set p (.dict (underParent root d))) q := by
  obtain ⟨e, h1, h2⟩ := h
  by_cases hq : q = p
  · subst hq
    rw [hp] at h1
    cases h1
    exact ⟨_, store_at .., by rw [underParent_find _ _ _ (by decide), h2]⟩
  · exact ⟨e, by rw [store_other _ hq, store_other _ hne, h1], h2⟩

theorem page_ne_tree {s : PStore} {root q : ObjRef} {c : Int} {l : List ObjRef} (hr : s root = .dict (treeDict c l)) (h : IsPage s q) :
    q ≠ root := by
  rintro rfl
  obtain ⟨d, h1, h2⟩ := h
  rw [hr] at h1
  cases h1
  rw [(treeDict_find c l).1] at h2
  simp at h2

theorem insert_tree (s : PStore) (f : Nat) (root p : ObjRef) (c : Int) (l : List ObjRef) (i : Nat) (hr : s root = .dict (treeDict c l))
    (h : ∀ r ∈ l, IsPage s r) (d : Dict) (hd : s p = .dict d) (ht : mapFind (b! "Type") d = some (.name (b! "Page")))
    (hb : l.length + 1 < 2 ^ 64) (hi : i < 2 ^ 64) :
    insertPage s (f + 2) root p i =
      if 1 ≤ i ∧ i ≤ l.length + 1 then
        .ok ((s.set root (.dict (treeDict ((l.length + 1 : Nat) : Int) (l.insertIdx (i - 1) p)))).set p (.dict (underParent root d)))
      else .error .throw := by
  have hp : IsPage s p := ⟨d, hd, ht⟩
  have hne := page_ne_tree hr hp
  rw [insertPage, getKids_tree hr, ok_bind]
  simp only [List.length_map]
  by_cases hin : 1 ≤ i ∧ i ≤ l.length + 1
  · rw [if_pos hin, show (2 ^ 64 + i - 1) % 2 ^ 64 = i - 1 by omega, if_neg (by omega)]
    have hm : (l.map fun r => Obj.ref r.1 r.2).insertIdx (i - 1) (.ref p.1 p.2) = (l.insertIdx (i - 1) p).map fun r => Obj.ref r.1 r.2 := by
      rw [map_insertIdx']
    rw [hm]
    have hassign : assign s (.entry root (b! "Kids")) (.arr ((l.insertIdx (i - 1) p).map fun r => Obj.ref r.1 r.2)) =
        s.set root (.dict (treeDict c (l.insertIdx (i - 1) p))) := by
      simp only [assign, hr, (treeDict_replace c c l _).2]
    rw [hassign]
    have hsp : setParent (s.set root (.dict (treeDict c (l.insertIdx (i - 1) p)))) p root =
        .ok ((s.set root (.dict (treeDict c (l.insertIdx (i - 1) p)))).set p (.dict (underParent root d))) := by
      simp only [setParent, dictAt, store_other _ hne, hd, ok_bind]; rfl
    have hroot : ((s.set root (.dict (treeDict c (l.insertIdx (i - 1) p)))).set p (.dict (underParent root d))) root =
        .dict (treeDict c (l.insertIdx (i - 1) p)) := by
      rw [store_other _ (Ne.symm hne), store_at]
    have hlen : (l.insertIdx (i - 1) p).length = l.length + 1 := by rw [List.length_insertIdx_of_le_length (by omega)]
    have hup := update_tree f _ root c _ hroot (fun r hr' => by
      have : IsPage s r := by
        rcases List.mem_insertIdx (by omega) |>.1 hr' with rfl | h'
        · exact hp
        · exact h r h'
      exact this.set_parent hd _ (page_ne_tree hr this)) (by rw [hlen]; omega)
    simp only [pure, Except.pure, ok_bind, hsp, (tree_node hroot).2, hup, hlen]
    rw [store_set_comm _ hne, store_set_set]
  · rw [if_neg hin, if_pos (by omega)]
    rfl

theorem append_tree (s : PStore) (f : Nat) (root p : ObjRef) (c : Int) (l : List ObjRef) (hr : s root = .dict (treeDict c l))
    (h : ∀ r ∈ l, IsPage s r) (d : Dict) (hd : s p = .dict d) (ht : mapFind (b! "Type") d = some (.name (b! "Page")))
    (hb : l.length + 1 < 2 ^ 64) :
    appendPage s (f + 2) root p =
      .ok ((s.set root (.dict (treeDict ((l.length + 1 : Nat) : Int) (l ++ [p])))).set p (.dict (underParent root d))) := by
  rw [appendPage, getKids_tree hr, ok_bind]
  simp only [List.length_map]
  rw [Nat.mod_eq_of_lt (by omega), insert_tree s f root p c l _ hr h d hd ht hb (by omega), if_pos (by omega), Nat.add_sub_cancel,
    List.insertIdx_length_self]

theorem remove_tree (s : PStore) (f : Nat) (root : ObjRef) (c : Int) (l : List ObjRef) (i : Nat) (hr : s root = .dict (treeDict c l))
    (h : ∀ r ∈ l, IsPage s r) (hb : l.length < 2 ^ 64 - 1) (hi : i < 2 ^ 64) :
    removePage s (f + 2) root i =
      .ok (s.set root (.dict (if 1 ≤ i then treeDict ((l.eraseIdx (i - 1)).length : Nat) (l.eraseIdx (i - 1)) else treeDict l.length l))) := by
  have up : ∀ (t : PStore) (m : List ObjRef), t root = .dict (treeDict c m) → (∀ r ∈ m, IsPage t r) → m.length < 2 ^ 64 →
      (do let _ ← pageTreeNode t root; let (_, t) ← updateKidsCount (f + 2) t root; pure t : Res PStore) =
      .ok (t.set root (.dict (treeDict m.length m))) := by
    intro t m h1 h2 h3
    rw [(tree_node h1).2, ok_bind, update_tree f t root c m h1 h2 h3, ok_bind]
    rfl
  rw [removePage, getKids_tree hr, ok_bind]
  simp only [List.length_map]
  by_cases hin : 1 ≤ i ∧ i ≤ l.length
  · rw [show (2 ^ 64 + i - 1) % 2 ^ 64 = i - 1 by omega, if_pos (by omega), if_pos hin.1]
    have hm : (l.map fun r => Obj.ref r.1 r.2).eraseIdx (i - 1) = (l.eraseIdx (i - 1)).map fun r => Obj.ref r.1 r.2 := by
      rw [map_eraseIdx']
    have hassign : assign s (.entry root (b! "Kids")) (.arr ((l.eraseIdx (i - 1)).map fun r => Obj.ref r.1 r.2)) =
        s.set root (.dict (treeDict c (l.eraseIdx (i - 1)))) := by
      simp only [assign, hr, (treeDict_replace c c l _).2]
    rw [hm, hassign]
    have := up _ _ (store_at s root (.dict (treeDict c (l.eraseIdx (i - 1))))) (fun r hr' => by
      have hp := h r (List.mem_of_mem_eraseIdx hr')
      obtain ⟨d, h1, h2⟩ := hp
      exact ⟨d, by rw [store_other _ (page_ne_tree hr ⟨d, h1, h2⟩), h1], h2⟩) (by
        have := List.length_eraseIdx_le l (i - 1); omega)
    rw [store_set_set] at this
    exact this
  · rw [if_neg (by omega)]
    have := up s l hr h (by omega)
    refine this.trans ?_
    split
    · rw [List.eraseIdx_of_length_le (by omega)]
    · rfl

/-! ### The documents that calls make -/

/-- The entries of a document with `m` objects. -/
def entriesTo (m : Nat) : List XEntry := ⟨0, 65535, .free 0⟩ :: (List.range m).map fun i => ⟨i + 1, 0, .used (-1)⟩

/-- The object of the page with the given number in the order in which they were made. -/
def handleRef (k : Nat) : ObjRef := if k = 0 then (3, 0) else (4 + k, 0)

theorem handleRef_inj {a b : Nat} (h : handleRef a = handleRef b) : a = b := by
  unfold handleRef at h
  split at h <;> split at h <;> simp at h <;> omega

theorem handleRef_ne (k : Nat) : handleRef k ≠ (1, 0) ∧ handleRef k ≠ (2, 0) ∧ handleRef k ≠ (4, 0) := by
  unfold handleRef
  split
  · decide
  · simp only [ne_eq, Prod.mk.injEq, and_true]; omega

/-- What holds of a document after any calls. -/
structure Ready (id producer : Bytes) (now : DateFields) (d : NewDoc) (p : Plan) : Prop where
  alloc : d.alloc = ⟨[⟨.table, entriesTo (p.pages.length + 3), none⟩], p.pages.length + 4⟩
  trailer : d.trailer = [(b! "ID", .arr [.hex id, .hex id]), (b! "Info", .ref 4 0), (b! "Root", .ref 1 0)]
  catalog : d.store (1, 0) = .dict [(b! "Pages", .ref 2 0), (b! "Type", .name (b! "Catalog"))]
  tree : d.store (2, 0) = .dict (treeDict p.order.length (p.order.map handleRef))
  info : d.store (4, 0) = .dict [(b! "CreationDate", .lit (dateText now)), (b! "Producer", .lit producer)]
  handles : d.handles = (List.range p.pages.length).map handleRef
  order : ∀ k ∈ p.order, k < p.pages.length
  nonempty : 1 ≤ p.pages.length
  parent : ∀ k ∈ p.order, ∃ pd, d.store (handleRef k) = .dict pd ∧ mapFind (b! "Parent") pd = some (.ref 2 0)
  page : ∀ k l, p.pages[k]? = some l → ∃ pd, d.store (handleRef k) = .dict pd ∧ Holdable (.dict pd) ∧
    valueAt (b! "Type") l = some (.name (b! "Page")) ∧ ∀ key, key ≠ b! "Parent" → mapFind key pd = valueAt key l

theorem entriesTo_find (m n : Nat) : EntrySet.find n (entriesTo m) = none ↔ m < n := by
  rw [EntrySet.find, List.find?_eq_none]
  simp only [entriesTo, List.mem_cons, List.mem_map, List.mem_range, beq_iff_eq]
  constructor
  · intro h
    by_cases h0 : n = 0
    · exact absurd (by rw [h0]) (h ⟨0, 65535, .free 0⟩ (Or.inl rfl))
    · exact Nat.lt_of_not_le fun hle => h ⟨n - 1 + 1, 0, .used (-1)⟩ (Or.inr ⟨n - 1, by omega, rfl⟩) (by simp; omega)
  · rintro h e (rfl | ⟨i, hi, rfl⟩) <;> simp <;> omega

theorem entriesTo_succ (m : Nat) : entriesTo (m + 1) = entriesTo m ++ [⟨m + 1, 0, .used (-1)⟩] := by
  simp [entriesTo, List.range_succ]

theorem allocate_entriesTo (m : Nat) (hm : m + 1 < 2 ^ 64 - 1) :
    Alloc.allocate ⟨[⟨.table, entriesTo m, none⟩], m + 1⟩ = .ok (⟨m + 1, 0, .used (-1)⟩, ⟨[⟨.table, entriesTo (m + 1), none⟩], m + 2⟩) := by
  have hf := (entriesTo_find m (m + 1)).2 (by omega)
  have habs : firstAbsent [⟨.table, entriesTo m, none⟩] (2 ^ 64 - 1 - (m + 1)) (m + 1) = some (m + 1) := by
    obtain ⟨k, hk⟩ : ∃ k, 2 ^ 64 - 1 - (m + 1) = k + 1 := ⟨2 ^ 64 - 1 - (m + 1) - 1, by omega⟩
    rw [hk, firstAbsent, if_pos]
    simp [Section.contains, hf]
  rw [Alloc.allocate]
  simp only [habs, Section.add, EntrySet.add, EntrySet.insert, hf, Bool.and_false, Bool.false_eq_true, if_false, if_true, ok_bind, pure,
    Except.pure, entriesTo_succ]

theorem documentTree_ok (s : PStore) (trailer : Dict) (c t : ObjRef) (cd td : Dict) (h1 : mapFind (b! "Root") trailer = some (.ref c.1 c.2))
    (h2 : s c = .dict cd) (h3 : mapFind (b! "Type") cd = some (.name (b! "Catalog"))) (h4 : mapFind (b! "Pages") cd = some (.ref t.1 t.2))
    (h5 : s t = .dict td) : documentTree s trailer = .ok t := by
  simp only [documentTree, h1, dictAt, h2, ok_bind, h3, h4, h5, ne_eq, not_true, if_false, pure, Except.pure]

theorem Ready.root {id producer : Bytes} {now : DateFields} {d : NewDoc} {p : Plan} (h : Ready id producer now d p) :
    documentTree d.store d.trailer = .ok (2, 0) :=
  documentTree_ok d.store d.trailer (1, 0) (2, 0) _ _ (by rw [h.trailer]; rfl) h.catalog rfl rfl h.tree

theorem Ready.handle {id producer : Bytes} {now : DateFields} {d : NewDoc} {p : Plan} (h : Ready id producer now d p) (k : Nat) :
    d.handles[k]? = if k < p.pages.length then some (handleRef k) else none := by
  rw [h.handles, List.getElem?_map]
  split
  · rename_i hk; rw [List.getElem?_range hk]; rfl
  · rename_i hk; rw [List.getElem?_eq_none (by simpa using hk)]; rfl

theorem Ready.isPage {id producer : Bytes} {now : DateFields} {d : NewDoc} {p : Plan} (h : Ready id producer now d p) {k : Nat}
    (hk : k < p.pages.length) : IsPage d.store (handleRef k) := by
  obtain ⟨pd, h1, -, h3, h4⟩ := h.page k p.pages[k] (List.getElem?_eq_getElem hk)
  exact ⟨pd, h1, by rw [h4 _ (by decide), h3]⟩

theorem holdable_underParent {d : Dict} (h : Holdable (.dict d)) : Holdable (.dict (underParent (2, 0) d)) :=
  holdable_insert (holdable_erase h _) (.ref _ _ (by decide) (by decide)) _

/-- A change of the order of the pages. -/
theorem Ready.reorder {id producer : Bytes} {now : DateFields} {d : NewDoc} {p : Plan} (h : Ready id producer now d p) (l : List Nat)
    (hl : ∀ k ∈ l, k < p.pages.length) (s : PStore) (h1 : s (2, 0) = .dict (treeDict l.length (l.map handleRef)))
    (h2 : ∀ r, r ≠ (2, 0) → s r = d.store r ∨ ∃ k pd, r = handleRef k ∧ d.store r = .dict pd ∧ s r = .dict (underParent (2, 0) pd))
    (h3 : ∀ k ∈ l, k ∈ p.order ∨ ∃ pd, s (handleRef k) = .dict (underParent (2, 0) pd)) :
    Ready id producer now { d with store := s } { p with order := l } := by
  have other : ∀ r, r ≠ (2, 0) → (∀ k, r ≠ handleRef k) → s r = d.store r := by
    intro r hr hk
    rcases h2 r hr with e | ⟨k, pd, e, -, -⟩
    · exact e
    · exact absurd e (hk k)
  refine ⟨h.alloc, h.trailer, ?_, h1, ?_, h.handles, hl, h.nonempty, ?_, ?_⟩
  · exact (other _ (by decide) fun k e => (handleRef_ne k).1 e.symm).trans h.catalog
  · exact (other _ (by decide) fun k e => (handleRef_ne k).2.2 e.symm).trans h.info
  · intro k hk
    rcases h3 k hk with hk | ⟨pd, e⟩
    · obtain ⟨pd, g1, g2⟩ := h.parent k hk
      rcases h2 _ (handleRef_ne k).2.1 with e | ⟨k', pd', -, -, e3⟩
      · exact ⟨pd, by rw [show ({ d with store := s } : NewDoc).store = s from rfl, e, g1], g2⟩
      · exact ⟨_, e3, underParent_parent _ _⟩
    · exact ⟨_, e, underParent_parent _ _⟩
  · intro k l' hk
    obtain ⟨pd, g1, g2, g3, g4⟩ := h.page k l' hk
    rcases h2 _ (handleRef_ne k).2.1 with e | ⟨k', pd', -, e2, e3⟩
    · exact ⟨pd, by rw [show ({ d with store := s } : NewDoc).store = s from rfl, e, g1], g2, g3, g4⟩
    · rw [g1] at e2
      cases e2
      exact ⟨_, e3, holdable_underParent g2, g3, fun key hkey => by rw [underParent_find _ _ _ hkey, g4 key hkey]⟩

theorem Ready.step {id producer : Bytes} {now : DateFields} {d : NewDoc} {p : Plan} (h : Ready id producer now d p) (o : DocOp)
    (ho : Allowed o) (hb : p.pages.length + p.order.length + 10 < 2 ^ 63) :
    Ready id producer now (match o.call d with | .ok d' => d' | .error _ => d) (p.edit o) := by
  have hpages : ∀ r ∈ p.order.map handleRef, IsPage d.store r := by
    intro r hr
    obtain ⟨k, hk, rfl⟩ := List.mem_map.1 hr
    exact h.isPage (h.order k hk)
  have htree : d.store (2, 0) = .dict (treeDict (p.order.length : Nat) (p.order.map handleRef)) := h.tree
  cases o with
  | newPage =>
    have ha := allocate_entriesTo (p.pages.length + 3) (by omega)
    have hc : DocOp.call d .newPage = .ok { alloc := ⟨[⟨.table, entriesTo (p.pages.length + 4), none⟩], p.pages.length + 5⟩, store := d.store.set (p.pages.length + 4, 0) (.dict freshPage), trailer := d.trailer, handles := d.handles ++ [(p.pages.length + 4, 0)] } := by
      rw [DocOp.call, NewDoc.createPage, show insertOnce (b! "Type") (.name (b! "Page")) [] = .ok freshPage from rfl, ok_bind,
        NewDoc.allocate, h.alloc, ha]
      rfl
    rw [hc, Plan.edit]
    dsimp only
    have hnew : (p.pages.length + 4, 0) = handleRef p.pages.length := by
      rw [handleRef, if_neg (by have := h.nonempty; omega), Nat.add_comm]
    have hs := h.nonempty
    have hne : ∀ n, n < p.pages.length + 4 → ((n, 0) : ObjRef) ≠ (p.pages.length + 4, 0) := by
      intro n hn e
      rw [Prod.mk.injEq] at e
      omega
    refine ⟨by simp, h.trailer, ?_, ?_, ?_, ?_, ?_, by simp, ?_, ?_⟩
    · exact (store_other d.store (hne 1 (by omega)) (.dict freshPage)).trans h.catalog
    · exact (store_other d.store (hne 2 (by omega)) (.dict freshPage)).trans h.tree
    · exact (store_other d.store (hne 4 (by omega)) (.dict freshPage)).trans h.info
    · simp only [h.handles, List.length_append, List.length_singleton, List.range_succ, List.map_append, List.map_cons, List.map_nil, hnew]
    · intro k hk
      have := h.order k hk
      simp only [List.length_append, List.length_singleton]; omega
    · intro k hk
      obtain ⟨pd, g1, g2⟩ := h.parent k hk
      refine ⟨pd, ?_, g2⟩
      rw [← g1]
      refine store_other _ ?_ _
      rw [hnew]
      exact fun e => absurd (handleRef_inj e) (by have := h.order k hk; omega)
    · intro k l hk
      by_cases hlt : k < p.pages.length
      · simp only [List.getElem?_append_left hlt] at hk
        obtain ⟨pd, g1, g2, g3, g4⟩ := h.page k l hk
        refine ⟨pd, ?_, g2, g3, g4⟩
        rw [← g1]
        refine store_other _ ?_ _
        rw [hnew]
        exact fun e => absurd (handleRef_inj e) (by omega)
      · obtain rfl : k = p.pages.length := by
          have := (List.getElem?_eq_some_iff.1 hk).1
          simp only [List.length_append, List.length_singleton] at this; omega
        simp only [List.getElem?_concat_length, Option.some.injEq] at hk
        subst hk
        refine ⟨freshPage, by rw [hnew]; exact store_at .., ?_, rfl, fun key _ => (valueAt_eq key freshPage).symm⟩
        exact .dict _ (by unfold SortedKeys; decide) (by intro x hx; simp [freshPage] at hx; subst hx; exact .name _)
  | insert k i =>
    rw [DocOp.call, h.handle, Plan.edit]
    by_cases hk : k < p.pages.length
    · simp only [if_pos hk]
      obtain ⟨pd, g1, g2, g3, g4⟩ := h.page k p.pages[k] (List.getElem?_eq_getElem hk)
      have hi := insert_tree d.store 0 (2, 0) (handleRef k) _ _ i htree hpages pd g1 (by rw [g4 _ (by decide), g3])
        (by rw [List.length_map]; omega) ho
      rw [h.root, ok_bind, hi, List.length_map]
      by_cases hin : 1 ≤ i ∧ i ≤ p.order.length + 1
      · rw [if_pos hin, if_pos ⟨hk, hin.1, hin.2⟩]
        simp only [ok_bind, pure, Except.pure]
        have hlen : (p.order.insertIdx (i - 1) k).length = p.order.length + 1 := by rw [List.length_insertIdx_of_le_length (by omega)]
        refine h.reorder _ ?_ _ ?_ ?_ ?_
        · intro q hq
          rcases List.mem_insertIdx (by omega) |>.1 hq with rfl | hq
          · exact hk
          · exact h.order q hq
        · rw [store_other _ (Ne.symm (handleRef_ne k).2.1), store_at, hlen, map_insertIdx']
        · intro r hr
          by_cases hrk : r = handleRef k
          · exact Or.inr ⟨k, pd, hrk, by rw [hrk, g1], by rw [hrk, store_at]⟩
          · exact Or.inl (by rw [store_other _ hrk, store_other _ hr])
        · intro q hq
          rcases List.mem_insertIdx (by omega) |>.1 hq with rfl | hq
          · exact Or.inr ⟨pd, store_at ..⟩
          · exact Or.inl hq
      · rw [if_neg hin, if_neg (by simpa [hk] using hin)]
        exact h
    · simp only [if_neg hk]
      rw [if_neg (by simp [hk])]
      exact h
  | append k =>
    rw [DocOp.call, h.handle, Plan.edit]
    by_cases hk : k < p.pages.length
    · simp only [if_pos hk]
      obtain ⟨pd, g1, g2, g3, g4⟩ := h.page k p.pages[k] (List.getElem?_eq_getElem hk)
      have hi := append_tree d.store 0 (2, 0) (handleRef k) _ _ htree hpages pd g1 (by rw [g4 _ (by decide), g3])
        (by rw [List.length_map]; omega)
      rw [h.root, ok_bind, hi, List.length_map]
      simp only [ok_bind, pure, Except.pure]
      refine h.reorder _ ?_ _ ?_ ?_ ?_
      · intro q hq
        rcases List.mem_append.1 hq with hq | hq
        · exact h.order q hq
        · rw [List.mem_singleton.1 hq]; exact hk
      · rw [store_other _ (Ne.symm (handleRef_ne k).2.1), store_at]
        simp
      · intro r hr
        by_cases hrk : r = handleRef k
        · exact Or.inr ⟨k, pd, hrk, by rw [hrk, g1], by rw [hrk, store_at]⟩
        · exact Or.inl (by rw [store_other _ hrk, store_other _ hr])
      · intro q hq
        rcases List.mem_append.1 hq with hq | hq
        · exact Or.inl hq
        · rw [List.mem_singleton.1 hq]; exact Or.inr ⟨pd, store_at ..⟩
    · simp only [if_neg hk]
      exact h
  | remove i =>
    have hi := remove_tree d.store 0 (2, 0) _ _ i htree hpages (by rw [List.length_map]; omega) ho
    rw [DocOp.call, h.root, ok_bind, hi, Plan.edit]
    simp only [ok_bind, pure, Except.pure]
    by_cases h1 : 1 ≤ i
    · simp only [if_pos h1]
      refine h.reorder _ ?_ _ ?_ ?_ fun q hq => Or.inl (List.mem_of_mem_eraseIdx hq)
      · intro q hq
        exact h.order q (List.mem_of_mem_eraseIdx hq)
      · rw [store_at, ← map_eraseIdx', List.length_map]
      · intro r hr
        exact Or.inl (store_other _ hr _)
    · simp only [if_neg h1]
      refine h.reorder _ h.order _ ?_ ?_ fun q hq => Or.inl hq
      · rw [store_at, List.length_map]
      · intro r hr
        exact Or.inl (store_other _ hr _)
  | put k key v =>
    rw [DocOp.call, h.handle, Plan.edit]
    by_cases hk : k < p.pages.length
    · simp only [if_pos hk]
      obtain ⟨pd, g1, g2, g3, g4⟩ := h.page k p.pages[k] (List.getElem?_eq_getElem hk)
      have hget : ∀ q l, (p.pages.modify k fun d => if valueAt key d = none then (key, v) :: d else d)[q]? = some l →
          if q = k then l = (if valueAt key p.pages[k] = none then (key, v) :: p.pages[k] else p.pages[k]) else p.pages[q]? = some l := by
        intro q l hq
        rw [List.getElem?_modify] at hq
        by_cases hqk : k = q
        · subst hqk
          rw [if_pos rfl]
          simp only [if_true, List.getElem?_eq_getElem hk] at hq
          exact (Option.some.inj hq).symm
        · rw [if_neg (Ne.symm hqk)]
          simpa [hqk] using hq
      simp only [dictAt, g1, ok_bind, insertOnce]
      by_cases hv : valueAt key p.pages[k] = none
      · have hn : mapFind key pd = none := by rw [g4 key ho.1, hv]
        simp only [hn, Option.isSome_none, Bool.false_eq_true, if_false, ok_bind, pure, Except.pure]
        refine ⟨by simpa using h.alloc, h.trailer, ?_, ?_, ?_, by simpa using h.handles, by simpa using h.order, by simpa using h.nonempty, ?_, ?_⟩
        · exact (store_other _ (Ne.symm (handleRef_ne k).1) _).trans h.catalog
        · exact (store_other _ (Ne.symm (handleRef_ne k).2.1) _).trans h.tree
        · exact (store_other _ (Ne.symm (handleRef_ne k).2.2) _).trans h.info
        · intro q hq
          obtain ⟨pd', e1, e2⟩ := h.parent q hq
          by_cases hqk : q = k
          · subst hqk
            rw [g1] at e1
            cases e1
            exact ⟨_, store_at .., by rw [mapFind_insert_ne (Ne.symm ho.1)]; exact e2⟩
          · exact ⟨pd', by rw [← e1]; exact store_other _ (fun e => hqk (handleRef_inj e)) _, e2⟩
        · intro q l hq
          have := hget q l hq
          by_cases hqk : q = k
          · subst hqk
            rw [if_pos rfl, if_pos hv] at this
            subst this
            refine ⟨_, store_at .., holdable_insert g2 ho.2 _, ?_, ?_⟩
            · have hne : b! "Type" ≠ key := by
                rintro rfl
                rw [g3] at hv; cases hv
              rw [valueAt, if_neg hne, g3]
            · intro x hx
              rw [mapFind_insert (holdable_dict g2).1, valueAt]
              split
              · rw [hn]
              · exact g4 x hx
          · rw [if_neg hqk] at this
            obtain ⟨pd', e1, e2, e3, e4⟩ := h.page q l this
            exact ⟨pd', by rw [← e1]; exact store_other _ (fun e => hqk (handleRef_inj e)) _, e2, e3, e4⟩
      · have hn : (mapFind key pd).isSome = true := by
          rw [g4 key ho.1]
          cases hx : valueAt key p.pages[k] with
          | none => exact absurd hx hv
          | some _ => rfl
        simp only [hn, if_true]
        refine ⟨by simpa using h.alloc, h.trailer, h.catalog, h.tree, h.info, by simpa using h.handles, by simpa using h.order, by simpa using h.nonempty, by simpa using h.parent, ?_⟩
        intro q l hq
        have := hget q l hq
        by_cases hqk : q = k
        · subst hqk
          rw [if_pos rfl, if_neg hv] at this
          subst this
          exact ⟨pd, g1, g2, g3, g4⟩
        · rw [if_neg hqk] at this
          exact h.page q l this
    · simp only [if_neg hk]
      rw [List.modify_eq_self (by omega)]
      exact h

theorem allocate_first : Alloc.allocate ⟨[⟨.table, [⟨0, 65535, .free 0⟩], none⟩], 0⟩ =
    .ok (⟨1, 0, .used (-1)⟩, ⟨[⟨.table, entriesTo 1, none⟩], 2⟩) := by
  have habs : firstAbsent [⟨.table, [⟨0, 65535, .free 0⟩], none⟩] (2 ^ 64 - 1 - 0) 0 = some 1 := by
    rw [show 2 ^ 64 - 1 - 0 = 18446744073709551613 + 1 + 1 from rfl, firstAbsent, if_neg (by decide), firstAbsent, if_pos (by decide)]
  rw [Alloc.allocate]
  simp only [habs]
  rfl

/-- The first page, when the page tree has no Kids yet. -/
theorem append_first (s : PStore) (root p : ObjRef) (d : Dict) (hr : s root = .dict [(b! "Count", .int 0), (b! "Type", .name (b! "Pages"))])
    (hd : s p = .dict d) (ht : mapFind (b! "Type") d = some (.name (b! "Page"))) (hne : p ≠ root) :
    appendPage s 2 root p = .ok ((s.set root (.dict (treeDict (1 : Nat) [p]))).set p (.dict (underParent root d))) := by
  have hk : getKidsInternal s root = .ok (s.set root (.dict (treeDict 0 [])), .entry root (b! "Kids"), []) := by
    simp only [getKidsInternal, dictAt, hr, ok_bind]
    rfl
  have hi := insert_tree (s.set root (.dict (treeDict 0 []))) 0 root p 0 [] 1 (store_at ..) (by simp) d
    (by rw [store_other _ hne, hd]) ht (by decide) (by decide)
  rw [appendPage, hk, ok_bind]
  dsimp only
  rw [show (([] : List Obj).length + 1) % 2 ^ 64 = 1 from rfl, hi, if_pos ⟨by decide, by decide⟩, store_set_set]
  rfl

theorem createDocument_ready (id producer : Bytes) (now : DateFields) :
    ∃ d, createDocument id producer now = .ok d ∧ Ready id producer now d .start := by
  rw [createDocument, show insertOnce (b! "ID") (.arr [.hex id, .hex id]) [] = .ok [(b! "ID", .arr [.hex id, .hex id])] from rfl, ok_bind]
  simp only [NewDoc.createCatalog, NewDoc.allocate, allocate_first,
    show insertOnce (b! "Type") (.name (b! "Catalog")) [] = .ok [(b! "Type", .name (b! "Catalog"))] from rfl, ok_bind, pure, Except.pure,
    show insertOnce (b! "Root") (.ref 1 0) [(b! "ID", .arr [.hex id, .hex id])] =
      .ok [(b! "ID", .arr [.hex id, .hex id]), (b! "Root", .ref 1 0)] from rfl]
  simp only [NewDoc.createPages, NewDoc.allocate, allocate_entriesTo 1 (by decide),
    show insertOnce (b! "Type") (.name (b! "Pages")) [] = .ok [(b! "Type", .name (b! "Pages"))] from rfl, ok_bind, pure, Except.pure,
    show insertOnce (b! "Count") (.int 0) [(b! "Type", .name (b! "Pages"))] =
      .ok [(b! "Count", .int 0), (b! "Type", .name (b! "Pages"))] from rfl, dictAt, PStore.set, Nat.reduceAdd, Nat.reduceEqDiff,
    Prod.mk.injEq, false_and, if_false, if_true,
    show insertOnce (b! "Pages") (.ref 2 0) [(b! "Type", .name (b! "Catalog"))] =
      .ok [(b! "Pages", .ref 2 0), (b! "Type", .name (b! "Catalog"))] from rfl]
  simp only [NewDoc.createPage, NewDoc.allocate, allocate_entriesTo 2 (by decide), ok_bind, pure, Except.pure,
    show insertOnce (b! "Type") (.name (b! "Page")) [] = .ok freshPage from rfl, Nat.reduceAdd]
  generalize hs : (PStore.set _ (3, 0) (.dict freshPage)) = s
  have h1 : s (1, 0) = .dict [(b! "Pages", .ref 2 0), (b! "Type", .name (b! "Catalog"))] := by rw [← hs]; rfl
  have h2 : s (2, 0) = .dict [(b! "Count", .int 0), (b! "Type", .name (b! "Pages"))] := by rw [← hs]; rfl
  have h3 : s (3, 0) = .dict freshPage := by rw [← hs]; rfl
  rw [append_first s (2, 0) (3, 0) freshPage h2 h3 rfl (by decide), ok_bind, NewDoc.createInfo]
  simp only [NewDoc.allocate, allocate_entriesTo 3 (by decide), ok_bind, pure, Except.pure, Nat.reduceAdd,
    show insertOnce (b! "Info") (.ref 4 0) [(b! "ID", .arr [.hex id, .hex id]), (b! "Root", .ref 1 0)] =
      .ok [(b! "ID", .arr [.hex id, .hex id]), (b! "Info", .ref 4 0), (b! "Root", .ref 1 0)] from rfl]
  refine ⟨_, rfl, rfl, rfl, ?_, ?_, ?_, rfl, by simp [Plan.start], by simp [Plan.start], ?_, ?_⟩
  · dsimp only
    rw [store_other _ (by decide), store_other _ (by decide), store_other _ (by decide), h1]
  · dsimp only
    rw [store_other _ (by decide), store_other _ (by decide), store_at]
    rfl
  · dsimp only
    rw [store_at]
    rfl
  · intro k hk
    rw [Plan.start, List.mem_singleton] at hk
    subst hk
    refine ⟨underParent (2, 0) freshPage, ?_, underParent_parent _ _⟩
    dsimp only
    rw [show handleRef 0 = (3, 0) from rfl, store_other _ (by decide), store_at]
  · intro k l hk
    match k, hk with
    | 0, hk =>
      cases hk
      refine ⟨underParent (2, 0) freshPage, ?_, ?_, rfl, fun key hkey => ?_⟩
      · dsimp only
        rw [show handleRef 0 = (3, 0) from rfl, store_other _ (by decide), store_at]
      · exact holdable_underParent (.dict _ (by unfold SortedKeys; decide) (by intro x hx; simp [freshPage] at hx; subst hx; exact .name _))
      · rw [underParent_find _ _ _ hkey, valueAt_eq]
    | k + 1, hk => simp [Plan.start] at hk

theorem edit_length (p : Plan) (o : DocOp) : (p.edit o).pages.length + (p.edit o).order.length ≤ p.pages.length + p.order.length + 1 := by
  cases o with
  | newPage => simp [Plan.edit]; omega
  | insert k i =>
    rw [Plan.edit]
    split
    · rename_i h
      dsimp only
      rw [List.length_insertIdx_of_le_length (by omega)]; omega
    · omega
  | append k =>
    rw [Plan.edit]
    split <;> (simp; try omega)
  | remove i =>
    rw [Plan.edit]
    split
    · dsimp only
      have := List.length_eraseIdx_le p.order (i - 1)
      omega
    · omega
  | put k key v => simp [Plan.edit]

theorem edits_length (ops : List DocOp) : ∀ p : Plan,
    (ops.foldl Plan.edit p).pages.length + (ops.foldl Plan.edit p).order.length ≤ p.pages.length + p.order.length + ops.length := by
  induction ops with
  | nil => intro p; simp
  | cons o ops ih =>
    intro p
    have h1 := ih (p.edit o)
    have h2 := edit_length p o
    simp only [List.foldl_cons, List.length_cons]
    omega

theorem Ready.run {id producer : Bytes} {now : DateFields} (ops : List DocOp) : ∀ {d : NewDoc} {p : Plan}, Ready id producer now d p →
    (∀ o ∈ ops, Allowed o) → p.pages.length + p.order.length + ops.length + 10 < 2 ^ 63 →
    Ready id producer now (DocOp.runAll d ops) (ops.foldl Plan.edit p) := by
  induction ops with
  | nil => intro d p h _ _; exact h
  | cons o ops ih =>
    intro d p h ho hb
    simp only [List.length_cons] at hb
    have h2 := edit_length p o
    rw [DocOp.runAll, List.foldl_cons]
    exact ih (h.step o (ho o (by simp)) (by omega)) (fun o h => ho o (by simp [h])) (by omega)

end VPdf
