import Verif.Lemmas.PageEdit
/-
  Lemmas about insertion and removal of pages.
-/
namespace VPdf
open Spec

/-! ### Lists of trees -/

theorem shapedAll_iff {s : PStore} {ts : List PageTree} : ShapedAll s ts ↔ ∀ t ∈ ts, Shaped s t := by
  induction ts with
  | nil => simp [ShapedAll]
  | cons t ts ih => rw [ShapedAll, ih]; simp

theorem pagesOf_append (a b : List PageTree) : pagesOf (a ++ b) = pagesOf a ++ pagesOf b := by
  induction a with
  | nil => rfl
  | cons t a ih => rw [List.cons_append, pagesOf, ih, pagesOf, List.append_assoc]

theorem nodesOf_append (a b : List PageTree) : nodesOf (a ++ b) = nodesOf a ++ nodesOf b := by
  induction a with
  | nil => rfl
  | cons t a ih => rw [List.cons_append, nodesOf, ih, nodesOf, List.append_assoc]

theorem depthOf_append (a b : List PageTree) : depthOf (a ++ b) = max (depthOf a) (depthOf b) := by
  induction a with
  | nil => simp [depthOf]
  | cons t a ih => rw [List.cons_append, depthOf, ih, depthOf, Nat.max_assoc]

theorem insertIdx_split {α : Type} (l : List α) (i : Nat) (x : α) (h : i ≤ l.length) :
    l.insertIdx i x = l.take i ++ x :: l.drop i := by
  induction l generalizing i with
  | nil => cases i with
    | zero => rfl
    | succ i => simp at h
  | cons a l ih => cases i with
    | zero => rfl
    | succ i => rw [List.insertIdx_succ_cons, ih i (by simpa using h)]; rfl

theorem map_insertIdx' {α β : Type} (f : α → β) (l : List α) (i : Nat) (x : α) :
    (l.insertIdx i x).map f = (l.map f).insertIdx i (f x) := by
  induction l generalizing i with
  | nil => cases i <;> rfl
  | cons a l ih => cases i with
    | zero => rfl
    | succ i => rw [List.insertIdx_succ_cons, List.map_cons, ih, List.map_cons, List.insertIdx_succ_cons]

theorem map_eraseIdx' {α β : Type} (f : α → β) (l : List α) (i : Nat) : (l.eraseIdx i).map f = (l.map f).eraseIdx i := by
  induction l generalizing i with
  | nil => rfl
  | cons a l ih => cases i with
    | zero => rfl
    | succ i => simp only [List.eraseIdx_cons_succ, List.map_cons, ih]

theorem pagesOf_pages (l : List ObjRef) : pagesOf (l.map PageTree.page) = l := by
  induction l with
  | nil => rfl
  | cons r l ih => rw [List.map_cons, pagesOf, ih]; rfl

theorem nodesOf_pages (l : List ObjRef) : nodesOf (l.map PageTree.page) = [] := by
  induction l with
  | nil => rfl
  | cons r l ih => rw [List.map_cons, nodesOf, ih]; rfl

theorem depthOf_pages (l : List ObjRef) : depthOf (l.map PageTree.page) = 0 := by
  induction l with
  | nil => rfl
  | cons r l ih => rw [List.map_cons, depthOf, ih]; rfl

theorem nodesOf_eraseIdx (ts : List PageTree) (i : Nat) : (nodesOf (ts.eraseIdx i)).Sublist (nodesOf ts) := by
  induction ts generalizing i with
  | nil => exact List.Sublist.refl _
  | cons t ts ih => cases i with
    | zero => rw [List.eraseIdx_cons_zero, nodesOf]; exact List.sublist_append_right _ _
    | succ i =>
      rw [List.eraseIdx_cons_succ, nodesOf, nodesOf]
      exact List.Sublist.append (List.Sublist.refl _) (ih i)

theorem pagesOf_eraseIdx (ts : List PageTree) (i : Nat) : (pagesOf (ts.eraseIdx i)).Sublist (pagesOf ts) := by
  induction ts generalizing i with
  | nil => exact List.Sublist.refl _
  | cons t ts ih => cases i with
    | zero => rw [List.eraseIdx_cons_zero, pagesOf]; exact List.sublist_append_right _ _
    | succ i =>
      rw [List.eraseIdx_cons_succ, pagesOf, pagesOf]
      exact List.Sublist.append (List.Sublist.refl _) (ih i)

theorem depthOf_eraseIdx (ts : List PageTree) (i : Nat) : depthOf (ts.eraseIdx i) ≤ depthOf ts := by
  induction ts generalizing i with
  | nil => exact Nat.le_refl _
  | cons t ts ih => cases i with
    | zero => rw [List.eraseIdx_cons_zero, depthOf]; omega
    | succ i =>
      have := ih i
      rw [List.eraseIdx_cons_succ, depthOf, depthOf]; omega

/-! ### The root -/

theorem set_self {s : PStore} {r : ObjRef} {o : Obj} (h : s r = o) : s.set r o = s := by
  funext q
  unfold PStore.set
  split
  · subst_vars; rfl
  · rfl

/-- What `getKidsInternal` gives for a stored tree. -/
theorem getKidsInternal_eq {s : PStore} {root : ObjRef} {d : Dict} {l : List Obj} (h : s root = .dict d)
    (hk : mapFind (b! "Kids") d = some (.arr l)) :
    getKidsInternal s root = .ok (s, .entry root (b! "Kids"), l) := by
  unfold getKidsInternal
  rw [dictAt_eq h, ok_bind, hk]
  simp only [Option.isNone_some, Bool.false_eq_true, if_false]
  rw [set_self h, kidsOf_eq (hasEntry_of_find (by simp) hk), ok_bind]
  unfold placeOf
  rw [hk]
  rfl

/-- The tree after the array of kids of the root has been replaced. -/
theorem edited_shaped {s s1 : PStore} {root : ObjRef} {us : List PageTree} {d1 : Dict} {c : Int}
    (h1 : s1 root = .dict d1) (h2 : mapFind (b! "Type") d1 = some (.name (b! "Pages")))
    (h3 : mapFind (b! "Kids") d1 = some (.arr (kidRefs us))) (h4 : mapFind (b! "Count") d1 = some (.int c))
    (hsim : ∀ r, r ≠ root → SameNode s s1 r) (hus : ShapedAll s us) (hnode : root ∉ nodesOf us) (hpage : root ∉ pagesOf us) :
    Shaped s1 (.node root us) := by
  rw [Shaped]
  exact ⟨⟨d1, c, h1, h2, h3, h4⟩, shapedAll_sim us hus (fun r hr => hsim r fun e => hnode (e ▸ hr))
    (fun r hr => hsim r fun e => hpage (e ▸ hr))⟩

/-- The tree after the counts have been updated; nothing else is changed. -/
theorem recounted_full {s1 : PStore} {root : ObjRef} {us : List PageTree} {f : Nat} (h : Shaped s1 (.node root us))
    (hnd : (PageTree.node root us).nodes.Nodup) (hf : depthOf us + 1 < f) (hb : (pagesOf us).length < 2 ^ 63) :
    ∃ s', (do
      let _ ← pageTreeNode s1 root
      let (_, s) ← updateKidsCount f s1 root
      pure s : Res PStore) = .ok s' ∧ Shaped s' (.node root us) ∧ StoredTree s' (.node root us) ∧ (∀ r, SameNode s1 s' r) ∧
      ∀ r, r ∉ (PageTree.node root us).nodes → s' r = s1 r := by
  obtain ⟨s', e1, e2, e3, e4⟩ := update_shaped (.node root us) f s1 h hnd hf hb
  have hs : Shaped s' (.node root us) := shaped_sim _ h (fun r _ => e2 r) (fun r _ => e2 r)
  refine ⟨s', ?_, hs, stored_of_counted _ hs e4 hb, e2, e3⟩
  rw [Shaped] at h
  obtain ⟨⟨d, c, h1, h2, _⟩, _⟩ := h
  rw [pageTreeNode_eq h1 (hasEntry_of_find (by simp) h2), ok_bind]
  have : (PageTree.node root us).ref = root := rfl
  rw [this] at e1
  rw [e1, ok_bind]
  rfl

/-- The tree after the counts have been updated. -/
theorem recounted {s1 : PStore} {root : ObjRef} {us : List PageTree} {f : Nat} (h : Shaped s1 (.node root us))
    (hnd : (PageTree.node root us).nodes.Nodup) (hf : depthOf us + 1 < f) (hb : (pagesOf us).length < 2 ^ 63) :
    ∃ s', (do
      let _ ← pageTreeNode s1 root
      let (_, s) ← updateKidsCount f s1 root
      pure s : Res PStore) = .ok s' ∧ Shaped s' (.node root us) ∧ StoredTree s' (.node root us) ∧ (∀ r, SameNode s1 s' r) := by
  obtain ⟨s', e1, e2, e3, e4, _⟩ := recounted_full h hnd hf hb
  exact ⟨s', e1, e2, e3, e4⟩

/-- Replacing the kids of the root. -/
theorem assign_kids {s : PStore} {root : ObjRef} {d : Dict} {l l' : List Obj} (h : s root = .dict d)
    (hk : mapFind (b! "Kids") d = some (.arr l)) :
    ∃ d1, (assign s (.entry root (b! "Kids")) (.arr l')) root = .dict d1 ∧
      mapFind (b! "Type") d1 = mapFind (b! "Type") d ∧ mapFind (b! "Kids") d1 = some (.arr l') ∧
      mapFind (b! "Count") d1 = mapFind (b! "Count") d ∧
      ∀ q, q ≠ root → (assign s (.entry root (b! "Kids")) (.arr l')) q = s q := by
  have e : assign s (.entry root (b! "Kids")) (.arr l') = s.set root (.dict (replaceEntry (b! "Kids") (.arr l') d)) := by
    unfold assign; simp only [h]
  rw [e]
  refine ⟨replaceEntry (b! "Kids") (.arr l') d, by simp [PStore.set], ?_, ?_, ?_, fun q hq => by simp [PStore.set, hq]⟩
  · rw [mapFind_replace, if_neg (by decide)]
  · rw [mapFind_replace, if_pos rfl, hk]; rfl
  · rw [mapFind_replace, if_neg (by decide)]

theorem setParent_sim {s : PStore} {r parent : ObjRef} {d : Dict} (h : s r = .dict d) :
    ∃ s', setParent s r parent = .ok s' ∧ (∀ q, q ≠ r → s' q = s q) ∧ (∀ q, SameNode s s' q) := by
  unfold setParent
  rw [dictAt_eq h, ok_bind]
  refine ⟨_, rfl, fun q hq => by simp [PStore.set, hq], fun q => ?_⟩
  by_cases hq : q = r
  · subst hq
    intro d0 hd0
    rw [h] at hd0
    cases hd0
    have key : ∀ k, k ≠ b! "Parent" →
        mapFind k (mapInsert (b! "Parent") (Obj.ref parent.1 parent.2) (mapErase (b! "Parent") d)) = mapFind k d := by
      intro k hk
      rw [mapFind_insert_ne hk, mapErase_find, if_neg hk]
    refine ⟨_, by simp [PStore.set], key _ (by decide), key _ (by decide), fun c hc => ⟨c, ?_⟩⟩
    rw [key _ (by decide), hc]
  · exact SameNode.of_eq (by simp [PStore.set, hq])

/-- Insertion into the array of the root. -/
theorem insertPage_full {s : PStore} {root p : ObjRef} {ts : List PageTree} {f i : Nat} (h : Shaped s (.node root ts))
    (hnd : (PageTree.node root ts).nodes.Nodup) (hp : Shaped s (.page p)) (hi : 1 ≤ i) (hi2 : i ≤ ts.length + 1)
    (hlen : ts.length < 2 ^ 64 - 1) (hf : depthOf ts + 1 < f) (hb : (pagesOf ts).length + 1 < 2 ^ 63) :
    ∃ s', insertPage s f root p i = .ok s' ∧
      Shaped s' (.node root (ts.insertIdx (i - 1) (.page p))) ∧ StoredTree s' (.node root (ts.insertIdx (i - 1) (.page p))) ∧
      (∀ q, Shaped s (.page q) → Shaped s' (.page q)) ∧
      (∀ q, q ∉ (PageTree.node root ts).nodes → q ≠ p → s' q = s q) ∧
      (∀ d, s p = .dict d → p ∉ (PageTree.node root ts).nodes →
        s' p = .dict (mapInsert (b! "Parent") (.ref root.1 root.2) (mapErase (b! "Parent") d))) := by
  have hs := h
  rw [Shaped] at h
  obtain ⟨⟨d, c, h1, h2, h3, h4⟩, h5⟩ := h
  have hpr : p ≠ root := page_ne_node hp hs
  have hm : (2 ^ 64 + i - 1) % 2 ^ 64 = i - 1 := by
    have : 2 ^ 64 + i - 1 = 2 ^ 64 + (i - 1) := by omega
    rw [this, Nat.add_mod_left, Nat.mod_eq_of_lt (by omega)]
  have hil : i - 1 ≤ ts.length := by omega
  have hkids : (kidRefs ts).insertIdx (i - 1) (.ref p.1 p.2) = kidRefs (ts.insertIdx (i - 1) (.page p)) := by
    unfold kidRefs; rw [map_insertIdx']; rfl
  obtain ⟨d1, a1, a2, a3, a4, a5⟩ := assign_kids (l' := kidRefs (ts.insertIdx (i - 1) (.page p))) h1 h3
  generalize hs1 : assign s (.entry root (b! "Kids")) (.arr (kidRefs (ts.insertIdx (i - 1) (.page p)))) = s1 at a1 a5
  have hp' := hp
  rw [Shaped] at hp'
  obtain ⟨dp, p1, p2⟩ := hp'
  obtain ⟨s2, b1, b2, b3⟩ := setParent_sim (s := s1) (r := p) (parent := root) (d := dp) (by rw [a5 p hpr, p1])
  have hsim : ∀ r, r ≠ root → SameNode s s2 r := fun r hr => (SameNode.of_eq (a5 r hr)).trans (b3 r)
  rw [PageTree.nodes, List.nodup_cons] at hnd
  have hsplit := insertIdx_split ts (i - 1) (.page p) hil
  have hn : nodesOf (ts.insertIdx (i - 1) (.page p)) = nodesOf ts := by
    rw [hsplit, nodesOf_append, nodesOf]
    have : (PageTree.page p).nodes = [] := rfl
    rw [this, List.nil_append, ← nodesOf_append, List.take_append_drop]
  have hpg : pagesOf (ts.insertIdx (i - 1) (.page p)) = pagesOf (ts.take (i - 1)) ++ p :: pagesOf (ts.drop (i - 1)) := by
    rw [hsplit, pagesOf_append, pagesOf]; rfl
  have hpl : (pagesOf (ts.insertIdx (i - 1) (.page p))).length = (pagesOf ts).length + 1 := by
    have : pagesOf ts = pagesOf (ts.take (i - 1)) ++ pagesOf (ts.drop (i - 1)) := by
      rw [← pagesOf_append, List.take_append_drop]
    rw [hpg, this]; simp only [List.length_append, List.length_cons]; omega
  have hd : depthOf (ts.insertIdx (i - 1) (.page p)) = depthOf ts := by
    have h0 : depthOf ts = max (depthOf (ts.take (i - 1))) (depthOf (ts.drop (i - 1))) := by
      rw [← depthOf_append, List.take_append_drop]
    have : (PageTree.page p).depth = 0 := rfl
    rw [hsplit, depthOf_append, depthOf, this, h0]; omega
  have hsh : Shaped s2 (.node root (ts.insertIdx (i - 1) (.page p))) := by
    refine edited_shaped (s := s) (d1 := d1) (c := c) (by rw [b2 root (fun e => hpr e.symm), a1]) (a2.trans h2) a3 (a4.trans h4)
      hsim ?_ (by rw [hn]; exact hnd.1) ?_
    · rw [shapedAll_iff] at h5 ⊢
      intro t ht
      rcases (List.mem_insertIdx hil).1 ht with rfl | ht
      · exact hp
      · exact h5 t ht
    · intro hmem
      rw [hpg] at hmem
      have hmem' : root = p ∨ root ∈ pagesOf ts := by
        have e : pagesOf ts = pagesOf (ts.take (i - 1)) ++ pagesOf (ts.drop (i - 1)) := by
          rw [← pagesOf_append, List.take_append_drop]
        rw [e]
        simp only [List.mem_append, List.mem_cons] at hmem ⊢
        rcases hmem with h | h | h
        · exact Or.inr (Or.inl h)
        · exact Or.inl h
        · exact Or.inr (Or.inr h)
      rcases hmem' with h | h
      · exact hpr h.symm
      · exact page_ne_node (shapedAll_pages ts h5 root h) hs rfl
  obtain ⟨s', r1, r2, r3, r4, r5⟩ := recounted_full (f := f) hsh (by rw [PageTree.nodes, hn, List.nodup_cons]; exact hnd) (by rw [hd]; exact hf)
    (by rw [hpl]; exact hb)
  have hnn : (PageTree.node root (ts.insertIdx (i - 1) (.page p))).nodes = (PageTree.node root ts).nodes := by
    rw [PageTree.nodes, PageTree.nodes, hn]
  refine ⟨s', ?_, r2, r3, ?_, fun q hq hqp => ?_, fun d' hd' hpn => ?_⟩
  · unfold insertPage
    rw [hm, getKidsInternal_eq h1 h3, ok_bind]
    dsimp only
    have hlen' : ¬(i - 1 > (kidRefs ts).length) := by unfold kidRefs; rw [List.length_map]; omega
    rw [if_neg hlen', hkids, hs1]
    change (setParent s1 p root >>= _) = _
    rw [b1, ok_bind]
    exact r1
  · intro q hq
    have hqr := page_ne_node hq hs
    exact shaped_sim _ hq (by simp [PageTree.nodes]) fun r hr => by
      rw [PageTree.pages, List.mem_singleton] at hr
      subst hr
      exact (hsim _ hqr).trans (r4 _)
  · have hqr : q ≠ root := fun e => hq (by rw [e, PageTree.nodes]; exact List.mem_cons_self)
    rw [r5 q (by rw [hnn]; exact hq), b2 q hqp, a5 q hqr]
  · rw [r5 p (by rw [hnn]; exact hpn)]
    have hb1 := b1
    unfold setParent at hb1
    rw [dictAt_eq (s := s1) (r := p) (d := d') (by rw [a5 p hpr, hd']), ok_bind] at hb1
    cases hb1
    simp [PStore.set]

/-- Inserting a page among the kids of the root. -/
theorem insertPage_shaped {s : PStore} {root p : ObjRef} {ts : List PageTree} {f i : Nat} (h : Shaped s (.node root ts))
    (hnd : (PageTree.node root ts).nodes.Nodup) (hp : Shaped s (.page p)) (hi : 1 ≤ i) (hi2 : i ≤ ts.length + 1)
    (hlen : ts.length < 2 ^ 64 - 1) (hf : depthOf ts + 1 < f) (hb : (pagesOf ts).length + 1 < 2 ^ 63) :
    ∃ s', insertPage s f root p i = .ok s' ∧
      Shaped s' (.node root (ts.insertIdx (i - 1) (.page p))) ∧ StoredTree s' (.node root (ts.insertIdx (i - 1) (.page p))) ∧
      (∀ q, Shaped s (.page q) → Shaped s' (.page q)) := by
  obtain ⟨s', e1, e2, e3, e4, _⟩ := insertPage_full h hnd hp hi hi2 hlen hf hb
  exact ⟨s', e1, e2, e3, e4⟩

theorem insertPage_outside {s : PStore} {root p : ObjRef} {ts : List PageTree} {f i : Nat} (h : Shaped s (.node root ts))
    (hi : i = 0 ∨ ts.length + 1 < i) (hi3 : i < 2 ^ 64) (hlen : ts.length < 2 ^ 64 - 1) :
    insertPage s f root p i = .error .throw := by
  rw [Shaped] at h
  obtain ⟨⟨d, c, h1, h2, h3, h4⟩, h5⟩ := h
  unfold insertPage
  rw [getKidsInternal_eq h1 h3, ok_bind]
  dsimp only
  have : (2 ^ 64 + i - 1) % 2 ^ 64 > (kidRefs ts).length := by unfold kidRefs; rw [List.length_map]; omega
  rw [if_pos this]
  rfl

theorem appendPage_eq {s : PStore} {root p : ObjRef} {ts : List PageTree} {f : Nat} (h : Shaped s (.node root ts))
    (hlen : ts.length < 2 ^ 64 - 1) : appendPage s f root p = insertPage s f root p (ts.length + 1) := by
  rw [Shaped] at h
  obtain ⟨⟨d, c, h1, h2, h3, h4⟩, h5⟩ := h
  unfold appendPage
  rw [getKidsInternal_eq h1 h3, ok_bind]
  dsimp only
  have : (kidRefs ts).length = ts.length := by unfold kidRefs; rw [List.length_map]
  rw [this, Nat.mod_eq_of_lt (by omega)]

/-- Removal from the array of the root. -/
theorem removePage_shaped {s : PStore} {root : ObjRef} {ts : List PageTree} {f i : Nat} (h : Shaped s (.node root ts))
    (hnd : (PageTree.node root ts).nodes.Nodup) (hi : 1 ≤ i) (hi2 : i ≤ ts.length) (hlen : ts.length < 2 ^ 64)
    (hf : depthOf ts + 1 < f) (hb : (pagesOf ts).length < 2 ^ 63) :
    ∃ s', removePage s f root i = .ok s' ∧ Shaped s' (.node root (ts.eraseIdx (i - 1))) ∧
      StoredTree s' (.node root (ts.eraseIdx (i - 1))) ∧ (∀ q, Shaped s (.page q) → Shaped s' (.page q)) := by
  have hs := h
  rw [Shaped] at h
  obtain ⟨⟨d, c, h1, h2, h3, h4⟩, h5⟩ := h
  have hm : (2 ^ 64 + i - 1) % 2 ^ 64 = i - 1 := by
    have : 2 ^ 64 + i - 1 = 2 ^ 64 + (i - 1) := by omega
    rw [this, Nat.add_mod_left, Nat.mod_eq_of_lt (by omega)]
  have hkids : (kidRefs ts).eraseIdx (i - 1) = kidRefs (ts.eraseIdx (i - 1)) := by
    unfold kidRefs; rw [map_eraseIdx']
  obtain ⟨d1, a1, a2, a3, a4, a5⟩ := assign_kids (l' := kidRefs (ts.eraseIdx (i - 1))) h1 h3
  generalize hs1 : assign s (.entry root (b! "Kids")) (.arr (kidRefs (ts.eraseIdx (i - 1)))) = s1 at a1 a5
  have hsim : ∀ r, r ≠ root → SameNode s s1 r := fun r hr => SameNode.of_eq (a5 r hr)
  rw [PageTree.nodes, List.nodup_cons] at hnd
  have hn := nodesOf_eraseIdx ts (i - 1)
  have hpg := pagesOf_eraseIdx ts (i - 1)
  have hd := depthOf_eraseIdx ts (i - 1)
  have hsh : Shaped s1 (.node root (ts.eraseIdx (i - 1))) := by
    refine edited_shaped (s := s) (d1 := d1) (c := c) a1 (a2.trans h2) a3 (a4.trans h4) hsim ?_ (fun e => hnd.1 (hn.subset e)) ?_
    · rw [shapedAll_iff] at h5 ⊢
      exact fun t ht => h5 t (List.mem_of_mem_eraseIdx ht)
    · intro hmem
      exact page_ne_node (shapedAll_pages ts h5 root (hpg.subset hmem)) hs rfl
  obtain ⟨s', r1, r2, r3, r4⟩ := recounted (f := f) hsh
    (by rw [PageTree.nodes, List.nodup_cons]; exact ⟨fun e => hnd.1 (hn.subset e), hnd.2.sublist hn⟩) (by omega)
    (by have := hpg.length_le; omega)
  refine ⟨s', ?_, r2, r3, ?_⟩
  · unfold removePage
    rw [hm, getKidsInternal_eq h1 h3, ok_bind]
    dsimp only
    have hlen' : i - 1 < (kidRefs ts).length := by unfold kidRefs; rw [List.length_map]; omega
    rw [if_pos hlen', hkids, hs1]
    exact r1
  · intro q hq
    have hqr := page_ne_node hq hs
    exact shaped_sim _ hq (by simp [PageTree.nodes]) fun r hr => by
      rw [PageTree.pages, List.mem_singleton] at hr
      subst hr
      exact (hsim _ hqr).trans (r4 _)

theorem removePage_outside {s : PStore} {root : ObjRef} {ts : List PageTree} {f i : Nat} (h : Shaped s (.node root ts))
    (hnd : (PageTree.node root ts).nodes.Nodup) (hi : i = 0 ∨ ts.length < i) (hi3 : i < 2 ^ 64) (hlen : ts.length < 2 ^ 64 - 1)
    (hf : depthOf ts + 1 < f) (hb : (pagesOf ts).length < 2 ^ 63) :
    ∃ s', removePage s f root i = .ok s' ∧ Shaped s' (.node root ts) ∧ StoredTree s' (.node root ts) := by
  obtain ⟨s', r1, r2, r3, _⟩ := recounted (f := f) h hnd hf hb
  rw [Shaped] at h
  obtain ⟨⟨d, c, h1, h2, h3, h4⟩, h5⟩ := h
  refine ⟨s', ?_, r2, r3⟩
  unfold removePage
  rw [getKidsInternal_eq h1 h3, ok_bind]
  dsimp only
  have : ¬((2 ^ 64 + i - 1) % 2 ^ 64 < (kidRefs ts).length) := by unfold kidRefs; rw [List.length_map]; omega
  rw [if_neg this]
  exact r1

end VPdf
