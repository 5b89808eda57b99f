import Verif.Lemmas.PageTree
import Verif.Lemmas.HeapSteps
/-
  Lemmas about changes of the page tree.
-/
namespace VPdf
open Spec

/-- The entries that make up the page tree are the same in an object of two documents; the value of Count may differ. -/
def SameNode (s s' : PStore) (r : ObjRef) : Prop :=
  ∀ d, s r = .dict d → ∃ d', s' r = .dict d' ∧ mapFind (b! "Type") d' = mapFind (b! "Type") d ∧
    mapFind (b! "Kids") d' = mapFind (b! "Kids") d ∧
    (∀ c, mapFind (b! "Count") d = some (.int c) → ∃ c', mapFind (b! "Count") d' = some (.int c'))

theorem SameNode.refl (s : PStore) (r : ObjRef) : SameNode s s r := fun d h => ⟨d, h, rfl, rfl, fun c hc => ⟨c, hc⟩⟩

theorem SameNode.of_eq {s s' : PStore} {r : ObjRef} (e : s' r = s r) : SameNode s s' r :=
  fun d h => ⟨d, by rw [e, h], rfl, rfl, fun c hc => ⟨c, hc⟩⟩

theorem SameNode.trans {s s' s'' : PStore} {r : ObjRef} (h1 : SameNode s s' r) (h2 : SameNode s' s'' r) : SameNode s s'' r := by
  intro d hd
  obtain ⟨d', h3, h4, h5, h6⟩ := h1 d hd
  obtain ⟨d'', h7, h8, h9, h10⟩ := h2 d' h3
  refine ⟨d'', h7, h8.trans h4, h9.trans h5, fun c hc => ?_⟩
  obtain ⟨c', hc'⟩ := h6 c hc
  exact h10 c' hc'

/-- The root is not one of the pages. -/
theorem page_ne_node {s : PStore} {q r : ObjRef} {kids : List PageTree} (hq : Shaped s (.page q)) (hr : Shaped s (.node r kids)) :
    q ≠ r := by
  rintro rfl
  rw [Shaped] at hq
  rw [Shaped] at hr
  obtain ⟨d, h1, h2⟩ := hq
  obtain ⟨⟨d', c, h3, h4, _⟩, _⟩ := hr
  rw [h1] at h3
  cases h3
  rw [h2] at h4
  exact absurd h4 (by simp)

mutual
theorem shaped_sim {s s' : PStore} (t : PageTree) (ht : Shaped s t) (hn : ∀ r ∈ t.nodes, SameNode s s' r)
    (hp : ∀ q ∈ t.pages, SameNode s s' q) : Shaped s' t := by
  match t with
  | .page r =>
    rw [Shaped] at ht ⊢
    obtain ⟨d, h1, h2⟩ := ht
    obtain ⟨d', h3, h4, _⟩ := hp r (by simp [PageTree.pages]) d h1
    exact ⟨d', h3, h4.trans h2⟩
  | .node r kids =>
    rw [Shaped] at ht ⊢
    obtain ⟨⟨d, c, h1, h2, h3, h4⟩, h5⟩ := ht
    obtain ⟨d', e1, e2, e3, e4⟩ := hn r (by simp [PageTree.nodes]) d h1
    obtain ⟨c', hc'⟩ := e4 c h4
    exact ⟨⟨d', c', e1, e2.trans h2, e3.trans h3, hc'⟩,
      shapedAll_sim kids h5 (fun q hq => hn q (by rw [PageTree.nodes]; exact List.mem_cons_of_mem _ hq))
        (fun q hq => hp q (by rw [PageTree.pages]; exact hq))⟩
theorem shapedAll_sim {s s' : PStore} (ts : List PageTree) (ht : ShapedAll s ts) (hn : ∀ r ∈ nodesOf ts, SameNode s s' r)
    (hp : ∀ q ∈ pagesOf ts, SameNode s s' q) : ShapedAll s' ts := by
  match ts with
  | [] => rw [ShapedAll]; trivial
  | t :: ts =>
    rw [ShapedAll] at ht ⊢
    rw [nodesOf] at hn
    rw [pagesOf] at hp
    exact ⟨shaped_sim t ht.1 (fun r hr => hn r (List.mem_append_left _ hr)) (fun r hr => hp r (List.mem_append_left _ hr)),
      shapedAll_sim ts ht.2 (fun r hr => hn r (List.mem_append_right _ hr)) (fun r hr => hp r (List.mem_append_right _ hr))⟩
end

mutual
theorem shaped_pages {s : PStore} (t : PageTree) (ht : Shaped s t) : ∀ q ∈ t.pages, Shaped s (.page q) := by
  match t with
  | .page r =>
    intro q hq
    rw [PageTree.pages, List.mem_singleton] at hq
    subst hq; exact ht
  | .node r kids =>
    rw [Shaped] at ht
    intro q hq
    rw [PageTree.pages] at hq
    exact shapedAll_pages kids ht.2 q hq
theorem shapedAll_pages {s : PStore} (ts : List PageTree) (ht : ShapedAll s ts) : ∀ q ∈ pagesOf ts, Shaped s (.page q) := by
  match ts with
  | [] => intro q hq; simp [pagesOf] at hq
  | t :: ts =>
    rw [ShapedAll] at ht
    intro q hq
    rw [pagesOf, List.mem_append] at hq
    rcases hq with hq | hq
    · exact shaped_pages t ht.1 q hq
    · exact shapedAll_pages ts ht.2 q hq
end

mutual
/-- Every Count in the tree is the number of pages below the node. -/
def Counted (s : PStore) : PageTree → Prop
  | .page _ => True
  | .node r kids => (∃ d, s r = .dict d ∧ mapFind (b! "Count") d = some (.int (pagesOf kids).length)) ∧ CountedAll s kids
/-- Every Count in the trees is right. -/
def CountedAll (s : PStore) : List PageTree → Prop
  | [] => True
  | t :: ts => Counted s t ∧ CountedAll s ts
end

mutual
theorem counted_congr {s s' : PStore} (t : PageTree) (h : Counted s t) (e : ∀ r ∈ t.nodes, s' r = s r) : Counted s' t := by
  match t with
  | .page _ => rw [Counted]; trivial
  | .node r kids =>
    rw [Counted] at h ⊢
    obtain ⟨⟨d, h1, h2⟩, h3⟩ := h
    rw [PageTree.nodes] at e
    exact ⟨⟨d, by rw [e r (List.mem_cons_self ..), h1], h2⟩, countedAll_congr kids h3 fun q hq => e q (List.mem_cons_of_mem _ hq)⟩
theorem countedAll_congr {s s' : PStore} (ts : List PageTree) (h : CountedAll s ts) (e : ∀ r ∈ nodesOf ts, s' r = s r) :
    CountedAll s' ts := by
  match ts with
  | [] => rw [CountedAll]; trivial
  | t :: ts =>
    rw [CountedAll] at h ⊢
    rw [nodesOf] at e
    exact ⟨counted_congr t h.1 fun r hr => e r (List.mem_append_left _ hr),
      countedAll_congr ts h.2 fun r hr => e r (List.mem_append_right _ hr)⟩
end

mutual
theorem stored_of_counted {s : PStore} (t : PageTree) (h1 : Shaped s t) (h2 : Counted s t) (hb : t.pages.length < 2 ^ 63) :
    StoredTree s t := by
  match t with
  | .page r =>
    rw [Shaped] at h1
    rw [StoredTree]
    obtain ⟨d, e1, e2⟩ := h1
    exact ⟨d, e1, hasEntry_of_find (by simp) e2⟩
  | .node r kids =>
    rw [Shaped] at h1
    rw [Counted] at h2
    rw [StoredTree]
    rw [PageTree.pages] at hb
    obtain ⟨⟨d, c, e1, e2, e3, e4⟩, e5⟩ := h1
    obtain ⟨⟨d', e6, e7⟩, e8⟩ := h2
    rw [e1] at e6
    cases e6
    exact ⟨⟨d, e1, hasEntry_of_find (by simp) e2, hasEntry_of_find (by simp) e3, hasEntry_of_find (by simp) e7, hb⟩,
      storedAll_of_counted kids e5 e8 hb⟩
theorem storedAll_of_counted {s : PStore} (ts : List PageTree) (h1 : ShapedAll s ts) (h2 : CountedAll s ts)
    (hb : (pagesOf ts).length < 2 ^ 63) : StoredTrees s ts := by
  match ts with
  | [] => rw [StoredTrees]; trivial
  | t :: ts =>
    rw [ShapedAll] at h1
    rw [CountedAll] at h2
    rw [StoredTrees]
    rw [pagesOf, List.length_append] at hb
    exact ⟨stored_of_counted t h1.1 h2.1 (by omega), storedAll_of_counted ts h1.2 h2.2 (by omega)⟩
end

theorem mapFind_replace (k q : Bytes) (v : Obj) (d : Dict) :
    mapFind q (replaceEntry k v d) = if q = k then (mapFind k d).map fun _ => v else mapFind q d := by
  induction d with
  | nil => simp [replaceEntry, mapFind]
  | cons e d ih =>
    obtain ⟨k', v'⟩ := e
    have e1 : replaceEntry k v ((k', v') :: d) = (if k' == k then (k', v) else (k', v')) :: replaceEntry k v d := rfl
    rw [e1]
    by_cases hk : k' = k
    · subst hk
      simp only [beq_self_eq_true, if_true]
      by_cases hq : q = k'
      · subst hq; simp [mapFind]
      · have : (q == k') = false := by simpa using hq
        rw [mapFind, this]
        simp only [Bool.false_eq_true, if_false]
        rw [ih, if_neg hq, if_neg hq, mapFind, this]; simp
    · have h2 : (k' == k) = false := by simpa using hk
      rw [h2]
      simp only [Bool.false_eq_true, if_false]
      by_cases hq : q = k'
      · subst hq; rw [if_neg hk]; simp [mapFind]
      · have : (q == k') = false := by simpa using hq
        rw [mapFind, this]
        simp only [Bool.false_eq_true, if_false]
        rw [ih]
        by_cases hqk : q = k
        · subst hqk
          rw [if_pos rfl, if_pos rfl, mapFind, this]; simp
        · rw [if_neg hqk, if_neg hqk, mapFind, this]; simp

theorem mapFind_insert_ne {α : Type} {k q : Bytes} {v : α} {d : List (Bytes × α)} (h : q ≠ k) :
    mapFind q (mapInsert k v d) = mapFind q d := by
  have hq : (q == k) = false := by simpa using h
  induction d with
  | nil => simp [mapInsert, mapFind, hq]
  | cons e d ih =>
    obtain ⟨k', v'⟩ := e
    rw [mapInsert]
    split
    · rw [mapFind, hq]; simp
    · split
      · rw [mapFind, mapFind, ih]
      · rfl

theorem mapFind_insert_new {α : Type} {k : Bytes} {v : α} {d : List (Bytes × α)} (h : mapFind k d = none) :
    mapFind k (mapInsert k v d) = some v := by
  induction d with
  | nil => simp [mapInsert, mapFind]
  | cons e d ih =>
    obtain ⟨k', v'⟩ := e
    rw [mapFind] at h
    split at h
    · cases h
    · rename_i hne
      rw [mapInsert]
      split
      · simp [mapFind]
      · split
        · rw [mapFind, if_neg hne, ih h]
        · rename_i hn1 hn2
          rcases bytesLt_total k k' with h | h | h
          · exact absurd h hn1
          · exact absurd (by simpa using h) hne
          · exact absurd h hn2

/-- Writing a new Count. -/
theorem assign_count {s : PStore} {r : ObjRef} {d : Dict} {c : Int} {v : Nat} (h : s r = .dict d)
    (hc : mapFind (b! "Count") d = some (.int c)) :
    (∀ q, q ≠ r → assign s (placeOf r d (b! "Count")) (.int v) q = s q) ∧
    (∃ d', assign s (placeOf r d (b! "Count")) (.int v) r = .dict d' ∧ mapFind (b! "Count") d' = some (.int v)) ∧
    SameNode s (assign s (placeOf r d (b! "Count")) (.int v)) r := by
  have e : assign s (placeOf r d (b! "Count")) (.int v) = s.set r (.dict (replaceEntry (b! "Count") (.int v) d)) := by
    unfold placeOf assign
    rw [hc]
    simp only [h]
  rw [e]
  refine ⟨fun q hq => by simp [PStore.set, hq], ⟨_, by simp [PStore.set]; rfl, ?_⟩, ?_⟩
  · rw [mapFind_replace, if_pos rfl, hc]; rfl
  · intro d0 hd0
    rw [h] at hd0
    cases hd0
    refine ⟨replaceEntry (b! "Count") (.int v) d, by simp [PStore.set], ?_, ?_, ?_⟩
    · rw [mapFind_replace, if_neg (by decide)]
    · rw [mapFind_replace, if_neg (by decide)]
    · intro c0 _
      exact ⟨v, by rw [mapFind_replace, if_pos rfl, hc]; rfl⟩

theorem kidNode_shaped {s : PStore} {t : PageTree} (h : Shaped s t) :
    kidNode s (.ref t.ref.1 t.ref.2) = .ok (t.ref, if t.isNode then .tree else .page) := by
  cases t with
  | page r =>
    rw [Shaped] at h
    obtain ⟨d, h1, h2⟩ := h
    simp only [kidNode, PageTree.ref, PageTree.isNode]
    rw [createPageNode_page h1 (hasEntry_of_find (by simp) h2)]; rfl
  | node r kids =>
    rw [Shaped] at h
    obtain ⟨⟨d, c, h1, h2, _⟩, _⟩ := h
    simp only [kidNode, PageTree.ref, PageTree.isNode]
    rw [createPageNode_tree h1 (hasEntry_of_find (by simp) h2)]; rfl

mutual
theorem update_shaped (t : PageTree) (f : Nat) (s : PStore) (h : Shaped s t) (hnd : t.nodes.Nodup) (hf : t.depth < f)
    (hb : t.pages.length < 2 ^ 63) :
    ∃ s', updateKidsCount f s t.ref = .ok (t.pages.length, s') ∧ (∀ r, SameNode s s' r) ∧ (∀ r, r ∉ t.nodes → s' r = s r) ∧
      Counted s' t := by
  obtain ⟨f, rfl⟩ : ∃ g, f = g + 1 := ⟨f - 1, by omega⟩
  match t with
  | .page r =>
    rw [Shaped] at h
    obtain ⟨d, h1, h2⟩ := h
    refine ⟨s, ?_, fun r => SameNode.refl s r, fun _ _ => rfl, by rw [Counted]; trivial⟩
    rw [updateKidsCount, PageTree.ref, createPageNode_page h1 (hasEntry_of_find (by simp) h2)]
    rfl
  | .node r kids =>
    have hs := h
    rw [Shaped] at h
    obtain ⟨⟨d, c, h1, h2, h3, h4⟩, h5⟩ := h
    rw [PageTree.nodes, List.nodup_cons] at hnd
    rw [PageTree.pages] at hb
    rw [PageTree.depth] at hf
    obtain ⟨s1, e1, e2, e3, e4⟩ := updateLoop_shaped kids f s 0 h5 hnd.2 (by omega) (by omega)
    have hr1 : s1 r = .dict d := by rw [e3 r hnd.1, h1]
    obtain ⟨a1, ⟨d', a2, a3⟩, a4⟩ := assign_count (v := (pagesOf kids).length) hr1 h4
    refine ⟨assign s1 (placeOf r d (b! "Count")) (.int (pagesOf kids).length), ?_, ?_, ?_, ?_⟩
    · rw [updateKidsCount, PageTree.ref, createPageNode_tree h1 (hasEntry_of_find (by simp) h2), ok_bind]
      dsimp only
      rw [dictAt_eq h1, ok_bind, treeEntry_has (hasEntry_of_find (by simp) h4), ok_bind]
      dsimp only
      rw [kidsOf_eq (hasEntry_of_find (by simp) h3), ok_bind, e1, ok_bind]
      simp only [Nat.zero_add]
      rfl
    · intro q
      by_cases hq : q = r
      · subst hq; exact (e2 q).trans a4
      · exact (e2 q).trans (SameNode.of_eq (a1 q hq))
    · intro q hq
      rw [PageTree.nodes, List.mem_cons, not_or] at hq
      rw [a1 q hq.1, e3 q hq.2]
    · rw [Counted]
      refine ⟨⟨d', a2, a3⟩, countedAll_congr kids e4 fun q hq => a1 q ?_⟩
      rintro rfl
      exact hnd.1 hq
theorem updateLoop_shaped (ts : List PageTree) (f : Nat) (s : PStore) (acc : Nat) (h : ShapedAll s ts) (hnd : (nodesOf ts).Nodup)
    (hf : depthOf ts < f) (hb : acc + (pagesOf ts).length < 2 ^ 63) :
    ∃ s', updateKidsLoop (updateKidsCount f) s (kidRefs ts) acc = .ok (acc + (pagesOf ts).length, s') ∧ (∀ r, SameNode s s' r) ∧
      (∀ r, r ∉ nodesOf ts → s' r = s r) ∧ CountedAll s' ts := by
  match ts with
  | [] => exact ⟨s, rfl, fun r => SameNode.refl s r, fun _ _ => rfl, by rw [CountedAll]; trivial⟩
  | t :: ts =>
    rw [ShapedAll] at h
    rw [nodesOf, List.nodup_append] at hnd
    rw [depthOf] at hf
    rw [pagesOf, List.length_append] at hb
    obtain ⟨s1, e1, e2, e3, e4⟩ := update_shaped t f s h.1 hnd.1 (by omega) (by omega)
    have h2 : ShapedAll s1 ts := shapedAll_sim ts h.2 (fun r _ => e2 r) (fun r _ => e2 r)
    obtain ⟨s2, a1, a2, a3, a4⟩ := updateLoop_shaped ts f s1 (acc + t.pages.length) h2 hnd.2.1 (by omega) (by omega)
    refine ⟨s2, ?_, fun r => (e2 r).trans (a2 r), ?_, ?_⟩
    · have e : kidRefs (t :: ts) = .ref t.ref.1 t.ref.2 :: kidRefs ts := rfl
      rw [e, updateKidsLoop, kidNode_shaped h.1, ok_bind]
      dsimp only
      rw [e1, ok_bind]
      dsimp only
      rw [Nat.mod_eq_of_lt (by omega), a1, pagesOf, List.length_append, Nat.add_assoc]
    · intro r hr
      rw [nodesOf, List.mem_append, not_or] at hr
      rw [a3 r hr.2, e3 r hr.1]
    · rw [CountedAll]
      refine ⟨counted_congr t e4 fun r hr => a3 r fun hr' => hnd.2.2 r hr r hr' rfl, a4⟩
end

end VPdf
