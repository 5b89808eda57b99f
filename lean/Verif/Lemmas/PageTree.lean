import Verif.Spec.PageTree
import Verif.Lemmas.Parse
import Verif.Lemmas.Clone
/-
  Lemmas about the page tree.
-/
namespace VPdf
open Spec

theorem treeEntry_has {s : PStore} {d : Dict} {k : Bytes} {v : Obj} (h : HasEntry s d k v) : treeEntry s d k = .ok v := by
  obtain ⟨h1, h2⟩ := h
  unfold treeEntry
  rcases h2 with h2 | ⟨n, g, h2, h3⟩
  · rw [h2]
    cases v <;> first | rfl | exact absurd rfl (h1 _ _)
  · rw [h2]; simp only [h3]

theorem hasEntry_isNone {s : PStore} {d : Dict} {k : Bytes} {v : Obj} (h : HasEntry s d k v) :
    (mapFind k d).isNone = false := by
  rcases h.2 with h2 | ⟨n, g, h2, h3⟩ <;> rw [h2] <;> rfl

theorem hasEntry_of_find {s : PStore} {d : Dict} {k : Bytes} {v : Obj} (h1 : ∀ n g, v ≠ .ref n g)
    (h2 : mapFind k d = some v) : HasEntry s d k v := ⟨h1, Or.inl h2⟩

theorem dictAt_eq {s : PStore} {r : ObjRef} {d : Dict} (h : s r = .dict d) : dictAt s r = .ok d := by
  unfold dictAt; rw [h]

theorem createPageNode_page {s : PStore} {r : ObjRef} {d : Dict} (h : s r = .dict d)
    (h2 : HasEntry s d (b! "Type") (.name (b! "Page"))) : createPageNode s r = .ok .page := by
  unfold createPageNode
  rw [dictAt_eq h, ok_bind, hasEntry_isNone h2]
  simp only [Bool.false_eq_true, if_false]
  rw [treeEntry_has h2]
  rfl

theorem createPageNode_tree {s : PStore} {r : ObjRef} {d : Dict} (h : s r = .dict d)
    (h2 : HasEntry s d (b! "Type") (.name (b! "Pages"))) : createPageNode s r = .ok .tree := by
  unfold createPageNode
  rw [dictAt_eq h, ok_bind, hasEntry_isNone h2]
  simp only [Bool.false_eq_true, if_false]
  rw [treeEntry_has h2]
  rfl

theorem pageTreeNode_eq {s : PStore} {r : ObjRef} {d : Dict} (h : s r = .dict d)
    (h2 : HasEntry s d (b! "Type") (.name (b! "Pages"))) : pageTreeNode s r = .ok d := by
  unfold pageTreeNode
  rw [dictAt_eq h, ok_bind, hasEntry_isNone h2]
  simp only [Bool.false_eq_true, if_false]
  rw [treeEntry_has h2]
  rfl

theorem kidsOf_eq {s : PStore} {d : Dict} {l : List Obj} (h : HasEntry s d (b! "Kids") (.arr l)) : kidsOf s d = .ok l := by
  unfold kidsOf; rw [treeEntry_has h]; rfl

theorem kidCount_eq {s : PStore} {d : Dict} {c : Nat} (h : HasEntry s d (b! "Count") (.int c)) (hc : c < 2 ^ 63) :
    kidCount s d = .ok c := by
  unfold kidCount
  rw [treeEntry_has h, ok_bind]
  dsimp only
  rw [if_neg (by omega)]
  have : safeConvert .u64 .i64 (c : Int) = .ok (c : Int) := by
    have h1 : ((18446744073709551616 : Int)) = 2 ^ 64 := by norm_num
    have e : (c : Int) % 18446744073709551616 = c := by omega
    unfold safeConvert isInRange isInRangeSame IntTy.toUnsigned IntTy.cast
    simp [IntTy.u64, IntTy.i64, e]
  rw [this]
  rfl

/-- Is the top of the tree an inner node? -/
def Spec.PageTree.isNode : PageTree → Bool
  | .page _ => false
  | .node _ _ => true

theorem kidNode_stored {s : PStore} {t : PageTree} (h : StoredTree s t) :
    kidNode s (.ref t.ref.1 t.ref.2) = .ok (t.ref, if t.isNode then .tree else .page) := by
  cases t with
  | page r =>
    rw [StoredTree] at h
    obtain ⟨d, h1, h2⟩ := h
    simp only [kidNode, PageTree.ref, PageTree.isNode]
    rw [createPageNode_page h1 h2]; rfl
  | node r kids =>
    rw [StoredTree] at h
    obtain ⟨⟨d, h1, h2, _⟩, _⟩ := h
    simp only [kidNode, PageTree.ref, PageTree.isNode]
    rw [createPageNode_tree h1 h2]; rfl

theorem hasTreeChilds_stored {s : PStore} {ts : List PageTree} (h : StoredTrees s ts) :
    hasTreeChilds s (kidRefs ts) = .ok (ts.any PageTree.isNode) := by
  induction ts with
  | nil => rfl
  | cons t ts ih =>
    rw [StoredTrees] at h
    unfold kidRefs at ih ⊢
    rw [List.map_cons, hasTreeChilds, kidNode_stored h.1, ok_bind]
    dsimp only
    cases hn : t.isNode
    · simp only [Bool.false_eq_true, if_false, reduceCtorEq, List.any_cons, hn, Bool.false_or]; exact ih h.2
    · simp only [if_true, List.any_cons, hn, Bool.true_or]; rfl

theorem pagesOf_flat {ts : List PageTree} (h : ts.any PageTree.isNode = false) : pagesOf ts = ts.map PageTree.ref := by
  induction ts with
  | nil => rfl
  | cons t ts ih =>
    rw [List.any_cons, Bool.or_eq_false_iff] at h
    rw [pagesOf, ih h.2]
    cases t with
    | page r => rfl
    | node r k => exact absurd h.1 (by simp [PageTree.isNode])

theorem storedAll_get {s : PStore} {ts : List PageTree} (h : StoredTrees s ts) {i : Nat} {t : PageTree} (hi : ts[i]? = some t) :
    StoredTree s t := by
  induction ts generalizing i with
  | nil => simp at hi
  | cons u ts ih =>
    rw [StoredTrees] at h
    cases i with
    | zero => simp at hi; subst hi; exact h.1
    | succ i => exact ih h.2 (by simpa using hi)

mutual
/-- The number of levels of a tree. -/
def Spec.PageTree.depth : PageTree → Nat
  | .page _ => 0
  | .node _ kids => depthOf kids + 1
/-- The largest number of levels. -/
def Spec.depthOf : List PageTree → Nat
  | [] => 0
  | t :: ts => max t.depth (depthOf ts)
end

mutual
theorem pageInternal_stored (s : PStore) (n : Nat) (hn : n < 2 ^ 64) (t : PageTree) (ht : StoredTree s t) (hnode : t.isNode = true)
    (f p : Nat) (hf : t.depth ≤ f) (hp : p ≤ n) (hb : p + t.pages.length < 2 ^ 64) :
    pageInternal s n f p t.ref = match t.pages[n - p]? with
      | some r => .ok r
      | none => .error .throw := by
  match t with
  | .page r => simp [PageTree.isNode] at hnode
  | .node r kids =>
    rw [PageTree.depth] at hf
    obtain ⟨f, rfl⟩ : ∃ g, f = g + 1 := ⟨f - 1, by omega⟩
    rw [StoredTree] at ht
    obtain ⟨⟨d, h1, h2, h3, h4, h5⟩, h6⟩ := ht
    rw [pageInternal, PageTree.ref, dictAt_eq h1, ok_bind, kidsOf_eq h3, ok_bind]
    rw [PageTree.pages] at hb ⊢
    exact pageLoop_stored s n hn kids h6 f p (by omega) hp hb
theorem pageLoop_stored (s : PStore) (n : Nat) (hn : n < 2 ^ 64) (ts : List PageTree) (ht : StoredTrees s ts)
    (f p : Nat) (hf : depthOf ts ≤ f) (hp : p ≤ n) (hb : p + (pagesOf ts).length < 2 ^ 64) :
    pageLoop s n (pageInternal s n f) p (kidRefs ts) = match (pagesOf ts)[n - p]? with
      | some r => .ok r
      | none => .error .throw := by
  match ts with
  | [] => rfl
  | t :: ts =>
    rw [StoredTrees] at ht
    rw [depthOf] at hf
    rw [pagesOf] at hb ⊢
    rw [List.length_append] at hb
    have e : kidRefs (t :: ts) = .ref t.ref.1 t.ref.2 :: kidRefs ts := rfl
    rw [e, pageLoop, kidNode_stored ht.1, ok_bind]
    dsimp only
    cases hnode : t.isNode
    · simp only [Bool.false_eq_true, if_false]
      cases t with
      | node r k => simp [PageTree.isNode] at hnode
      | page r =>
        have hl : (PageTree.page r).pages = [r] := rfl
        rw [hl] at hb ⊢
        by_cases hpn : p = n
        · subst hpn
          rw [if_neg (by simp)]; simp [PageTree.ref]; rfl
        · rw [if_pos hpn]
          have hm : (p + 1) % 2 ^ 64 = p + 1 := Nat.mod_eq_of_lt (by simp at hb; omega)
          rw [hm, pageLoop_stored s n hn ts ht.2 f (p + 1) (by omega) (by omega) (by simp at hb; omega)]
          have : n - p = (n - (p + 1)) + 1 := by omega
          rw [this]; rfl
    · simp only [if_true]
      have hst := ht.1
      cases t with
      | page r => simp [PageTree.isNode] at hnode
      | node r kids =>
        have hst' := hst
        rw [StoredTree] at hst'
        obtain ⟨⟨d, h1, h2, h3, h4, h5⟩, h6⟩ := hst'
        have hl : (PageTree.node r kids).pages = pagesOf kids := rfl
        rw [hl] at hb ⊢
        have hr : (PageTree.node r kids).ref = r := rfl
        rw [hr, dictAt_eq h1, ok_bind, kidCount_eq h4 h5, ok_bind]
        have hm : (p + (pagesOf kids).length) % 2 ^ 64 = p + (pagesOf kids).length := Nat.mod_eq_of_lt (by omega)
        rw [hm]
        by_cases hc : p + (pagesOf kids).length ≤ n
        · rw [if_pos hc, pageLoop_stored s n hn ts ht.2 f _ (by omega) hc (by omega)]
          rw [List.getElem?_append_right (by omega)]
          have : n - p - (pagesOf kids).length = n - (p + (pagesOf kids).length) := by omega
          rw [this]
        · rw [if_neg hc, kidsOf_eq h3, ok_bind, hasTreeChilds_stored h6, ok_bind]
          rw [List.getElem?_append_left (by omega)]
          cases hany : kids.any PageTree.isNode
          · simp only [Bool.false_eq_true, if_false]
            have hm2 : (2 ^ 64 + n - p) % 2 ^ 64 = n - p := by
              have : 2 ^ 64 + n - p = 2 ^ 64 + (n - p) := by omega
              rw [this, Nat.add_mod_left, Nat.mod_eq_of_lt (by omega)]
            rw [hm2, pagesOf_flat hany]
            rw [pagesOf_flat hany, List.length_map] at hc
            unfold kidRefs
            rw [List.getElem?_map, List.getElem?_map]
            have hlt : n - p < kids.length := by omega
            rw [List.getElem?_eq_getElem hlt]
            dsimp only [Option.map_some]
            rw [kidNode_stored (storedAll_get h6 (List.getElem?_eq_getElem hlt)), ok_bind]
            rfl
          · simp only [if_true]
            have := pageInternal_stored s n hn (.node r kids) hst rfl f p (by omega) hp (by rw [hl]; omega)
            rw [hr, hl] at this
            exact this
end

end VPdf
