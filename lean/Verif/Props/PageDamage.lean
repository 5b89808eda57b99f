/-
  C47: what is returned as a page, and what is taken for a page tree, in any document.
-/
import Verif.Props.PageTree
import Verif.Props.Ints
import Verif.Lemmas.XrefStream

namespace VPdf
open Spec

/-- The nodes below a node of a page tree: what its Kids refer to, and what is below those. -/
inductive Spec.BelowNode (s : PStore) : ObjRef → ObjRef → Prop where
  | kid {r q : ObjRef} {d : Dict} {l : List Obj} : s r = .dict d → HasEntry s d (b! "Kids") (.arr l) → .ref q.1 q.2 ∈ l →
      Spec.BelowNode s r q
  | further {r q p : ObjRef} : Spec.BelowNode s r q → Spec.BelowNode s q p → Spec.BelowNode s r p

/-- An object with the given Type. -/
def Spec.OfType (s : PStore) (r : ObjRef) (type : Bytes) : Prop :=
  ∃ d, s r = .dict d ∧ HasEntry s d (b! "Type") (.name type)

namespace PageDamage

theorem boundOk {α β : Type} {x : Res α} {k : α → Res β} {b : β} (h : (x >>= k) = .ok b) : ∃ a, x = .ok a ∧ k a = .ok b := by
  cases x with
  | ok a => exact ⟨a, rfl, h⟩
  | error f => cases h

theorem treeEntry_gives {s : PStore} {d : Dict} {k : Bytes} {o : Obj} (h : treeEntry s d k = .ok o) (ho : ∀ n g, o ≠ .ref n g) :
    HasEntry s d k o := by
  refine ⟨ho, ?_⟩
  unfold treeEntry at h
  split at h
  · cases h
  · next n g hf => cases h; exact .inr ⟨n, g, hf, rfl⟩
  · next o' _ hf => cases h; exact .inl hf

theorem dictAt_ok {s : PStore} {r : ObjRef} {d : Dict} (h : dictAt s r = .ok d) : s r = .dict d := by
  unfold dictAt at h
  split at h
  · next d' hd => cases h; exact hd
  · cases h

theorem kidsOf_ok {s : PStore} {d : Dict} {l : List Obj} (h : kidsOf s d = .ok l) : HasEntry s d (b! "Kids") (.arr l) := by
  obtain ⟨o, h1, h2⟩ := boundOk h
  split at h2
  · next l' => cases h2; exact treeEntry_gives h1 (fun _ _ h => by cases h)
  · cases h2

theorem pageTreeNode_ok {s : PStore} {r : ObjRef} {d : Dict} (h : pageTreeNode s r = .ok d) :
    s r = .dict d ∧ HasEntry s d (b! "Type") (.name (b! "Pages")) := by
  obtain ⟨d', h1, h2⟩ := boundOk h
  dsimp only at h2
  split at h2
  · cases h2
  obtain ⟨o, h5, h6⟩ := boundOk h2
  split at h6
  · next n =>
    split at h6
    · next hn => cases h6; subst hn; exact ⟨dictAt_ok h1, treeEntry_gives h5 (fun _ _ h => by cases h)⟩
    · cases h6
  · cases h6

theorem createPageNode_ok {s : PStore} {r : ObjRef} {k : NodeKind} (h : createPageNode s r = .ok k) :
    OfType s r (match k with | .tree => b! "Pages" | .page => b! "Page") := by
  obtain ⟨d', h1, h2⟩ := boundOk h
  dsimp only at h2
  split at h2
  · cases h2
  obtain ⟨o, h5, h6⟩ := boundOk h2
  split at h6
  · next n =>
    split at h6
    · next hn => cases h6; subst hn; exact ⟨d', dictAt_ok h1, treeEntry_gives h5 (fun _ _ h => by cases h)⟩
    · split at h6
      · next hn => cases h6; subst hn; exact ⟨d', dictAt_ok h1, treeEntry_gives h5 (fun _ _ h => by cases h)⟩
      · cases h6
  · cases h6

theorem kidNode_ok {s : PStore} {o : Obj} {r : ObjRef} {k : NodeKind} (h : kidNode s o = .ok (r, k)) :
    o = .ref r.1 r.2 ∧ createPageNode s r = .ok k := by
  unfold kidNode at h
  split at h
  · next n g =>
    obtain ⟨k', h1, h2⟩ := boundOk h
    cases h2
    exact ⟨rfl, h1⟩
  · cases h

theorem noTrees {s : PStore} : ∀ {l : List Obj}, hasTreeChilds s l = .ok false → ∀ o ∈ l, ∃ r, kidNode s o = .ok (r, .page) := by
  intro l
  induction l with
  | nil => intro _ o ho; cases ho
  | cons k ks ih =>
    intro h o ho
    obtain ⟨⟨r, kind⟩, h1, h2⟩ := boundOk h
    cases kind with
    | tree => cases h2
    | page =>
      rcases List.mem_cons.1 ho with rfl | ho
      · exact ⟨r, h1⟩
      · exact ih h2 o ho

/-- What the loop finds is a page below the node. -/
theorem pageLoop_ok {s : PStore} {n : Nat} {self : Nat → ObjRef → Res ObjRef} {root : ObjRef} {d : Dict} {all : List Obj}
    (hd : s root = .dict d) (hall : HasEntry s d (b! "Kids") (.arr all))
    (hself : ∀ p q r, self p q = .ok r → BelowNode s q r ∧ OfType s r (b! "Page")) :
    ∀ (l : List Obj) (p : Nat) (r : ObjRef), (∀ o ∈ l, o ∈ all) → pageLoop s n self p l = .ok r →
      BelowNode s root r ∧ OfType s r (b! "Page") := by
  intro l
  induction l with
  | nil => intro p r _ h; cases h
  | cons k ks ih =>
    intro p r hm h
    obtain ⟨⟨q, kind⟩, h1, h2⟩ := boundOk h
    obtain ⟨rfl, h3⟩ := kidNode_ok h1
    have hq : BelowNode s root q := .kid hd hall (hm _ List.mem_cons_self)
    have hrest : ∀ o ∈ ks, o ∈ all := fun o ho => hm o (List.mem_cons_of_mem _ ho)
    cases kind with
    | page =>
      dsimp only at h2
      split at h2
      · exact ih _ r hrest h2
      · cases h2; exact ⟨hq, createPageNode_ok h3⟩
    | tree =>
      dsimp only at h2
      obtain ⟨d1, g1, g2⟩ := boundOk h2
      obtain ⟨c, g3, g4⟩ := boundOk g2
      split at g4
      · exact ih _ r hrest g4
      · obtain ⟨sub, g5, g6⟩ := boundOk g4
        obtain ⟨b, g7, g8⟩ := boundOk g6
        cases b with
        | true =>
          obtain ⟨e1, e2⟩ := hself _ _ _ g8
          exact ⟨.further hq e1, e2⟩
        | false =>
          simp only [Bool.false_eq_true, if_false] at g8
          split at g8
          · cases g8
          · next o ho =>
            obtain ⟨⟨q', kind'⟩, g9, g10⟩ := boundOk g8
            cases g10
            have hmem : o ∈ sub := List.mem_of_getElem? ho
            obtain ⟨q'', g11⟩ := noTrees g7 o hmem
            rw [g9] at g11
            cases g11
            obtain ⟨rfl, g12⟩ := kidNode_ok g9
            exact ⟨.further hq (.kid (dictAt_ok g1) (kidsOf_ok g5) hmem), createPageNode_ok g12⟩

theorem pageInternal_ok {s : PStore} {n : Nat} : ∀ (f p : Nat) (root r : ObjRef), pageInternal s n f p root = .ok r →
    BelowNode s root r ∧ OfType s r (b! "Page") := by
  intro f
  induction f with
  | zero => intro p root r h; cases h
  | succ f ih =>
    intro p root r h
    obtain ⟨d, h1, h2⟩ := boundOk h
    obtain ⟨l, h3, h4⟩ := boundOk h2
    exact pageLoop_ok (dictAt_ok h1) (kidsOf_ok h3) (fun p q r hr => ih p q r hr) l p r (fun _ h => h) h4

end PageDamage

/-- **C47** in any document, however damaged its page tree is: what is returned as a page has the Type Page and lies below the root
of the page tree, and the root has the Type Pages. -/
theorem C47_only_pages (s : PStore) (f : Nat) (root r : ObjRef) (n : Nat) (h : pageAt s f root n = .ok r) :
    OfType s root (b! "Pages") ∧ BelowNode s root r ∧ OfType s r (b! "Page") ∧ 1 ≤ n := by
  unfold pageAt at h
  split at h
  · cases h
  · next hn =>
    obtain ⟨d, h1, h2⟩ := PageDamage.boundOk h
    exact ⟨⟨d, PageDamage.pageTreeNode_ok h1⟩, (PageDamage.pageInternal_ok f 1 root r h2).1,
      (PageDamage.pageInternal_ok f 1 root r h2).2, by omega⟩

-- a tree whose Count is wrong
example : pageAt (sampleDoc.set (3, 0) (.dict [(b! "Count", .int 1), (b! "Kids", .arr [.ref 4 0, .ref 5 0]),
    (b! "Type", .name (b! "Pages"))])) 5 (2, 0) 2 = .ok (6, 0) := by rfl

/-- **C47** in any document: the number of pages is what Count says, which is not negative, and the root has the Type Pages; no
number is returned otherwise. -/
theorem C47_count_says (s : PStore) (root : ObjRef) (c : Nat) (h : pageCount s root = .ok c) :
    ∃ d, s root = .dict d ∧ HasEntry s d (b! "Type") (.name (b! "Pages")) ∧ HasEntry s d (b! "Count") (.int c) := by
  obtain ⟨d, h1, h2⟩ := PageDamage.boundOk h
  obtain ⟨g1, g2⟩ := PageDamage.pageTreeNode_ok h1
  obtain ⟨o, h3, h4⟩ := PageDamage.boundOk h2
  split at h4
  · next i =>
    split at h4
    · cases h4
    · obtain ⟨c', h5, h6⟩ := PageDamage.boundOk h4
      cases h6
      refine ⟨d, g1, g2, ?_⟩
      have hc : (c'.toNat : Int) = i := by
        by_cases h0 : 0 ≤ i
        · obtain ⟨k, rfl⟩ := Int.eq_ofNat_of_zero_le h0
          rw [safeConvert_u64 (by omega)] at h5
          cases h5
          rfl
        · have : isInRange .u64 .i64 i = false := by
            simp [isInRange, isInRangeSame, IntTy.u64, IntTy.i64]; omega
          rw [safeConvert, if_neg (by rw [this]; simp)] at h5
          cases h5
      rw [hc]
      exact PageDamage.treeEntry_gives h3 (fun _ _ h => by cases h)
  · cases h4

example : pageCount sampleDoc (2, 0) = .ok 3 := by rfl

end VPdf
