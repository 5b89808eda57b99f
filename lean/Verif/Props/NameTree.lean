import Verif.Lemmas.NameTree
/-
  Properties of name trees (C78) and of page labels (C79).
-/
namespace VPdf
open Spec

/-- **C78.**  The library says that a name tree contains a key exactly if one of its nodes has it, whatever the depth of
the tree. -/
theorem C78_contains (s : PStore) (d : Dict) (h : NameRoot s d) :
    ∃ n, ∀ f, n ≤ f → ∀ k, ∃ b, NameTree.contains f ⟨s, d, none⟩ k = .ok b ∧ (b = true ↔ ∃ v, TreeEntry s d k v) := by
  obtain ⟨n, hr⟩ := nameRoot_reads h
  refine ⟨n, fun f hf k => ?_⟩
  obtain ⟨m, h1, h2⟩ := hr f hf
  refine ⟨(mapFind k m).isSome, ?_, ?_⟩
  · unfold NameTree.contains NameTree.load
    dsimp only
    rw [h1]; rfl
  · constructor
    · intro hk
      obtain ⟨⟨ko, v⟩, hv⟩ := Option.isSome_iff_exists.mp hk
      exact ⟨v, (h2.2.1 k ko v hv).1⟩
    · rintro ⟨v, hv⟩
      exact h2.2.2 k v hv

/-- **C78.**  Find returns the value of the key, and fails exactly for keys that the tree does not have. -/
theorem C78_find (s : PStore) (d : Dict) (h : NameRoot s d) (hu : UniqueKeys s d) :
    ∃ n, ∀ f, n ≤ f → ∀ k, (∀ v, NameTree.find f ⟨s, d, none⟩ k = .ok v ↔ TreeEntry s d k v) ∧
      ((¬ ∃ v, TreeEntry s d k v) → NameTree.find f ⟨s, d, none⟩ k = .error .throw) := by
  obtain ⟨n, hr⟩ := nameRoot_reads h
  refine ⟨n, fun f hf k => ?_⟩
  obtain ⟨m, h1, h2⟩ := hr f hf
  have hfind : NameTree.find f ⟨s, d, none⟩ k = match mapFind k m with
      | some (_, v) => .ok v
      | none => .error .throw := by
    unfold NameTree.find NameTree.load
    dsimp only
    rw [h1]
    show (match mapFind k m with
      | some (_, v) => pure v
      | none => throw .throw : Res Obj) = _
    cases mapFind k m <;> rfl
  rw [hfind]
  constructor
  · intro v
    constructor
    · intro hv
      split at hv
      · rename_i ko w hw
        cases hv
        exact (h2.2.1 _ _ _ hw).1
      · cases hv
    · intro hv
      obtain ⟨⟨ko, w⟩, hw⟩ := Option.isSome_iff_exists.mp (h2.2.2 k v hv)
      rw [hw]
      dsimp only
      rw [hu k v w hv (h2.2.1 _ _ _ hw).1]
  · intro hn
    split
    · rename_i ko w hw
      exact absurd ⟨w, (h2.2.1 _ _ _ hw).1⟩ hn
    · rfl

/-- What Insert does to a tree without kids and Limits. -/
theorem insert_flat {f : Nat} {s : PStore} {d : Dict} {k : Bytes} {ko v : Obj} (h : FlatRoot s d)
    (hl : Absent d (b! "Limits")) (hu : UniqueKeys s d) (hk : ko = .lit k ∨ ko = .hex k) :
    ∃ d' m', NameTree.insert (f + 1) ⟨s, d, none⟩ k ko v = (.ok (), ⟨s, d', some m'⟩) ∧
      allKeys s (f + 1) .root d' = .ok m' ∧ FlatRoot s d' ∧ ¬ Absent d' (b! "Limits") ∧
      (∀ k' v', TreeEntry s d' k' v' ↔ TreeEntry s d k' v' ∨ (k' = k ∧ v' = v ∧ ¬ ∃ w, TreeEntry s d k w)) ∧
      (∀ q, q ≠ b! "Names" → q ≠ b! "Limits" → mapFind q d' = mapFind q d) ∧
      ∃ m, Lists (fun k' v' => TreeEntry s d k' v' ∨ (k' = k ∧ v' = v)) m ∧
        mapFind (b! "Names") d' = some (.arr (leafValues m)) ∧
        mapFind (b! "Limits") d' = some (.arr (leafLimits m)) ∧ m ≠ [] := by
  obtain ⟨m, h1, h2⟩ := flatRoot_reads h f
  have hm := lists_insert h2 (v := v) hk
  have hne : mapInsert k (ko, v) m ≠ [] := by
    intro e
    have := hm.2.2 k v (.inr ⟨rfl, rfl⟩)
    rw [e] at this
    cases this
  obtain ⟨d', m', r1, r2, r3, r4, r5, r6⟩ := rebuild_flat (f := f) (s := s) (m0 := some m) h.1 hl hm hne
  have hent : ∀ k' v', TreeEntry s d' k' v' ↔ ∃ ko', (k', ko', v') ∈ mapInsert k (ko, v) m := fun k' v' => by
    rw [treeEntry_leaf ⟨by simp, .inl r4⟩ r3, leafValues_pairs (lists_members hm)]
  refine ⟨d', m', ?_, r2, ⟨r3, .inr ⟨_, ⟨by simp, .inl r4⟩, leafValues_keys (lists_members hm)⟩⟩, ?_, ?_, r6, _, hm, r4, r5, hne⟩
  · unfold NameTree.insert NameTree.load
    dsimp only
    rw [h1]
    exact r1
  · rw [present_iff, r5]; rfl
  · intro k' v'
    rw [hent]
    constructor
    · rintro ⟨ko', hm'⟩
      have hf := mapFind_of_mem hm.1 hm'
      rw [mapFind_insert h2.1] at hf
      split at hf
      · rename_i e
        subst e
        cases hx : mapFind k' m with
        | some x =>
          rw [hx] at hf
          cases hf
          exact .inl (h2.2.1 _ _ _ hx).1
        | none =>
          rw [hx] at hf
          cases hf
          refine .inr ⟨rfl, rfl, ?_⟩
          rintro ⟨w, hw⟩
          have := h2.2.2 _ _ hw
          rw [hx] at this
          cases this
      · exact .inl (h2.2.1 _ _ _ hf).1
    · rintro (hv | ⟨rfl, rfl, hn⟩)
      · obtain ⟨ko', hm'⟩ := (lists_unique h2 hu k' v').mp hv
        refine ⟨ko', mapFind_entry ?_⟩
        rw [mapFind_insert h2.1]
        have hx := mapFind_of_mem h2.1 hm'
        split
        · rename_i e
          subst e
          rw [hx]
        · exact hx
      · refine ⟨ko, mapFind_entry ?_⟩
        rw [mapFind_insert h2.1, if_pos rfl]
        cases hx : mapFind k' m with
        | some x => exact absurd ⟨x.2, (h2.2.1 k' x.1 x.2 hx).1⟩ hn
        | none => rfl

/-- **C78 (partial).**  Inserting a new key into a tree whose root has neither Kids nor Limits succeeds: the tree then
has the new entry and otherwise the entries it had, new and old tree objects see the same, and the other entries of the
root are as before.  Missing: trees with kids, a second insertion, and keys that exist already, for which the claim is
false (below). -/
theorem C78_insert_partial (s : PStore) (d : Dict) (k : Bytes) (ko v : Obj) (f : Nat) (h : FlatRoot s d)
    (hl : Absent d (b! "Limits")) (hu : UniqueKeys s d) (hk : ko = .lit k ∨ ko = .hex k)
    (hnew : ¬ ∃ w, TreeEntry s d k w) :
    ∃ t, NameTree.insert (f + 1) ⟨s, d, none⟩ k ko v = (.ok (), t) ∧ t.store = s ∧ NameRoot t.store t.root ∧
      UniqueKeys t.store t.root ∧
      (∀ k' v', TreeEntry t.store t.root k' v' ↔ TreeEntry s d k' v' ∨ (k' = k ∧ v' = v)) ∧
      (∀ q, t.find (f + 1) q = t.fresh.find (f + 1) q ∧ t.contains (f + 1) q = t.fresh.contains (f + 1) q) ∧
      ∀ q, q ≠ b! "Names" → q ≠ b! "Limits" → mapFind q t.root = mapFind q d := by
  obtain ⟨d', m', h1, h2, h3, _, h5, h6, _⟩ := insert_flat (f := f) (v := v) h hl hu hk
  have hent : ∀ k' v', TreeEntry s d' k' v' ↔ TreeEntry s d k' v' ∨ (k' = k ∧ v' = v) := fun k' v' => by
    rw [h5]
    exact or_congr_right ⟨fun h => ⟨h.1, h.2.1⟩, fun h => ⟨h.1, h.2, hnew⟩⟩
  refine ⟨⟨s, d', some m'⟩, h1, rfl, .inl h3, ?_, hent, ?_, h6⟩
  · intro q a b ha hb
    rcases (hent q a).mp ha with ha | ⟨rfl, rfl⟩
    · rcases (hent q b).mp hb with hb | ⟨rfl, rfl⟩
      · exact hu q a b ha hb
      · exact absurd ⟨_, ha⟩ hnew
    · rcases (hent q b).mp hb with hb | ⟨_, rfl⟩
      · exact absurd ⟨_, hb⟩ hnew
      · rfl
  · intro q
    unfold NameTree.find NameTree.contains NameTree.load NameTree.fresh
    dsimp only
    rw [h2]
    exact ⟨rfl, rfl⟩

theorem leafLimits_ends : ∀ m : NameMap, m ≠ [] → ∃ lo hi, leafLimits m = [lo, hi] ∧ (leafValues m)[0]? = some lo ∧
    (leafValues m)[(leafValues m).length - 2]? = some hi
  | [], h => absurd rfl h
  | [(_, k, v)], _ => ⟨k, k, rfl, rfl, rfl⟩
  | (a, k, v) :: x :: m, _ => by
    obtain ⟨lo, hi, h1, h2, h3⟩ := leafLimits_ends (x :: m) (by simp)
    refine ⟨k, hi, ?_, rfl, ?_⟩
    · unfold leafLimits at h1 ⊢
      rw [List.getLast?_cons_cons]
      cases hg : (x :: m).getLast? with
      | none => simp at hg
      | some z =>
        rw [hg] at h1
        simp only [List.head?_cons, List.cons.injEq] at h1 ⊢
        exact ⟨trivial, h1.2⟩
    · have e : leafValues ((a, k, v) :: x :: m) = k :: v :: leafValues (x :: m) := rfl
      have hl : (leafValues (x :: m)).length ≥ 2 := by
        obtain ⟨_, _, _⟩ := x
        simp [leafValues]
      rw [e, show (k :: v :: leafValues (x :: m)).length - 2 = ((leafValues (x :: m)).length - 2) + 2 from by
        simp only [List.length_cons]; omega]
      exact h3

/-- **C78 (partial): limits.**  The Limits that Insert writes are the first and the last key of the node.
Missing: as for `C78_insert_partial`. -/
theorem C78_limits_partial (s : PStore) (d : Dict) (k : Bytes) (ko v : Obj) (f : Nat) (h : FlatRoot s d)
    (hl : Absent d (b! "Limits")) (hu : UniqueKeys s d) (hk : ko = .lit k ∨ ko = .hex k) :
    ∃ t l lo hi, NameTree.insert (f + 1) ⟨s, d, none⟩ k ko v = (.ok (), t) ∧
      HasEntry t.store t.root (b! "Names") (.arr l) ∧ HasEntry t.store t.root (b! "Limits") (.arr [lo, hi]) ∧
      l[0]? = some lo ∧ l[l.length - 2]? = some hi := by
  obtain ⟨d', m', h1, _, _, _, _, _, m, _, hn, hlim, hne⟩ := insert_flat (f := f) (v := v) h hl hu hk
  obtain ⟨lo, hi, e1, e2, e3⟩ := leafLimits_ends m hne
  rw [e1] at hlim
  exact ⟨_, _, lo, hi, h1, ⟨by simp, .inl hn⟩, ⟨by simp, .inl hlim⟩, e2, e3⟩

/-- **C78: merging stops at a name that both documents have.**  The error is reported, and the tree is as it was. -/
theorem C78_merge_duplicate (s : PStore) (d : Dict) (k : Bytes) (ko v w : Obj) (rest : List (Bytes × Obj × Obj))
    (h : NameRoot s d) (hw : TreeEntry s d k w) :
    ∃ n, ∀ f, n ≤ f → NameTree.insertAll f ⟨s, d, none⟩ ((k, ko, v) :: rest) = (.error .notSupported, ⟨s, d, none⟩) := by
  obtain ⟨n, hc⟩ := C78_contains s d h
  refine ⟨n, fun f hf => ?_⟩
  obtain ⟨b, h1, h2⟩ := hc f hf k
  rw [h2.mpr ⟨w, hw⟩] at h1
  rw [NameTree.insertAll, show NameTree.fresh ⟨s, d, none⟩ = ⟨s, d, none⟩ from rfl, h1]

/-- **C78: false for keys that exist already.**  Insert reports success, but the tree keeps the old value. -/
theorem C78_existing_counterexample (s : PStore) (d : Dict) (k : Bytes) (ko v w : Obj) (f : Nat) (h : FlatRoot s d)
    (hl : Absent d (b! "Limits")) (hu : UniqueKeys s d) (hk : ko = .lit k ∨ ko = .hex k) (hw : TreeEntry s d k w)
    (hne : v ≠ w) :
    ∃ t, NameTree.insert (f + 1) ⟨s, d, none⟩ k ko v = (.ok (), t) ∧ TreeEntry t.store t.root k w ∧
      ¬ TreeEntry t.store t.root k v := by
  obtain ⟨d', m', h1, _, _, _, h5, _⟩ := insert_flat (f := f) (v := v) h hl hu hk
  refine ⟨_, h1, (h5 k w).mpr (.inl hw), fun hv => ?_⟩
  rcases (h5 k v).mp hv with hv | ⟨_, _, hn⟩
  · exact hne (hu k v w hv hw)
  · exact hn ⟨w, hw⟩

/-- **C78: false for roots with Limits, which the library writes itself.**  Insert fails, and all entries of the tree are
lost. -/
theorem C78_limits_counterexample (s : PStore) (d : Dict) (k : Bytes) (ko v : Obj) (f : Nat) (h : FlatRoot s d)
    (hl : ¬ Absent d (b! "Limits")) (hk : ko = .lit k ∨ ko = .hex k) :
    ∃ t, NameTree.insert (f + 1) ⟨s, d, none⟩ k ko v = (.error .duplicateKey, t) ∧
      ∀ k' v', ¬ TreeEntry t.store t.root k' v' := by
  obtain ⟨m, h1, h2⟩ := flatRoot_reads h f
  have hm := lists_insert h2 (v := v) hk
  have hne : mapInsert k (ko, v) m ≠ [] := by
    intro e
    have := hm.2.2 k v (.inr ⟨rfl, rfl⟩)
    rw [e] at this
    cases this
  refine ⟨⟨s, mapErase (b! "Names") d, some (mapInsert k (ko, v) m)⟩, ?_, ?_⟩
  · unfold NameTree.insert NameTree.load
    dsimp only
    rw [h1]
    exact rebuild_limits h.1 hl hne
  · intro k' v'
    apply absent_treeEntry
    · rw [absent_iff, mapFind_erase, if_neg (by decide)]; exact absent_iff.mp h.1
    · rw [absent_iff, mapFind_erase, if_pos rfl]

/-- **C78: the entries of a page with two or more named destinations cannot be merged.**  The second insertion fails,
and neither the merged entries nor those that the tree had are left. -/
theorem C78_merge_counterexample (s : PStore) (d : Dict) (k1 k2 : Bytes) (o1 o2 v1 v2 : Obj)
    (rest : List (Bytes × Obj × Obj)) (f : Nat) (h : FlatRoot s d) (hl : Absent d (b! "Limits")) (hu : UniqueKeys s d)
    (hk1 : o1 = .lit k1 ∨ o1 = .hex k1) (hk2 : o2 = .lit k2 ∨ o2 = .hex k2) (hne : k1 ≠ k2)
    (hn1 : ¬ ∃ w, TreeEntry s d k1 w) (hn2 : ¬ ∃ w, TreeEntry s d k2 w) :
    ∃ t, NameTree.insertAll (f + 1) ⟨s, d, none⟩ ((k1, o1, v1) :: (k2, o2, v2) :: rest) = (.error .duplicateKey, t) ∧
      ∀ k' v', ¬ TreeEntry t.store t.root k' v' := by
  have hc : ∀ {d : Dict} {k : Bytes}, FlatRoot s d → (¬ ∃ w, TreeEntry s d k w) →
      NameTree.contains (f + 1) ⟨s, d, none⟩ k = .ok false := by
    intro d k h hn
    obtain ⟨m, h1, h2⟩ := flatRoot_reads h f
    unfold NameTree.contains NameTree.load
    dsimp only
    rw [h1]
    show Except.ok _ = _
    cases hx : mapFind k m with
    | some x => exact absurd ⟨x.2, (h2.2.1 k x.1 x.2 hx).1⟩ hn
    | none => rfl
  obtain ⟨d', m', i1, _, i3, i4, i5, _⟩ := insert_flat (f := f) (v := v1) h hl hu hk1
  have hn2' : ¬ ∃ w, TreeEntry s d' k2 w := by
    rintro ⟨w, hw⟩
    rcases (i5 k2 w).mp hw with hw | ⟨e, _⟩
    · exact hn2 ⟨w, hw⟩
    · exact hne e.symm
  obtain ⟨t, j1, j2⟩ := C78_limits_counterexample s d' k2 o2 v2 f i3 i4 hk2
  refine ⟨t, ?_, j2⟩
  have fr : ∀ (d : Dict) (m : Option NameMap), NameTree.fresh ⟨s, d, m⟩ = ⟨s, d, none⟩ := fun _ _ => rfl
  rw [NameTree.insertAll, fr, hc h hn1, i1]
  dsimp only
  rw [NameTree.insertAll, fr, hc i3 hn2', j1]

/-- **C78: false for trees with kids.**  If the first kid is a leaf, Insert fails for every key, and afterwards the tree
cannot be read any more. -/
theorem C78_kids_counterexample (s : PStore) (d d1 : Dict) (n g : Nat) (l : List Obj) (k : Bytes) (ko v : Obj)
    (h : KidsRoot s d (.ref n g :: l)) (hd : mapFind (b! "Kids") d = some (.arr (.ref n g :: l)))
    (h1 : s (n, g) = .dict d1) (hleaf : Absent d1 (b! "Kids")) :
    ∃ n0, ∀ f, n0 ≤ f → ∃ e t, NameTree.insert f ⟨s, d, none⟩ k ko v = (.error e, t) ∧
      ∀ f' k' b, t.fresh.contains f' k' ≠ .ok b := by
  obtain ⟨n0, hr⟩ := kidsRoot_reads h
  refine ⟨n0 + 1, fun f hf => ?_⟩
  obtain ⟨m, hm, _⟩ := hr f (by omega)
  obtain ⟨f, rfl⟩ : ∃ f', f = f' + 1 := ⟨f - 1, by omega⟩
  have hkid : treeKid s (.ref n g) = .ok (d1, .leaf) := by
    obtain ⟨d', hd', hn'⟩ := h.2.2 (.ref n g) (by simp)
    have e : d' = d1 := by
      have a := derefOne_of_refers hd'
      dsimp only [derefOne] at a
      rw [h1] at a
      cases a; rfl
    subst e
    cases hn' with
    | leaf _ l' a1 a2 a3 a4 =>
      have e1 : mapFind (b! "Kids") d' = none := absent_iff.mp a4
      have e2 := hasEntry_isSome a1
      have e3 := present_iff.mp a3
      rw [treeKid]
      dsimp only [derefOne]
      rw [h1]
      simp only [treeNodeKind, e1, e2, e3]; rfl
    | inner _ l' a1 =>
      have := hasEntry_isSome a1
      rw [absent_iff.mp hleaf] at this
      cases this
  have hrel : (releaseKids (f + 1) s d).2 (n, g) = .null := by
    unfold releaseKids
    rw [hd]
    simp only [Option.isSome_some, if_true]
    rw [treeArray_of_has ⟨by simp, .inl hd⟩]
    dsimp only
    rw [releaseNodes, hkid]
    dsimp only [releaseNode]
    apply releaseNodes_null (releaseNode_null (f + 1))
    rw [if_neg (by decide)]
    simp [releaseKid, PStore.set]
  have hkeep : ∀ x : Obj, mapFind (b! "Kids") (mapInsert (b! "Names") x (mapErase (b! "Names") d)) =
      some (.arr (.ref n g :: l)) := fun x => by
    rw [mapFind_insert_ne (by decide), mapFind_erase, if_neg (by decide), hd]
  have hkeep' : ∀ x y : Obj, mapFind (b! "Kids") (mapInsert (b! "Names") x (mapInsert (b! "Limits") y
      (mapErase (b! "Names") d))) = some (.arr (.ref n g :: l)) := fun x y => by
    rw [mapFind_insert_ne (by decide), mapFind_insert_ne (by decide), mapFind_erase, if_neg (by decide), hd]
  have hend : ∀ (s' : PStore) (d' : Dict) (m' : Option NameMap), s' (n, g) = .null →
      mapFind (b! "Kids") d' = some (.arr (.ref n g :: l)) →
      ∀ f' k' b, NameTree.contains f' (NameTree.fresh ⟨s', d', m'⟩) k' ≠ .ok b := by
    intro s' d' m' hs' hd' f' k' b hb
    unfold NameTree.contains NameTree.load NameTree.fresh at hb
    dsimp only at hb
    obtain ⟨x, hx, _⟩ := bind_ok hb
    obtain ⟨m1, hm1, _⟩ := bind_ok hx
    exact allKeys_null hs' hd' (by simp) f' m1 hm1
  unfold NameTree.insert NameTree.load
  dsimp only
  rw [hm]
  show ∃ e t, NameTree.rebuild (f + 1) ⟨s, d, some m⟩ (mapInsert k (ko, v) m) = (.error e, t) ∧ _
  generalize mapInsert k (ko, v) m = m2
  unfold NameTree.rebuild
  dsimp only
  split
  · rename_i e s' hs'
    rw [hs'] at hrel
    exact ⟨e, _, rfl, hend _ _ _ hrel hd⟩
  · rename_i u s' hs'
    rw [hs'] at hrel
    split
    · exact ⟨_, _, rfl, hend _ _ _ hrel (by rw [mapFind_erase, if_neg (by decide), hd])⟩
    · have hk2 : mapFind (b! "Kids") (mapInsert (b! "Names") (.arr (leafValues m2)) (if m2.isEmpty then
          mapErase (b! "Names") d else mapInsert (b! "Limits") (.arr (leafLimits m2)) (mapErase (b! "Names") d))) =
          some (.arr (.ref n g :: l)) := by
        split
        · exact hkeep _
        · exact hkeep' _ _
      split
      · exact ⟨_, _, rfl, hend _ _ _ hrel hk2⟩
      · rename_i m3 hm3
        exact absurd hm3 (allKeys_null hrel hk2 (by simp) _ _)

/-- **C78 (partial): order.**  When all keys are ASCII, Insert leaves the keys in the lexical order that other readers
search by.  Missing: other keys, for which this is false (below). -/
theorem C78_order_partial (s : PStore) (d : Dict) (k : Bytes) (ko v : Obj) (f : Nat) (h : FlatRoot s d)
    (hl : Absent d (b! "Limits")) (hu : UniqueKeys s d) (hk : ko = .lit k ∨ ko = .hex k)
    (ha : ∀ k' v', TreeEntry s d k' v' → ∀ x ∈ k', x < 128) (hka : ∀ x ∈ k, x < 128) :
    ∃ t l, NameTree.insert (f + 1) ⟨s, d, none⟩ k ko v = (.ok (), t) ∧
      HasEntry t.store t.root (b! "Names") (.arr l) ∧ InOrder t.store l := by
  obtain ⟨d', m', h1, _, _, _, _, _, m, hm, hn, _⟩ := insert_flat (f := f) (v := v) h hl hu hk
  refine ⟨_, _, h1, ⟨by simp, .inl hn⟩, leafValues_order hm ?_⟩
  rintro k' v' (h' | ⟨rfl, _⟩)
  · exact ha k' v' h'
  · exact hka

/-- **C78: false for other keys.**  A key that starts with a byte of 128 or more is written before all ASCII keys. -/
theorem C78_order_counterexample :
    ∃ t l, NameTree.insert 1 ⟨fun _ => .null, [(b! "Names", .arr [.lit (b! "a"), .int 1])], none⟩ [0xE4] (.lit [0xE4]) (.int 2) =
        (.ok (), t) ∧ HasEntry t.store t.root (b! "Names") (.arr l) ∧ ¬ InOrder t.store l := by
  refine ⟨_, [.lit [0xE4], .int 2, .lit (b! "a"), .int 1], rfl, ⟨by simp, .inl rfl⟩, ?_⟩
  intro h
  have := h 0 1 [0xE4] (b! "a") _ _ (by decide) rfl rfl (.inl ⟨by simp, .inl rfl⟩) (.inl ⟨by simp, .inl rfl⟩)
  simp [Lexical] at this

/-- **C78: reading does not end for kids that form a cycle.**  However many steps are allowed, the search for any key
goes on. -/
theorem C78_cycle_counterexample (s : PStore) (n g : Nat) (root : Dict) (os os' : List Obj)
    (hr : mapFind (b! "Kids") root = some (.arr (.ref n g :: os)))
    (hs : s (n, g) = .dict [(b! "Kids", .arr (.ref n g :: os')), (b! "Limits", .arr [])]) (f : Nat) (k : Bytes) :
    NameTree.contains f ⟨s, root, none⟩ k = .error .timeout := by
  have hkid : treeKid s (.ref n g) = .ok ([(b! "Kids", .arr (.ref n g :: os')), (b! "Limits", .arr [])], .intermediate) := by
    rw [treeKid]
    dsimp only [derefOne]
    rw [hs]
    rfl
  have hc := allKeys_cycle (s := s) (P := fun d => d = [(b! "Kids", .arr (.ref n g :: os')), (b! "Limits", .arr [])])
    (fun d hd => ⟨.ref n g, os', _, by subst hd; exact treeArray_of_has ⟨by simp, .inl rfl⟩, hkid, rfl⟩)
  have : allKeys s f .root root = .error .timeout := by
    cases f with
    | zero => rfl
    | succ f =>
      rw [allKeys, hr]
      simp only [Option.isSome_some, if_true]
      rw [treeArray_of_has ⟨by simp, .inl hr⟩, ok_bind, kidsMap, hkid, ok_bind]
      dsimp only
      rw [hc f _ rfl]
      rfl
  unfold NameTree.contains NameTree.load
  dsimp only
  rw [this]
  rfl

/-! ## Examples -/

/-- A tree with a leaf below an intermediate node, and a second leaf. -/
def sampleNames : PStore := fun r =>
  if r = (1, 0) then .dict [(b! "Kids", .arr [.ref 3 0]), (b! "Limits", .arr [.lit (b! "a"), .lit (b! "b")])]
  else if r = (2, 0) then .dict [(b! "Limits", .arr [.lit (b! "x"), .lit (b! "x")]), (b! "Names", .arr [.hex (b! "x"), .int 7])]
  else if r = (3, 0) then .dict [(b! "Limits", .arr [.lit (b! "a"), .lit (b! "b")]),
    (b! "Names", .arr [.lit (b! "a"), .int 5, .ref 4 0, .int 6])]
  else if r = (4, 0) then .lit (b! "b")
  else .null

/-- Its root. -/
def sampleRoot : Dict := [(b! "Kids", .arr [.ref 1 0, .ref 2 0])]

example : NameTree.find 5 ⟨sampleNames, sampleRoot, none⟩ (b! "b") = .ok (.int 6) := rfl
example : NameTree.find 5 ⟨sampleNames, sampleRoot, none⟩ (b! "x") = .ok (.int 7) := rfl
example : NameTree.find 5 ⟨sampleNames, sampleRoot, none⟩ (b! "c") = .error .throw := rfl
example : NameTree.contains 5 ⟨sampleNames, sampleRoot, none⟩ (b! "a") = .ok true := rfl

theorem sample_leaf3 : NameNode sampleNames [(b! "Limits", .arr [.lit (b! "a"), .lit (b! "b")]),
    (b! "Names", .arr [.lit (b! "a"), .int 5, .ref 4 0, .int 6])] := by
  refine .leaf _ [.lit (b! "a"), .int 5, .ref 4 0, .int 6] ⟨by simp, .inl rfl⟩ ?_ (by rw [present_iff]; rfl)
    (by rw [absent_iff]; rfl)
  intro i ko h
  match i, h with
  | 0, h => cases h; exact ⟨b! "a", .inl ⟨by simp, .inl rfl⟩⟩
  | 1, h => cases h; exact ⟨b! "b", .inl ⟨by simp, .inr ⟨4, 0, rfl, rfl⟩⟩⟩
  | n + 2, h => rw [show 2 * (n + 2) = 2 * n + 4 by omega] at h; simp at h

theorem sample_leaf2 : NameNode sampleNames [(b! "Limits", .arr [.lit (b! "x"), .lit (b! "x")]),
    (b! "Names", .arr [.hex (b! "x"), .int 7])] := by
  refine .leaf _ [.hex (b! "x"), .int 7] ⟨by simp, .inl rfl⟩ ?_ (by rw [present_iff]; rfl) (by rw [absent_iff]; rfl)
  intro i ko h
  match i, h with
  | 0, h => cases h; exact ⟨b! "x", .inr ⟨by simp, .inl rfl⟩⟩
  | n + 1, h => rw [show 2 * (n + 1) = 2 * n + 2 by omega] at h; simp at h

theorem sample_refers {o : Obj} {d d' : Dict} (h : derefOne sampleNames o = .dict d)
    (h' : Refers sampleNames o (.dict d')) : d' = d := by
  rw [derefOne_of_refers h'] at h; cases h; rfl

/-- The hypotheses of `C78_contains` and `C78_kids_counterexample` hold for the sample. -/
example : KidsRoot sampleNames sampleRoot [.ref 1 0, .ref 2 0] := by
  refine ⟨⟨by simp, .inl rfl⟩, by rw [absent_iff]; rfl, ?_⟩
  intro o ho
  rcases List.mem_cons.mp ho with rfl | ho
  · refine ⟨_, ⟨by simp, .inr ⟨1, 0, rfl, rfl⟩⟩, .inner _ [.ref 3 0] ⟨by simp, .inl rfl⟩ (by rw [present_iff]; rfl)
      (by rw [absent_iff]; rfl) ?_ ?_⟩
    · intro o ho
      rw [List.mem_singleton.mp ho]
      exact ⟨_, by simp, .inr ⟨3, 0, rfl, rfl⟩⟩
    · intro o ho d' hd'
      rw [List.mem_singleton.mp ho] at hd'
      rw [sample_refers rfl hd']
      exact sample_leaf3
  · rw [List.mem_singleton.mp ho]
    exact ⟨_, ⟨by simp, .inr ⟨2, 0, rfl, rfl⟩⟩, sample_leaf2⟩

/-- An insertion into a flat tree, and a second one. -/
example : (NameTree.insert 1 ⟨sampleNames, [], none⟩ (b! "k") (.lit (b! "k")) (.int 1)).1 = .ok () := rfl
example : (NameTree.insertAll 1 ⟨sampleNames, [], none⟩
    [(b! "k", .lit (b! "k"), .int 1), (b! "m", .lit (b! "m"), .int 2)]).1 = .error .duplicateKey := rfl
example : (NameTree.insertAll 1 ⟨sampleNames, [], none⟩
    [(b! "k", .lit (b! "k"), .int 1), (b! "m", .lit (b! "m"), .int 2)]).2.fresh.contains 1 (b! "k") = .ok false := rfl
example : (NameTree.insertAll 1 ⟨sampleNames, [(b! "Names", .arr [.lit (b! "k"), .int 1])], none⟩
    [(b! "k", .lit (b! "k"), .int 2)]).1 = .error .notSupported := rfl
example : (NameTree.insert 5 ⟨sampleNames, [(b! "Kids", .arr [.ref 2 0])], none⟩ (b! "k") (.lit (b! "k")) (.int 1)).1 =
    .error .conversion := rfl
example : FlatRoot sampleNames [] ∧ Absent [] (b! "Limits") ∧ UniqueKeys sampleNames [] ∧
    ¬ ∃ w, TreeEntry sampleNames [] (b! "k") w :=
  have hk : Absent [] (b! "Kids") := by rw [absent_iff]; rfl
  have hn : Absent [] (b! "Names") := by rw [absent_iff]; rfl
  ⟨⟨hk, .inl hn⟩, by rw [absent_iff]; rfl, fun _ _ _ h => absurd h (absent_treeEntry hk hn _ _),
    fun ⟨_, h⟩ => absent_treeEntry hk hn _ _ h⟩

/-! ## Page labels -/

theorem numberInsert_addr {a : Nat} {i : Int} {v : Obj} {m : NumberMap} {x : Nat} (hx : x ≠ a)
    (h : numberFind m x = none) : numberFind (numberInsert a i v m) x = none := by
  unfold numberInsert
  split
  · exact h
  · unfold numberFind at h ⊢
    simp only [Option.map_eq_none_iff] at h ⊢
    rw [List.find?_append, h]
    simpa using fun e => hx (Eq.symm e)

theorem numberPairs_addr {s : PStore} {addr : Nat → Nat} {x : Nat} (hx : ∀ i, x ≠ addr i) :
    ∀ (l : List Obj) (i : Nat) (m m' : NumberMap), numberFind m x = none → numberPairs s addr i l m = .ok m' →
      numberFind m' x = none
  | [], i, m, m', h, hm => by cases hm; exact h
  | [_], i, m, m', h, hm => by cases hm; exact h
  | k :: v :: rest, i, m, m', h, hm => by
    rw [numberPairs] at hm
    split at hm
    · exact numberPairs_addr hx rest _ _ _ (numberInsert_addr (hx i) h) hm
    · cases hm

theorem numberMerge_addr {x : Nat} : ∀ (sub m : NumberMap), numberFind m x = none → numberFind sub x = none →
    numberFind (sub.foldl (fun m e => numberInsert e.1 e.2.1 e.2.2 m) m) x = none
  | [], _, h, _ => h
  | e :: sub, m, h, hs => by
    rw [List.foldl_cons]
    unfold numberFind at hs
    simp only [Option.map_eq_none_iff, List.find?_cons] at hs
    split at hs
    · cases hs
    · rename_i hne
      refine numberMerge_addr sub _ (numberInsert_addr ?_ h) ?_
      · intro e'; rw [e'] at hne; simp at hne
      · unfold numberFind; rw [hs]; rfl

theorem numberKids_addr {s : PStore} {self : TreeNode → Dict → Res NumberMap} {x : Nat}
    (hs : ∀ kind d m, self kind d = .ok m → numberFind m x = none) :
    ∀ (l : List Obj) (m m' : NumberMap), numberFind m x = none → numberKids s self l m = .ok m' →
      numberFind m' x = none
  | [], m, m', h, hm => by cases hm; exact h
  | o :: os, m, m', h, hm => by
    rw [numberKids] at hm
    obtain ⟨⟨d, kind⟩, _, hm⟩ := bind_ok hm
    obtain ⟨sub, h2, hm⟩ := bind_ok hm
    exact numberKids_addr hs os _ m' (numberMerge_addr sub m h (hs kind d sub h2)) hm

theorem numberKeys_addr {s : PStore} {addr : Dict → Nat → Nat} {x : Nat} (hx : ∀ d i, x ≠ addr d i) :
    ∀ (f : Nat) (kind : TreeNode) (d : Dict) (m : NumberMap), numberKeys s addr f kind d = .ok m → numberFind m x = none
  | 0, _, _, _, h => by cases h
  | f + 1, .root, d, m, h => by
    rw [numberKeys] at h
    have last : ∀ m1, numberFind m1 x = none → (if (mapFind (b! "Nums") d).isSome = true then do
        let l ← treeArray s d (b! "Nums")
        numberPairs s (addr d) 0 l m1
      else pure m1) = .ok m → numberFind m x = none := by
      intro m1 hm1 h
      split at h
      · obtain ⟨l, _, h⟩ := bind_ok h
        exact numberPairs_addr (hx d) l _ _ _ hm1 h
      · cases h; exact hm1
    split at h
    · obtain ⟨l, _, h⟩ := bind_ok h
      obtain ⟨m1, h1, h⟩ := bind_ok h
      exact last m1 (numberKids_addr (numberKeys_addr hx f) l _ _ rfl h1) h
    · exact last [] rfl h
  | f + 1, .intermediate, d, m, h => by
    rw [numberKeys] at h
    obtain ⟨l, _, h⟩ := bind_ok h
    exact numberKids_addr (numberKeys_addr hx f) l _ _ rfl h
  | f + 1, .leaf, d, m, h => by
    rw [numberKeys] at h
    obtain ⟨l, _, h⟩ := bind_ok h
    exact numberPairs_addr (hx d) l _ _ _ rfl h

/-- **C79: false.**  Whatever the page labels of a document are, Contains never says that there is a label for a page,
and Find never finds one: the integer that the library makes for the page number has an address that no key of the tree
has. -/
theorem C79_labels_counterexample (s : PStore) (addr : Dict → Nat → Nat) (f : Nat) (d : Dict) (a : Nat) (page : Int)
    (hnew : ∀ d i, a ≠ addr d i) :
    pageLabelsContains s addr f d (a, page) ≠ .ok true ∧ ∀ v, pageLabelsFind s addr f d (a, page) ≠ .ok v := by
  constructor
  · intro h
    unfold pageLabelsContains at h
    obtain ⟨m, hm, h⟩ := bind_ok h
    rw [numberKeys_addr hnew f _ d m hm] at h
    cases h
  · intro v h
    unfold pageLabelsFind at h
    obtain ⟨m, hm, h⟩ := bind_ok h
    rw [numberKeys_addr hnew f _ d m hm] at h
    cases h

theorem numberNode_fails {s : PStore} {addr : Dict → Nat → Nat} {d : Dict} (h : NumberNode s d) :
    ∀ f kind, treeNodeKind d = .ok kind → ∀ m, numberKeys s addr f kind d ≠ .ok m := by
  induction h with
  | leaf d l _ hk hn =>
    intro f kind h
    simp only [treeNodeKind, absent_iff.mp hk, absent_iff.mp hn] at h
    simp at h
  | inner d l o d' hl ho hd hn ih =>
    have hkids : ∀ f m m', numberKids s (numberKeys s addr f) l m ≠ .ok m' := by
      intro f
      clear hl
      induction l with
      | nil => cases ho
      | cons o' os ihl =>
        intro m m' hm
        rw [numberKids] at hm
        obtain ⟨⟨d2, kind⟩, h1, hm⟩ := bind_ok hm
        obtain ⟨sub, h2, hm⟩ := bind_ok hm
        rcases List.mem_cons.mp ho with e | ho
        · subst e
          rw [treeKid, derefOne_of_refers hd] at h1
          dsimp only at h1
          obtain ⟨kind', h3, h1⟩ := bind_ok h1
          cases h1
          exact ih f _ h3 sub h2
        · exact ihl ho _ _ hm
    intro f kind hkind m hm
    have e2 := hasEntry_isSome hl
    cases f with
    | zero => cases hm
    | succ f =>
      cases kind with
      | root =>
        rw [numberKeys, e2] at hm
        simp only [if_true] at hm
        rw [treeArray_of_has hl, ok_bind] at hm
        obtain ⟨m1, h1, _⟩ := bind_ok hm
        exact hkids f _ _ h1
      | intermediate =>
        rw [numberKeys, treeArray_of_has hl, ok_bind] at hm
        exact hkids f _ _ hm
      | leaf =>
        unfold treeNodeKind at hkind
        simp only [e2] at hkind
        split at hkind
        · cases hkind
        · split at hkind
          · cases hkind
          · simp at hkind

/-- **C79: false.**  Page labels in a number tree with kids cannot be read at all. -/
theorem C79_kids_counterexample (s : PStore) (addr : Dict → Nat → Nat) (f : Nat) (d d' : Dict) (l : List Obj) (o : Obj)
    (hl : HasEntry s d (b! "Kids") (.arr l)) (ho : o ∈ l) (hd : Refers s o (.dict d')) (hn : NumberNode s d')
    (key : NewInteger) (b : Bool) : pageLabelsContains s addr f d key ≠ .ok b := by
  intro h
  unfold pageLabelsContains at h
  obtain ⟨m, hm, h⟩ := bind_ok h
  have e2 := hasEntry_isSome hl
  cases f with
  | zero => cases hm
  | succ f =>
    rw [numberKeys, e2] at hm
    simp only [if_true] at hm
    rw [treeArray_of_has hl, ok_bind] at hm
    obtain ⟨m1, h1, _⟩ := bind_ok hm
    clear hm hl
    have hkids : ∀ (l : List Obj), o ∈ l → ∀ m m', numberKids s (numberKeys s addr f) l m ≠ .ok m' := by
      intro l
      induction l with
      | nil => intro ho; cases ho
      | cons o' os ihl =>
        intro ho m m' hm
        rw [numberKids] at hm
        obtain ⟨⟨d2, kind⟩, h1, hm⟩ := bind_ok hm
        obtain ⟨sub, h2, hm⟩ := bind_ok hm
        rcases List.mem_cons.mp ho with e | ho
        · subst e
          rw [treeKid, derefOne_of_refers hd] at h1
          dsimp only at h1
          obtain ⟨kind', h3, h1⟩ := bind_ok h1
          cases h1
          exact numberNode_fails hn f _ h3 sub h2
        · exact ihl ho _ _ hm
    exact hkids l ho _ _ h1

/-- The label of page 0 in the usual form is not found. -/
example : pageLabelsContains (fun _ => .null) (fun _ i => i) 1
    [(b! "Nums", .arr [.int 0, .dict [(b! "S", .name (b! "D"))]])] (100, 0) = .ok false := rfl
example : (mapFind (b! "Nums") [(b! "Nums", Obj.arr [.int 0, .dict [(b! "S", .name (b! "D"))]])]).isSome = true := rfl

end VPdf
