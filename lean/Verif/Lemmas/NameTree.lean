import Verif.Model.NameTree
import Verif.Spec.NameTree
import Verif.Lemmas.PageEdit
import Verif.Lemmas.HeapSteps
import Verif.Lemmas.ParseTerm
/-
  Lemmas about name trees.
-/
namespace VPdf
open Spec

theorem derefOne_of_refers {s : PStore} {o v : Obj} (h : Refers s o v) : derefOne s o = v := by
  obtain ⟨hn, h | ⟨n, g, h, h'⟩⟩ := h
  · subst h
    cases o <;> first | rfl | exact absurd rfl (hn _ _)
  · subst h; exact h'

theorem refers_of_derefOne {s : PStore} {o v : Obj} (h : derefOne s o = v) (hn : ∀ n g, v ≠ .ref n g) : Refers s o v := by
  refine ⟨hn, ?_⟩
  cases o <;> first | exact .inl h | exact .inr ⟨_, _, rfl, h⟩

theorem absent_iff {d : Dict} {k : Bytes} : Absent d k ↔ mapFind k d = none := by
  induction d with
  | nil => simp [Absent, mapFind]
  | cons e d ih =>
    obtain ⟨k', v⟩ := e
    rw [mapFind]
    constructor
    · intro h
      have hne : k ≠ k' := fun e => h v (by simp [e])
      rw [if_neg (by simpa using hne)]
      exact ih.mp (fun w hw => h w (List.mem_cons_of_mem _ hw))
    · intro h
      split at h
      · cases h
      · rename_i hne
        intro w hw
        rcases List.mem_cons.mp hw with e | hw
        · simp at e hne; exact hne e.1
        · exact ih.mpr h w hw

theorem present_iff {d : Dict} {k : Bytes} : ¬ Absent d k ↔ (mapFind k d).isSome = true := by
  rw [absent_iff]; cases mapFind k d <;> simp

theorem hasEntry_isSome {s : PStore} {d : Dict} {k : Bytes} {v : Obj} (h : HasEntry s d k v) :
    (mapFind k d).isSome = true := by
  obtain ⟨_, h | ⟨n, g, h, _⟩⟩ := h <;> rw [h] <;> rfl

theorem treeEntry_of_has {s : PStore} {d : Dict} {k : Bytes} {v : Obj} (h : HasEntry s d k v) :
    treeEntry s d k = .ok v := by
  obtain ⟨hn, h | ⟨n, g, h, h'⟩⟩ := h
  · rw [treeEntry, h]
    cases v <;> first | rfl | exact absurd rfl (hn _ _)
  · rw [treeEntry, h]; dsimp only; rw [h']

theorem treeArray_of_has {s : PStore} {d : Dict} {k : Bytes} {l : List Obj} (h : HasEntry s d k (.arr l)) :
    treeArray s d k = .ok l := by
  rw [treeArray, treeEntry_of_has h]; rfl

theorem hasEntry_inj {s : PStore} {d : Dict} {k : Bytes} {l l' : List Obj} (h : HasEntry s d k (.arr l))
    (h' : HasEntry s d k (.arr l')) : l = l' := by
  have a := treeArray_of_has h
  rw [treeArray_of_has h'] at a
  cases a; rfl

theorem isString_key {s : PStore} {o : Obj} {k : Bytes} (h : IsString s o k) :
    nameKey (derefOne s o) = .ok k ∧ (derefOne s o = .lit k ∨ derefOne s o = .hex k) := by
  rcases h with h | h <;> rw [derefOne_of_refers h]
  · exact ⟨rfl, .inl rfl⟩
  · exact ⟨rfl, .inr rfl⟩

theorem isString_inj {s : PStore} {o : Obj} {k k' : Bytes} (h : IsString s o k) (h' : IsString s o k') : k = k' := by
  have a := (isString_key h).1
  rw [(isString_key h').1] at a
  cases a; rfl

theorem pairOf_cons {s : PStore} {a b : Obj} {rest : List Obj} {k : Bytes} {v : Obj} :
    PairOf s (a :: b :: rest) k v ↔ (IsString s a k ∧ v = b) ∨ PairOf s rest k v := by
  constructor
  · rintro ⟨i, ko, h1, h2, h3⟩
    cases i with
    | zero =>
      simp at h1 h2
      subst h1; subst h2
      exact .inl ⟨h3, rfl⟩
    | succ i =>
      refine .inr ⟨i, ko, ?_, ?_, h3⟩
      · rw [show 2 * (i + 1) = 2 * i + 1 + 1 by omega] at h1; simpa using h1
      · rw [show 2 * (i + 1) + 1 = 2 * i + 1 + 1 + 1 by omega] at h2; simpa using h2
  · rintro (⟨h, rfl⟩ | ⟨i, ko, h1, h2, h3⟩)
    · exact ⟨0, a, rfl, rfl, h⟩
    · refine ⟨i + 1, ko, ?_, ?_, h3⟩
      · rw [show 2 * (i + 1) = 2 * i + 1 + 1 by omega]; simpa using h1
      · rw [show 2 * (i + 1) + 1 = 2 * i + 1 + 1 + 1 by omega]; simpa using h2

theorem keys_cons {s : PStore} {a b : Obj} {rest : List Obj} (h : KeysAreStrings s (a :: b :: rest)) :
    (∃ k, IsString s a k) ∧ KeysAreStrings s rest := by
  refine ⟨h 0 a rfl, fun i ko hi => h (i + 1) ko ?_⟩
  rw [show 2 * (i + 1) = 2 * i + 1 + 1 by omega]; simpa using hi

/-- The map `m` lists the entries `E`, and for keys with several values one of the values. -/
def Lists (E : Bytes → Obj → Prop) (m : NameMap) : Prop :=
  SortedKeys m ∧ (∀ k ko v, mapFind k m = some (ko, v) → E k v ∧ (ko = .lit k ∨ ko = .hex k)) ∧
    ∀ k v, E k v → (mapFind k m).isSome = true

theorem lists_nil : Lists (fun _ _ => False) [] :=
  ⟨List.Pairwise.nil, fun _ _ _ h => by simp [mapFind] at h, fun _ _ h => h.elim⟩

theorem lists_congr {E E' : Bytes → Obj → Prop} {m : NameMap} (h : Lists E m) (he : ∀ k v, E k v ↔ E' k v) :
    Lists E' m :=
  ⟨h.1, fun k ko v hk => ⟨(he k v).mp (h.2.1 k ko v hk).1, (h.2.1 k ko v hk).2⟩,
    fun k v hk => h.2.2 k v ((he k v).mpr hk)⟩

theorem lists_insert {E : Bytes → Obj → Prop} {m : NameMap} (h : Lists E m) {k : Bytes} {ko v : Obj}
    (hk : ko = .lit k ∨ ko = .hex k) :
    Lists (fun k' v' => E k' v' ∨ (k' = k ∧ v' = v)) (mapInsert k (ko, v) m) := by
  refine ⟨mapInsert_sorted h.1, ?_, ?_⟩
  · intro q qo w hq
    rw [mapFind_insert h.1] at hq
    split at hq
    · rename_i hqk
      subst hqk
      cases hm : mapFind q m with
      | some x =>
        rw [hm] at hq
        cases hq
        exact ⟨.inl (h.2.1 _ _ _ hm).1, (h.2.1 _ _ _ hm).2⟩
      | none =>
        rw [hm] at hq
        cases hq
        exact ⟨.inr ⟨rfl, rfl⟩, hk⟩
    · exact ⟨.inl (h.2.1 _ _ _ hq).1, (h.2.1 _ _ _ hq).2⟩
  · intro q w hq
    rw [mapFind_insert h.1]
    split
    · cases mapFind k m <;> rfl
    · rename_i hne
      rcases hq with hq | hq
      · exact h.2.2 _ _ hq
      · exact absurd hq.1 hne

theorem insertPairs_lists {s : PStore} : ∀ (l : List Obj) {E : Bytes → Obj → Prop} {m : NameMap}, Lists E m →
    KeysAreStrings s l → ∃ m', insertPairs s l m = .ok m' ∧ Lists (fun k v => E k v ∨ PairOf s l k v) m'
  | [], E, m, hm, _ => ⟨m, rfl, lists_congr hm fun k v => by
      constructor
      · exact .inl
      · rintro (h | ⟨i, ko, h, _⟩)
        · exact h
        · simp at h⟩
  | [a], E, m, hm, _ => ⟨m, rfl, lists_congr hm fun k v => by
      constructor
      · exact .inl
      · rintro (h | ⟨i, ko, _, h, _⟩)
        · exact h
        · simp at h⟩
  | a :: b :: rest, E, m, hm, hl => by
    obtain ⟨⟨k, hk⟩, hrest⟩ := keys_cons hl
    obtain ⟨hk1, hk2⟩ := isString_key hk
    obtain ⟨m', h1, h2⟩ := insertPairs_lists rest (lists_insert hm (v := b) hk2) hrest
    refine ⟨m', ?_, lists_congr h2 fun q w => ?_⟩
    · rw [insertPairs, hk1]; exact h1
    · rw [pairOf_cons]
      constructor
      · rintro ((h | ⟨rfl, rfl⟩) | h)
        · exact .inl h
        · exact .inr (.inl ⟨hk, rfl⟩)
        · exact .inr (.inr h)
      · rintro (h | ⟨h, rfl⟩ | h)
        · exact .inl (.inl h)
        · exact .inl (.inr ⟨isString_inj h hk, rfl⟩)
        · exact .inr h

theorem mapFind_of_mem {m : NameMap} (h : SortedKeys m) {k : Bytes} {x : Obj × Obj} (hm : (k, x) ∈ m) :
    mapFind k m = some x := by
  induction m with
  | nil => cases hm
  | cons e m ih =>
    obtain ⟨k', x'⟩ := e
    rw [SortedKeys, List.pairwise_cons] at h
    rw [mapFind]
    rcases List.mem_cons.mp hm with e | hm'
    · cases e; simp
    · rw [if_neg (by have := bytesLt_ne (h.1 _ hm'); simpa using fun e => this e.symm)]
      exact ih h.2 hm'

theorem mergeMaps_lists : ∀ (sub : NameMap) {E E' : Bytes → Obj → Prop} {m : NameMap}, Lists E m → Lists E' sub →
    Lists (fun k v => E k v ∨ ∃ ko, (k, ko, v) ∈ sub) (mergeMaps m sub)
  | [], E, E', m, hm, _ => lists_congr hm fun k v => by simp
  | (k, ko, v) :: sub, E, E', m, hm, hs => by
    rw [mergeMaps]
    have hk := (hs.2.1 k ko v (by simp [mapFind])).2
    have hs' : Lists (fun k v => ∃ ko, (k, ko, v) ∈ sub) sub := by
      have hp := (List.pairwise_cons.mp hs.1)
      refine ⟨hp.2, ?_, ?_⟩
      · intro q qo w hq
        have hmem := mapFind_entry hq
        exact ⟨⟨qo, hmem⟩, (hs.2.1 q qo w (mapFind_of_mem hs.1 (List.mem_cons_of_mem _ hmem))).2⟩
      · rintro q w ⟨qo, hq⟩
        rw [mapFind_of_mem hp.2 hq]; rfl
    refine lists_congr (mergeMaps_lists sub (lists_insert hm hk) hs') fun q w => ?_
    constructor
    · rintro ((h | ⟨rfl, rfl⟩) | ⟨qo, h⟩)
      · exact .inl h
      · exact .inr ⟨ko, by simp⟩
      · exact .inr ⟨qo, List.mem_cons_of_mem _ h⟩
    · rintro (h | ⟨qo, h⟩)
      · exact .inl (.inl h)
      · rcases List.mem_cons.mp h with e | h
        · cases e; exact .inl (.inr ⟨rfl, rfl⟩)
        · exact .inr ⟨qo, h⟩

/-- Merging two maps lists all the entries. -/
theorem merge_lists {sub : NameMap} {E E' : Bytes → Obj → Prop} {m : NameMap} (hm : Lists E m) (hs : Lists E' sub) :
    Lists (fun k v => E k v ∨ E' k v) (mergeMaps m sub) := by
  have h := mergeMaps_lists sub hm hs
  refine ⟨h.1, ?_, ?_⟩
  · intro k ko v hk
    obtain ⟨h1 | ⟨qo, h1⟩, h2⟩ := h.2.1 k ko v hk
    · exact ⟨.inl h1, h2⟩
    · exact ⟨.inr (hs.2.1 k qo v (mapFind_of_mem hs.1 h1)).1, h2⟩
  · rintro k v (h1 | h1)
    · exact h.2.2 k v (.inl h1)
    · have := hs.2.2 k v h1
      obtain ⟨⟨qo, w⟩, hq⟩ := Option.isSome_iff_exists.mp this
      exact h.2.2 k w (.inr ⟨qo, mapFind_entry hq⟩)

/-- The entries below a list of kids. -/
def KidsEntry (s : PStore) (l : List Obj) (k : Bytes) (v : Obj) : Prop :=
  ∃ o ∈ l, ∃ d', Refers s o (.dict d') ∧ TreeEntry s d' k v

/-- The node is read as its entries for all large numbers of steps. -/
def Reads (s : PStore) (d : Dict) : Prop :=
  ∃ kind, treeNodeKind d = .ok kind ∧ ∃ n, ∀ f, n ≤ f → ∃ m, allKeys s f kind d = .ok m ∧ Lists (TreeEntry s d) m

theorem kidsMap_lists {s : PStore} : ∀ (l : List Obj), (∀ o ∈ l, ∃ d', Refers s o (.dict d') ∧ Reads s d') →
    ∃ n, ∀ f, n ≤ f → ∀ {E : Bytes → Obj → Prop} {m : NameMap}, Lists E m →
      ∃ m', kidsMap s (allKeys s f) l m = .ok m' ∧ Lists (fun k v => E k v ∨ KidsEntry s l k v) m'
  | [], _ => ⟨0, fun f _ E m hm => ⟨m, rfl, lists_congr hm fun k v => by simp [KidsEntry]⟩⟩
  | o :: os, h => by
    obtain ⟨d', hd, kind, hk, n1, h1⟩ := h o (by simp)
    obtain ⟨n2, h2⟩ := kidsMap_lists os (fun o' ho' => h o' (List.mem_cons_of_mem _ ho'))
    refine ⟨max n1 n2, fun f hf E m hm => ?_⟩
    obtain ⟨sub, hs1, hs2⟩ := h1 f (by omega)
    obtain ⟨m', hm1, hm2⟩ := h2 f (by omega) (merge_lists hm hs2)
    refine ⟨m', ?_, lists_congr hm2 fun k v => ?_⟩
    · have hkid : treeKid s o = .ok (d', kind) := by
        rw [treeKid, derefOne_of_refers hd]; dsimp only; rw [hk]; rfl
      rw [kidsMap, hkid, ok_bind]
      dsimp only
      rw [hs1, ok_bind]
      exact hm1
    · constructor
      · rintro ((h | h) | ⟨o', ho', h⟩)
        · exact .inl h
        · exact .inr ⟨o, by simp, d', hd, h⟩
        · exact .inr ⟨o', List.mem_cons_of_mem _ ho', h⟩
      · rintro (h | ⟨o', ho', d'', hd'', hx⟩)
        · exact .inl (.inl h)
        · rcases List.mem_cons.mp ho' with e | ho'
          · subst e
            have : d'' = d' := by
              have a := derefOne_of_refers hd
              rw [derefOne_of_refers hd''] at a
              cases a; rfl
            subst this
            exact .inl (.inr hx)
          · exact .inr ⟨o', ho', d'', hd'', hx⟩

theorem treeEntry_leaf {s : PStore} {d : Dict} {l : List Obj} (hn : HasEntry s d (b! "Names") (.arr l))
    (hk : Absent d (b! "Kids")) (k : Bytes) (v : Obj) : TreeEntry s d k v ↔ PairOf s l k v := by
  constructor
  · intro h
    cases h with
    | here _ l' _ _ h1 h2 => rw [hasEntry_inj hn h1]; exact h2
    | kid _ l' o d' _ _ h1 =>
      have := hasEntry_isSome h1
      rw [absent_iff.mp hk] at this; cases this
  · exact .here d l k v hn

theorem treeEntry_kids {s : PStore} {d : Dict} {l : List Obj} (hk : HasEntry s d (b! "Kids") (.arr l))
    (hn : Absent d (b! "Names")) (k : Bytes) (v : Obj) : TreeEntry s d k v ↔ KidsEntry s l k v := by
  constructor
  · intro h
    cases h with
    | here _ l' _ _ h1 =>
      have := hasEntry_isSome h1
      rw [absent_iff.mp hn] at this; cases this
    | kid _ l' o d' _ _ h1 h2 h3 h4 => rw [hasEntry_inj hk h1]; exact ⟨o, h2, d', h3, h4⟩
  · rintro ⟨o, ho, d', h1, h2⟩
    exact .kid d l o d' k v hk ho h1 h2

theorem nameNode_reads {s : PStore} {d : Dict} (h : NameNode s d) : Reads s d := by
  induction h with
  | leaf d l hn hs hl hk =>
    have e1 : mapFind (b! "Kids") d = none := absent_iff.mp hk
    have e2 := hasEntry_isSome hn
    have e3 := present_iff.mp hl
    refine ⟨.leaf, ?_, 1, fun f hf => ?_⟩
    · simp only [treeNodeKind, e1, e2, e3]; rfl
    · obtain ⟨f, rfl⟩ : ∃ f', f = f' + 1 := ⟨f - 1, by omega⟩
      obtain ⟨m, h1, h2⟩ := insertPairs_lists l lists_nil hs
      refine ⟨m, ?_, lists_congr h2 fun k v => ?_⟩
      · rw [allKeys, treeArray_of_has hn, ok_bind]; exact h1
      · rw [treeEntry_leaf hn hk]; simp
  | inner d l hk hl hn hd _ ih =>
    have e1 : mapFind (b! "Names") d = none := absent_iff.mp hn
    have e2 := hasEntry_isSome hk
    have e3 := present_iff.mp hl
    obtain ⟨n, hr⟩ := kidsMap_lists l (fun o ho => by
      obtain ⟨d', hd'⟩ := hd o ho
      exact ⟨d', hd', ih o ho d' hd'⟩)
    refine ⟨.intermediate, ?_, n + 1, fun f hf => ?_⟩
    · simp only [treeNodeKind, e1, e2, e3]; rfl
    · obtain ⟨f, rfl⟩ : ∃ f', f = f' + 1 := ⟨f - 1, by omega⟩
      obtain ⟨m, h1, h2⟩ := hr f (by omega) lists_nil
      refine ⟨m, ?_, lists_congr h2 fun k v => ?_⟩
      · rw [allKeys, treeArray_of_has hk, ok_bind]; exact h1
      · rw [treeEntry_kids hk hn]; simp

/-- A root without kids is read in one step. -/
theorem flatRoot_reads {s : PStore} {d : Dict} (h : FlatRoot s d) (f : Nat) :
    ∃ m, allKeys s (f + 1) .root d = .ok m ∧ Lists (TreeEntry s d) m := by
  obtain ⟨hk, hn | ⟨l, hn, hs⟩⟩ := h
  · have e1 : mapFind (b! "Kids") d = none := absent_iff.mp hk
    have e2 : mapFind (b! "Names") d = none := absent_iff.mp hn
    refine ⟨[], ?_, lists_congr lists_nil fun k v => ?_⟩
    · rw [allKeys, e1, e2]; rfl
    · simp only [false_iff]
      intro h
      cases h with
      | here _ l' _ _ h1 => have := hasEntry_isSome h1; rw [e2] at this; cases this
      | kid _ l' o d' _ _ h1 => have := hasEntry_isSome h1; rw [e1] at this; cases this
  · have e1 : mapFind (b! "Kids") d = none := absent_iff.mp hk
    have e2 := hasEntry_isSome hn
    obtain ⟨m, h1, h2⟩ := insertPairs_lists l lists_nil hs
    refine ⟨m, ?_, lists_congr h2 fun k v => ?_⟩
    · rw [allKeys, e1, e2]
      simp only [Option.isSome_none, Bool.false_eq_true, if_false, if_true]
      rw [treeArray_of_has hn]; exact h1
    · rw [treeEntry_leaf hn hk]; simp

theorem kidsRoot_reads {s : PStore} {d : Dict} {l : List Obj} (h : KidsRoot s d l) :
    ∃ n, ∀ f, n ≤ f → ∃ m, allKeys s f .root d = .ok m ∧ Lists (TreeEntry s d) m := by
  obtain ⟨hk, hn, hd⟩ := h
  have e1 : mapFind (b! "Names") d = none := absent_iff.mp hn
  have e2 := hasEntry_isSome hk
  obtain ⟨n, hr⟩ := kidsMap_lists l (fun o ho => by
    obtain ⟨d', hd', hn'⟩ := hd o ho
    exact ⟨d', hd', nameNode_reads hn'⟩)
  refine ⟨n + 1, fun f hf => ?_⟩
  obtain ⟨f, rfl⟩ : ∃ f', f = f' + 1 := ⟨f - 1, by omega⟩
  obtain ⟨m, h1, h2⟩ := hr f (by omega) lists_nil
  refine ⟨m, ?_, lists_congr h2 fun k v => ?_⟩
  · rw [allKeys, e1, e2]
    simp only [Option.isSome_none, Bool.false_eq_true, if_false, if_true]
    rw [treeArray_of_has hk, ok_bind, h1]; rfl
  · rw [treeEntry_kids hk hn]; simp

theorem nameRoot_reads {s : PStore} {d : Dict} (h : NameRoot s d) :
    ∃ n, ∀ f, n ≤ f → ∃ m, allKeys s f .root d = .ok m ∧ Lists (TreeEntry s d) m := by
  rcases h with h | ⟨l, h⟩
  · refine ⟨1, fun f hf => ?_⟩
    obtain ⟨f, rfl⟩ : ∃ f', f = f' + 1 := ⟨f - 1, by omega⟩
    exact flatRoot_reads h f
  · exact kidsRoot_reads h

/-! Writing -/

theorem leafValues_pairs {s : PStore} : ∀ {m : NameMap}, (∀ k ko v, (k, ko, v) ∈ m → ko = .lit k ∨ ko = .hex k) →
    ∀ k v, PairOf s (leafValues m) k v ↔ ∃ ko, (k, ko, v) ∈ m
  | [], _, k, v => by
    constructor
    · rintro ⟨i, ko, h, _⟩; simp [leafValues] at h
    · rintro ⟨_, h⟩; cases h
  | (q, qo, w) :: m, h, k, v => by
    have hq : IsString s qo q := by
      rcases h q qo w (by simp) with rfl | rfl
      · exact .inl ⟨by simp, .inl rfl⟩
      · exact .inr ⟨by simp, .inl rfl⟩
    rw [leafValues, pairOf_cons, leafValues_pairs fun k ko v hm => h k ko v (List.mem_cons_of_mem _ hm)]
    constructor
    · rintro (⟨h1, rfl⟩ | ⟨ko, h1⟩)
      · rw [isString_inj h1 hq]; exact ⟨qo, by simp⟩
      · exact ⟨ko, List.mem_cons_of_mem _ h1⟩
    · rintro ⟨ko, h1⟩
      rcases List.mem_cons.mp h1 with e | h1
      · cases e; exact .inl ⟨hq, rfl⟩
      · exact .inr ⟨ko, h1⟩

theorem leafValues_keys {s : PStore} : ∀ {m : NameMap}, (∀ k ko v, (k, ko, v) ∈ m → ko = .lit k ∨ ko = .hex k) →
    KeysAreStrings s (leafValues m)
  | [], _ => fun i ko h => by simp [leafValues] at h
  | (q, qo, w) :: m, h => by
    intro i ko hi
    cases i with
    | zero =>
      simp [leafValues] at hi
      subst hi
      rcases h q qo w (by simp) with rfl | rfl
      · exact ⟨q, .inl ⟨by simp, .inl rfl⟩⟩
      · exact ⟨q, .inr ⟨by simp, .inl rfl⟩⟩
    | succ i =>
      rw [show 2 * (i + 1) = 2 * i + 1 + 1 by omega, leafValues] at hi
      exact leafValues_keys (fun k ko v hm => h k ko v (List.mem_cons_of_mem _ hm)) i ko (by simpa using hi)

theorem lists_members {E : Bytes → Obj → Prop} {m : NameMap} (h : Lists E m) :
    ∀ k ko v, (k, ko, v) ∈ m → ko = .lit k ∨ ko = .hex k :=
  fun k ko v hm => (h.2.1 k ko v (mapFind_of_mem h.1 hm)).2

/-- With unique keys the members of the map are the entries. -/
theorem lists_unique {E : Bytes → Obj → Prop} {m : NameMap} (h : Lists E m) (hu : ∀ k v w, E k v → E k w → v = w)
    (k : Bytes) (v : Obj) : E k v ↔ ∃ ko, (k, ko, v) ∈ m := by
  constructor
  · intro hk
    obtain ⟨⟨ko, w⟩, hw⟩ := Option.isSome_iff_exists.mp (h.2.2 k v hk)
    have hv := hu k v w hk (h.2.1 _ _ _ hw).1
    subst hv
    exact ⟨ko, mapFind_entry hw⟩
  · rintro ⟨ko, hm⟩
    exact (h.2.1 _ _ _ (mapFind_of_mem h.1 hm)).1

theorem mapFind_erase {α : Type} (k q : Bytes) (l : List (Bytes × α)) :
    mapFind q (mapErase k l) = if q = k then none else mapFind q l := by
  induction l with
  | nil => simp [mapErase, mapFind]
  | cons e l ih =>
    obtain ⟨k', v⟩ := e
    unfold mapErase at ih ⊢
    rw [List.filter_cons]
    by_cases hk : k' = k
    · subst hk
      simp only [bne_self_eq_false, Bool.false_eq_true, if_false]
      rw [ih]
      split
      · rfl
      · rename_i hne
        rw [mapFind, if_neg (by simpa using hne)]
    · rw [if_pos (by simpa using hk), mapFind, mapFind, ih]
      by_cases hq : q = k'
      · subst hq
        simp [hk]
      · simp [hq]

/-- What the root looks like after a successful `Rebuild` of a flat tree. -/
theorem rebuild_flat {f : Nat} {s : PStore} {d : Dict} {m0 : Option NameMap} {E : Bytes → Obj → Prop} {m : NameMap} (hk : Absent d (b! "Kids"))
    (hl : Absent d (b! "Limits")) (hm : Lists E m) (hne : m ≠ []) :
    ∃ d' m', NameTree.rebuild (f + 1) ⟨s, d, m0⟩ m = (.ok (), ⟨s, d', some m'⟩) ∧
      allKeys s (f + 1) .root d' = .ok m' ∧ Absent d' (b! "Kids") ∧
      mapFind (b! "Names") d' = some (.arr (leafValues m)) ∧ mapFind (b! "Limits") d' = some (.arr (leafLimits m)) ∧
      ∀ q, q ≠ b! "Names" → q ≠ b! "Limits" → mapFind q d' = mapFind q d := by
  have e1 : mapFind (b! "Kids") d = none := absent_iff.mp hk
  have e2 : mapFind (b! "Limits") d = none := absent_iff.mp hl
  have he : m.isEmpty = false := by cases m with
    | nil => exact absurd rfl hne
    | cons => rfl
  generalize hr1 : mapErase (b! "Names") d = r1
  have h1 : ∀ q, mapFind q r1 = if q = b! "Names" then none else mapFind q d := fun q => by
    rw [← hr1]; exact mapFind_erase _ _ _
  generalize hr2 : mapInsert (b! "Limits") (.arr (leafLimits m)) r1 = r2
  have h2l : mapFind (b! "Limits") r2 = some (.arr (leafLimits m)) := by
    rw [← hr2]; apply mapFind_insert_new; rw [h1, if_neg (by decide)]; exact e2
  have h2 : ∀ q, q ≠ b! "Limits" → mapFind q r2 = mapFind q r1 := fun q hq => by
    rw [← hr2]; exact mapFind_insert_ne hq
  generalize hr3 : mapInsert (b! "Names") (.arr (leafValues m)) r2 = r3
  have h3n : mapFind (b! "Names") r3 = some (.arr (leafValues m)) := by
    rw [← hr3]; apply mapFind_insert_new; rw [h2 _ (by decide), h1, if_pos rfl]
  have h3 : ∀ q, q ≠ b! "Names" → mapFind q r3 = mapFind q r2 := fun q hq => by
    rw [← hr3]; exact mapFind_insert_ne hq
  have h3k : Absent r3 (b! "Kids") := by
    rw [absent_iff, h3 _ (by decide), h2 _ (by decide), h1, if_neg (by decide)]; exact e1
  obtain ⟨m', hm', _⟩ := flatRoot_reads (s := s) (d := r3)
    ⟨h3k, .inr ⟨leafValues m, ⟨by simp, .inl h3n⟩, leafValues_keys (lists_members hm)⟩⟩ f
  refine ⟨r3, m', ?_, hm', h3k, h3n, ?_, ?_⟩
  · unfold NameTree.rebuild releaseKids
    dsimp only
    rw [e1]
    simp only [Option.isSome_none, Bool.false_eq_true, if_false, he, hr1]
    have h1l : mapFind (b! "Limits") r1 = none := by rw [h1, if_neg (by decide)]; exact e2
    rw [h1l]
    simp only [Option.isSome_none, Bool.and_false, Bool.false_eq_true, if_false]
    rw [hr2, hr3, hm']
  · rw [h3 _ (by decide)]; exact h2l
  · intro q hq1 hq2
    rw [h3 _ hq1, h2 _ hq2, h1, if_neg hq1]

/-- The root after `Rebuild` of a flat tree with Limits. -/
theorem rebuild_limits {f : Nat} {s : PStore} {d : Dict} {m0 : Option NameMap} {m : NameMap} (hk : Absent d (b! "Kids"))
    (hl : ¬ Absent d (b! "Limits")) (hne : m ≠ []) :
    NameTree.rebuild f ⟨s, d, m0⟩ m = (.error .duplicateKey, ⟨s, mapErase (b! "Names") d, some m⟩) := by
  have e1 : mapFind (b! "Kids") d = none := absent_iff.mp hk
  have e2 : (mapFind (b! "Limits") d).isSome = true := present_iff.mp hl
  have he : m.isEmpty = false := by cases m with
    | nil => exact absurd rfl hne
    | cons => rfl
  have h1l : (mapFind (b! "Limits") (mapErase (b! "Names") d)).isSome = true := by
    rw [mapFind_erase, if_neg (by decide)]; exact e2
  unfold NameTree.rebuild releaseKids
  dsimp only
  rw [e1]
  simp only [Option.isSome_none, Bool.false_eq_true, if_false, he, h1l]
  rfl

theorem absent_treeEntry {s : PStore} {d : Dict} (hk : Absent d (b! "Kids")) (hn : Absent d (b! "Names")) (k : Bytes)
    (v : Obj) : ¬ TreeEntry s d k v := by
  intro h
  cases h with
  | here _ l' _ _ h1 => have := hasEntry_isSome h1; rw [absent_iff.mp hn] at this; cases this
  | kid _ l' o d' _ _ h1 => have := hasEntry_isSome h1; rw [absent_iff.mp hk] at this; cases this

/-- A release leaves null objects null. -/
theorem releaseKid_null {s : PStore} {o : Obj} {r : ObjRef} (h : s r = .null) : releaseKid s o r = .null := by
  unfold releaseKid
  split
  · unfold PStore.set
    split
    · rfl
    · exact h
  · exact h

theorem releaseNodes_null {self : PStore → TreeNode → Dict → Res Unit × PStore} {r : ObjRef}
    (hs : ∀ s kind d, s r = .null → (self s kind d).2 r = .null) :
    ∀ (l : List Obj) (s : PStore), s r = .null → (releaseNodes self s l).2 r = .null
  | [], s, h => h
  | o :: os, s, h => by
    rw [releaseNodes]
    split
    · exact h
    · rename_i d kind _
      split
      · rename_i heq
        have := hs s kind d h
        rw [heq] at this; exact this
      · rename_i heq
        have := hs s kind d h
        rw [heq] at this
        apply releaseNodes_null hs os
        split
        · exact this
        · exact releaseKid_null this

theorem releaseNode_null {r : ObjRef} : ∀ (f : Nat) (s : PStore) (kind : TreeNode) (d : Dict), s r = .null →
    (releaseNode f s kind d).2 r = .null
  | 0, s, kind, d, h => h
  | f + 1, s, kind, d, h => by
    cases kind with
    | root => exact h
    | leaf => exact h
    | intermediate =>
      rw [releaseNode]
      split
      · exact h
      · exact releaseNodes_null (releaseNode_null f) _ _ h

/-- A tree with a null kid cannot be read. -/
theorem kidsMap_null {s : PStore} {self : TreeNode → Dict → Res NameMap} {n g : Nat} (h : s (n, g) = .null) :
    ∀ (l : List Obj) (m : NameMap), .ref n g ∈ l → ∀ m', kidsMap s self l m ≠ .ok m'
  | o :: os, m, hl, m', hm => by
    rw [kidsMap] at hm
    obtain ⟨⟨d, kind⟩, h1, hm⟩ := bind_ok hm
    obtain ⟨sub, h2, hm⟩ := bind_ok hm
    rcases List.mem_cons.mp hl with e | hl
    · subst e
      rw [treeKid] at h1
      dsimp only [derefOne] at h1
      rw [h] at h1
      cases h1
    · exact kidsMap_null h os _ hl m' hm

theorem allKeys_null {s : PStore} {d : Dict} {l : List Obj} {n g : Nat} (h : s (n, g) = .null)
    (hk : mapFind (b! "Kids") d = some (.arr l)) (hl : .ref n g ∈ l) (f : Nat) (m : NameMap) :
    allKeys s f .root d ≠ .ok m := by
  cases f with
  | zero => exact fun h => by cases h
  | succ f =>
    intro hm
    rw [allKeys, hk] at hm
    simp only [Option.isSome_some, if_true] at hm
    have ht : treeArray s d (b! "Kids") = .ok l := treeArray_of_has ⟨by simp, .inl hk⟩
    rw [ht, ok_bind] at hm
    obtain ⟨m1, h1, _⟩ := bind_ok hm
    exact kidsMap_null h l _ hl m1 h1

/-- Kids that form a cycle through the first kid of every node. -/
theorem allKeys_cycle {s : PStore} {P : Dict → Prop} (hP : ∀ d, P d → ∃ o os d', treeArray s d (b! "Kids") = .ok (o :: os) ∧
    treeKid s o = .ok (d', .intermediate) ∧ P d') :
    ∀ f d, P d → allKeys s f .intermediate d = .error .timeout
  | 0, d, _ => rfl
  | f + 1, d, hd => by
    obtain ⟨o, os, d', h1, h2, h3⟩ := hP d hd
    rw [allKeys, h1, ok_bind, kidsMap, h2, ok_bind]
    dsimp only
    rw [allKeys_cycle hP f d' h3]
    rfl

/-- The keys at the even places. -/
theorem leafValues_get : ∀ (m : NameMap) (i : Nat), (leafValues m)[2 * i]? = (m[i]?).map (·.2.1)
  | [], i => by simp [leafValues]
  | (k, ko, v) :: m, 0 => by simp [leafValues]
  | (k, ko, v) :: m, i + 1 => by
    rw [show 2 * (i + 1) = 2 * i + 1 + 1 by omega, leafValues]
    simp only [List.getElem?_cons_succ]
    exact leafValues_get m i

theorem bytesLt_lexical : ∀ {a b : Bytes}, bytesLt a b = true → (∀ x ∈ a, x < 128) → (∀ x ∈ b, x < 128) → Lexical a b
  | _, [], h, _, _ => by cases ‹Bytes› <;> cases h
  | [], _ :: _, _, _, _ => trivial
  | a :: x, b :: y, h, ha, hb => by
    have ha' := UInt8.lt_iff_toNat_lt.mp (ha a (by simp))
    have hb' := UInt8.lt_iff_toNat_lt.mp (hb b (by simp))
    simp at ha' hb'
    rw [bytesLt] at h
    unfold charKey at h
    rw [Lexical]
    split at h
    · left; omega
    · split at h
      · cases h
      · right
        exact ⟨UInt8.toNat_inj.mp (by omega),
          bytesLt_lexical h (fun z hz => ha z (by simp [hz])) (fun z hz => hb z (by simp [hz]))⟩

theorem leafValues_order {s : PStore} {E : Bytes → Obj → Prop} {m : NameMap} (h : Lists E m)
    (ha : ∀ k v, E k v → ∀ x ∈ k, x < 128) : InOrder s (leafValues m) := by
  intro i j ki kj koi koj hij hi hj hki hkj
  rw [leafValues_get] at hi hj
  simp only [Option.map_eq_some_iff] at hi hj
  obtain ⟨⟨qi, oi, vi⟩, hi, rfl⟩ := hi
  obtain ⟨⟨qj, oj, vj⟩, hj, rfl⟩ := hj
  have key : ∀ q o v, (q, o, v) ∈ m → IsString s o q := fun q o v hm => by
    rcases lists_members h q o v hm with rfl | rfl
    · exact .inl ⟨by simp, .inl rfl⟩
    · exact .inr ⟨by simp, .inl rfl⟩
  have mi := List.mem_of_getElem? hi
  have mj := List.mem_of_getElem? hj
  have e1 := isString_inj hki (key _ _ _ mi)
  have e2 := isString_inj hkj (key _ _ _ mj)
  subst e1; subst e2
  have hlt : bytesLt ki kj = true := by
    obtain ⟨li, hi⟩ := List.getElem?_eq_some_iff.mp hi
    obtain ⟨lj, hj⟩ := List.getElem?_eq_some_iff.mp hj
    have := List.pairwise_iff_getElem.mp h.1 i j li lj hij
    rw [hi, hj] at this
    exact this
  exact bytesLt_lexical hlt (ha ki vi (h.2.1 _ _ _ (mapFind_of_mem h.1 mi)).1)
    (ha kj vj (h.2.1 _ _ _ (mapFind_of_mem h.1 mj)).1)

end VPdf
