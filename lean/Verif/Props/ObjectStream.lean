import Verif.Lemmas.ObjectStream
import Verif.Props.Writer
/-
  C35: object streams.  C64: the index of an object in its object stream.
-/
namespace VPdf
open Spec

/-! ### C35 -/

/-- **C35**, reading: every body of an object stream that follows ISO 32000-1 7.5.7 - any separators, any texts of the
objects, objects in any order and at any offsets behind First - is read as exactly the objects it lists. -/
theorem C35_any_object_stream (e : Env) (first : Nat) (l : List (Nat × Nat × Obj)) (h : ObjStmText first l e.whole)
    (hn : ∀ x ∈ l, x.1 ≤ 9223372036854775807) (hlen : e.whole.length ≤ 9223372036854775807) :
    readObjStm e first l.length = .ok (l.map fun x => (x.1, x.2.2)) := by
  have hoff : ∀ x ∈ l, x.2.1 ≤ 9223372036854775807 := by
    intro x hx
    obtain ⟨os, ho⟩ := h.2 x hx
    by_contra hc
    exact items_ne ho (List.drop_eq_nil_of_le (by omega))
  have h1 := readObjStmHeaders_text h.1 (by
    intro y hy
    obtain ⟨x, hx, rfl⟩ := List.mem_map.mp hy
    exact ⟨hn x hx, hoff x hx⟩)
  rw [List.length_map] at h1
  rw [readObjStm, h1, ok_bind, List.map_map]
  exact readObjStmObjects_text e first l hlen h.2

/-- **C35**, writing: the body written for a list of objects follows ISO 32000-1 7.5.7 with N = the number of objects and
First = the size of the list of pairs and the space behind it; the objects are those of the list, in its order. -/
theorem C35_text_is_standard (l : List (Nat × Obj)) (h : ∀ x ∈ l, Holdable x.2) :
    ∃ ps : List (Nat × Nat × Obj),
      ObjStmText ((objStmHeader 0 (l.map fun x => (x.1, writeObj x.2))).length + 1) ps
        (objStmBody (l.map fun x => (x.1, writeObj x.2))) ∧
      ps.map (fun x => (x.1, x.2.2)) = l.map fun x => (x.1, dropNulls x.2) := by
  obtain ⟨ps, h1, h2, h3⟩ := objStm_objects l h 0 (objStmHeader 0 (l.map fun x => (x.1, writeObj x.2)) ++ b! " ")
  refine ⟨ps, ⟨?_, ?_⟩, h2⟩
  · rw [h1]
    have := objStmHeader_pairs (l.map fun x => (x.1, writeObj x.2)) 0 [] (b! " " ++ objStmData (l.map fun x => (x.1, writeObj x.2)))
      .nil (by intro d hd; simp at hd; subst hd; decide)
    simpa [objStmBody] using this
  · intro x hx
    obtain ⟨_, h4⟩ := h3 x hx
    have hl : (objStmHeader 0 (l.map fun x => (x.1, writeObj x.2)) ++ b! " ").length + (x.2.1 - 0) =
        (objStmHeader 0 (l.map fun x => (x.1, writeObj x.2))).length + 1 + x.2.1 := by
      rw [List.length_append]; rfl
    rw [hl] at h4
    exact h4

/-- **C35**: the objects of an object stream written by the file writer, any number of them of any size, are read back:
with any reversible encoding, and from any header in which N, First and the filters are those written. -/
theorem C35_objects_read_back (c : Codec) (hc : Faithful c) (resolve : Nat → Nat → Res Int) (d d1 d2 : Dict) (body : Bytes)
    (l : List (Nat × Obj)) (hd : Holdable (.dict d)) (h : ∀ x ∈ l, Holdable x.2 ∧ x.1 ≤ 9223372036854775807)
    (hw : makeObjStm c d (l.map fun x => (x.1, .direct x.2)) = .ok (.stream d1 body))
    (hlen : (objStmBody (l.map fun x => (x.1, writeObj x.2))).length ≤ 9223372036854775807)
    (h2 : ∀ k, k ≠ b! "Length" → valueAt k d2 = valueAt k (dropNullsEntries d1)) :
    objStmContent c resolve (.stream d2 body) = .ok (l.map fun x => (x.1, dropNulls x.2)) := by
  have htexts : (l.map fun x => (x.1, SObj.direct x.2)).map (fun x => (x.1, writeBody x.2)) = l.map fun x => (x.1, writeObj x.2) := by
    rw [List.map_map]; rfl
  unfold makeObjStm at hw
  rw [htexts] at hw
  dsimp only at hw
  obtain ⟨body', hb, hw⟩ := except_bind_ok hw
  injection hw with hw; injection hw with hw1 hw2
  subst hw2
  rw [List.length_map] at hw1 hb
  have hh : (objStmHeader 0 (l.map fun x => (x.1, writeObj x.2))).length + 1 ≤
      (objStmBody (l.map fun x => (x.1, writeObj x.2))).length := by
    unfold objStmBody; simp only [List.length_append]; show _ ≤ _ + 1 + _; omega
  have hnl : (l.length : Int) ≤ 9223372036854775807 := by
    have : ∀ (l : List (Nat × Bytes)) (off : Nat), l.length ≤ (objStmHeader off l).length := by
      intro l
      induction l with
      | nil => intro; simp
      | cons x l ih =>
        intro off
        obtain ⟨n, t⟩ := x
        cases l with
        | nil => simp [objStmHeader]; omega
        | cons y l =>
          have := ih (off + t.length + 1)
          simp only [objStmHeader, List.length_append, List.length_cons] at this ⊢
          omega
    have := this (l.map fun x => (x.1, writeObj x.2)) 0
    rw [List.length_map] at this
    omega
  have hN : Holdable (.int l.length) := .int _ (by omega) hnl
  have hF : Holdable (.int ((objStmHeader 0 (l.map fun x => (x.1, writeObj x.2))).length + 1)) := .int _ (by omega) (by omega)
  have g1 := holdable_insert (holdable_erase hd (b! "N")) hN (b! "N")
  have g2 := holdable_insert (holdable_erase g1 (b! "First")) hF (b! "First")
  have s0 := (holdable_dict hd).1
  have s1 := (holdable_dict g1).1
  have s2 := (holdable_dict g2).1
  have f1 : mapFind (b! "N") d2 = some (.int l.length) := by
    rw [← valueAt_eq, h2 _ (by decide), ← hw1, valueAt_eq, dropNullsEntries_value s2, replace_find s1,
      if_neg (by decide), replace_find s0, if_pos rfl]
    rfl
  have f2 : mapFind (b! "First") d2 = some (.int ((objStmHeader 0 (l.map fun x => (x.1, writeObj x.2))).length + 1)) := by
    rw [← valueAt_eq, h2 _ (by decide), ← hw1, valueAt_eq, dropNullsEntries_value s2, replace_find s1, if_pos rfl]
    rfl
  have f3 : c.decode d2 body' = .ok (objStmBody (l.map fun x => (x.1, writeObj x.2))) :=
    hc _ d2 _ _ hb (fun k hk => by rw [h2 k (by rintro rfl; rcases hk with hk | hk <;> exact absurd hk (by decide)), ← hw1])
  have n1 := natEntry_int ⟨[], true, resolve⟩ f1
  have n2 := natEntry_int (v := (objStmHeader 0 (l.map fun x => (x.1, writeObj x.2))).length + 1) ⟨[], true, resolve⟩ f2
  rw [objStmContent, n1, ok_bind, n2, ok_bind, f3, ok_bind]
  have hne : objStmBody (l.map fun x => (x.1, writeObj x.2)) ≠ [] := by
    intro he; rw [he] at hh; simp at hh
  rw [if_neg hne]
  obtain ⟨ps, p1, p2⟩ := C35_text_is_standard l (fun x hx => (h x hx).1)
  have hl : ps.length = l.length := by simpa using congrArg List.length p2
  have := C35_any_object_stream ⟨objStmBody (l.map fun x => (x.1, writeObj x.2)), true, resolve⟩ _ ps p1 (by
    intro x hx
    have : (x.1, x.2.2) ∈ ps.map (fun x => (x.1, x.2.2)) := List.mem_map.mpr ⟨x, hx, rfl⟩
    rw [p2] at this
    obtain ⟨y, hy, he⟩ := List.mem_map.mp this
    injection he with he _
    rw [← he]; exact (h y hy).2) hlen
  rw [hl, p2] at this
  exact this


/-- Three objects, an array of two items, a null and a dictionary, are written and read back. -/
example : Faithful plainCodec ∧ Holdable (.dict [(b! "Type", .name (b! "ObjStm"))]) ∧
    (∀ x ∈ [(7, Obj.arr [.int 1, .null]), (3, .null), (9, .dict [(b! "A", .ref 7 0)])], Holdable x.2 ∧ x.1 ≤ 9223372036854775807) ∧
    (∃ d1 body, makeObjStm plainCodec [(b! "Type", .name (b! "ObjStm"))]
        ([(7, Obj.arr [.int 1, .null]), (3, .null), (9, .dict [(b! "A", .ref 7 0)])].map fun x => (x.1, .direct x.2)) =
        .ok (.stream d1 body) ∧ body = b! "7 0 3 9 9 14 [1 null] null <</A 7 0 R>>") ∧
    ObjStmText 7 [(5, 1, .int 8), (6, 0, .int 8)] (b! "5 1 6 0  8") := by
  refine ⟨?_, ?_, ?_, ⟨_, _, rfl, by decide +kernel⟩, ?_, ?_⟩
  · intro d d' b b' h _; injection h with h; subst h; rfl
  · exact .dict _ (by unfold SortedKeys; decide) (by intro x hx; simp at hx; subst hx; exact .name _)
  · intro x hx
    simp only [List.mem_cons, List.not_mem_nil, or_false] at hx
    rcases hx with rfl | rfl | rfl
    · exact ⟨.arr _ (by intro o ho; simp at ho; rcases ho with rfl | rfl; exacts [.int _ (by decide) (by decide), .null]), by decide⟩
    · exact ⟨.null, by decide⟩
    · exact ⟨.dict _ (by unfold SortedKeys; decide) (by intro x hx; simp at hx; subst hx; exact .ref _ _ (by decide) (by decide)), by decide⟩
  · refine .cons 5 1 _ [] (b! "5") (b! " ") (b! "1") _ .nil (natDec_text 5) sep_space (by decide) (natDec_text 1) (ends_space _) ?_
    exact .cons 6 0 _ (b! " ") (b! "6") (b! " ") (b! "0") (b! "  8") sep_space (natDec_text 6) sep_space (by decide)
      (natDec_text 0) (ends_space _) (.nil _)
  · have d8 : Denotes (.int 8) (b! "8") := .int 8 _ (intDec_text 8) (by decide) (by decide)
    intro x hx
    simp only [List.mem_cons, List.not_mem_nil, or_false] at hx
    rcases hx with rfl | rfl
    · exact ⟨[], .cons _ _ (b! " ") (b! "8") [] sep_space d8 (.nil _ .nil) (.inr (by intro c hc; simp at hc))⟩
    · exact ⟨[], .cons _ _ (b! "  ") (b! "8") [] (.ws 32 _ (by decide) sep_space) d8 (.nil _ .nil) (.inr (by intro c hc; simp at hc))⟩

/-! ### C64 -/

/-- Object `n`, of value `o`, has the index `i` in the object stream `sn` according to the entries. -/
def Spec.IndexIn (es : List WEntry) (sn i n : Nat) (o : SObj) : Prop := ∃ e ∈ es, e.num = n ∧ e.kind = .compressed sn i o

theorem insertIndex_mem (i : Nat) (x : Nat × SObj) (l : List (Nat × Nat × SObj)) (y : Nat × Nat × SObj) :
    y ∈ insertIndex i x l ↔ y = (i, x) ∨ y ∈ l := by
  induction l with
  | nil => simp [insertIndex]
  | cons z l ih =>
    obtain ⟨j, z⟩ := z
    rw [insertIndex]
    by_cases h : i < j
    · rw [if_pos h]; simp
    · rw [if_neg h]; simp only [List.mem_cons, ih]; tauto

theorem insertIndex_sorted (i : Nat) (x : Nat × SObj) (l : List (Nat × Nat × SObj)) (h : l.Pairwise (fun a b => a.1 < b.1))
    (hi : ∀ y ∈ l, y.1 ≠ i) : (insertIndex i x l).Pairwise (fun a b => a.1 < b.1) := by
  induction l with
  | nil => simp [insertIndex]
  | cons z l ih =>
    obtain ⟨j, z⟩ := z
    rw [List.pairwise_cons] at h
    rw [insertIndex]
    have hj := hi (j, z) (by simp)
    dsimp only at hj
    by_cases hlt : i < j
    · rw [if_pos hlt, List.pairwise_cons, List.pairwise_cons]
      refine ⟨fun y hy => ?_, h⟩
      rcases List.mem_cons.mp hy with rfl | hy
      · exact hlt
      · exact Nat.lt_trans hlt (h.1 y hy)
    · rw [if_neg hlt, List.pairwise_cons]
      refine ⟨fun y hy => ?_, ih h.2 (fun y hy => hi y (by simp [hy]))⟩
      rcases (insertIndex_mem _ _ _ _).mp hy with rfl | hy
      · dsimp only; omega
      · exact h.1 y hy

theorem objStmMembers_mem (sn : Nat) (es : List WEntry) (i n : Nat) (o : SObj) :
    (i, n, o) ∈ objStmMembers sn es ↔ IndexIn es sn i n o := by
  unfold IndexIn
  induction es with
  | nil => simp [objStmMembers]
  | cons e es ih =>
    rw [objStmMembers]
    cases hk : e.kind with
    | compressed s j o' =>
      dsimp only
      by_cases hs : s = sn
      · rw [if_pos hs, insertIndex_mem, ih]
        subst hs
        constructor
        · rintro (h | ⟨e', he', h⟩)
          · injection h with h1 h2; injection h2 with h2 h3
            subst h1; subst h2; subst h3
            exact ⟨e, by simp, rfl, hk⟩
          · exact ⟨e', by simp [he'], h⟩
        · rintro ⟨e', he', h1, h2⟩
          rcases List.mem_cons.mp he' with rfl | he'
          · rw [hk] at h2; injection h2 with _ h2 h3; subst h1; subst h2; subst h3; exact .inl rfl
          · exact .inr ⟨e', he', h1, h2⟩
      · rw [if_neg hs, ih]
        constructor
        · rintro ⟨e', he', h⟩; exact ⟨e', by simp [he'], h⟩
        · rintro ⟨e', he', h1, h2⟩
          rcases List.mem_cons.mp he' with rfl | he'
          · rw [hk] at h2; injection h2 with h2; exact absurd h2 hs
          · exact ⟨e', he', h1, h2⟩
    | _ =>
      dsimp only
      rw [ih]
      constructor
      · rintro ⟨e', he', h⟩; exact ⟨e', by simp [he'], h⟩
      · rintro ⟨e', he', h1, h2⟩
        rcases List.mem_cons.mp he' with rfl | he'
        · rw [hk] at h2; cases h2
        · exact ⟨e', he', h1, h2⟩

/-- The entries of an object stream have different indices. -/
def Spec.DistinctIndices (es : List WEntry) (sn : Nat) : Prop :=
  es.Pairwise fun a b => ∀ i o j o', a.kind = .compressed sn i o → b.kind = .compressed sn j o' → i ≠ j

theorem objStmMembers_sorted (sn : Nat) (es : List WEntry) (h : DistinctIndices es sn) :
    (objStmMembers sn es).Pairwise (fun a b => a.1 < b.1) := by
  unfold DistinctIndices at h
  induction es with
  | nil => exact .nil
  | cons e es ih =>
    rw [List.pairwise_cons] at h
    rw [objStmMembers]
    cases hk : e.kind with
    | compressed s j o' =>
      dsimp only
      by_cases hs : s = sn
      · rw [if_pos hs]
        refine insertIndex_sorted _ _ _ (ih h.2) ?_
        rintro ⟨i, n, o⟩ hy
        obtain ⟨e', he', _, h2⟩ := (objStmMembers_mem _ _ _ _ _).mp hy
        subst hs
        exact fun q => h.1 e' he' j o' i o hk h2 q.symm
      · rw [if_neg hs]; exact ih h.2
    | _ => exact ih h.2

theorem ascending_get (l : List Nat) : ∀ (b : Nat), l.Pairwise (· < ·) → (∀ x ∈ l, b ≤ x) →
    (∀ x ∈ l, ∀ k, b ≤ k → k < x → k ∈ l) → ∀ p, p < l.length → l[p]? = some (b + p) := by
  induction l with
  | nil => intro b _ _ _ p hp; simp at hp
  | cons x l ih =>
    intro b hs hb hc p hp
    rw [List.pairwise_cons] at hs
    have hx : x = b := by
      by_contra hne
      have h1 := hb x (by simp)
      rcases List.mem_cons.mp (hc x (by simp) b (Nat.le_refl _) (by omega)) with h | h
      · exact hne h.symm
      · have := hs.1 b h; omega
    subst hx
    cases p with
    | zero => simp
    | succ p =>
      rw [List.getElem?_cons_succ, ih (x + 1) hs.2 (fun y hy => hs.1 y hy) ?_ p (by simpa using hp)]
      · congr 1; omega
      · intro y hy k hk1 hk2
        rcases List.mem_cons.mp (hc y (by simp [hy]) k (by omega) hk2) with h | h
        · omega
        · exact h

/-- **C64** (partial): the objects written into an object stream are those whose entries name it, in the order of their
indices; the position of every object is the index in its entry exactly when no index below it is left out.  Missing: that
this is so for every document - it is not (`C64_gap_counterexample`). -/
theorem C64_index_partial (es : List WEntry) (sn : Nat) (hd : DistinctIndices es sn) :
    (∀ i n o, (i, n, o) ∈ objStmMembers sn es ↔ IndexIn es sn i n o) ∧
    (objStmMembers sn es).Pairwise (fun a b => a.1 < b.1) ∧
    ((∀ i n o, IndexIn es sn i n o → (objStmMembers sn es)[i]? = some (i, n, o)) ↔
      ∀ i n o, IndexIn es sn i n o → ∀ k < i, ∃ n' o', IndexIn es sn k n' o') := by
  have hs := objStmMembers_sorted sn es hd
  refine ⟨objStmMembers_mem sn es, hs, ?_⟩
  have hm : ((objStmMembers sn es).map (·.1)).Pairwise (· < ·) := List.pairwise_map.mpr hs
  have key := ascending_closed _ 0 hm (by simp)
  constructor
  · intro h i n o hi k hk
    have hall : ∀ x ∈ (objStmMembers sn es).map (·.1), x < 0 + ((objStmMembers sn es).map (·.1)).length := by
      intro x hx
      obtain ⟨⟨j, m, q⟩, hy, rfl⟩ := List.mem_map.mp hx
      have := h j m q ((objStmMembers_mem _ _ _ _ _).mp hy)
      obtain ⟨hlt, _⟩ := List.getElem?_eq_some_iff.mp this
      simpa using hlt
    have := key.mp hall i (List.mem_map.mpr ⟨_, (objStmMembers_mem _ _ _ _ _).mpr hi, rfl⟩) k (by omega) hk
    obtain ⟨⟨j, m, q⟩, hy, rfl⟩ := List.mem_map.mp this
    exact ⟨m, q, (objStmMembers_mem _ _ _ _ _).mp hy⟩
  · intro h i n o hi
    have hc : ∀ x ∈ (objStmMembers sn es).map (·.1), ∀ k, 0 ≤ k → k < x → k ∈ (objStmMembers sn es).map (·.1) := by
      intro x hx k _ hk
      obtain ⟨⟨j, m, q⟩, hy, rfl⟩ := List.mem_map.mp hx
      obtain ⟨m', q', h'⟩ := h j m q ((objStmMembers_mem _ _ _ _ _).mp hy) k hk
      exact List.mem_map.mpr ⟨_, (objStmMembers_mem _ _ _ _ _).mpr h', rfl⟩
    obtain ⟨p, hp, he⟩ := List.getElem_of_mem ((objStmMembers_mem _ _ _ _ _).mpr hi)
    have := ascending_get _ 0 hm (by simp) hc p (by simpa using hp)
    rw [List.getElem?_map, List.getElem?_eq_getElem hp, he] at this
    simp only [Option.map_some, Option.some.injEq, Nat.zero_add] at this
    subst this
    rw [List.getElem?_eq_getElem hp, he]

/-- Entries in any order, one of another object stream. -/
example : DistinctIndices [⟨1, 0, .compressed 5 1 (.direct .null)⟩, ⟨2, 0, .compressed 5 0 (.direct .null)⟩,
    ⟨3, 0, .compressed 6 0 (.direct .null)⟩, ⟨5, 0, .used 0 none⟩] 5 ∧
    (objStmMembers 5 [⟨1, 0, .compressed 5 1 (.direct .null)⟩, ⟨2, 0, .compressed 5 0 (.direct .null)⟩,
      ⟨3, 0, .compressed 6 0 (.direct .null)⟩, ⟨5, 0, .used 0 none⟩]).map (fun x => (x.1, x.2.1)) = [(0, 2), (1, 1)] := by
  refine ⟨?_, by decide⟩
  unfold DistinctIndices
  simp only [List.pairwise_cons, List.mem_cons, List.not_mem_nil, or_false, forall_eq_or_imp, forall_eq]
  refine ⟨⟨?_, ?_, ?_⟩, ⟨?_, ?_⟩, ?_, ?_⟩
  all_goals first | exact fun i o j o' h1 h2 => (by cases h1; cases h2; decide) | simp

/-- **C64** fails of a document in which the object with index 1 has been removed (its entry is free): the object with
index 2 is written as the second object of the object stream, while its entry says that it is the third. -/
theorem C64_gap_counterexample :
    ∃ es : List WEntry, DistinctIndices es 5 ∧ IndexIn es 5 2 3 (.direct (.int 30)) ∧
      objStmMembers 5 es = [(0, 1, .direct (.int 10)), (2, 3, .direct (.int 30))] := by
  refine ⟨[⟨1, 0, .compressed 5 0 (.direct (.int 10))⟩, ⟨2, 1, .free 0⟩, ⟨3, 0, .compressed 5 2 (.direct (.int 30))⟩], ?_,
    ⟨⟨3, 0, .compressed 5 2 (.direct (.int 30))⟩, by simp, rfl, rfl⟩, rfl⟩
  unfold DistinctIndices
  simp only [List.pairwise_cons, List.mem_cons, List.not_mem_nil, or_false, forall_eq_or_imp, forall_eq]
  refine ⟨⟨?_, ?_⟩, ?_, ?_⟩
  all_goals first | exact fun i o j o' h1 h2 => (by cases h1; cases h2; decide) | simp

end VPdf
