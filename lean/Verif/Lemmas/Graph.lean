import Verif.Spec.Graph
import Verif.Model.Optimize
/-
  Lemmas about references in objects, and about what is seen of a document.
-/
namespace VPdf
open Spec

mutual
theorem refsOf_iff (r : Nat × Nat) : ∀ o : Obj, r ∈ refsOf o ↔ Mentions r o
  | .ref n g => by
    obtain ⟨a, b⟩ := r
    simp only [refsOf, List.mem_singleton, Prod.mk.injEq]
    constructor
    · rintro ⟨rfl, rfl⟩; exact .ref
    · intro h; cases h; exact ⟨rfl, rfl⟩
  | .arr l => by
    rw [refsOf, refsItems_iff r l]
    exact ⟨fun ⟨o, ho, h⟩ => .arr l o ho h, fun h => by cases h with | arr _ o ho h => exact ⟨o, ho, h⟩⟩
  | .dict l => by
    rw [refsOf, refsEntries_iff' r l]
    exact ⟨fun ⟨k, o, ho, h⟩ => .dict l k o ho h, fun h => by cases h with | dict _ k o ho h => exact ⟨k, o, ho, h⟩⟩
  | .null => ⟨fun h => (by simp [refsOf] at h), fun h => nomatch h⟩
  | .bool _ => ⟨fun h => (by simp [refsOf] at h), fun h => nomatch h⟩
  | .int _ => ⟨fun h => (by simp [refsOf] at h), fun h => nomatch h⟩
  | .real _ _ => ⟨fun h => (by simp [refsOf] at h), fun h => nomatch h⟩
  | .name _ => ⟨fun h => (by simp [refsOf] at h), fun h => nomatch h⟩
  | .lit _ => ⟨fun h => (by simp [refsOf] at h), fun h => nomatch h⟩
  | .hex _ => ⟨fun h => (by simp [refsOf] at h), fun h => nomatch h⟩
theorem refsItems_iff (r : Nat × Nat) : ∀ l : List Obj, r ∈ refsItems l ↔ ∃ o ∈ l, Mentions r o
  | [] => by simp [refsItems]
  | o :: os => by
    rw [refsItems, List.mem_append, refsOf_iff r o, refsItems_iff r os]
    simp
theorem refsEntries_iff' (r : Nat × Nat) : ∀ l : List (Bytes × Obj), r ∈ refsEntries l ↔ ∃ k o, (k, o) ∈ l ∧ Mentions r o
  | [] => by simp [refsEntries]
  | (k, o) :: os => by
    rw [refsEntries, List.mem_append, refsOf_iff r o, refsEntries_iff' r os]
    constructor
    · rintro (h | ⟨k', o', h, hm⟩)
      · exact ⟨k, o, List.mem_cons_self, h⟩
      · exact ⟨k', o', List.mem_cons_of_mem _ h, hm⟩
    · rintro ⟨k', o', h, hm⟩
      rcases List.mem_cons.mp h with h | h
      · cases h; exact .inl hm
      · exact .inr ⟨k', o', h, hm⟩
end

theorem refsEntries_iff (r : Nat × Nat) (l : List (Bytes × Obj)) : r ∈ refsEntries l ↔ Mentions r (.dict l) := by
  rw [← refsOf_iff, refsOf]

theorem refsS_iff (r : Nat × Nat) (o : SObj) : r ∈ refsS o ↔ MentionsS r o := by
  cases o with
  | direct o => exact refsOf_iff r o
  | stream d b => exact refsEntries_iff r d

section trees
variable {α : Type} (view : Obj → α)

mutual
theorem treeOf_congr (f f' : Nat × Nat → Tree α) : ∀ o : Obj, (∀ r ∈ refsOf o, f r = f' r) → treeOf view f o = treeOf view f' o
  | .ref n g, h => by rw [treeOf, treeOf, h (n, g) (by simp [refsOf])]
  | .arr l, h => by rw [treeOf, treeOf, treeItems_congr f f' l (by rwa [refsOf] at h)]
  | .dict l, h => by rw [treeOf, treeOf, treeEntries_congr f f' l (by rwa [refsOf] at h)]
  | .null, _ => rfl
  | .bool _, _ => rfl
  | .int _, _ => rfl
  | .real _ _, _ => rfl
  | .name _, _ => rfl
  | .lit _, _ => rfl
  | .hex _, _ => rfl
theorem treeItems_congr (f f' : Nat × Nat → Tree α) : ∀ l : List Obj, (∀ r ∈ refsItems l, f r = f' r) →
    treeItems view f l = treeItems view f' l
  | [], _ => rfl
  | o :: os, h => by
    rw [treeItems, treeItems, treeOf_congr f f' o (fun r hr => h r (by rw [refsItems]; exact List.mem_append_left _ hr)),
      treeItems_congr f f' os (fun r hr => h r (by rw [refsItems]; exact List.mem_append_right _ hr))]
theorem treeEntries_congr (f f' : Nat × Nat → Tree α) : ∀ l : List (Bytes × Obj), (∀ r ∈ refsEntries l, f r = f' r) →
    treeEntries view f l = treeEntries view f' l
  | [], _ => rfl
  | (k, o) :: os, h => by
    rw [treeEntries, treeEntries, treeOf_congr f f' o (fun r hr => h r (by rw [refsEntries]; exact List.mem_append_left _ hr)),
      treeEntries_congr f f' os (fun r hr => h r (by rw [refsEntries]; exact List.mem_append_right _ hr))]
end

theorem treeOfS_congr (f f' : Nat × Nat → Tree α) (o : SObj) (h : ∀ r ∈ refsS o, f r = f' r) :
    treeOfS view f o = treeOfS view f' o := by
  cases o with
  | direct o => exact treeOf_congr view f f' o h
  | stream d b => rw [treeOfS, treeOfS, treeEntries_congr view f f' d h]

mutual
theorem treeOf_map (ρ : Nat × Nat → Nat × Nat) (f : Nat × Nat → Tree α) : ∀ o : Obj,
    treeOf view f (mapRefs ρ o) = treeOf view (fun r => f (ρ r)) o
  | .ref n g => rfl
  | .arr l => by rw [mapRefs, treeOf, treeOf, treeItems_map ρ f l]
  | .dict l => by rw [mapRefs, treeOf, treeOf, treeEntries_map ρ f l]
  | .null => rfl
  | .bool _ => rfl
  | .int _ => rfl
  | .real _ _ => rfl
  | .name _ => rfl
  | .lit _ => rfl
  | .hex _ => rfl
theorem treeItems_map (ρ : Nat × Nat → Nat × Nat) (f : Nat × Nat → Tree α) : ∀ l : List Obj,
    treeItems view f (mapRefsItems ρ l) = treeItems view (fun r => f (ρ r)) l
  | [] => rfl
  | o :: os => by rw [mapRefsItems, treeItems, treeItems, treeOf_map ρ f o, treeItems_map ρ f os]
theorem treeEntries_map (ρ : Nat × Nat → Nat × Nat) (f : Nat × Nat → Tree α) : ∀ l : List (Bytes × Obj),
    treeEntries view f (mapRefsEntries ρ l) = treeEntries view (fun r => f (ρ r)) l
  | [] => rfl
  | (k, o) :: os => by rw [mapRefsEntries, treeEntries, treeEntries, treeOf_map ρ f o, treeEntries_map ρ f os]
end

theorem treeOfS_map (ρ : Nat × Nat → Nat × Nat) (f : Nat × Nat → Tree α) (o : SObj) :
    treeOfS view f (mapRefsS ρ o) = treeOfS view (fun r => f (ρ r)) o := by
  cases o with
  | direct o => exact treeOf_map view ρ f o
  | stream d b => rw [mapRefsS, treeOfS, treeOfS, treeEntries_map]

/-- References renamed by `ρ`: the reader sees no difference. -/
theorem behind_rename (s s' : WSection) (ρ : Nat × Nat → Nat × Nat) (S : Nat × Nat → Prop)
    (hS : ∀ r, S r → ∀ q ∈ refsS (objectAt s r), S q)
    (hl : ∀ r, S r → objectAt s' (ρ r) = mapRefsS ρ (objectAt s r)) :
    ∀ k r, S r → behind view s' k (ρ r) = behind view s k r := by
  intro k
  induction k with
  | zero => intro r _; rfl
  | succ k ih =>
    intro r hr
    rw [behind, behind, hl r hr, treeOfS_map]
    exact treeOfS_congr view _ _ _ fun q hq => ih q (hS r hr q hq)

end trees

mutual
theorem mapRefs_id (ρ : Nat × Nat → Nat × Nat) : ∀ o : Obj, (∀ r ∈ refsOf o, ρ r = r) → mapRefs ρ o = o
  | .ref n g, h => by rw [mapRefs, h (n, g) (by simp [refsOf])]
  | .arr l, h => by rw [mapRefs, mapRefsItems_id ρ l (by rwa [refsOf] at h)]
  | .dict l, h => by rw [mapRefs, mapRefsEntries_id ρ l (by rwa [refsOf] at h)]
  | .null, _ => rfl
  | .bool _, _ => rfl
  | .int _, _ => rfl
  | .real _ _, _ => rfl
  | .name _, _ => rfl
  | .lit _, _ => rfl
  | .hex _, _ => rfl
theorem mapRefsItems_id (ρ : Nat × Nat → Nat × Nat) : ∀ l : List Obj, (∀ r ∈ refsItems l, ρ r = r) → mapRefsItems ρ l = l
  | [], _ => rfl
  | o :: os, h => by
    rw [mapRefsItems, mapRefs_id ρ o (fun r hr => h r (by rw [refsItems]; exact List.mem_append_left _ hr)),
      mapRefsItems_id ρ os (fun r hr => h r (by rw [refsItems]; exact List.mem_append_right _ hr))]
theorem mapRefsEntries_id (ρ : Nat × Nat → Nat × Nat) : ∀ l : List (Bytes × Obj), (∀ r ∈ refsEntries l, ρ r = r) →
    mapRefsEntries ρ l = l
  | [], _ => rfl
  | (k, o) :: os, h => by
    rw [mapRefsEntries, mapRefs_id ρ o (fun r hr => h r (by rw [refsEntries]; exact List.mem_append_left _ hr)),
      mapRefsEntries_id ρ os (fun r hr => h r (by rw [refsEntries]; exact List.mem_append_right _ hr))]
end

theorem mapRefsS_id (ρ : Nat × Nat → Nat × Nat) (o : SObj) (h : ∀ r ∈ refsS o, ρ r = r) : mapRefsS ρ o = o := by
  cases o with
  | direct o => rw [mapRefsS, mapRefs_id ρ o h]
  | stream d b => rw [mapRefsS, mapRefsEntries_id ρ d h]

mutual
theorem refsOf_map (ρ : Nat × Nat → Nat × Nat) : ∀ o : Obj, refsOf (mapRefs ρ o) = (refsOf o).map ρ
  | .ref n g => rfl
  | .arr l => by rw [mapRefs, refsOf, refsOf, refsItems_map ρ l]
  | .dict l => by rw [mapRefs, refsOf, refsOf, refsEntries_map ρ l]
  | .null => rfl
  | .bool _ => rfl
  | .int _ => rfl
  | .real _ _ => rfl
  | .name _ => rfl
  | .lit _ => rfl
  | .hex _ => rfl
theorem refsItems_map (ρ : Nat × Nat → Nat × Nat) : ∀ l : List Obj, refsItems (mapRefsItems ρ l) = (refsItems l).map ρ
  | [] => rfl
  | o :: os => by rw [mapRefsItems, refsItems, refsItems, refsOf_map ρ o, refsItems_map ρ os, List.map_append]
theorem refsEntries_map (ρ : Nat × Nat → Nat × Nat) : ∀ l : List (Bytes × Obj), refsEntries (mapRefsEntries ρ l) = (refsEntries l).map ρ
  | [] => rfl
  | (k, o) :: os => by rw [mapRefsEntries, refsEntries, refsEntries, refsOf_map ρ o, refsEntries_map ρ os, List.map_append]
end

theorem refsS_map (ρ : Nat × Nat → Nat × Nat) (o : SObj) : refsS (mapRefsS ρ o) = (refsS o).map ρ := by
  cases o with
  | direct o => exact refsOf_map ρ o
  | stream d b => exact refsEntries_map ρ d

/-- Numbers decide: two entries with one number are the same. -/
theorem sorted_entry_unique {l : List WEntry} (h : l.Pairwise fun a b => a.num < b.num) {a b : WEntry} (ha : a ∈ l) (hb : b ∈ l)
    (hn : a.num = b.num) : a = b := by
  induction l with
  | nil => simp at ha
  | cons x l ih =>
    rw [List.pairwise_cons] at h
    rcases List.mem_cons.mp ha with rfl | ha' <;> rcases List.mem_cons.mp hb with rfl | hb'
    · rfl
    · have := h.1 b hb'; omega
    · have := h.1 a ha'; omega
    · exact ih h.2 ha' hb'

theorem find_num {l : List WEntry} (h : l.Pairwise fun a b => a.num < b.num) {e : WEntry} (he : e ∈ l) :
    l.find? (fun x => x.num == e.num) = some e := by
  cases hf : l.find? (fun x => x.num == e.num) with
  | none => exact absurd (List.find?_eq_none.mp hf e he) (by simp)
  | some x =>
    have h1 := List.mem_of_find?_eq_some hf
    have h2 := List.find?_some hf
    rw [sorted_entry_unique h h1 he (by simpa using h2)]

theorem findEntry_some {l : List WEntry} (h : l.Pairwise fun a b => a.num < b.num) (n g : Nat) (e : WEntry) :
    findEntry l n g = some e ↔ e ∈ l ∧ e.num = n ∧ e.gen = g := by
  constructor
  · intro hf
    rw [findEntry] at hf
    cases hx : l.find? (fun x => x.num == n) with
    | none => rw [hx] at hf; cases hf
    | some x =>
      rw [hx] at hf
      dsimp only at hf
      by_cases hg : x.gen = g
      · rw [if_pos hg] at hf
        cases hf
        exact ⟨List.mem_of_find?_eq_some hx, by simpa using List.find?_some hx, hg⟩
      · rw [if_neg hg] at hf; cases hf
  · rintro ⟨he, rfl, rfl⟩
    rw [findEntry, find_num h he]
    simp

theorem find_both {l : List WEntry} (h : l.Pairwise fun a b => a.num < b.num) (n g : Nat) :
    l.find? (fun e => e.num == n && e.gen == g) = findEntry l n g := by
  cases hf : l.find? (fun e => e.num == n && e.gen == g) with
  | some e =>
    symm
    rw [findEntry_some h]
    have h1 := List.mem_of_find?_eq_some hf
    have h2 := List.find?_some hf
    simp at h2
    exact ⟨h1, h2.1, h2.2⟩
  | none =>
    cases hg : findEntry l n g with
    | none => rfl
    | some e =>
      obtain ⟨h1, h2, h3⟩ := (findEntry_some h n g e).mp hg
      have := List.find?_eq_none.mp hf e h1
      simp [h2, h3] at this

theorem sectionObject_eq (s : WSection) (e : WEntry) :
    sectionObject s e = if s.own = some (e.num, e.gen) then .stream s.trailer [] else entryObject e := rfl

/-- The object behind a reference, in terms of the entry. -/
theorem objectAt_eq {s : WSection} (h : s.entries.Pairwise fun a b => a.num < b.num) (r : Nat × Nat) :
    objectAt s r = match findEntry s.entries r.1 r.2 with | none => .direct .null | some e => sectionObject s e := by
  rw [objectAt, find_both h]
  cases hf : findEntry s.entries r.1 r.2 with
  | none => rfl
  | some e =>
    obtain ⟨_, h2, h3⟩ := (findEntry_some h _ _ e).mp hf
    simp only [sectionObject_eq, h2, h3]

theorem objectAt_mem {s : WSection} (h : s.entries.Pairwise fun a b => a.num < b.num) {e : WEntry} (he : e ∈ s.entries) :
    objectAt s (e.num, e.gen) = sectionObject s e := by
  rw [objectAt_eq h, (findEntry_some h e.num e.gen e).mpr ⟨he, rfl, rfl⟩]

theorem objectAt_none {s : WSection} {r : Nat × Nat} (h : ∀ e ∈ s.entries, ¬ (e.num = r.1 ∧ e.gen = r.2)) :
    objectAt s r = .direct .null := by
  rw [objectAt]
  have : s.entries.find? (fun e => e.num == r.1 && e.gen == r.2) = none := by
    rw [List.find?_eq_none]
    intro e he
    simpa using h e he
  rw [this]

end VPdf
