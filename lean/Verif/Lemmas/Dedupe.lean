import Verif.Lemmas.Graph
/-
  Lemmas about the removal of duplicate objects.
-/
namespace VPdf
open Spec

/-! ### The state while references are redirected -/

theorem currentObject_eq {s : WSection} (h : s.entries.Pairwise fun a b => a.num < b.num) (r : Nat × Nat) :
    currentObject s r = objectAt s r := by
  rw [objectAt_eq h, currentObject]
  cases findEntry s.entries r.1 r.2 <;> rfl

/-- Number, generation and whether the entry is in use. -/
def shape (e : WEntry) : Nat × Nat × Bool := (e.num, e.gen, e.inUse)

theorem sorted_of_shape {s s' : WSection} (h : s'.entries.map shape = s.entries.map shape)
    (hs : s.entries.Pairwise fun a b => a.num < b.num) : s'.entries.Pairwise fun a b => a.num < b.num := by
  have h1 : (s.entries.map shape).Pairwise fun a b => a.1 < b.1 := List.pairwise_map.mpr hs
  rw [← h] at h1
  have h2 := List.pairwise_map.mp h1
  exact h2

theorem mem_of_shape {s s' : WSection} (h : s'.entries.map shape = s.entries.map shape) {e : WEntry} (he : e ∈ s.entries) :
    ∃ x ∈ s'.entries, x.num = e.num ∧ x.gen = e.gen ∧ x.inUse = e.inUse := by
  have h1 : shape e ∈ s'.entries.map shape := by rw [h]; exact List.mem_map_of_mem he
  obtain ⟨x, hx, hxe⟩ := List.mem_map.mp h1
  simp only [shape, Prod.mk.injEq] at hxe
  exact ⟨x, hx, hxe⟩

/-- The entry after its references were redirected. -/
def redirected (c : Cmp) (dups : List Dup) (s : WSection) (x : WEntry) : WEntry :=
  { x with kind := match x.kind with
      | .free n => .free n
      | .used off o => .used off (o.map (mapRefsS (redirect c s dups)))
      | .compressed sn i o =>
        let sn' := match findEntry s.entries sn 0 with
          | some h =>
            match findDup c s dups (sectionObject s h) with
            | some d => d.target.1
            | none => sn
          | none => sn
        .compressed sn' i (mapRefsS (redirect c s dups) o) }

theorem redirected_num (c : Cmp) (dups : List Dup) (s : WSection) (x : WEntry) : (redirected c dups s x).num = x.num := rfl
theorem redirected_gen (c : Cmp) (dups : List Dup) (s : WSection) (x : WEntry) : (redirected c dups s x).gen = x.gen := rfl

theorem redirected_inUse (c : Cmp) (dups : List Dup) (s : WSection) (x : WEntry) : (redirected c dups s x).inUse = x.inUse := by
  rw [redirected, WEntry.inUse, WEntry.inUse]
  cases x.kind with
  | free n => rfl
  | used off o => cases o <;> rfl
  | compressed a b o => rfl

theorem redirected_object (c : Cmp) (dups : List Dup) (s : WSection) (x : WEntry) :
    entryObject (redirected c dups s x) = mapRefsS (redirect c s dups) (entryObject x) := by
  rw [redirected, entryObject, entryObject]
  cases x.kind with
  | free n => rfl
  | used off o => cases o <;> rfl
  | compressed a b o => rfl

theorem redirectEntry_eq (c : Cmp) (dups : List Dup) (s : WSection) (e : WEntry) : redirectEntry c dups s e =
    if s.own = some (e.num, e.gen) then { s with trailer := mapRefsEntries (redirect c s dups) s.trailer }
    else { s with entries := s.entries.map fun x => if x.num = e.num then redirected c dups s x else x } := rfl

theorem redirectEntry_own (c : Cmp) (dups : List Dup) (s : WSection) (e : WEntry) : (redirectEntry c dups s e).own = s.own := by
  rw [redirectEntry_eq]
  by_cases h : s.own = some (e.num, e.gen)
  · rw [if_pos h]
  · rw [if_neg h]

theorem redirectEntry_shape (c : Cmp) (dups : List Dup) (s : WSection) (e : WEntry) :
    (redirectEntry c dups s e).entries.map shape = s.entries.map shape := by
  rw [redirectEntry_eq]
  by_cases h : s.own = some (e.num, e.gen)
  · rw [if_pos h]
  · rw [if_neg h, List.map_map]
    apply List.map_congr_left
    intro x _
    rw [Function.comp]
    by_cases hx : x.num = e.num
    · rw [if_pos hx, shape, shape, redirected_num, redirected_gen, redirected_inUse]
    · rw [if_neg hx]

theorem redirectEntry_trailer (c : Cmp) (dups : List Dup) (s : WSection) (e : WEntry) :
    (redirectEntry c dups s e).trailer = s.trailer ∨
    (redirectEntry c dups s e).trailer = mapRefsEntries (redirect c s dups) s.trailer := by
  rw [redirectEntry_eq]
  by_cases h : s.own = some (e.num, e.gen)
  · rw [if_pos h]; exact .inr rfl
  · rw [if_neg h]; exact .inl rfl

theorem mapRefsS_null (ρ : Nat × Nat → Nat × Nat) : mapRefsS ρ (.direct .null) = .direct .null := rfl

theorem redirectEntry_object (c : Cmp) (dups : List Dup) {s : WSection} (hs : s.entries.Pairwise fun a b => a.num < b.num)
    {e : WEntry} (he : ∃ x ∈ s.entries, x.num = e.num ∧ x.gen = e.gen) (r : Nat × Nat) :
    objectAt (redirectEntry c dups s e) r =
      if r.1 = e.num then mapRefsS (redirect c s dups) (objectAt s r) else objectAt s r := by
  have hs' := sorted_of_shape (redirectEntry_shape c dups s e) hs
  have hown := redirectEntry_own c dups s e
  obtain ⟨y, hy, hyn, hyg⟩ := he
  by_cases hex : ∃ x ∈ s.entries, (x.num, x.gen) = r
  · obtain ⟨x, hx, rfl⟩ := hex
    rw [objectAt_mem hs hx]
    dsimp only
    by_cases ho : s.own = some (e.num, e.gen)
    · -- the cross-reference stream itself
      have hE : redirectEntry c dups s e = { s with trailer := mapRefsEntries (redirect c s dups) s.trailer } := by
        rw [redirectEntry_eq, if_pos ho]
      rw [hE]
      have hmem : objectAt { s with trailer := mapRefsEntries (redirect c s dups) s.trailer } (x.num, x.gen) =
          sectionObject { s with trailer := mapRefsEntries (redirect c s dups) s.trailer } x :=
        objectAt_mem (s := { s with trailer := mapRefsEntries (redirect c s dups) s.trailer }) hs hx
      rw [hmem, sectionObject_eq, sectionObject_eq]
      by_cases hxe : x.num = e.num
      · have : x = y := sorted_entry_unique hs hx hy (by omega)
        subst this
        rw [if_pos hxe, if_pos (by dsimp only; rw [ho, hyn, hyg]), if_pos (by rw [ho, hyn, hyg])]
        rfl
      · have hne : s.own ≠ some (x.num, x.gen) := by
          rw [ho]; intro h
          injection h with h
          injection h with h _
          exact hxe h.symm
        rw [if_neg hxe, if_neg hne, if_neg hne]
    · have hE : redirectEntry c dups s e =
          { s with entries := s.entries.map fun x => if x.num = e.num then redirected c dups s x else x } := by
        rw [redirectEntry_eq, if_neg ho]
      have hx' : (if x.num = e.num then redirected c dups s x else x) ∈ (redirectEntry c dups s e).entries := by
        rw [hE]; exact List.mem_map.mpr ⟨x, hx, rfl⟩
      have h1 := objectAt_mem hs' hx'
      by_cases hxe : x.num = e.num
      · rw [if_pos hxe] at h1 hx'
        rw [redirected_num, redirected_gen] at h1
        have hne : s.own ≠ some (x.num, x.gen) := by
          have : x = y := sorted_entry_unique hs hx hy (by omega)
          rw [this, hyn, hyg]; exact ho
        rw [h1, if_pos hxe, sectionObject_eq, sectionObject_eq, hown, redirected_num, redirected_gen, if_neg hne, if_neg hne,
          redirected_object]
      · rw [if_neg hxe] at h1 hx'
        rw [h1, if_neg hxe, sectionObject_eq, sectionObject_eq, hown]
        have : (redirectEntry c dups s e).trailer = s.trailer := by rw [hE]
        rw [this]
  · have h1 : objectAt s r = .direct .null := objectAt_none (by
      intro x hx hxx; exact hex ⟨x, hx, by rw [hxx.1, hxx.2]⟩)
    have h2 : objectAt (redirectEntry c dups s e) r = .direct .null := objectAt_none (by
      intro x hx hxx
      obtain ⟨z, hz, hzn, hzg, _⟩ := mem_of_shape (redirectEntry_shape c dups s e).symm hx
      exact hex ⟨z, hz, by rw [hzn, hzg, hxx.1, hxx.2]⟩)
    rw [h1, h2, mapRefsS_null]
    by_cases hr : r.1 = e.num
    · rw [if_pos hr]
    · rw [if_neg hr]

/-! ### Finding duplicates -/

/-- An entry in use that is not compressed. -/
def plainUsed (e : WEntry) : Bool := match e.kind with | .used _ (some _) => true | _ => false

/-- Two objects are the same for the hash tables. -/
def sameFor (c : Cmp) (s : WSection) (a b : SObj) : Prop := c.hash a = c.hash b ∧ c.eq s a b = true

theorem find_same {c : Cmp} {s : WSection} {unique : List WEntry} {o : SObj} :
    (∀ u, unique.find? (fun u => c.hash o == c.hash (sectionObject s u) && c.eq s o (sectionObject s u)) = some u →
      u ∈ unique ∧ sameFor c s o (sectionObject s u)) ∧
    (unique.find? (fun u => c.hash o == c.hash (sectionObject s u) && c.eq s o (sectionObject s u)) = none →
      ∀ u ∈ unique, ¬sameFor c s o (sectionObject s u)) := by
  constructor
  · intro u hu
    refine ⟨List.mem_of_find?_eq_some hu, ?_⟩
    have := List.find?_some hu
    rw [Bool.and_eq_true] at this
    exact ⟨by simpa using this.1, this.2⟩
  · intro hn u hu ⟨h1, h2⟩
    have := List.find?_eq_none.mp hn u hu
    simp [h1, h2] at this

/-- What is known of the duplicates. -/
structure DupsOk (c : Cmp) (s : WSection) (all : List WEntry) (dups : List Dup) : Prop where
  origin : ∀ d ∈ dups, ∃ x ∈ all, ∃ u ∈ all, x.num ≠ u.num ∧ plainUsed x = true ∧ plainUsed u = true ∧ d.key = (x.num, x.gen) ∧ d.target = (u.num, u.gen) ∧
    d.hash = c.hash (sectionObject s x) ∧ sameFor c s (sectionObject s x) (sectionObject s u)
  apart : ∀ d ∈ dups, ∀ d' ∈ dups, d.target.1 ≠ d'.key.1

theorem findDups_cons_used (c : Cmp) (s : WSection) (e : WEntry) (es unique : List WEntry) (dups : List Dup) (h : plainUsed e = true) :
    findDups c s (e :: es) unique dups =
      match unique.find? (fun u => c.hash (sectionObject s e) == c.hash (sectionObject s u) && c.eq s (sectionObject s e) (sectionObject s u)) with
      | none => findDups c s es (unique ++ [e]) dups
      | some u =>
        match findDup c s dups (sectionObject s e) with
        | some _ => findDups c s es unique dups
        | none => findDups c s es unique (dups ++ [⟨(e.num, e.gen), c.hash (sectionObject s e), (u.num, u.gen)⟩]) := by
  obtain ⟨n, g, k⟩ := e
  cases k with
  | free a => cases h
  | compressed a b o => cases h
  | used off o =>
    cases o with
    | none => cases h
    | some o => rfl

theorem findDups_cons_other (c : Cmp) (s : WSection) (e : WEntry) (es unique : List WEntry) (dups : List Dup) (h : plainUsed e = false) :
    findDups c s (e :: es) unique dups = findDups c s es unique dups := by
  obtain ⟨n, g, k⟩ := e
  cases k with
  | free a => rfl
  | compressed a b o => rfl
  | used off o =>
    cases o with
    | none => rfl
    | some o => cases h

theorem findDups_ok (c : Cmp) (s : WSection) (all : List WEntry) : ∀ (es unique : List WEntry) (dups : List Dup),
    (∀ e ∈ es, e ∈ all) → (∀ u ∈ unique, u ∈ all ∧ plainUsed u = true) → (es.map WEntry.num).Nodup →
    (∀ e ∈ es, ∀ u ∈ unique, e.num ≠ u.num) → (∀ e ∈ es, ∀ d ∈ dups, e.num ≠ d.key.1) →
    (∀ u ∈ unique, ∀ d ∈ dups, u.num ≠ d.key.1) →
    (∀ d ∈ dups, ∃ x ∈ all, ∃ u ∈ unique, x.num ≠ u.num ∧ plainUsed x = true ∧ plainUsed u = true ∧ d.key = (x.num, x.gen) ∧ d.target = (u.num, u.gen) ∧
      d.hash = c.hash (sectionObject s x) ∧ sameFor c s (sectionObject s x) (sectionObject s u)) →
    DupsOk c s all (findDups c s es unique dups) := by
  intro es
  induction es with
  | nil =>
    intro unique dups _ hu _ _ _ hud hd
    refine ⟨?_, ?_⟩
    · intro d h
      obtain ⟨x, hx, u, hu', h1⟩ := hd d h
      exact ⟨x, hx, u, (hu u hu').1, h1⟩
    · intro d h d' h'
      obtain ⟨x, hx, u, hu', _, _, _, _, ht, _⟩ := hd d h
      rw [ht]
      exact hud u hu' d' h'
  | cons e es ih =>
    intro unique dups hall hu hnd heu hed hud hd
    rw [List.map_cons, List.nodup_cons] at hnd
    have hall' : ∀ x ∈ es, x ∈ all := fun x hx => hall x (List.mem_cons_of_mem _ hx)
    have heu' : ∀ x ∈ es, ∀ u ∈ unique, x.num ≠ u.num := fun x hx => heu x (List.mem_cons_of_mem _ hx)
    have hed' : ∀ x ∈ es, ∀ d ∈ dups, x.num ≠ d.key.1 := fun x hx => hed x (List.mem_cons_of_mem _ hx)
    have hne : ∀ x ∈ es, x.num ≠ e.num := fun x hx h => hnd.1 (h ▸ List.mem_map_of_mem hx)
    cases hp : plainUsed e with
    | false =>
      rw [findDups_cons_other c s e es unique dups hp]
      exact ih unique dups hall' hu hnd.2 heu' hed' hud hd
    | true =>
      rw [findDups_cons_used c s e es unique dups hp]
      cases hf : unique.find? (fun u => c.hash (sectionObject s e) == c.hash (sectionObject s u) && c.eq s (sectionObject s e) (sectionObject s u)) with
      | none =>
        dsimp only
        refine ih _ dups hall' ?_ hnd.2 ?_ hed' ?_ ?_
        · intro u h
          rcases List.mem_append.mp h with h | h
          · exact hu u h
          · rw [List.mem_singleton.mp h]; exact ⟨hall e List.mem_cons_self, hp⟩
        · intro x hx u h
          rcases List.mem_append.mp h with h | h
          · exact heu' x hx u h
          · rw [List.mem_singleton.mp h]; exact hne x hx
        · intro u h d hd'
          rcases List.mem_append.mp h with h | h
          · exact hud u h d hd'
          · rw [List.mem_singleton.mp h]; exact hed e List.mem_cons_self d hd'
        · intro d h
          obtain ⟨x, hx, u, hu', h1⟩ := hd d h
          exact ⟨x, hx, u, List.mem_append_left _ hu', h1⟩
      | some u =>
        obtain ⟨hum, hsame⟩ := find_same.1 u hf
        dsimp only
        cases findDup c s dups (sectionObject s e) with
        | some d => exact ih unique dups hall' hu hnd.2 heu' hed' hud hd
        | none =>
          dsimp only
          refine ih unique _ hall' hu hnd.2 heu' ?_ ?_ ?_
          · intro x hx d h
            rcases List.mem_append.mp h with h | h
            · exact hed' x hx d h
            · rw [List.mem_singleton.mp h]; exact hne x hx
          · intro v hv d h
            rcases List.mem_append.mp h with h | h
            · exact hud v hv d h
            · rw [List.mem_singleton.mp h]; exact fun h => heu e List.mem_cons_self v hv h.symm
          · intro d h
            rcases List.mem_append.mp h with h | h
            · exact hd d h
            · rw [List.mem_singleton.mp h]
              exact ⟨e, hall e List.mem_cons_self, u, hum, heu e List.mem_cons_self u hum, hp, (hu u hum).2, rfl, rfl, rfl, hsame⟩

/-- No duplicates were found: no two objects are the same. -/
theorem findDups_nil (c : Cmp) (s : WSection) : ∀ (es unique : List WEntry) (dups : List Dup), findDups c s es unique dups = [] →
    dups = [] ∧ (∀ e ∈ es, plainUsed e = true → ∀ u ∈ unique, ¬sameFor c s (sectionObject s e) (sectionObject s u)) ∧
    es.Pairwise (fun a b => plainUsed a = true → plainUsed b = true → ¬sameFor c s (sectionObject s b) (sectionObject s a)) := by
  intro es
  induction es with
  | nil => intro unique dups h; exact ⟨h, by simp, .nil⟩
  | cons e es ih =>
    intro unique dups h
    cases hp : plainUsed e with
    | false =>
      rw [findDups_cons_other c s e es unique dups hp] at h
      obtain ⟨h1, h2, h3⟩ := ih _ _ h
      refine ⟨h1, ?_, ?_⟩
      · intro x hx hxp
        rcases List.mem_cons.mp hx with rfl | hx
        · rw [hp] at hxp; cases hxp
        · exact h2 x hx hxp
      · refine List.pairwise_cons.mpr ⟨fun x _ hpe => ?_, h3⟩
        rw [hp] at hpe; cases hpe
    | true =>
      rw [findDups_cons_used c s e es unique dups hp] at h
      cases hf : unique.find? (fun u => c.hash (sectionObject s e) == c.hash (sectionObject s u) && c.eq s (sectionObject s e) (sectionObject s u)) with
      | none =>
        rw [hf] at h
        obtain ⟨h1, h2, h3⟩ := ih _ _ h
        refine ⟨h1, ?_, ?_⟩
        · intro x hx hxp u hu
          rcases List.mem_cons.mp hx with rfl | hx
          · exact find_same.2 hf u hu
          · exact h2 x hx hxp u (List.mem_append_left _ hu)
        · refine List.pairwise_cons.mpr ⟨fun x hx _ hxp => ?_, h3⟩
          exact h2 x hx hxp e (List.mem_append_right _ List.mem_cons_self)
      | some u =>
        rw [hf] at h
        dsimp only at h
        cases hg : findDup c s dups (sectionObject s e) with
        | some d =>
          rw [hg] at h
          obtain ⟨h1, _⟩ := ih _ _ h
          rw [h1] at hg; cases hg
        | none =>
          rw [hg] at h
          obtain ⟨h1, _⟩ := ih _ _ h
          simp at h1

end VPdf
