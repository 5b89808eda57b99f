import Verif.Lemmas.Graph
/-
  Lemmas about the removal of unreferenced objects.
-/
namespace VPdf
open Spec

section
variable {s : WSection} (hs : s.entries.Pairwise fun a b => a.num < b.num)
include hs

theorem markedBy_some (r : Nat × Nat) (n : Nat) :
    markedBy s.entries r = some n ↔ ∃ e ∈ s.entries, e.num = n ∧ r = (e.num, e.gen) ∧ e.inUse = true := by
  rw [markedBy]
  constructor
  · intro h
    cases hf : findEntry s.entries r.1 r.2 with
    | none => rw [hf] at h; cases h
    | some e =>
      obtain ⟨h1, h2, h3⟩ := (findEntry_some hs _ _ e).mp hf
      rw [hf] at h
      dsimp only at h
      cases hu : e.inUse with
      | false => rw [hu] at h; cases h
      | true =>
        rw [hu] at h
        cases h
        exact ⟨e, h1, rfl, by rw [h2, h3], hu⟩
  · rintro ⟨e, he, rfl, rfl, hu⟩
    rw [(findEntry_some hs e.num e.gen e).mpr ⟨he, rfl, rfl⟩]
    simp [hu]

end

/-- Entries not visited. -/
def unvisited (s : WSection) (v : List Nat) : List WEntry := s.entries.filter fun e => !v.contains e.num

theorem unvisited_lt {s : WSection} {v : List Nat} {e : WEntry} (he : e ∈ s.entries) (hv : v.contains e.num = false) :
    (unvisited s (e.num :: v)).length < (unvisited s v).length := by
  rw [unvisited, unvisited]
  have h1 : (s.entries.filter fun x => !(e.num :: v).contains x.num) =
      (s.entries.filter fun x => !v.contains x.num).filter (fun x => !(x.num == e.num)) := by
    rw [List.filter_filter]
    apply List.filter_congr
    intro x _
    rw [List.contains_cons, Bool.not_or]
  rw [h1]
  apply Nat.lt_of_le_of_ne (List.length_filter_le _ _)
  intro h
  rw [List.length_filter_eq_length_iff] at h
  have := h e (List.mem_filter.mpr ⟨he, by rw [hv]; rfl⟩)
  simp at this

theorem markLoop_mono (s : WSection) : ∀ f marked visited, ∀ m ∈ marked, m ∈ markLoop s f marked visited := by
  intro f
  induction f with
  | zero => intro marked visited m h; exact h
  | succ f ih =>
    intro marked visited m h
    rw [markLoop]
    cases s.entries.find? (fun e => marked.contains e.num && !visited.contains e.num) with
    | none => exact h
    | some e => exact ih _ _ m (List.mem_append_right _ h)

/-- Nothing is left to do at the end. -/
theorem markLoop_closed (s : WSection) : ∀ f marked visited, (unvisited s visited).length < f →
    (∀ e ∈ s.entries, visited.contains e.num = true → ∀ q ∈ refsS (sectionObject s e), ∀ n, markedBy s.entries q = some n →
      n ∈ marked) → (s.entries.Pairwise fun a b => a.num < b.num) →
    ∀ e ∈ s.entries, e.num ∈ markLoop s f marked visited → ∀ q ∈ refsS (sectionObject s e), ∀ n,
      markedBy s.entries q = some n → n ∈ markLoop s f marked visited := by
  intro f
  induction f with
  | zero => intro marked visited h; omega
  | succ f ih =>
    intro marked visited hf hv hs
    rw [markLoop]
    cases hx : s.entries.find? (fun e => marked.contains e.num && !visited.contains e.num) with
    | none =>
      intro e he hm q hq n hn
      have := List.find?_eq_none.mp hx e he
      have hc : visited.contains e.num = true := by
        have hm' : marked.contains e.num = true := by simpa using hm
        rw [hm'] at this
        simpa using this
      exact hv e he hc q hq n hn
    | some x =>
      have h1 := List.mem_of_find?_eq_some hx
      have h2 := List.find?_some hx
      have h3 : visited.contains x.num = false := by
        cases hh : visited.contains x.num
        · rfl
        · rw [hh] at h2; simp at h2
      have := unvisited_lt h1 h3
      refine ih _ _ (by omega) ?_ hs
      intro e he hc q hq n hn
      rw [List.contains_cons, Bool.or_eq_true] at hc
      rcases hc with hc | hc
      · have : e = x := sorted_entry_unique hs he h1 (by simpa using hc)
        subst this
        exact List.mem_append_left _ (List.mem_filterMap.mpr ⟨q, hq, hn⟩)
      · exact List.mem_append_right _ (hv e he hc q hq n hn)

/-- The number of an entry that is needed. -/
def NeededNumber (s : WSection) (m : Nat) : Prop := ∃ e ∈ s.entries, e.num = m ∧ Needed s (e.num, e.gen)

theorem markLoop_sound {s : WSection} (hs : s.entries.Pairwise fun a b => a.num < b.num) : ∀ f marked visited,
    (∀ m ∈ marked, NeededNumber s m) → ∀ m ∈ markLoop s f marked visited, NeededNumber s m := by
  intro f
  induction f with
  | zero => intro marked visited h; exact h
  | succ f ih =>
    intro marked visited h
    rw [markLoop]
    cases hx : s.entries.find? (fun e => marked.contains e.num && !visited.contains e.num) with
    | none => exact h
    | some x =>
      refine ih _ _ ?_
      intro m hm
      rcases List.mem_append.mp hm with hm | hm
      · obtain ⟨q, hq, hn⟩ := List.mem_filterMap.mp hm
        obtain ⟨e, he, hen, rfl, hu⟩ := (markedBy_some hs q m).mp hn
        refine ⟨e, he, hen, ?_⟩
        have h1 := List.mem_of_find?_eq_some hx
        have h2 := List.find?_some hx
        have h3 : x.num ∈ marked := by
          cases hh : marked.contains x.num
          · rw [hh] at h2; simp at h2
          · simpa using hh
        obtain ⟨e', he', hn', hN⟩ := h _ h3
        have : e' = x := sorted_entry_unique hs he' h1 hn'
        subst this
        refine .object _ _ hN ?_
        rw [objectAt_mem hs he']
        exact (refsS_iff _ _).mp hq
      · exact h m hm

/-- The marks at the end. -/
def finalMarks (s : WSection) : List Nat := markLoop s (s.entries.length + 1) (rootMarks s) []

theorem finalMarks_root (s : WSection) : ∀ m ∈ rootMarks s, m ∈ finalMarks s := markLoop_mono s _ _ _

theorem finalMarks_closed {s : WSection} (hs : s.entries.Pairwise fun a b => a.num < b.num) : ∀ e ∈ s.entries, e.num ∈ finalMarks s →
    ∀ q ∈ refsS (sectionObject s e), ∀ n, markedBy s.entries q = some n → n ∈ finalMarks s := by
  refine markLoop_closed s _ _ _ ?_ (by intro e _ h; simp at h) hs
  have : (unvisited s []).length ≤ s.entries.length := List.length_filter_le _ _
  omega

theorem finalMarks_sound {s : WSection} (ht : Tidy s) : ∀ m ∈ finalMarks s, NeededNumber s m := by
  refine markLoop_sound ht.sorted _ _ _ ?_
  intro m hm
  cases ho : s.own with
  | none =>
    rw [rootMarks, ho] at hm
    obtain ⟨q, hq, hn⟩ := List.mem_filterMap.mp hm
    obtain ⟨e, he, hen, rfl, hu⟩ := (markedBy_some ht.sorted q m).mp hn
    exact ⟨e, he, hen, .trailer _ ((refsEntries_iff _ _).mp hq)⟩
  | some r =>
    obtain ⟨n, g⟩ := r
    rw [rootMarks, ho] at hm
    rcases List.mem_cons.mp hm with rfl | hm
    · obtain ⟨e, he, her, _⟩ := ht.own _ ho
      refine ⟨e, he, by rw [Prod.mk.injEq] at her; exact her.1, .own _ (by rw [ho, her])⟩
    · obtain ⟨e, he, hn⟩ := List.mem_filterMap.mp hm
      obtain ⟨en, eg, ek⟩ := e
      cases ek with
      | free x => cases hn
      | used a b => cases hn
      | compressed sn i o =>
        dsimp only at hn
        cases hf : findEntry s.entries sn 0 with
        | none => rw [hf] at hn; cases hn
        | some x =>
          obtain ⟨h1, h2, h3⟩ := (findEntry_some ht.sorted _ _ x).mp hf
          rw [hf] at hn
          cases hn
          exact ⟨x, h1, rfl, by rw [h2, h3]; exact .holder en eg sn i o (by rw [ho]; simp) he⟩

theorem entryObject_unused {e : WEntry} (h : e.inUse = false) : entryObject e = .direct .null := by
  rw [WEntry.inUse] at h
  rw [entryObject]
  cases hk : e.kind with
  | free n => rfl
  | used off o =>
    rw [hk] at h
    cases o with
    | none => rfl
    | some x => cases h
  | compressed a b c => rw [hk] at h; cases h

theorem finalMarks_own {s : WSection} {r : Nat × Nat} (h : s.own = some r) : r.1 ∈ finalMarks s := by
  refine finalMarks_root s _ ?_
  obtain ⟨n, g⟩ := r
  rw [rootMarks, h]
  exact List.mem_cons_self

theorem finalMarks_complete {s : WSection} (ht : Tidy s) {r : Nat × Nat} (hr : Needed s r) :
    ∀ e ∈ s.entries, (e.num, e.gen) = r → e.inUse = true → e.num ∈ finalMarks s := by
  induction hr with
  | trailer r hm =>
    rintro e he rfl hu
    cases ho : s.own with
    | none =>
      refine finalMarks_root s _ ?_
      rw [rootMarks, ho]
      exact List.mem_filterMap.mpr ⟨_, (refsEntries_iff _ _).mpr hm, (markedBy_some ht.sorted _ _).mpr ⟨e, he, rfl, rfl, hu⟩⟩
    | some q =>
      obtain ⟨x, hx, hxr, _⟩ := ht.own _ ho
      have h1 : x.num ∈ finalMarks s := by have := finalMarks_own ho; rw [← hxr] at this; exact this
      refine finalMarks_closed ht.sorted x hx h1 (e.num, e.gen) ?_ _ ((markedBy_some ht.sorted _ _).mpr ⟨e, he, rfl, rfl, hu⟩)
      rw [sectionObject_eq, if_pos (by rw [ho, hxr])]
      exact (refsEntries_iff _ _).mpr hm
  | own r ho =>
    rintro e he rfl hu
    exact finalMarks_own ho
  | holder n g sn i o ho hc =>
    rintro e he heq hu
    cases ho' : s.own with
    | none => exact absurd ho' ho
    | some q =>
      refine finalMarks_root s _ ?_
      obtain ⟨qn, qg⟩ := q
      rw [rootMarks, ho']
      refine List.mem_cons_of_mem _ (List.mem_filterMap.mpr ⟨_, hc, ?_⟩)
      rw [Prod.mk.injEq] at heq
      dsimp only
      rw [(findEntry_some ht.sorted sn 0 e).mpr ⟨he, heq.1, heq.2⟩]
      rfl
  | object r q hr hq ih =>
    rintro e he rfl hu
    by_cases hex : ∃ x ∈ s.entries, (x.num, x.gen) = r
    · obtain ⟨x, hx, rfl⟩ := hex
      rw [objectAt_mem ht.sorted hx] at hq
      have hq' := (refsS_iff _ _).mpr hq
      have h1 : x.num ∈ finalMarks s := by
        by_cases ho : s.own = some (x.num, x.gen)
        · exact finalMarks_own ho
        · cases hxu : x.inUse with
          | true => exact ih x hx rfl hxu
          | false =>
            rw [sectionObject_eq, if_neg ho, entryObject_unused hxu] at hq'
            simp [refsS, refsOf] at hq'
      exact finalMarks_closed ht.sorted x hx h1 _ hq' _ ((markedBy_some ht.sorted _ _).mpr ⟨e, he, rfl, rfl, hu⟩)
    · rw [objectAt_none (by
        intro x hx hxx; exact hex ⟨x, hx, by rw [hxx.1, hxx.2]⟩)] at hq
      cases hq

/-- The entries that are left. -/
theorem removeUnreferenced_mem (s : WSection) (e : WEntry) : e ∈ (removeUnreferenced s).entries ↔
    e ∈ s.entries ∧ ((∃ n, e.kind = .free n) ∨ e.num ∈ finalMarks s) := by
  have : (removeUnreferenced s).entries = s.entries.filter fun e => match e.kind with | .free _ => true | _ => (finalMarks s).contains e.num := rfl
  rw [this, List.mem_filter]
  cases hk : e.kind with
  | free n => simp
  | used a b => simp
  | compressed a b c => simp

theorem removeUnreferenced_sorted {s : WSection} (hs : s.entries.Pairwise fun a b => a.num < b.num) :
    (removeUnreferenced s).entries.Pairwise fun a b => a.num < b.num := hs.filter _

theorem removeUnreferenced_own (s : WSection) : (removeUnreferenced s).own = s.own := rfl
theorem removeUnreferenced_trailer (s : WSection) : (removeUnreferenced s).trailer = s.trailer := rfl

/-- What is needed is still there. -/
theorem removeUnreferenced_object {s : WSection} (ht : Tidy s) {r : Nat × Nat} (hr : Needed s r) :
    objectAt (removeUnreferenced s) r = objectAt s r := by
  have hs' := removeUnreferenced_sorted ht.sorted
  by_cases hex : ∃ x ∈ s.entries, (x.num, x.gen) = r
  · obtain ⟨x, hx, rfl⟩ := hex
    by_cases hk : x ∈ (removeUnreferenced s).entries
    · rw [objectAt_mem ht.sorted hx, objectAt_mem hs' hk]; rfl
    · have h1 : objectAt (removeUnreferenced s) (x.num, x.gen) = .direct .null := by
        apply objectAt_none
        intro e he hee
        have := ((removeUnreferenced_mem s e).mp he).1
        rw [sorted_entry_unique ht.sorted this hx hee.1] at he
        exact hk he
      rw [h1, objectAt_mem ht.sorted hx, sectionObject_eq]
      have hm : x.num ∉ finalMarks s := fun hm => hk ((removeUnreferenced_mem s x).mpr ⟨hx, .inr hm⟩)
      rw [if_neg (fun ho => hm (finalMarks_own ho))]
      cases hu : x.inUse with
      | true => exact absurd (finalMarks_complete ht hr x hx rfl hu) hm
      | false => rw [entryObject_unused hu]
  · rw [objectAt_none (s := s) (by intro x hx hxx; exact hex ⟨x, hx, by rw [hxx.1, hxx.2]⟩), objectAt_none]
    intro x hx hxx
    exact hex ⟨x, ((removeUnreferenced_mem s x).mp hx).1, by rw [hxx.1, hxx.2]⟩

theorem reached_needed {s : WSection} {r : Nat × Nat} (h : FromTrailer s r) : Needed s r := by
  induction h with
  | trailer r h => exact .trailer r h
  | object r q _ h ih => exact .object r q ih h

theorem removeUnreferenced_seen {α : Type} (view : Obj → α) {s : WSection} (ht : Tidy s) (k : Nat) :
    seen view (removeUnreferenced s) k = seen view s k := by
  rw [seen, seen, removeUnreferenced_trailer]
  apply treeEntries_congr
  intro r hr
  have := behind_rename view s (removeUnreferenced s) id (Needed s)
    (fun r hr q hq => .object r q hr ((refsS_iff _ _).mp hq))
    (fun r hr => by rw [id, removeUnreferenced_object ht hr, mapRefsS_id id _ (fun _ _ => rfl)]) k r
    (.trailer r ((refsEntries_iff _ _).mp hr))
  exact this

end VPdf
