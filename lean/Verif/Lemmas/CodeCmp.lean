import Verif.Lemmas.DedupeSeen
import Verif.Lemmas.Compare
import Verif.Lemmas.Values
import Verif.Spec.Dedupe
/-
  The comparison of the code is right for comparable objects.
-/
namespace VPdf
open Spec

set_option linter.unusedSectionVars false

section trees
variable {α : Type} (view : Obj → α) (hv : ∀ a b, Same a b → view a = view b) (f : Nat × Nat → Tree α)
include hv

mutual
theorem treeOf_same : ∀ (a b : Obj), Same a b → treeOf view f a = treeOf view f b
  | .null, b, h => by cases h; rfl
  | .bool _, b, h => by cases h; rfl
  | .int _, b, h => by cases h; rfl
  | .real m p, b, h => by
    have hh := h
    cases h with | real _ n _ q e => rw [treeOf, treeOf, hv _ _ hh]
  | .name _, b, h => by cases h; rfl
  | .lit v, b, h => by
    have hh := h
    cases h with
    | litLit => rfl
    | litHex => rw [treeOf, treeOf, hv _ _ hh]
  | .hex v, b, h => by
    have hh := h
    cases h with
    | hexLit => rw [treeOf, treeOf, hv _ _ hh]
    | hexHex => rfl
  | .ref _ _, b, h => by cases h; rfl
  | .arr xs, b, h => by
    cases h with | arr _ ys hi => rw [treeOf, treeOf, treeItems_same xs ys hi]
  | .dict xs, b, h => by
    cases h with | dict _ ys hi => rw [treeOf, treeOf, treeEntries_same xs ys hi]
theorem treeItems_same : ∀ (xs ys : List Obj), SameItems xs ys → treeItems view f xs = treeItems view f ys
  | [], ys, h => by cases h; rfl
  | x :: xs, ys, h => by
    cases h with | cons _ y _ ys hx hs => rw [treeItems, treeItems, treeOf_same x y hx, treeItems_same xs ys hs]
theorem treeEntries_same : ∀ (xs ys : List (Bytes × Obj)), SameEntries xs ys → treeEntries view f xs = treeEntries view f ys
  | [], ys, h => by cases h; rfl
  | (k, x) :: xs, ys, h => by
    cases h with | cons _ _ y _ ys hx hs => rw [treeEntries, treeEntries, treeOf_same x y hx, treeEntries_same xs ys hs]
end

theorem treeOfS_same (a b : SObj) (h : SameS a b) : treeOfS view f a = treeOfS view f b := by
  cases h with
  | direct a b h => exact treeOf_same view hv f a b h
  | stream d d' body h =>
    cases h with
    | dict _ _ h => rw [treeOfS, treeOfS, treeEntries_same view hv f d d' h]

end trees

/-! ### Comparable objects -/

mutual
theorem comparable_map (f g : Nat × Nat → Nat × Nat) : ∀ a b : Obj, comparable (mapRefs f a) (mapRefs g b) = comparable a b
  | .ref _ _, b => by cases b <;> rfl
  | .arr xs, b => by cases b <;> first | rfl | (simp only [mapRefs, comparable]; exact comparableItems_map f g _ _)
  | .dict xs, b => by cases b <;> first | rfl | (simp only [mapRefs, comparable]; exact comparableEntries_map f g _ _)
  | .null, b => by cases b <;> rfl
  | .bool _, b => by cases b <;> rfl
  | .int _, b => by cases b <;> rfl
  | .real _ _, b => by cases b <;> rfl
  | .name _, b => by cases b <;> rfl
  | .lit _, b => by cases b <;> rfl
  | .hex _, b => by cases b <;> rfl
theorem comparableItems_map (f g : Nat × Nat → Nat × Nat) : ∀ xs ys : List Obj,
    comparableItems (mapRefsItems f xs) (mapRefsItems g ys) = comparableItems xs ys
  | [], ys => by cases ys <;> rfl
  | x :: xs, [] => rfl
  | x :: xs, y :: ys => by
    rw [mapRefsItems, mapRefsItems, comparableItems, comparableItems, comparable_map f g x y, comparableItems_map f g xs ys]
theorem comparableEntries_map (f g : Nat × Nat → Nat × Nat) : ∀ xs ys : List (Bytes × Obj),
    comparableEntries (mapRefsEntries f xs) (mapRefsEntries g ys) = comparableEntries xs ys
  | [], ys => by cases ys <;> rfl
  | (_, x) :: xs, [] => rfl
  | (_, x) :: xs, (_, y) :: ys => by
    rw [mapRefsEntries, mapRefsEntries, comparableEntries, comparableEntries, comparable_map f g x y, comparableEntries_map f g xs ys]
end

theorem comparableS_map (f g : Nat × Nat → Nat × Nat) (a b : SObj) : comparableS (mapRefsS f a) (mapRefsS g b) = comparableS a b := by
  cases a with
  | direct a =>
    cases b with
    | direct b => exact comparable_map f g a b
    | stream d x => cases a <;> rfl
  | stream d x =>
    cases b with
    | direct b => cases b <;> rfl
    | stream d' y =>
      have := comparable_map f g (.dict d) (.dict d')
      exact this

mutual
theorem mapRefs_comp (f g : Nat × Nat → Nat × Nat) : ∀ o : Obj, mapRefs f (mapRefs g o) = mapRefs (fun r => f (g r)) o
  | .ref _ _ => rfl
  | .arr l => by rw [mapRefs, mapRefs, mapRefs, mapRefsItems_comp f g l]
  | .dict l => by rw [mapRefs, mapRefs, mapRefs, mapRefsEntries_comp f g l]
  | .null => rfl
  | .bool _ => rfl
  | .int _ => rfl
  | .real _ _ => rfl
  | .name _ => rfl
  | .lit _ => rfl
  | .hex _ => rfl
theorem mapRefsItems_comp (f g : Nat × Nat → Nat × Nat) : ∀ l : List Obj,
    mapRefsItems f (mapRefsItems g l) = mapRefsItems (fun r => f (g r)) l
  | [] => rfl
  | o :: os => by rw [mapRefsItems, mapRefsItems, mapRefsItems, mapRefs_comp f g o, mapRefsItems_comp f g os]
theorem mapRefsEntries_comp (f g : Nat × Nat → Nat × Nat) : ∀ l : List (Bytes × Obj),
    mapRefsEntries f (mapRefsEntries g l) = mapRefsEntries (fun r => f (g r)) l
  | [] => rfl
  | (k, o) :: os => by rw [mapRefsEntries, mapRefsEntries, mapRefsEntries, mapRefs_comp f g o, mapRefsEntries_comp f g os]
end

theorem mapRefsS_comp (f g : Nat × Nat → Nat × Nat) (o : SObj) : mapRefsS f (mapRefsS g o) = mapRefsS (fun r => f (g r)) o := by
  cases o with
  | direct o => rw [mapRefsS, mapRefsS, mapRefsS, mapRefs_comp]
  | stream d b => rw [mapRefsS, mapRefsS, mapRefsS, mapRefsEntries_comp]

/-- The object is one of the section, but for the numbers in references. -/
def LikeOne (s : WSection) (a : SObj) : Prop := ∃ r f, a = mapRefsS f (objectAt s r)

theorem likeOne_object (s : WSection) (r : Nat × Nat) : LikeOne s (objectAt s r) :=
  ⟨r, id, (mapRefsS_id id _ fun _ _ => rfl).symm⟩

theorem likeOne_comparable {s : WSection} (h : Comparable s) {a b : SObj} (ha : LikeOne s a) (hb : LikeOne s b) :
    comparableS a b = true := by
  obtain ⟨r, f, rfl⟩ := ha
  obtain ⟨q, g, rfl⟩ := hb
  rw [comparableS_map]
  exact h r q

theorem eqS_right (s : WSection) (a b : SObj) (h : comparableS a b = true) : eqS s a b = true ↔ SameS a b := by
  cases a with
  | direct a =>
    cases b with
    | direct b =>
      rw [eqS]
      rcases eqObj_right (sectionObjects s) a b h with ⟨h1, h2⟩ | ⟨h1, h2⟩
      · rw [h1]; exact ⟨fun _ => .direct a b h2, fun _ => rfl⟩
      · rw [h1]; exact ⟨(fun h => nomatch h), fun h => by cases h with | direct _ _ h => exact absurd h h2⟩
    | stream d y => exact ⟨(fun h => nomatch h), (fun h => nomatch h)⟩
  | stream d x =>
    cases b with
    | direct b =>
      refine ⟨fun h' => ?_, fun h => nomatch h⟩
      cases b with
      | ref n g => cases h
      | _ => rw [eqS, followStream] at h' <;> cases h'
    | stream d' y =>
      rw [eqS]
      rcases eqObj_right (sectionObjects s) (.dict d) (.dict d') h with ⟨h1, h2⟩ | ⟨h1, h2⟩
      · rw [h1]
        constructor
        · intro h
          have : x = y := by simpa [saysEqual] using h
          subst this
          exact .stream d d' x h2
        · intro h
          cases h with
          | stream => simp [saysEqual]
      · rw [h1]
        constructor
        · intro h; simp [saysEqual] at h
        · intro h
          cases h with
          | stream _ _ _ hs => exact absurd hs h2

theorem sameS_refl (a : SObj) : SameS a a := by
  cases a with
  | direct a => exact .direct a a (same_refl a)
  | stream d b => exact .stream d d b (same_refl _)

theorem le_sum_num : ∀ (l : List WEntry) (e : WEntry), e ∈ l → e.num ≤ (l.map WEntry.num).sum
  | x :: xs, e, h => by
    rw [List.map_cons, List.sum_cons]
    rcases List.mem_cons.mp h with h | h
    · subst h; omega
    · have := le_sum_num xs e h; omega

theorem codeCmp_honest {α : Type} (view : Obj → α) (hv : ∀ a b, Same a b → view a = view b) (H : StdHash) {s : WSection}
    (hc : Comparable s) : Honest (codeCmp H) view (LikeOne s) where
  null := by
    by_cases h : ∃ n, ∀ e ∈ s.entries, e.num ≠ n
    · obtain ⟨n, hn⟩ := h
      refine ⟨(n, 0), id, ?_⟩
      rw [objectAt_none (fun e he hh => hn e he hh.1)]
      rfl
    · exfalso
      apply h
      refine ⟨(s.entries.map WEntry.num).sum + 1, ?_⟩
      intro e he
      have := le_sum_num s.entries e he
      omega
  closed := by
    rintro ρ a ⟨r, f, rfl⟩
    exact ⟨r, _, mapRefsS_comp ρ f _⟩
  same := by
    intro t a b ha hb h f
    exact treeOfS_same view hv f a b ((eqS_right t a b (likeOne_comparable hc ha hb)).mp h)
  refl := by
    intro t a ha
    exact (eqS_right t a a (likeOne_comparable hc ha ha)).mpr (sameS_refl a)
  fixed := by
    intro t t' a b ha hb
    have h1 := eqS_right t a b (likeOne_comparable hc ha hb)
    have h2 := eqS_right t' a b (likeOne_comparable hc ha hb)
    show eqS t a b = eqS t' a b
    cases h3 : eqS t a b <;> cases h4 : eqS t' a b
    · rfl
    · rw [h3] at h1; rw [h4] at h2; exact absurd (h1.mpr (h2.mp rfl)) (by simp)
    · rw [h3] at h1; rw [h4] at h2; exact absurd (h2.mpr (h1.mp rfl)) (by simp)
    · rfl

theorem plainUsed_iff (e : WEntry) : plainUsed e = true ↔ OnItsOwn e := by
  obtain ⟨n, g, k⟩ := e
  constructor
  · intro h
    cases k with
    | free a => cases h
    | compressed a b o => cases h
    | used off o =>
      cases o with
      | none => cases h
      | some o => exact ⟨off, o, rfl⟩
  · rintro ⟨off, o, h⟩
    dsimp only at h
    subst h
    rfl

/-- All pairs of objects of the section, and the null object. -/
def comparableCheck (s : WSection) : Bool :=
  let l := SObj.direct .null :: s.entries.map (sectionObject s)
  l.all fun a => l.all fun b => comparableS a b

theorem comparable_of_check {s : WSection} (h : comparableCheck s = true) (hs : s.entries.Pairwise fun a b => a.num < b.num) :
    Comparable s := by
  have hm : ∀ r, objectAt s r ∈ SObj.direct .null :: s.entries.map (sectionObject s) := by
    intro r
    by_cases hex : ∃ x ∈ s.entries, (x.num, x.gen) = r
    · obtain ⟨x, hx, rfl⟩ := hex
      rw [objectAt_mem hs hx]
      exact List.mem_cons_of_mem _ (List.mem_map_of_mem hx)
    · rw [objectAt_none (by intro x hx hxx; exact hex ⟨x, hx, by rw [hxx.1, hxx.2]⟩)]
      exact List.mem_cons_self
  intro r q
  exact List.all_eq_true.mp (List.all_eq_true.mp h _ (hm r)) _ (hm q)

theorem sameS_comparable {a b : SObj} (h : SameS a b) : comparableS a b = true := by
  cases h with
  | direct a b h => exact same_comparable h
  | stream d d' body h => exact same_comparable h

theorem hashS_same (H : StdHash) (hr : ∀ m n p q, m * 10 ^ q = n * 10 ^ p → H.hreal m p = H.hreal n q) {a b : SObj} (h : SameS a b) :
    hashS H a = hashS H b := by
  cases h with
  | direct a b h => exact hash_same H hr h
  | stream d d' body h => exact hash_same H hr h

theorem quiet_regular {H : StdHash} {s : WSection} (hs : s.entries.Pairwise fun a b => a.num < b.num) (hc : Comparable s)
    (h : QuietTwins s) : Regular (codeCmp H) s where
  flat := by
    intro x hx y hy hpx hpy hne hsame r hr z hz hpz hzr hz2
    have hcxy := hc (x.num, x.gen) (y.num, y.gen)
    have hcrz := hc r (z.num, z.gen)
    rw [objectAt_mem hs hx, objectAt_mem hs hy] at hcxy
    rw [objectAt_mem hs hz] at hcrz
    refine h.quiet x y ⟨⟨hx, (plainUsed_iff x).mp hpx⟩, ⟨hy, (plainUsed_iff y).mp hpy⟩, hne, ?_⟩ r hr z hz ((plainUsed_iff z).mp hpz) hzr ?_
    · rw [objectAt_mem hs hx, objectAt_mem hs hy]
      exact (eqS_right s _ _ hcxy).mp hsame.2
    · rw [objectAt_mem hs hz]
      exact (eqS_right s _ _ hcrz).mp hz2.2
  own := by
    intro r hr
    obtain ⟨e, he, her, h1, h2, h3⟩ := h.own r hr
    refine ⟨e, he, her, ?_, ?_⟩
    · obtain ⟨n, g, k⟩ := e
      cases k with
      | free a => exact absurd rfl (h1 a)
      | compressed a b o => rfl
      | used off o =>
        cases o with
        | none => exact absurd rfl (h2 off)
        | some o => rfl
    · intro z hz hpz hne hsame
      have hc' := hc r (z.num, z.gen)
      have h3' := h3 z hz ((plainUsed_iff z).mp hpz) hne
      rw [← her, objectAt_mem hs he, objectAt_mem hs hz] at h3' hc'
      exact h3' ((eqS_right s _ _ hc').mp hsame.2)

theorem likeOne_all {s : WSection} (hc : Comparable s) {t : WSection} (h : ∀ r, LikeOne s (objectAt t r)) : Comparable t :=
  fun r q => likeOne_comparable hc (h r) (h q)

/-- All rounds keep what is seen. -/
theorem codeRounds_seen {α : Type} (view : Obj → α) (hv : ∀ a b, Same a b → view a = view b) (H : StdHash)
    {order : WSection → List WEntry} (hord : ∀ s, (order s).Perm s.entries) {s : WSection}
    (hs : s.entries.Pairwise fun a b => a.num < b.num) (hc : Comparable s)
    (hq : ∀ t, Rounds (codeCmp H) order s t → QuietTwins t) {t : WSection} (h : Rounds (codeCmp H) order s t) :
    (∀ k, seen view t k = seen view s k) ∧ ∀ r, LikeOne s (objectAt t r) := by
  induction h with
  | start => exact ⟨fun _ => rfl, likeOne_object s⟩
  | next t t' hst h ih =>
    obtain ⟨ih1, ih2⟩ := ih
    have hst' := rounds_sorted hord hs hst
    obtain ⟨dups, _, hf, rfl⟩ := removeDupsOnce_some hord h
    have hok := dupsOk_order (c := codeCmp H) hord hst'
    rw [hf] at hok
    have hon := codeCmp_honest view hv H hc
    have hr := quiet_regular (H := H) hst' (likeOne_all hc ih2) (hq t hst)
    exact ⟨fun k => by rw [round_seen hon hst' ih2 hok hr (fun e => (hord t).mem_iff) k, ih1 k],
      round_good hon hst' ih2 hok hr fun e => (hord t).mem_iff⟩

/-! ### Checks for concrete sections -/

theorem rounds_two {c : Cmp} {order : WSection → List WEntry} {s t u : WSection} (h1 : removeDupsOnce c order s = some t)
    (h2 : removeDupsOnce c order t = none) (h : Rounds c order s u) : u = s ∨ u = t := by
  induction h with
  | start => exact .inl rfl
  | next u u' _ h ih =>
    rcases ih with rfl | rfl
    · rw [h1] at h; injection h with h; exact .inr h.symm
    · rw [h2] at h; cases h

/-- Checks that nothing below a duplicate has a duplicate; `below` are the references below the object of an entry. -/
def quietCheck (s : WSection) (below : WEntry → List (Nat × Nat)) : Bool :=
  s.own.isNone && s.entries.all fun x => s.entries.all fun y =>
    !(plainUsed x && plainUsed y && x.num != y.num && eqS s (sectionObject s x) (sectionObject s y)) ||
    ((refsS (sectionObject s x)).all (below x).contains &&
    (below x).all fun r => (refsS (objectAt s r)).all (below x).contains &&
      s.entries.all fun z => !(plainUsed z && (z.num, z.gen) != r && eqS s (objectAt s r) (sectionObject s z)))

theorem below_of_closed {s : WSection} {p : Nat × Nat} {l : List (Nat × Nat)} (h1 : ∀ q ∈ refsS (objectAt s p), q ∈ l)
    (h2 : ∀ r ∈ l, ∀ q ∈ refsS (objectAt s r), q ∈ l) {r : Nat × Nat} (h : Below s p r) : r ∈ l := by
  induction h with
  | here q hq => exact h1 q ((refsS_iff q _).mpr hq)
  | next q q' _ hq ih => exact h2 q ih q' ((refsS_iff q' _).mpr hq)

theorem quiet_of_check {s : WSection} (below : WEntry → List (Nat × Nat)) (h : quietCheck s below = true)
    (hs : s.entries.Pairwise fun a b => a.num < b.num) : QuietTwins s := by
  rw [quietCheck, Bool.and_eq_true] at h
  obtain ⟨h0, h⟩ := h
  refine ⟨?_, fun r hr => by rw [hr] at h0; cases h0⟩
  rintro x y ⟨⟨hx, hpx⟩, ⟨hy, hpy⟩, hne, hsame⟩ r hr z hz hpz hzr hsz
  have h1 := List.all_eq_true.mp (List.all_eq_true.mp h x hx) y hy
  rw [objectAt_mem hs hx, objectAt_mem hs hy] at hsame
  rw [objectAt_mem hs hz] at hsz
  rw [(plainUsed_iff x).mpr hpx, (plainUsed_iff y).mpr hpy, (eqS_right s _ _ (sameS_comparable hsame)).mpr hsame,
    show (x.num != y.num) = true by simpa using hne] at h1
  simp only [Bool.and_self, Bool.not_true, Bool.false_or, Bool.and_eq_true] at h1
  obtain ⟨h2, h3⟩ := h1
  have h4 : ∀ r ∈ below x, _ := fun r hr => List.all_eq_true.mp h3 r hr
  have hb : r ∈ below x := below_of_closed (by
      intro q hq
      rw [objectAt_mem hs hx] at hq
      simpa using List.all_eq_true.mp h2 q hq) (by
      intro p hp q hq
      have := h4 p hp
      rw [Bool.and_eq_true] at this
      simpa using List.all_eq_true.mp this.1 q hq) hr
  have := h4 r hb
  rw [Bool.and_eq_true] at this
  have := List.all_eq_true.mp this.2 z hz
  rw [(plainUsed_iff z).mpr hpz, (eqS_right s _ _ (sameS_comparable hsz)).mpr hsz,
    show ((z.num, z.gen) != r) = true by simpa using hzr] at this
  cases this

end VPdf
