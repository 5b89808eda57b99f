import Verif.Spec.Outline
import Verif.Props.ViewSettings
/-
  C100: outlines.
-/
namespace VPdf
open Spec

theorem link_item {s : PStore} {d : Dict} {k : Bytes} {o : Option ObjRef} (h : LinksTo d k o) (hd : ∀ r, o = some r → ∃ x, s r = .dict x) :
    (o = none ∧ outlineItem s d k = .ok none) ∨ ∃ r x, o = some r ∧ s r = .dict x ∧ outlineItem s d k = .ok (some ⟨x, true⟩) := by
  cases o with
  | none =>
    left
    refine ⟨rfl, ?_⟩
    unfold outlineItem dictEntry
    rw [absent_iff.mp h]
    rfl
  | some r =>
    right
    obtain ⟨x, hx⟩ := hd r rfl
    refine ⟨r, x, rfl, hx, ?_⟩
    unfold outlineItem dictEntry treeEntry
    rw [show mapFind k d = some (.ref r.1 r.2) from h]
    dsimp only
    rw [show s (r.1, r.2) = .dict x from hx]
    rfl

/-- One step from a place: what is found is what the outline has there. -/
theorem outline_step {s : PStore} {t : OutlineTree} (hs : StoresOutline s t) {p : OutlinePlace} {h : OutlineHandle} (hh : HandleAt s t p h)
    {x : OutlineStep} (ha : Applies p x) (hp : TopParents p x) :
    match t.step p x with
    | some p' => ∃ h', outlineMove s h x = .ok (some h') ∧ HandleAt s t p' h'
    | none => outlineMove s h x = .ok none := by
  obtain ⟨⟨r, hr, hd⟩, hi⟩ := hh
  obtain ⟨d, hd', hf, hl⟩ := hs.1 p r hr
  rw [hd] at hd'
  cases hd'
  have kid : ∀ i c, (t.kids r)[i]? = some c → ∃ y, s c = .dict y := fun i c hc => by
    obtain ⟨y, hy, _⟩ := hs.2 p r i c hr hc
    exact ⟨y, hy⟩
  have at_kid : ∀ i, t.at (i :: p) = (t.kids r)[i]? := fun i => by rw [OutlineTree.at, hr]; rfl
  cases x with
  | first =>
    have e : (t.kids r).head? = (t.kids r)[0]? := List.head?_eq_getElem?
    rcases link_item hf (fun c hc => kid 0 c (e ▸ hc)) with ⟨h1, h2⟩ | ⟨c, y, h1, h2, h3⟩
    · have : t.step p .first = none := by rw [OutlineTree.step, at_kid, ← e, h1]; rfl
      rw [this]
      exact h2
    · have : t.step p .first = some (0 :: p) := by rw [OutlineTree.step, at_kid, ← e, h1]; rfl
      rw [this]
      exact ⟨_, h3, ⟨c, by rw [at_kid, ← e]; exact h1, h2⟩, by simp⟩
  | last =>
    have e : (t.kids r).getLast? = (t.kids r)[(t.kids r).length - 1]? := List.getLast?_eq_getElem?
    rcases link_item hl (fun c hc => kid _ c (e ▸ hc)) with ⟨h1, h2⟩ | ⟨c, y, h1, h2, h3⟩
    · have hnil : t.kids r = [] := List.getLast?_eq_none_iff.mp h1
      have : t.step p .last = none := by rw [OutlineTree.step, hr]; simp [hnil]
      rw [this]
      exact h2
    · have hne : (t.kids r).length ≠ 0 := by
        intro h0
        rw [List.length_eq_zero_iff.mp h0] at h1
        cases h1
      have : t.step p .last = some (((t.kids r).length - 1) :: p) := by rw [OutlineTree.step, hr]; exact if_neg hne
      rw [this]
      exact ⟨_, h3, ⟨c, by rw [at_kid, ← e]; exact h1, h2⟩, by simp⟩
  | next =>
    match p, ha, hi, hr with
    | [], ha, _, _ => rcases ha with h | h | h <;> first | exact absurd rfl h | cases h
    | i :: q, _, hi, hr =>
      have hitem : h.item = true := hi.mpr (by simp)
      rw [OutlineTree.at] at hr
      obtain ⟨u, hu, hk⟩ := Option.bind_eq_some_iff.mp hr
      obtain ⟨d, hd', _, _, hn, _⟩ := hs.2 q u i r hu hk
      rw [hd] at hd'
      cases hd'
      have e : t.at ((i + 1) :: q) = (t.kids u)[i + 1]? := by rw [OutlineTree.at, hu]; rfl
      have hm : outlineMove s h .next = outlineItem s h.dict (b! "Next") := by rw [outlineMove, if_pos hitem]
      rw [hm]
      rcases link_item hn (fun c hc => by obtain ⟨y, hy, _⟩ := hs.2 q u _ c hu hc; exact ⟨y, hy⟩) with ⟨h1, h2⟩ | ⟨c, y, h1, h2, h3⟩
      · have : t.step (i :: q) .next = none := by rw [OutlineTree.step, e, h1]; rfl
        rw [this]
        exact h2
      · have : t.step (i :: q) .next = some ((i + 1) :: q) := by rw [OutlineTree.step, e, h1]; rfl
        rw [this]
        exact ⟨_, h3, ⟨c, by rw [e]; exact h1, h2⟩, by simp⟩
  | prev =>
    match p, ha, hi, hr with
    | [], ha, _, _ => rcases ha with h | h | h <;> first | exact absurd rfl h | cases h
    | i :: q, _, hi, hr =>
      have hitem : h.item = true := hi.mpr (by simp)
      rw [OutlineTree.at] at hr
      obtain ⟨u, hu, hk⟩ := Option.bind_eq_some_iff.mp hr
      obtain ⟨d, hd', _, _, _, hn⟩ := hs.2 q u i r hu hk
      rw [hd] at hd'
      cases hd'
      have hm : outlineMove s h .prev = outlineItem s h.dict (b! "Prev") := by rw [outlineMove, if_pos hitem]
      rw [hm]
      match i, hn, hk with
      | 0, hn, _ =>
        rcases link_item hn (s := s) (fun c hc => by cases hc) with ⟨_, h2⟩ | ⟨c, y, h1, _⟩
        · exact h2
        · cases h1
      | j + 1, hn, hk =>
        rw [if_neg (Nat.succ_ne_zero j), Nat.add_sub_cancel] at hn
        have hlt := (List.getElem?_eq_some_iff.mp hk).1
        rcases link_item hn (fun c hc => by obtain ⟨y, hy, _⟩ := hs.2 q u _ c hu hc; exact ⟨y, hy⟩) with ⟨h1, h2⟩ | ⟨c, y, h1, h2, h3⟩
        · rw [List.getElem?_eq_none_iff] at h1
          omega
        · have e : t.at (j :: q) = (t.kids u)[j]? := by rw [OutlineTree.at, hu]; rfl
          exact ⟨_, h3, ⟨c, by rw [e]; exact h1, h2⟩, by simp⟩
  | parent =>
    match p, ha, hi, hr, hp with
    | [], ha, _, _, _ => rcases ha with h | h | h <;> first | exact absurd rfl h | cases h
    | i :: j :: q, _, _, _, hp =>
      have := hp rfl
      simp at this
    | [i], _, hi, hr, _ =>
      have hitem : h.item = true := hi.mpr (by simp)
      rw [OutlineTree.at] at hr
      obtain ⟨u, hu, hk⟩ := Option.bind_eq_some_iff.mp hr
      obtain ⟨d, hd', _, hpar, _⟩ := hs.2 [] u i r hu hk
      rw [hd] at hd'
      cases hd'
      obtain ⟨x, hx, _⟩ := hs.1 [] u hu
      refine ⟨⟨x, false⟩, ?_, ⟨u, hu, hx⟩, by simp⟩
      rw [outlineMove, if_pos hitem]
      unfold treeEntry
      rw [show mapFind (b! "Parent") h.dict = some (.ref u.1 u.2) from hpar]
      dsimp only
      rw [show s (u.1, u.2) = .dict x from hx]
      rfl

/-- **C100 (partial): walks through the outline.**  A client that begins with the outline of the document, and goes on by First, Last,
Next, Prev and Parent, is at each time at the object where these steps lead in the outline of the file, and is told that there is
nothing exactly where the outline has nothing.
Missing: Parent of items below other items, for which the claim is false (below). -/
theorem C100_walk_partial (s : PStore) (t : OutlineTree) (hs : StoresOutline s t) (xs : List OutlineStep) : ∀ (p : OutlinePlace) (h : OutlineHandle),
    HandleAt s t p h → t.Walks TopParents p xs →
    ∃ h', outlineWalk s h xs = .ok (h', (t.walk p xs).2) ∧ HandleAt s t (t.walk p xs).1 h' := by
  induction xs with
  | nil => intro p h hh _; exact ⟨h, rfl, hh⟩
  | cons x xs ih =>
    intro p h hh ⟨h1, h2, h3⟩
    have := outline_step hs hh h1 h2
    cases e : t.step p x with
    | none =>
      rw [e] at this h3
      dsimp only at this
      obtain ⟨h', e1, e2⟩ := ih p h hh h3
      refine ⟨h', ?_, by rw [OutlineTree.walk, e]; exact e2⟩
      rw [outlineWalk, this, ok_bind, OutlineTree.walk, e]
      dsimp only
      rw [e1]
      rfl
    | some p' =>
      rw [e] at this h3
      dsimp only at this
      obtain ⟨g, e0, hg⟩ := this
      obtain ⟨h', e1, e2⟩ := ih p' g hg h3
      refine ⟨h', ?_, by rw [OutlineTree.walk, e]; exact e2⟩
      rw [outlineWalk, e0, ok_bind, OutlineTree.walk, e]
      dsimp only
      rw [e1]
      rfl

/-- **C100: the beginning.**  The outline of the catalog is the one where walks begin; a catalog without one is reported to have none. -/
theorem C100_begin (s : PStore) (t : OutlineTree) (hs : StoresOutline s t) (catalog : Dict) :
    (LinksTo catalog (b! "Outlines") (some t.root) → ∃ h, catalogOutlines s catalog = .ok (some h) ∧ HandleAt s t [] h) ∧
    (Absent catalog (b! "Outlines") → catalogOutlines s catalog = .ok none) := by
  refine ⟨fun h => ?_, fun h => ?_⟩
  · obtain ⟨x, hx, _⟩ := hs.1 [] t.root rfl
    refine ⟨⟨x, false⟩, ?_, ⟨t.root, rfl, hx⟩, by simp⟩
    unfold catalogOutlines dictEntry treeEntry
    rw [show mapFind (b! "Outlines") catalog = some (.ref t.root.1 t.root.2) from h]
    dsimp only
    rw [show s (t.root.1, t.root.2) = .dict x from hx]
    rfl
  · unfold catalogOutlines dictEntry
    rw [absent_iff.mp h]
    rfl

/-- **C100: titles.**  The title of the item at a place is the one it has in the file. -/
theorem C100_title (s : PStore) (t : OutlineTree) (hs : StoresOutline s t) (i : Nat) (p : OutlinePlace) (h : OutlineHandle) (c : ObjRef)
    (hh : HandleAt s t (i :: p) h) (hc : t.at (i :: p) = some c) : outlineTitle s h = .ok (t.title c) := by
  obtain ⟨⟨r, hr, hd⟩, _⟩ := hh
  rw [hc] at hr
  cases hr
  rw [OutlineTree.at] at hc
  obtain ⟨u, hu, hk⟩ := Option.bind_eq_some_iff.mp hc
  obtain ⟨d, hd', ht, _⟩ := hs.2 p u i c hu hk
  rw [hd] at hd'
  cases hd'
  unfold outlineTitle
  rcases ht with ht | ht <;> rw [treeEntry_of_has ht] <;> rfl

/-- **C100 is false of items below other items.**  In every outline, Parent of such an item gives an object that counts as an outline:
it cannot be used as the item it is, so that none of Next, Prev and Parent is possible from there. -/
theorem C100_parent_counterexample (s : PStore) (t : OutlineTree) (hs : StoresOutline s t) (i j : Nat) (p : OutlinePlace) (h : OutlineHandle)
    (hh : HandleAt s t (i :: j :: p) h) :
    t.step (i :: j :: p) .parent = some (j :: p) ∧ ∃ h', outlineMove s h .parent = .ok (some h') ∧ ¬ HandleAt s t (j :: p) h' ∧
      outlineMove s h' .next = .error .conversion ∧ outlineMove s h' .prev = .error .conversion ∧
      outlineMove s h' .parent = .error .conversion := by
  obtain ⟨⟨r, hr, hd⟩, hi⟩ := hh
  have hitem : h.item = true := hi.mpr (by simp)
  rw [OutlineTree.at] at hr
  obtain ⟨u, hu, hk⟩ := Option.bind_eq_some_iff.mp hr
  obtain ⟨d, hd', _, hpar, _⟩ := hs.2 (j :: p) u i r hu hk
  rw [hd] at hd'
  cases hd'
  obtain ⟨x, hx, _⟩ := hs.1 (j :: p) u hu
  refine ⟨rfl, ⟨x, false⟩, ?_, fun hc => ?_, rfl, rfl, rfl⟩
  · rw [outlineMove, if_pos hitem]
    unfold treeEntry
    rw [show mapFind (b! "Parent") h.dict = some (.ref u.1 u.2) from hpar]
    dsimp only
    rw [show s (u.1, u.2) = .dict x from hx]
    rfl
  · have := hc.2.mpr (by simp)
    cases this

/-- **C100: flags.**  The first bit says italic, the second one bold, whatever the others are. -/
theorem C100_flags (s : PStore) (h : OutlineHandle) :
    (Absent h.dict (b! "F") → outlineFlags s h = .ok none) ∧
    ∀ (rest : Int) (italic bold : Bool), HasEntry s h.dict (b! "F") (.int (4 * rest + 2 * bold.toNat + italic.toNat)) →
      outlineFlags s h = .ok (some (italic, bold)) := by
  refine ⟨fun ha => ?_, fun rest italic bold he => ?_⟩
  · unfold outlineFlags
    rw [absent_iff.mp ha]
  · obtain ⟨o, ho, _⟩ := deref_has he
    unfold outlineFlags
    rw [ho, treeEntry_of_has he]
    dsimp only
    rw [ok_bind]
    have h1 : decide ((4 * rest + 2 * (bold.toNat : Int) + (italic.toNat : Int)) % 2 ≠ 0) = italic := by
      cases italic <;> cases bold <;> simp only [Bool.toNat_true, Bool.toNat_false, decide_eq_true_eq, decide_eq_false_iff_not] <;> omega
    have h2 : decide ((4 * rest + 2 * (bold.toNat : Int) + (italic.toNat : Int)) / 2 % 2 ≠ 0) = bold := by
      cases italic <;> cases bold <;> simp only [Bool.toNat_true, Bool.toNat_false, decide_eq_true_eq, decide_eq_false_iff_not] <;> omega
    dsimp only
    rw [h1, h2]
    rfl

/-- **C100: colors.**  The three parts are those of the array, whether they are whole numbers or not. -/
theorem C100_color (s : PStore) (h : OutlineHandle) :
    (Absent h.dict (b! "C") → outlineColor s h = .ok none) ∧
    ∀ r g b r' g' b', HasEntry s h.dict (b! "C") (.arr [r, g, b]) → Refers s r r' → Refers s g g' → Refers s b b' →
      (∀ x ∈ [r', g', b'], (∃ n, x = .int n) ∨ ∃ m p, x = .real m p) → outlineColor s h = .ok (some (r', g', b')) := by
  refine ⟨fun ha => ?_, fun r g b r' g' b' he hr hg hb hx => ?_⟩
  · unfold outlineColor
    rw [absent_iff.mp ha]
  · obtain ⟨o, ho, _⟩ := deref_has he
    have part : ∀ {x y : Obj}, Refers s x y → ((∃ n, y = .int n) ∨ ∃ m p, y = .real m p) → colorPart s x = .ok y := by
      intro x y h1 h2
      unfold colorPart
      rw [derefOne_of_refers h1]
      rcases h2 with ⟨n, rfl⟩ | ⟨m, p, rfl⟩ <;> rfl
    unfold outlineColor
    rw [ho, treeArray_of_has he]
    dsimp only
    rw [ok_bind]
    dsimp only
    rw [part hr (hx r' (by simp)), ok_bind, part hg (hx g' (by simp)), ok_bind, part hb (hx b' (by simp))]
    rfl

/-- An outline with two chapters, the second one with a section. -/
def sampleOutline : OutlineTree where
  root := (1, 0)
  kids := fun r => if r = (1, 0) then [(2, 0), (3, 0)] else if r = (3, 0) then [(4, 0)] else []
  title := fun r => if r = (2, 0) then b! "One" else if r = (3, 0) then b! "Two" else b! "Three"

/-- The file of the outline. -/
def sampleOutlineFile : PStore := fun r =>
  if r = (1, 0) then .dict [(b! "First", .ref 2 0), (b! "Last", .ref 3 0)]
  else if r = (2, 0) then .dict [(b! "Next", .ref 3 0), (b! "Parent", .ref 1 0), (b! "Title", .lit (b! "One"))]
  else if r = (3, 0) then .dict [(b! "First", .ref 4 0), (b! "Last", .ref 4 0), (b! "Parent", .ref 1 0), (b! "Prev", .ref 2 0),
    (b! "Title", .hex (b! "Two"))]
  else .dict [(b! "Parent", .ref 3 0), (b! "Title", .lit (b! "Three"))]

theorem sample_places (p : OutlinePlace) (r : ObjRef) (h : sampleOutline.at p = some r) :
    r = (1, 0) ∨ r = (2, 0) ∨ r = (3, 0) ∨ r = (4, 0) := by
  cases p with
  | nil => cases h; exact .inl rfl
  | cons i p =>
    rw [OutlineTree.at] at h
    obtain ⟨u, _, hk⟩ := Option.bind_eq_some_iff.mp h
    have hm := List.mem_of_getElem? hk
    dsimp only [sampleOutline] at hm
    split at hm
    · simp only [List.mem_cons, List.not_mem_nil, or_false] at hm
      rcases hm with rfl | rfl
      · exact .inr (.inl rfl)
      · exact .inr (.inr (.inl rfl))
    · split at hm
      · exact .inr (.inr (.inr (List.mem_singleton.mp hm)))
      · cases hm

/-- The outline is stored, and a walk through it. -/
example : StoresOutline sampleOutlineFile sampleOutline ∧
    sampleOutline.Walks TopParents [] [.last, .first, .next, .prev] ∧
    sampleOutline.walk [] [.last, .first, .next] = ([0, 1], [true, true, false]) := by
  refine ⟨⟨fun p r h => ?_, fun p r i c h hc => ?_⟩, ?_, rfl⟩
  · rcases sample_places p r h with rfl | rfl | rfl | rfl
    · exact ⟨_, rfl, rfl, rfl⟩
    · exact ⟨_, rfl, absent_iff.mpr rfl, absent_iff.mpr rfl⟩
    · exact ⟨_, rfl, rfl, rfl⟩
    · exact ⟨_, rfl, absent_iff.mpr rfl, absent_iff.mpr rfl⟩
  · rcases sample_places p r h with rfl | rfl | rfl | rfl
    · match i, hc with
      | 0, hc => cases hc; exact ⟨_, rfl, .inl ⟨by simp, .inl rfl⟩, rfl, rfl, absent_iff.mpr rfl⟩
      | 1, hc => cases hc; exact ⟨_, rfl, .inr ⟨by simp, .inl rfl⟩, rfl, absent_iff.mpr rfl, rfl⟩
    · cases hc
    · match i, hc with
      | 0, hc => cases hc; exact ⟨_, rfl, .inl ⟨by simp, .inl rfl⟩, rfl, absent_iff.mpr rfl, absent_iff.mpr rfl⟩
    · cases hc
  · simp [OutlineTree.Walks, Applies, TopParents, OutlineTree.step, OutlineTree.at, sampleOutline]

end VPdf
