import Verif.Spec.PageFonts
import Verif.Props.FormFields
/-
  C105: resources and fonts of pages, the node above a page, extensions.
-/
namespace VPdf
open Spec

theorem dictEntry_iff (s : PStore) (d : Dict) (k : Bytes) (x : Dict) : dictEntry s d k = .ok (some x) ↔ HasEntry s d k (.dict x) := by
  refine ⟨fun h => ?_, fun h => dictEntry_of_has h⟩
  unfold dictEntry at h
  split at h
  · cases h
  · obtain ⟨v, hv, h⟩ := bind_ok h
    cases v <;> cases h
    exact has_of_treeEntry hv (by simp)

theorem dictEntry_none (s : PStore) (d : Dict) (k : Bytes) : dictEntry s d k = .ok none ↔ Absent d k := by
  refine ⟨fun h => ?_, fun h => ?_⟩
  · unfold dictEntry at h
    split at h
    · rename_i e; exact absent_iff.mpr e
    · obtain ⟨v, hv, h⟩ := bind_ok h
      cases v <;> cases h
  · unfold dictEntry; rw [absent_iff.mp h]

theorem nameEntry_iff (s : PStore) (d : Dict) (k n : Bytes) : nameEntry s d k = .ok (some n) ↔ HasEntry s d k (.name n) := by
  refine ⟨fun h => ?_, fun h => nameEntry_of_has h⟩
  unfold nameEntry at h
  split at h
  · cases h
  · obtain ⟨v, hv, h⟩ := bind_ok h
    cases v <;> cases h
    exact has_of_treeEntry hv (by simp)

theorem nameEntry_none (s : PStore) (d : Dict) (k : Bytes) : nameEntry s d k = .ok none ↔ Absent d k := by
  refine ⟨fun h => ?_, fun h => nameEntry_of_absent h⟩
  unfold nameEntry at h
  split at h
  · rename_i e; exact absent_iff.mpr e
  · obtain ⟨v, hv, h⟩ := bind_ok h
    cases v <;> cases h

/-- **C105 (partial): the resources of a page that has its own**, and those that have been set.  Missing: inherited resources (below). -/
theorem C105_resources_partial (s : PStore) (page r : Dict) :
    (pageResources s page = .ok (some r) ↔ HasEntry s page (b! "Resources") (.dict r)) ∧
    (pageResources s page = .ok none ↔ Absent page (b! "Resources")) ∧
    pageResources s (setPageResources page r) = .ok (some r) ∧
    ∀ k, k ≠ b! "Resources" → valueAt k (setPageResources page r) = valueAt k page := by
  refine ⟨dictEntry_iff s page _ r, dictEntry_none s page _, ?_, fun k hk => ?_⟩
  · refine (dictEntry_iff s _ _ r).mpr ⟨(by intro n g e; cases e), .inl ?_⟩
    unfold setPageResources
    apply mapFind_insert_new
    split
    · rw [mapErase_find, if_pos rfl]
    · rename_i h; simpa using h
  · rw [valueAt_eq, valueAt_eq]
    unfold setPageResources
    rw [mapFind_insert_ne hk]
    split
    · rw [mapErase_find, if_neg hk]
    · rfl

/-- **C105 is false of pages that inherit their resources.**  Every such page is reported to have none; and the function that is meant
to look above the page fails, as it takes the node above it for a page. -/
theorem C105_inherited_counterexample (s : PStore) (page parent r : Dict) (f : Nat) (h : Absent page (b! "Resources"))
    (hp : HasEntry s page (b! "Parent") (.dict parent)) (ht : HasEntry s parent (b! "Type") (.name (b! "Pages")))
    (hr : HasResources s parent r) :
    HasResources s page r ∧ pageResources s page = .ok none ∧ inheritableResources (f + 1) s page = .error .throw := by
  refine ⟨.inherited page parent r h hp hr, (dictEntry_none s page _).mpr h, ?_⟩
  obtain ⟨o, ho⟩ := find_of_has hp
  rw [inheritableResources, absent_iff.mp h]
  simp only [Option.isSome_none, Bool.false_eq_true, if_false]
  rw [ho]
  dsimp only
  rw [treeEntry_of_has hp, ok_bind]
  dsimp only
  rw [treeEntry_of_has ht, ok_bind]
  dsimp only
  rw [if_neg (by decide)]

/-- **C105: the function that looks above a page** is right for pages with resources of their own, and for those with nothing above. -/
theorem C105_lookup (s : PStore) (page : Dict) (f : Nat) :
    (∀ r, HasEntry s page (b! "Resources") (.dict r) → inheritableResources (f + 1) s page = .ok (some r)) ∧
    (Absent page (b! "Resources") → Absent page (b! "Parent") → inheritableResources (f + 1) s page = .ok none) := by
  refine ⟨fun r h => ?_, fun h hp => ?_⟩
  · obtain ⟨o, ho⟩ := find_of_has h
    rw [inheritableResources, ho]
    exact dictEntry_of_has h
  · rw [inheritableResources, absent_iff.mp h, absent_iff.mp hp]; rfl

theorem fontTypeOk_iff (s : PStore) (d : Dict) :
    fontTypeOk s d = .ok () ↔ (Absent d (b! "Type") ∨ HasEntry s d (b! "Type") (.name (b! "Font"))) := by
  constructor
  · intro h
    unfold fontTypeOk at h
    split at h
    · rename_i e; exact .inl (absent_iff.mpr e)
    · obtain ⟨v, hv, h⟩ := bind_ok h
      cases v with
      | name n =>
        dsimp only at h
        by_cases hn : n = b! "Font"
        · subst hn; exact .inr (has_of_treeEntry hv (by simp))
        · rw [if_neg hn] at h; cases h
      | _ => cases h
  · rintro (h | h)
    · unfold fontTypeOk; rw [absent_iff.mp h]
    · obtain ⟨o, ho⟩ := find_of_has h
      unfold fontTypeOk; rw [ho]; dsimp only
      rw [treeEntry_of_has h]; rfl

theorem fontSubtype_iff (s : PStore) (d : Dict) (k : FontKind) :
    fontSubtype s d = .ok k ↔ ∃ n, HasEntry s d (b! "Subtype") (.name n) ∧ FontName n k := by
  constructor
  · intro h
    unfold fontSubtype at h
    split at h
    · cases h
    · obtain ⟨v, hv, h⟩ := bind_ok h
      cases v with
      | name n =>
        dsimp only at h
        cases hf : firstNamed n fontKinds with
        | none => rw [hf] at h; cases h
        | some k' =>
          rw [hf] at h; cases h
          refine ⟨n, has_of_treeEntry hv (by simp), ?_⟩
          have hm := firstNamed_mem hf
          simp only [fontKinds, List.mem_cons, List.not_mem_nil, or_false, Prod.mk.injEq] at hm
          rcases hm with ⟨rfl, rfl⟩ | ⟨rfl, rfl⟩ | ⟨rfl, rfl⟩ | ⟨rfl, rfl⟩ | ⟨rfl, rfl⟩ | ⟨rfl, rfl⟩ | ⟨rfl, rfl⟩ <;> constructor
      | _ => cases h
  · rintro ⟨n, hn, hk⟩
    obtain ⟨o, ho⟩ := find_of_has hn
    unfold fontSubtype; rw [ho]; dsimp only
    rw [treeEntry_of_has hn, ok_bind]; dsimp only
    cases hk <;> rfl

theorem fontKind_iff (s : PStore) (d : Dict) (k : FontKind) : fontKind s d = .ok k ↔ IsFont s d k := by
  constructor
  · intro h
    unfold fontKind at h
    obtain ⟨_, h1, h⟩ := bind_ok h
    exact ⟨(fontTypeOk_iff s d).mp h1, (fontSubtype_iff s d k).mp h⟩
  · rintro ⟨h1, h2⟩
    unfold fontKind
    rw [(fontTypeOk_iff s d).mpr h1, ok_bind]
    exact (fontSubtype_iff s d k).mpr h2

/-- **C105: fonts** are found under their names with the kind they have, and nothing else is taken for a font. -/
theorem C105_fonts (s : PStore) (resources fonts : Dict) :
    (fontMap s resources = .ok (some fonts) ↔ HasEntry s resources (b! "Font") (.dict fonts)) ∧
    (fontMap s resources = .ok none ↔ Absent resources (b! "Font")) ∧
    (∀ name, fontMapContains fonts name = true ↔ ∃ o, valueAt name fonts = some o) ∧
    ∀ name k d, fontMapFind s fonts name = .ok (k, d) ↔ HasEntry s fonts name (.dict d) ∧ IsFont s d k := by
  refine ⟨dictEntry_iff s resources _ fonts, dictEntry_none s resources _, fun name => ?_, fun name k d => ⟨fun h => ?_, fun h => ?_⟩⟩
  · rw [fontMapContains, valueAt_eq, Option.isSome_iff_exists]
  · unfold fontMapFind at h
    obtain ⟨v, hv, h⟩ := bind_ok h
    cases v with
    | dict d' =>
      dsimp only at h
      obtain ⟨k', hk, h⟩ := bind_ok h
      cases h
      exact ⟨has_of_treeEntry hv (by simp), (fontKind_iff s d k).mp hk⟩
    | _ => cases h
  · unfold fontMapFind
    rw [treeEntry_of_has h.1, ok_bind]
    dsimp only
    rw [(fontKind_iff s d k).mpr h.2]; rfl

/-- **C105: the character map of a font** is the stream its entry refers to; it is reported missing only if there is no entry. -/
theorem C105_unicode (s : SStore) (d : Dict) :
    (∀ h b, fontUnicode s d = .ok (some (h, b)) ↔ ∃ n g, valueAt (b! "ToUnicode") d = some (.ref n g) ∧ s (n, g) = .stream h b) ∧
    (fontUnicode s d = .ok none ↔ Absent d (b! "ToUnicode")) := by
  refine ⟨fun h b => ⟨fun e => ?_, fun e => ?_⟩, fun e => ?_, fun e => ?_⟩
  · unfold fontUnicode at e
    rw [valueAt_eq]
    split at e
    · cases e
    · rename_i n g hf
      split at e
      · rename_i h' b' hs; cases e; exact ⟨n, g, hf, hs⟩
      · cases e
    · cases e
  · obtain ⟨n, g, h1, h2⟩ := e
    rw [valueAt_eq] at h1
    unfold fontUnicode; rw [h1]; dsimp only; rw [h2]
  · unfold fontUnicode at e
    split at e
    · rename_i hf; exact absent_iff.mpr hf
    · split at e <;> cases e
    · cases e
  · unfold fontUnicode; rw [absent_iff.mp e]

/-- **C105 is false of the node above a page.**  For every page with a proper node above it, asking for that node succeeds, and what is
returned cannot be used: it is of another class than the functions for it expect. -/
theorem C105_parent_counterexample (s : PStore) (page parent : Dict) (hp : HasEntry s page (b! "Parent") (.dict parent))
    (ht : HasEntry s parent (b! "Type") (.name (b! "Pages"))) :
    ∃ h, pageParent s page = .ok h ∧ h.2 = parent ∧ treeHandleCount s h = .error .ub := by
  refine ⟨(.pageTreeNode, parent), ?_, rfl, rfl⟩
  unfold pageParent
  rw [treeEntry_of_has hp, ok_bind]
  dsimp only
  obtain ⟨o, ho⟩ := find_of_has ht
  rw [ho]
  dsimp only
  rw [treeEntry_of_has ht, ok_bind]
  rfl

theorem extensionOf_iff (s : PStore) (o : Obj) (d : Dict) : extensionOf s o = .ok d ↔ IsExtension s o d := by
  constructor
  · intro h
    unfold extensionOf at h
    cases e : derefOne s o with
    | dict d' =>
      rw [e] at h
      dsimp only at h
      unfold extensionObject at h
      obtain ⟨r, hr, h⟩ := bind_ok h
      cases r with
      | none =>
        cases h
        exact ⟨refers_of_derefOne e (by simp), .inl ((nameEntry_none s _ _).mp hr)⟩
      | some n =>
        dsimp only at h
        by_cases hn : n = b! "DeveloperExtensions"
        · rw [if_pos hn] at h; cases h; subst hn
          exact ⟨refers_of_derefOne e (by simp), .inr ((nameEntry_iff s _ _ _).mp hr)⟩
        · rw [if_neg hn] at h; cases h
    | _ => rw [e] at h; cases h
  · rintro ⟨h1, h2⟩
    unfold extensionOf
    rw [derefOne_of_refers h1]
    dsimp only
    unfold extensionObject
    rcases h2 with h2 | h2
    · rw [(nameEntry_none s d _).mpr h2]; rfl
    · rw [(nameEntry_iff s d _ _).mpr h2]; rfl

/-- **C105 (partial): extensions.**  Every entry is shown under its name, and the value is given for exactly those that are extensions;
base version and level are those of the entry.  Missing: dictionaries with a type (below). -/
theorem C105_extensions_partial (s : PStore) (catalog d : Dict) (h : HasEntry s catalog (b! "Extensions") (.dict d)) :
    ∃ l, extensionList s catalog = .ok (some l) ∧ l.map (·.1) = d.map (·.1) ∧
      (∀ (i : Nat) (e : Bytes × Obj), d[i]? = some e → ∃ a : Res Dict, l[i]? = some (e.1, a) ∧ ∀ x, a = .ok x ↔ IsExtension s e.2 x) ∧
      ∀ x, (∀ name v, (name, v) ∈ versionNames → HasEntry s x (b! "BaseVersion") (.name name) → extensionVersion s x = .ok v) ∧
        (∀ n, HasEntry s x (b! "ExtensionLevel") (.int n) → extensionLevel s x = .ok n) := by
  refine ⟨d.map fun e => (e.1, extensionOf s e.2), ?_, ?_, ?_, fun x => ⟨?_, ?_⟩⟩
  · unfold extensionList
    rw [(dictEntry_iff s catalog _ d).mpr h]; rfl
  · simp
  · intro i e he
    refine ⟨extensionOf s e.2, by simp [he], fun x => extensionOf_iff s e.2 x⟩
  · intro name v hv hb
    unfold extensionVersion
    rw [treeEntry_of_has hb, ok_bind]
    exact version_of_name (name, v) hv
  · intro n hn
    obtain ⟨o, ho, hd⟩ := deref_has hn
    unfold extensionLevel boxPart
    rw [ho]; dsimp only; rw [hd]; rfl

/-- **C105: documents without extensions** are reported so. -/
theorem C105_no_extensions (s : PStore) (catalog : Dict) : extensionList s catalog = .ok none ↔ Absent catalog (b! "Extensions") := by
  constructor
  · intro h
    unfold extensionList at h
    obtain ⟨r, hr, h⟩ := bind_ok h
    cases r with
    | none => exact (dictEntry_none s catalog _).mp hr
    | some d => cases h
  · intro h
    unfold extensionList
    rw [(dictEntry_none s catalog _).mpr h]; rfl

/-- **C105 is false of extensions with a type.**  The standard allows a Type entry with the value Extensions; the iteration shows it as
an extension and fails there. -/
theorem C105_type_counterexample (s : PStore) (catalog d : Dict) (n : Bytes) (h : HasEntry s catalog (b! "Extensions") (.dict d))
    (ht : HasEntry s d (b! "Type") (.name n)) :
    ∃ l, extensionList s catalog = .ok (some l) ∧ (b! "Type", .error .throw) ∈ l := by
  refine ⟨d.map fun e => (e.1, extensionOf s e.2), ?_, ?_⟩
  · unfold extensionList
    rw [(dictEntry_iff s catalog _ d).mpr h]; rfl
  · obtain ⟨o, ho, hd⟩ := deref_has ht
    refine List.mem_map.mpr ⟨(b! "Type", o), mapFind_entry ho, ?_⟩
    dsimp only
    unfold extensionOf
    rw [hd]
    rfl

/-! ### Cases -/

/-- A page with resources of its own, one without, and the node above both. -/
def fontStore : PStore := fun r =>
  if r = (1, 0) then .dict [(b! "Type", .name (b! "Pages")), (b! "Resources", .ref 2 0), (b! "Count", .int 2)]
  else if r = (2, 0) then .dict [(b! "Font", .dict [(b! "F1", .ref 3 0)])]
  else if r = (3, 0) then .dict [(b! "Subtype", .name (b! "TrueType")), (b! "Type", .name (b! "Font"))]
  else .null

example : pageResources fontStore [(b! "Parent", .ref 1 0), (b! "Resources", .ref 2 0)] = .ok (some [(b! "Font", .dict [(b! "F1", .ref 3 0)])]) ∧
    fontMapFind fontStore [(b! "F1", .ref 3 0)] (b! "F1") =
      .ok (.trueType, [(b! "Subtype", .name (b! "TrueType")), (b! "Type", .name (b! "Font"))]) := ⟨rfl, rfl⟩

example : HasResources fontStore [(b! "Parent", .ref 1 0)] [(b! "Font", .dict [(b! "F1", .ref 3 0)])] ∧
    pageResources fontStore [(b! "Parent", .ref 1 0)] = .ok none ∧ inheritableResources 5 fontStore [(b! "Parent", .ref 1 0)] = .error .throw :=
  C105_inherited_counterexample fontStore _ _ _ 4 (absent_iff.mpr rfl) ⟨(by intro n g e; cases e), .inr ⟨1, 0, rfl, rfl⟩⟩
    ⟨(by intro n g e; cases e), .inl rfl⟩ (.own _ _ ⟨(by intro n g e; cases e), .inr ⟨2, 0, rfl, rfl⟩⟩)

/-- The extensions of a document of a well-known company, with a type. -/
def sampleExtensions : Dict := [(b! "ADBE", .dict [(b! "BaseVersion", .name (b! "1.7")), (b! "ExtensionLevel", .int 3)]),
  (b! "Type", .name (b! "Extensions"))]

example : ∃ l, extensionList fontStore [(b! "Extensions", .dict sampleExtensions)] = .ok (some l) ∧ (b! "Type", .error .throw) ∈ l :=
  C105_type_counterexample fontStore _ sampleExtensions (b! "Extensions") ⟨(by intro n g e; cases e), .inl rfl⟩
    ⟨(by intro n g e; cases e), .inl rfl⟩

end VPdf
