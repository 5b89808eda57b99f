import Verif.Spec.Annotations
import Verif.Props.NameTree
import Verif.Props.Destinations
/-
  C98: annotations and the destinations of links.
-/
namespace VPdf
open Spec

theorem firstNamed_mem {α : Type} {n : Bytes} {k : α} : ∀ {l : List (Bytes × α)}, firstNamed n l = some k → (n, k) ∈ l := by
  intro l
  induction l with
  | nil => intro h; cases h
  | cons e l ih =>
    intro h
    obtain ⟨m, k'⟩ := e
    rw [firstNamed] at h
    by_cases he : n = m
    · rw [if_pos he] at h
      cases h
      rw [he]
      exact List.mem_cons_self
    · rw [if_neg he] at h
      exact List.mem_cons_of_mem _ (ih h)

theorem annotation_typed {s : PStore} {d : Dict} (h : Absent d (b! "Type") ∨ HasEntry s d (b! "Type") (.name (b! "Annot"))) :
    annotationTyped s d = true := by
  unfold annotationTyped
  rcases h with h | h
  · rw [absent_iff.mp h]
  · obtain ⟨_, h | ⟨n, g, h, h'⟩⟩ := h
    · rw [h]; exact decide_eq_true rfl
    · rw [h]
      dsimp only [derefOne]
      rw [h']
      exact decide_eq_true rfl

theorem deref_has {s : PStore} {d : Dict} {k : Bytes} {v : Obj} (h : HasEntry s d k v) : ∃ o, mapFind k d = some o ∧ derefOne s o = v := by
  obtain ⟨hn, h | ⟨n, g, h, h'⟩⟩ := h
  · exact ⟨v, h, by cases v <;> first | rfl | exact absurd rfl (hn _ _)⟩
  · exact ⟨_, h, h'⟩

theorem annotationKind_of {s : PStore} {d : Dict} {n : Bytes} (h : IsAnnotation s d n) :
    annotationKind s d = match firstNamed n annotationNames with
      | some k => .ok k
      | none => .error .throw := by
  obtain ⟨o, h1, h2⟩ := deref_has h.2
  unfold annotationKind
  rw [if_pos (annotation_typed h.1), h1]
  dsimp only
  rw [h2]
  rfl

/-- **C98 (partial): the kind of an annotation** is the one the standard has for its name, however the entries are stored.
Missing: stamps, trap networks and three-dimensional annotations, for which the claim is false (below). -/
theorem C98_kind_partial (s : PStore) (d : Dict) (name : Bytes) (k : AnnotKind) (h : IsAnnotation s d name)
    (hk : (name, k) ∈ isoAnnotations) (hn : name ∉ [b! "Stamp", b! "TrapNet", b! "3D"]) : annotationKind s d = .ok k := by
  have hall : ∀ e ∈ isoAnnotations, e.1 ∉ [b! "Stamp", b! "TrapNet", b! "3D"] → firstNamed e.1 annotationNames = some e.2 := by
    decide +kernel
  rw [annotationKind_of h, show firstNamed name annotationNames = some k from hall (name, k) hk hn]

/-- The hypotheses of `C98_kind_partial` are met by an annotation whose subtype is stored elsewhere. -/
example : IsAnnotation (fun r => if r = (4, 0) then .name (b! "Link") else .null)
    [(b! "Subtype", .ref 4 0), (b! "Type", .name (b! "Annot"))] (b! "Link") :=
  ⟨.inr ⟨by simp, .inl rfl⟩, ⟨by simp, .inr ⟨4, 0, rfl, rfl⟩⟩⟩

/-- **C98: no other kinds.**  An annotation with a kind has a name of the standard, or one of three names the standard does not have, and
the kind belongs to this name. -/
theorem C98_kind_only (s : PStore) (d : Dict) (k : AnnotKind) (h : annotationKind s d = .ok k) :
    ∃ name, (∃ o, valueAt (b! "Subtype") d = some o ∧ derefOne s o = .name name) ∧
      ((name, k) ∈ isoAnnotations ∨
        (name, k) ∈ [(b! "RubberStamp", AnnotKind.rubberStamp), (b! "TrapNetwork", .trapNetwork), (b! "TripleD", .tripleD)]) := by
  unfold annotationKind at h
  split at h
  · cases ho : mapFind (b! "Subtype") d with
    | none => rw [ho] at h; cases h
    | some o =>
      rw [ho] at h
      dsimp only at h
      cases hv : derefOne s o with
      | name n =>
        rw [hv] at h
        dsimp only at h
        cases hk : firstNamed n annotationNames with
        | none => rw [hk] at h; cases h
        | some k' =>
          rw [hk] at h
          cases h
          have hall : ∀ e ∈ annotationNames, e ∈ isoAnnotations ∨
              e ∈ [(b! "RubberStamp", AnnotKind.rubberStamp), (b! "TrapNetwork", .trapNetwork), (b! "TripleD", .tripleD)] := by
            decide +kernel
          exact ⟨n, ⟨o, by rw [valueAt_eq]; exact ho, hv⟩, hall _ (firstNamed_mem hk)⟩
      | _ => rw [hv] at h; cases h
  · cases h

/-- **C98 is false of three kinds.**  Every stamp, every trap network and every three-dimensional annotation of the standard is
refused. -/
theorem C98_kind_counterexample (s : PStore) (d : Dict) (name : Bytes) (h : IsAnnotation s d name)
    (hn : name ∈ [b! "Stamp", b! "TrapNet", b! "3D"]) : annotationKind s d = .error .throw := by
  have hall : ∀ n ∈ [b! "Stamp", b! "TrapNet", b! "3D"], firstNamed n annotationNames = none := by decide +kernel
  rw [annotationKind_of h, hall name hn]

/-- A stamp. -/
example : IsAnnotation (fun _ => .null) [(b! "Subtype", .name (b! "Stamp"))] (b! "Stamp") :=
  ⟨.inl (by intro v; simp), ⟨by simp, .inl rfl⟩⟩

/-- **C98: pages without annotations.** -/
theorem C98_none (s : PStore) (page : Dict) (h : Absent page (b! "Annots")) : pageAnnotations s page = .ok none := by
  unfold pageAnnotations
  rw [absent_iff.mp h]

/-- The empty page. -/
example : Absent [] (b! "Annots") := absent_iff.mpr rfl

/-- **C98: the annotations of a page.**  They are those of its array, in its order: as many, and each with its own dictionary. -/
theorem C98_page (s : PStore) (page : Dict) (l : List Obj) (h : HasEntry s page (b! "Annots") (.arr l)) :
    pageAnnotations s page = .ok (some l) ∧
    ∀ i o d k, l[i]? = some o → Refers s o (.dict d) → (annotationAt s l i = .ok (d, k) ↔ annotationKind s d = .ok k) := by
  refine ⟨?_, fun i o d k hi ho => ?_⟩
  · obtain ⟨o, ho, _⟩ := deref_has h
    unfold pageAnnotations
    rw [ho, treeArray_of_has h]
    rfl
  · unfold annotationAt
    rw [hi]
    dsimp only
    rw [derefOne_of_refers ho]
    dsimp only
    cases annotationKind s d with
    | error e => exact ⟨fun h => (by cases h), fun h => (by cases h)⟩
    | ok k' =>
      exact ⟨fun h => by cases h; rfl, fun h => by cases h; rfl⟩

theorem dictEntry_of_has {s : PStore} {d x : Dict} {k : Bytes} (h : HasEntry s d k (.dict x)) : dictEntry s d k = .ok (some x) := by
  obtain ⟨o, ho, _⟩ := deref_has h
  unfold dictEntry
  rw [ho, treeEntry_of_has h]
  rfl

theorem createDestination_shows {s : SStore} {o : Obj} {page : ObjRef} {kind : Bytes} {params : List Obj}
    (h : DestShows s o page (.name kind :: params)) :
    createDestination (pageView s) (derefOne (pageView s) o) = .ok (.ref page.1 page.2, kind) := by
  obtain ⟨v, h1, h2⟩ := h
  rw [behind_deref h1]
  cases h2 with
  | array n g k params hk =>
    unfold createDestination destinationArray
    rw [ok_bind]
    exact if_pos hk
  | dict d n g k params hk hd =>
    rw [valueAt_eq] at hd
    unfold createDestination destinationArray treeArray treeEntry
    simp only [hd]
    exact if_pos hk

/-- **C98: where a link leads.**  A link whose destination stands in it, or is named by a string of the name tree or by a name of the
dictionary of destinations, leads to the page and the kind of view of this destination. -/
theorem C98_link (s : SStore) (catalog d : Dict) (page : ObjRef) (kind : Bytes) (params : List Obj)
    (h : LinkLeads s catalog d page (.name kind :: params)) :
    ∃ n, ∀ f, n ≤ f → linkDestination f (pageView s) (some catalog) d = .ok (some (.ref page.1 page.2, kind)) := by
  cases h with
  | here o ho hs =>
    refine ⟨0, fun f _ => ?_⟩
    rw [valueAt_eq] at ho
    have hc := createDestination_shows hs
    obtain ⟨v, h1, h2⟩ := hs
    rw [behind_deref h1] at hc
    unfold linkDestination
    rw [ho]
    dsimp only
    rw [behind_deref h1]
    cases h2 <;> (dsimp only; rw [hc]; rfl)
  | string o v k ho hk hn hs =>
    obtain ⟨names, root, hn, hr, hroot, hu, he⟩ := hn
    rw [valueAt_eq] at ho
    obtain ⟨n1, h1⟩ := C78_contains _ root hroot
    obtain ⟨n2, h2⟩ := C78_find _ root hroot hu
    refine ⟨max n1 n2, fun f hf => ?_⟩
    obtain ⟨b, hb, hb'⟩ := h1 f (Nat.le_trans (Nat.le_max_left _ _) hf) k
    have hfind := ((h2 f (Nat.le_trans (Nat.le_max_right _ _) hf) k).1 v).mpr he
    have hbt : b = true := hb'.mpr ⟨v, he⟩
    rw [hbt] at hb
    have hstr : stringDestination f (pageView s) catalog k = .ok (some (.ref page.1 page.2, kind)) := by
      unfold stringDestination
      rw [dictEntry_of_has hn, ok_bind]
      dsimp only
      rw [dictEntry_of_has hr, ok_bind]
      dsimp only
      rw [hb, ok_bind, if_pos rfl, hfind, ok_bind, createDestination_shows hs]
      rfl
    unfold linkDestination
    rw [ho]
    dsimp only
    rcases (isString_key hk).2 with e | e <;> (rw [e]; exact hstr)
  | name k v hd hn hs =>
    refine ⟨0, fun f _ => ?_⟩
    obtain ⟨o, ho, hv⟩ := deref_has hd
    obtain ⟨dests, hds, hm⟩ := hn
    rw [valueAt_eq] at hm
    unfold linkDestination
    rw [ho]
    dsimp only
    rw [hv]
    dsimp only
    unfold nameDestination
    rw [dictEntry_of_has hds, ok_bind]
    dsimp only
    rw [hm, if_pos (show (some v).isSome = true from rfl)]
    unfold findDestination
    rw [hm]
    dsimp only
    rw [createDestination_shows hs]
    rfl

/-- **C98: links that lead nowhere** are reported to have no destination: those without one, and those with a string that the tree of
the document does not have or a name that its dictionary does not have. -/
theorem C98_nowhere (s : PStore) (catalog d : Dict) :
    (Absent d (b! "Dest") → ∀ f c, linkDestination f s c d = .ok none) ∧
    (∀ o k names root, valueAt (b! "Dest") d = some o → IsString s o k → HasEntry s catalog (b! "Names") (.dict names) →
      HasEntry s names (b! "Dests") (.dict root) → NameRoot s root → (¬ ∃ v, TreeEntry s root k v) →
      ∃ n, ∀ f, n ≤ f → linkDestination f s (some catalog) d = .ok none) ∧
    ∀ k dests, HasEntry s d (b! "Dest") (.name k) → HasEntry s catalog (b! "Dests") (.dict dests) → Absent dests k →
      ∀ f, linkDestination f s (some catalog) d = .ok none := by
  refine ⟨fun h f c => ?_, fun o k names root ho hk hn hr hroot he => ?_, fun k dests hd hds ha f => ?_⟩
  · unfold linkDestination
    rw [absent_iff.mp h]
  · rw [valueAt_eq] at ho
    obtain ⟨n1, h1⟩ := C78_contains _ root hroot
    refine ⟨n1, fun f hf => ?_⟩
    obtain ⟨b, hb, hb'⟩ := h1 f hf k
    have hbf : b = false := by
      cases b
      · rfl
      · exact absurd (hb'.mp rfl) he
    rw [hbf] at hb
    have hstr : stringDestination f s catalog k = .ok none := by
      unfold stringDestination
      rw [dictEntry_of_has hn, ok_bind]
      dsimp only
      rw [dictEntry_of_has hr, ok_bind]
      dsimp only
      rw [hb, ok_bind, if_neg (by simp)]
      rfl
    unfold linkDestination
    rw [ho]
    dsimp only
    rcases (isString_key hk).2 with e | e <;> (rw [e]; exact hstr)
  · obtain ⟨o, ho, hv⟩ := deref_has hd
    unfold linkDestination
    rw [ho]
    dsimp only
    rw [hv]
    dsimp only
    unfold nameDestination
    rw [dictEntry_of_has hds, ok_bind]
    dsimp only
    rw [absent_iff.mp ha]
    rfl

/-- A document with names of both kinds: `start` in the tree leads to the page 2, `last` in the dictionary to the page 3. -/
def linkedCatalog : Dict :=
  [(b! "Dests", .dict namedNames), (b! "Names", .dict [(b! "Dests", .dict [(b! "Names", .arr [.lit (b! "start"), .ref 4 0])])])]

/-- A link with a string of the tree; the string is stored as hexadecimal. -/
example : LinkLeads namedSource linkedCatalog [(b! "Dest", .hex (b! "start"))] (2, 0) [.name (b! "FitH"), .int 7] := by
  refine .string (.hex (b! "start")) (.ref 4 0) (b! "start") rfl (.inr ⟨by simp, .inl rfl⟩) ?_ ?_
  · have hnames : HasEntry (pageView namedSource) [(b! "Names", .arr [.lit (b! "start"), .ref 4 0])] (b! "Names")
        (.arr [.lit (b! "start"), .ref 4 0]) := ⟨by simp, .inl rfl⟩
    have hkey : ∀ i ko, [Obj.lit (b! "start"), .ref 4 0][2 * i]? = some ko → i = 0 ∧ ko = .lit (b! "start") := by
      intro i ko h
      match i with
      | 0 => exact ⟨rfl, by cases h; rfl⟩
      | j + 1 => rw [List.getElem?_eq_none (by simp only [List.length_cons, List.length_nil]; omega)] at h; cases h
    have hab : Absent [(b! "Names", Obj.arr [.lit (b! "start"), .ref 4 0])] (b! "Kids") := by
      intro v; simp
    refine ⟨_, _, ⟨by simp, .inl rfl⟩, ⟨by simp, .inl rfl⟩, .inl ⟨hab, .inr ⟨_, hnames, fun i ko h => ?_⟩⟩, ?_, ?_⟩
    · exact ⟨b! "start", by rw [(hkey i ko h).2]; exact .inl ⟨by simp, .inl rfl⟩⟩
    · have huniq : ∀ k v, TreeEntry (pageView namedSource) [(b! "Names", .arr [.lit (b! "start"), .ref 4 0])] k v → v = .ref 4 0 := by
        intro k v h
        cases h with
        | here _ l _ _ h1 h2 =>
          obtain ⟨i, ko, hi, hv, _⟩ := h2
          rw [← hasEntry_inj hnames h1] at hi hv
          rw [(hkey i ko hi).1] at hv
          cases hv
          rfl
        | kid _ l o d' _ _ h1 =>
          have := hasEntry_isSome h1
          rw [absent_iff.mp hab] at this
          cases this
      intro k v w hv hw
      rw [huniq k v hv, huniq k w hw]
    · exact .here _ _ _ _ hnames ⟨0, _, rfl, rfl, .inl ⟨by simp, .inl rfl⟩⟩
  · exact ⟨_, rfl, .dict _ 2 0 (b! "FitH") [.int 7] (by decide +kernel) rfl⟩

/-- A link with a name of the dictionary. -/
example : LinkLeads namedSource linkedCatalog [(b! "Dest", .name (b! "last"))] (3, 0) [.name (b! "Fit")] :=
  .name (b! "last") _ ⟨by simp, .inl rfl⟩ ⟨_, ⟨by simp, .inl rfl⟩, rfl⟩ ⟨_, rfl, .array 3 0 (b! "Fit") [] (by decide +kernel)⟩

end VPdf
