import Verif.Lemmas.SignForm
import Verif.Props.Annotations

/-! # What signing changes in the document (C118) -/
namespace VPdf
open Spec (Absent HasEntry Refers ListEntry entryRef signedObjects Signable SignedBy BothFlags Occurs Roomy StoredTree StoredTrees Shaped
  ShapedAll pagesOf PageTree SharedName kidRefs)

section Signing

variable {d : NewDoc} {c root p : ObjRef} {kids : List PageTree} {cd pd form : Dict} {annots fields : List Obj} {flags : Int}

/-- **C118 (partial).**  Signing a document with at least one page succeeds.  The document has one signature dictionary and one field
more, both new objects; the field is the last annotation of the first page and the last field of the form, which is made if there was
none; the flags of the form say that there are signatures; all other objects and entries are as before.  Missing: documents in which
the lists are shared or references lead nowhere, and the names of the fields, see the counterexamples. -/
theorem C118_signing_partial (h : Signable d c root p kids cd pd form annots fields flags) (hr : Roomy d.alloc 3) :
    ∃ depth, ∀ f, depth ≤ f → ∀ o, ∃ d' sig w, signForm f true o d = (d', none) ∧
      SignedBy d d' c p sig w cd pd form (signatureObject o) annots fields flags := signForm_spec h hr

theorem find_values (k : Bytes) : ∀ l : List (Bytes × Slot), mapFind k (l.map fun e => (e.1, e.2.value)) = (mapFind k l).map (·.value)
  | [] => rfl
  | (q, x) :: l => by
    show mapFind k ((q, x.value) :: l.map _) = _
    rw [mapFind, mapFind]
    split
    · rfl
    · exact find_values k l

theorem setting_ne {k q : Bytes} {f : Bytes → Obj} {v : Option Bytes} {l : List (Bytes × Slot)} (h : q ≠ k) :
    mapFind q (insertSetting k f v l) = mapFind q l := by
  cases v with
  | none => rfl
  | some v => exact mapFind_insert_ne h

theorem setting_eq {k : Bytes} {f : Bytes → Obj} {v : Option Bytes} {l : List (Bytes × Slot)} (h : mapFind k l = none) :
    mapFind k (insertSetting k f v l) = v.map fun x => ⟨f x, none⟩ := by
  cases v with
  | none => exact h
  | some v => exact mapFind_insert_new h

/-- **C118**, the contents of the signature dictionary: the settings, and nothing for those that are not given. -/
theorem C118_settings (o : SignSettings) :
    mapFind (b! "Type") (signatureObject o) = some (.name (b! "Sig")) ∧
    mapFind (b! "Name") (signatureObject o) = o.name.map .lit ∧ mapFind (b! "Reason") (signatureObject o) = o.reason.map .lit ∧
    mapFind (b! "Location") (signatureObject o) = o.location.map .lit ∧ mapFind (b! "M") (signatureObject o) = o.time.map .lit ∧
    mapFind (b! "Cert") (signatureObject o) = o.certificate.map .hex := by
  unfold signatureObject signatureDict
  dsimp only
  simp only [find_values]
  refine ⟨?_, ?_, ?_, ?_, ?_, ?_⟩
  · simp (disch := decide) only [mapFind_insert_ne, setting_ne]
    rfl
  all_goals
    simp (disch := decide) only [mapFind_insert_ne, setting_ne]
    rw [setting_eq (by simp (disch := decide) only [mapFind_insert_ne, setting_ne]; rfl), Option.map_map]
    rfl

variable {d' : NewDoc} {sig w : ObjRef} {sd : Dict}

/-- **C118**, as the API shows it: the annotation and the field are at the end of the lists, the field is a signature field, and its
value is the signature dictionary. -/
theorem C118_shown (h : SignedBy d d' c p sig w cd pd form sd annots fields flags) :
    ∃ pd' cd' form' wd, dictAt d'.store p = .ok pd' ∧
      pageAnnotations d'.store pd' = .ok (some (annots ++ [.ref w.1 w.2])) ∧
      annotationAt d'.store (annots ++ [.ref w.1 w.2]) annots.length = .ok (wd, .widget) ∧
      dictAt d'.store c = .ok cd' ∧ catalogForm d'.store cd' = .ok (some form') ∧
      fieldList d'.store form' = .ok (some (fields ++ [.ref w.1 w.2])) ∧
      fieldAtIndex d'.store (fields ++ [.ref w.1 w.2]) fields.length = .ok (.signature, wd) ∧
      signatureValue d'.store (.signature, wd) = .ok (some sd) := by
  obtain ⟨wd, w1, w2, w3, _, _, w4, _, w5⟩ := h.widgetAt
  obtain ⟨pd', p1, p2, _⟩ := h.pageNow
  obtain ⟨cd', form', flags', c1, _, c2, _, c3, _⟩ := h.formNow
  have hw : Refers d'.store (.ref w.1 w.2) (.dict wd) := ⟨by simp, .inr ⟨w.1, w.2, rfl, w1⟩⟩
  refine ⟨pd', cd', form', wd, by unfold dictAt; rw [p1], ?_, ?_, by unfold dictAt; rw [c1],
    ((C104_form d'.store cd' form').1 c2), (((C104_form d'.store cd' form').2.2.1 _ c3).1), ?_, ?_⟩
  · obtain ⟨x, hx⟩ := find_of_has p2
    unfold pageAnnotations
    rw [hx]; dsimp only; rw [treeArray_of_has p2]; rfl
  · unfold annotationAt
    rw [List.getElem?_append_right (by omega), Nat.sub_self]
    dsimp only [List.getElem?_cons_zero]
    rw [derefOne_of_refers hw]
    dsimp only
    have hk : annotationKind d'.store wd = .ok .widget := by
      have e1 : treeEntry d'.store wd (b! "Type") = .ok (.name (b! "Annot")) := by unfold treeEntry; rw [w2]
      have e2 : treeEntry d'.store wd (b! "Subtype") = .ok (.name (b! "Widget")) := by unfold treeEntry; rw [w3]
      unfold annotationKind annotationTyped
      simp only [w2, w3, derefOne]
      rfl
    rw [hk]; rfl
  · refine (C104_fields_partial d'.store _ _ _ wd ?_ hw).1 (b! "Sig") .signature ⟨by simp, .inl w4⟩ .signature
    rw [List.getElem?_append_right (by omega), Nat.sub_self]; rfl
  · unfold signatureValue
    rw [if_pos rfl]
    exact dictEntry_of_has ⟨by simp, .inr ⟨sig.1, sig.2, w5, h.signatureAt⟩⟩

/-- **C118**, the fields that were there before: they keep their places, and are what they were if signing does not change their
objects. -/
theorem C118_earlier_fields (h : SignedBy d d' c p sig w cd pd form sd annots fields flags) {i : Nat} {r : ObjRef} {fd : Dict} {n : Bytes}
    (hi : fields[i]? = some (.ref r.1 r.2)) (hf : d.store r = .dict fd) (hr : r ∉ signedObjects p c pd cd form)
    (hn : HasEntry d.store fd (b! "FT") (.name n)) (ht : ∀ q ∈ entryRef fd (b! "FT"), q ∉ signedObjects p c pd cd form) :
    fieldAtIndex d'.store (fields ++ [.ref w.1 w.2]) i = fieldAtIndex d.store fields i := by
  have hlt : i < fields.length := by
    rcases Nat.lt_or_ge i fields.length with hlt | hge
    · exact hlt
    · rw [List.getElem?_eq_none hge] at hi; cases hi
  have h1 : d'.store r = .dict fd := by rw [h.others r (by rw [hf]; simp) hr, hf]
  have h2 : HasEntry d'.store fd (b! "FT") (.name n) := hasEntry_moved hn rfl fun q hq =>
    h.others q (by rw [entryRef_has hn q hq]; simp) (ht q hq)
  have h3 : fieldKind d'.store fd = fieldKind d.store fd := by
    obtain ⟨o, ho⟩ := find_of_has hn
    unfold fieldKind
    rw [ho]
    dsimp only
    rw [treeEntry_of_has h2, treeEntry_of_has hn]
  unfold fieldAtIndex
  rw [List.getElem?_append_left hlt, hi]
  show (match d'.store r with | .dict d => _ | _ => _) = (match d.store r with | .dict d => _ | _ => _)
  rw [h1, hf]
  dsimp only
  rw [h3]

mutual
theorem stored_marked {s s' : PStore} (h : ∀ r x, s r = .dict x → ∃ x', s' r = .dict x' ∧
      ∀ k ∈ [b! "Type", b! "Kids", b! "Count"], mapFind k x' = mapFind k x)
    (t : PageTree) (hs : Shaped s t) (ht : StoredTree s t) : StoredTree s' t := by
  match t with
  | .page r =>
    rw [Shaped] at hs
    rw [StoredTree]
    obtain ⟨x, h1, h2⟩ := hs
    obtain ⟨x', h3, h4⟩ := h r x h1
    exact ⟨x', h3, by simp, .inl ((h4 _ (by simp)).trans h2)⟩
  | .node r kids =>
    rw [Shaped] at hs
    rw [StoredTree] at ht ⊢
    obtain ⟨⟨x, n, h1, h2, h3, h4⟩, h5⟩ := hs
    obtain ⟨⟨y, g1, g2, g3, g4, g5⟩, g6⟩ := ht
    rw [h1] at g1
    cases g1
    obtain ⟨x', k1, k2⟩ := h r x h1
    have hn : (.int (pagesOf kids).length : Obj) = .int n := by
      rcases g4.2 with e | ⟨a, b, e, _⟩
      · exact Option.some.inj (e.symm.trans h4)
      · rw [h4] at e; cases e
    refine ⟨⟨x', k1, ⟨by simp, .inl ((k2 _ (by simp)).trans h2)⟩, ⟨by simp, .inl ((k2 _ (by simp)).trans h3)⟩,
      ⟨by simp, .inl ?_⟩, g5⟩, storeds_marked h kids h5 g6⟩
    rw [hn]
    exact (k2 _ (by simp)).trans h4
theorem storeds_marked {s s' : PStore} (h : ∀ r x, s r = .dict x → ∃ x', s' r = .dict x' ∧
      ∀ k ∈ [b! "Type", b! "Kids", b! "Count"], mapFind k x' = mapFind k x)
    (ts : List PageTree) (hs : ShapedAll s ts) (ht : StoredTrees s ts) : StoredTrees s' ts := by
  match ts with
  | [] => rw [StoredTrees]; trivial
  | t :: ts =>
    rw [ShapedAll] at hs
    rw [StoredTrees] at ht ⊢
    exact ⟨stored_marked h t hs.1 ht.1, storeds_marked h ts hs.2 ht.2⟩
end

/-- **C118**, the pages: the page tree is the same after signing. -/
theorem C118_pages (hs : Signable d c root p kids cd pd form annots fields flags)
    (h : SignedBy d d' c p sig w cd pd form sd annots fields flags) (ht : Shaped d.store (.node root kids)) :
    StoredTree d'.store (.node root kids) := by
  obtain ⟨pd', p1, p2, _, p3⟩ := h.pageNow
  obtain ⟨cd', form', flags', c1, c2, c3, c8, c4, c5, c6, c7⟩ := h.formNow
  refine stored_marked (s := d.store) (fun r x hx => ?_) _ ht hs.tree
  have notList : ∀ {k : Bytes} {dd : Dict} {l : List Obj}, ListEntry d.store dd k l → r ∉ entryRef dd k := by
    intro k dd l hl hr
    rw [entryRef_list hl r hr] at hx; cases hx
  by_cases e1 : r = p
  · subst e1
    rw [hs.pageDict] at hx
    cases hx
    refine ⟨pd', p1, fun k hk => p3 k ?_⟩
    rintro rfl
    revert hk; decide
  by_cases e2 : r = c
  · subst e2
    rw [hs.catalogAt] at hx
    cases hx
    refine ⟨cd', c1, fun k hk => c2 k ?_⟩
    rintro rfl
    revert hk; decide
  by_cases e3 : r ∈ entryRef cd (b! "AcroForm")
  · have hp : ¬ Absent cd (b! "AcroForm") := fun ha => by rw [entryRef_absent ha] at e3; exact nomatch e3
    have hf : HasEntry d.store cd (b! "AcroForm") (.dict form) := hs.formEntry.resolve_left fun z => hp z.1
    rw [entryRef_has hf r e3] at hx
    cases hx
    have hr' := entryRef_has c3 r (by rw [c8 hp]; exact e3)
    refine ⟨form', hr', fun k hk => c7 k ?_ ?_⟩ <;> (rintro rfl; revert hk; decide)
  have e4 : r ∉ entryRef form (b! "SigFlags") := by
    intro hr
    rcases hs.flagsEntry with ⟨z, _⟩ | z
    · rw [entryRef_absent z] at hr; exact nomatch hr
    · rw [entryRef_has z r hr] at hx; cases hx
  refine ⟨x, ?_, fun _ _ => rfl⟩
  rw [h.others r (by rw [hx]; simp) ?_, hx]
  unfold signedObjects
  simp only [List.mem_cons, List.mem_append, not_or]
  exact ⟨e1, e2, ⟨⟨notList hs.annotsList, e3⟩, e4⟩, notList hs.fieldsList⟩

/-- **C118 is false for names**: if the form has a field with the name that signing gives to its field, two fields have the same name
afterwards. -/
theorem C118_names_counterexample (hs : Signable d c root p kids cd pd form annots fields flags)
    (h : SignedBy d d' c p sig w cd pd form sd annots fields flags) {i : Nat} {r : ObjRef} {fd : Dict}
    (hi : fields[i]? = some (.ref r.1 r.2)) (hf : d.store r = .dict fd) (hr : r ∉ signedObjects p c pd cd form)
    (hn : mapFind (b! "T") fd = some (.lit (b! "Signature1"))) : SharedName d'.store (fields ++ [.ref w.1 w.2]) := by
  have hlt : i < fields.length := by
    rcases Nat.lt_or_ge i fields.length with hlt | hge
    · exact hlt
    · rw [List.getElem?_eq_none hge] at hi; cases hi
  obtain ⟨wd, w1, _, _, _, _, _, w4, _⟩ := h.widgetAt
  have hne : r ≠ w := fun e => h.freshWidget (by rw [← e]; exact hs.listed r (by rw [hf]; simp))
  refine ⟨i, fields.length, hlt, .ref r.1 r.2, .ref w.1 w.2, fd, wd, b! "Signature1", ?_, ?_, ?_, ⟨by simp, .inr ⟨r.1, r.2, rfl, ?_⟩⟩,
    ⟨by simp, .inr ⟨w.1, w.2, rfl, w1⟩⟩, ⟨by simp, .inl hn⟩, ⟨by simp, .inl w4⟩⟩
  · rw [List.getElem?_append_left hlt]; exact hi
  · rw [List.getElem?_append_right (by omega), Nat.sub_self]; rfl
  · intro e
    injection e with e1 e2
    exact hne (Prod.ext e1 e2)
  · rw [h.others r (by rw [hf]; simp) hr]; exact hf

end Signing

/-! ### Signing that fails -/

theorem step_keep {α : Type} {G : NewDoc → Prop} {d : NewDoc} {r : Res (α × NewDoc)} {next : α → NewDoc → NewDoc × Option Fault}
    (hd : G d) (h : ∀ a d', r = .ok (a, d') → G (next a d').1) : G (d.step r next).1 := by
  unfold NewDoc.step
  cases r with
  | error e => exact hd
  | ok x => exact h x.1 x.2 rfl

theorem alter_keep {G : NewDoc → Prop} {d : NewDoc} {r : Res PStore} {next : NewDoc → NewDoc × Option Fault}
    (hd : G d) (h : ∀ s, G (next { d with store := s }).1) : G (d.alter r next).1 := by
  unfold NewDoc.alter
  cases r with
  | error e => exact hd
  | ok x => exact h x

/-- The number is in use, and there is room for `k` more. -/
def UsedWith (n k : Nat) (d : NewDoc) : Prop := Occurs d.alloc.chain n ∧ Roomy d.alloc k

theorem allocate_used {n k : Nat} {d d' : NewDoc} {o : Obj} {r : ObjRef} (h : UsedWith n (k + 1) d) (ha : d.allocate o = .ok (r, d')) :
    UsedWith n k d' := by
  obtain ⟨r', a, h1, _, h3, h4⟩ := allocate_new h.2 o
  rw [h1] at ha
  cases ha
  exact ⟨(h4 n).mpr (.inl h.1), h3⟩

theorem UsedWith.less {n k : Nat} {d : NewDoc} (h : UsedWith n (k + 1) d) : UsedWith n k d := ⟨h.1, roomy_mono h.2 (Nat.le_succ k)⟩

theorem catalog_used {n k : Nat} {d d' : NewDoc} {r : ObjRef} (h : UsedWith n (k + 1) d) (ha : signCatalog d = .ok (r, d')) :
    UsedWith n k d' := by
  unfold signCatalog at ha
  split at ha
  · unfold NewDoc.createCatalog at ha
    obtain ⟨o, _, ha⟩ := except_bind_ok ha
    obtain ⟨⟨r', d1⟩, h1, ha⟩ := except_bind_ok ha
    obtain ⟨t, _, ha⟩ := except_bind_ok ha
    cases ha
    have u := allocate_used h h1
    exact ⟨u.1, u.2⟩
  · obtain ⟨x, _, ha⟩ := except_bind_ok ha
    split at ha
    · cases ha; exact h.less
    · obtain ⟨y, _, ha⟩ := except_bind_ok ha
      split at ha
      · split at ha
        · cases ha; exact h.less
        · cases ha
      · cases ha
  · cases ha

theorem target_used {n k : Nat} {d d' : NewDoc} {c : ObjRef} {l : Loc} (h : UsedWith n (k + 1) d)
    (ha : signTarget d c = .ok (l, d')) : UsedWith n k d' := by
  unfold signTarget at ha
  obtain ⟨x, _, ha⟩ := except_bind_ok ha
  split at ha
  · obtain ⟨⟨r', d1⟩, h1, ha⟩ := except_bind_ok ha
    obtain ⟨t, _, ha⟩ := except_bind_ok ha
    obtain ⟨u, _, ha⟩ := except_bind_ok ha
    cases ha
    have u := allocate_used h h1
    exact ⟨u.1, u.2⟩
  · obtain ⟨y, _, ha⟩ := except_bind_ok ha
    split at ha
    · cases ha; exact h.less
    · cases ha

/-- **C118 is false for signing that fails**: whatever the reason, the document has an object more afterwards, with a number that was
free. -/
theorem C118_failure_counterexample {d d' : NewDoc} {f : Nat} {o : SignSettings} {e : Fault} (hr : Roomy d.alloc 4)
    (h : signForm f true o d = (d', some e)) : ∃ n, ¬ Occurs d.alloc.chain n ∧ Occurs d'.alloc.chain n := by
  obtain ⟨sig, a, h1, h2, h3, h4⟩ := allocate_new hr (.dict (signatureObject o))
  refine ⟨sig.1, h2, ?_⟩
  have hd' : d' = (signForm f true o d).1 := by rw [h]
  rw [hd']
  have key : UsedWith sig.1 0 (signForm f true o d).1 := by
    unfold signForm
    rw [if_neg (by simp)]
    rw [step_ok h1]
    have u0 : UsedWith sig.1 3 { d with alloc := a, store := d.store.set sig (.dict (signatureObject o)) } :=
      ⟨(h4 _).mpr (.inr rfl), h3⟩
    refine step_keep (G := UsedWith sig.1 0) u0.less.less.less fun c d1 e1 => ?_
    have u1 := catalog_used u0 e1
    refine step_keep (G := UsedWith sig.1 0) u1.less.less fun p d2 e2 => ?_
    have u2 : UsedWith sig.1 2 d2 := by
      obtain ⟨x, _, e2⟩ := except_bind_ok e2
      cases e2; exact u1
    refine alter_keep (G := UsedWith sig.1 0) u2.less.less fun s3 => ?_
    refine step_keep (G := UsedWith sig.1 0) u2.less.less fun w d4 e4 => ?_
    have u4 : UsedWith sig.1 1 d4 := by
      obtain ⟨x, _, e4⟩ := except_bind_ok e4
      obtain ⟨y, _, e4⟩ := except_bind_ok e4
      exact allocate_used (d := { d2 with store := s3 }) u2 e4
    refine alter_keep (G := UsedWith sig.1 0) u4.less fun s5 => ?_
    refine alter_keep (G := UsedWith sig.1 0) u4.less fun s6 => ?_
    refine step_keep (G := UsedWith sig.1 0) u4.less fun l d7 e7 => ?_
    have u7 : UsedWith sig.1 0 d7 := target_used (d := { d4 with store := s6 }) u4 e7
    refine alter_keep (G := UsedWith sig.1 0) u7 fun s8 => ?_
    refine alter_keep (G := UsedWith sig.1 0) u7 fun s9 => ?_
    refine alter_keep (G := UsedWith sig.1 0) u7 fun s10 => ?_
    refine alter_keep (G := UsedWith sig.1 0) u7 fun s11 => ?_
    exact u7
  exact key.1

/-! ### Samples -/

/-- A document with one page; `annots` and `form` are the values of Annots and AcroForm. -/
def formDoc (annots form : Obj) : NewDoc where
  alloc := ⟨[⟨.table, [⟨0, 65535, .free 0⟩, ⟨1, 0, .used 10⟩, ⟨2, 0, .used 20⟩, ⟨3, 0, .used 30⟩, ⟨4, 0, .used 40⟩,
    ⟨5, 0, .used 50⟩, ⟨6, 0, .used 60⟩], none⟩], 7⟩
  store := fun r =>
    if r = (1, 0) then .dict [(b! "AcroForm", form), (b! "Pages", .ref 2 0), (b! "Type", .name (b! "Catalog"))]
    else if r = (2, 0) then .dict [(b! "Count", .int 1), (b! "Kids", .arr [.ref 3 0]), (b! "Type", .name (b! "Pages"))]
    else if r = (3, 0) then .dict [(b! "Annots", annots), (b! "Type", .name (b! "Page"))]
    else if r = (4, 0) then .arr [.ref 6 0]
    else if r = (5, 0) then .dict [(b! "Fields", .arr [.ref 6 0]), (b! "SigFlags", .int 4)]
    else if r = (6, 0) then .dict [(b! "FT", .name (b! "Tx")), (b! "T", .lit (b! "Signature1"))]
    else .null
  trailer := [(b! "Root", .ref 1 0)]
  handles := []

/-- Settings with a reason only. -/
def formSettings : SignSettings := ⟨none, none, none, some (b! "I agree"), none⟩

theorem formDoc_roomy (a b : Obj) : Roomy (formDoc a b).alloc 4 := by
  refine ⟨by simp [formDoc], ?_, 7, by simp [formDoc], ?_, by decide⟩
  · intro s hs
    simp only [formDoc, List.mem_singleton] at hs
    subst hs
    exact ⟨by simp [Spec.Distinct], fun h hh => by cases hh⟩
  · rintro n ⟨s, hs, e, he, rfl⟩
    simp only [formDoc, List.mem_singleton] at hs
    subst hs
    rcases he with he | ⟨h, hh, _⟩
    · simp only [List.mem_cons, List.not_mem_nil, or_false] at he
      rcases he with rfl | rfl | rfl | rfl | rfl | rfl | rfl <;> decide
    · cases hh

theorem formDoc_listed (a b : Obj) (r : ObjRef) (h : (formDoc a b).store r ≠ .null) : Occurs (formDoc a b).alloc.chain r.1 := by
  have key : r.1 ∈ [1, 2, 3, 4, 5, 6] := by
    unfold formDoc at h
    dsimp only at h
    by_cases h1 : r = (1, 0)
    · subst h1; simp
    by_cases h2 : r = (2, 0)
    · subst h2; simp
    by_cases h3 : r = (3, 0)
    · subst h3; simp
    by_cases h4 : r = (4, 0)
    · subst h4; simp
    by_cases h5 : r = (5, 0)
    · subst h5; simp
    by_cases h6 : r = (6, 0)
    · subst h6; simp
    simp [h1, h2, h3, h4, h5, h6] at h
  simp only [List.mem_cons, List.not_mem_nil, or_false] at key
  rcases key with e | e | e | e | e | e <;> rw [e]
  · exact ⟨_, List.mem_singleton.mpr rfl, ⟨1, 0, .used 10⟩, .inl (by simp), rfl⟩
  · exact ⟨_, List.mem_singleton.mpr rfl, ⟨2, 0, .used 20⟩, .inl (by simp), rfl⟩
  · exact ⟨_, List.mem_singleton.mpr rfl, ⟨3, 0, .used 30⟩, .inl (by simp), rfl⟩
  · exact ⟨_, List.mem_singleton.mpr rfl, ⟨4, 0, .used 40⟩, .inl (by simp), rfl⟩
  · exact ⟨_, List.mem_singleton.mpr rfl, ⟨5, 0, .used 50⟩, .inl (by simp), rfl⟩
  · exact ⟨_, List.mem_singleton.mpr rfl, ⟨6, 0, .used 60⟩, .inl (by simp), rfl⟩

theorem formDoc_shaped (a b : Obj) : Shaped (formDoc a b).store (.node (2, 0) [.page (3, 0)]) := by
  simp [Shaped, ShapedAll, formDoc, kidRefs, mapFind, PageTree.ref]

theorem formDoc_stored (a b : Obj) : StoredTree (formDoc a b).store (.node (2, 0) [.page (3, 0)]) := by
  refine stored_of_counted _ (formDoc_shaped a b) ?_ (by decide)
  simp [Counted, CountedAll, formDoc, mapFind, pagesOf, PageTree.pages]

/-- A form in an object of its own, and annotations in another. -/
theorem formDoc_signable : Signable (formDoc (.ref 4 0) (.ref 5 0)) (1, 0) (2, 0) (3, 0) [.page (3, 0)]
    [(b! "AcroForm", .ref 5 0), (b! "Pages", .ref 2 0), (b! "Type", .name (b! "Catalog"))]
    [(b! "Annots", .ref 4 0), (b! "Type", .name (b! "Page"))] [(b! "Fields", .arr [.ref 6 0]), (b! "SigFlags", .int 4)]
    [.ref 6 0] [.ref 6 0] 4 where
  rootEntry := rfl
  catalogAt := rfl
  catalogType := .inr ⟨by simp, .inl rfl⟩
  pagesEntry := rfl
  tree := formDoc_stored _ _
  first := ⟨[], rfl⟩
  pageDict := rfl
  annotsList := .inr ⟨by simp, .inr ⟨4, 0, rfl, rfl⟩⟩
  formEntry := .inr ⟨by simp, .inr ⟨5, 0, rfl, rfl⟩⟩
  flagsEntry := .inr ⟨by simp, .inl rfl⟩
  fieldsList := .inr ⟨by simp, .inl rfl⟩
  apart := by decide
  listed := formDoc_listed _ _

/-- The hypotheses of the theorems hold for the sample: it is signed, its pages stay, the text field stays, and it then has two fields
with one name. -/
example : ∃ depth, ∀ f, depth ≤ f → ∃ d' w, signForm f true formSettings (formDoc (.ref 4 0) (.ref 5 0)) = (d', none) ∧
    StoredTree d'.store (.node (2, 0) [.page (3, 0)]) ∧
    fieldAtIndex d'.store [.ref 6 0, w] 0 = .ok (.text, [(b! "FT", .name (b! "Tx")), (b! "T", .lit (b! "Signature1"))]) ∧
    SharedName d'.store [.ref 6 0, w] := by
  obtain ⟨n, h⟩ := C118_signing_partial formDoc_signable (roomy_mono (formDoc_roomy _ _) (by omega))
  refine ⟨n, fun f hf => ?_⟩
  obtain ⟨d', sig, w, h1, h2⟩ := h f hf formSettings
  refine ⟨d', .ref w.1 w.2, h1, C118_pages formDoc_signable h2 (formDoc_shaped _ _), ?_,
    C118_names_counterexample formDoc_signable h2 (i := 0) (r := (6, 0)) rfl rfl (by decide) rfl⟩
  have := C118_earlier_fields h2 (i := 0) (r := (6, 0)) rfl rfl (by decide) (n := b! "Tx") ⟨by simp, .inl rfl⟩ (by decide)
  exact this.trans rfl

/-- **C118 is false for shared lists**: when the annotations of the page and the fields of the form are one array, the field is listed
twice in both. -/
theorem C118_shared_counterexample :
    (signForm 2 true formSettings (formDoc (.ref 4 0) (.dict [(b! "Fields", .ref 4 0)]))).2 = none ∧
    (signForm 2 true formSettings (formDoc (.ref 4 0) (.dict [(b! "Fields", .ref 4 0)]))).1.store (4, 0) =
      .arr [.ref 6 0, .ref 8 0, .ref 8 0] := ⟨rfl, rfl⟩

/-- **C118 is false for references that lead nowhere**: a form that does not exist is treated as absent by readers, but signing takes
its number for the signature dictionary, which thereby becomes the form. -/
theorem C118_dangling_counterexample :
    (formDoc (.ref 4 0) (.ref 7 0)).store (7, 0) = .null ∧
    (signForm 2 true formSettings (formDoc (.ref 4 0) (.ref 7 0))).2 = none ∧
    ∃ x, (signForm 2 true formSettings (formDoc (.ref 4 0) (.ref 7 0))).1.store (7, 0) = .dict x ∧
      mapFind (b! "Type") x = some (.name (b! "Sig")) ∧ mapFind (b! "Fields") x = some (.arr [.ref 8 0]) ∧
      mapFind (b! "SigFlags") x = some (.int 3) := ⟨rfl, rfl, _, rfl, rfl, rfl, rfl⟩

/-- The hypotheses of `C118_failure_counterexample` hold: the annotations of the page are no array. -/
example : ∃ n, ¬ Occurs (formDoc (.int 1) (.ref 5 0)).alloc.chain n ∧
    Occurs (signForm 2 true formSettings (formDoc (.int 1) (.ref 5 0))).1.alloc.chain n :=
  C118_failure_counterexample (f := 2) (o := formSettings) (e := .conversion) (formDoc_roomy _ _) rfl

end VPdf
