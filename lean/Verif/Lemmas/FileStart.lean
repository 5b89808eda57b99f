import Verif.Spec.FileStart
import Verif.Lemmas.NameTree
import Verif.Lemmas.Parse
/-
  What `initializeFile` exempts from encryption.
-/
namespace VPdf
open Spec

/-- The state knows whether the file is encrypted. -/
def Knows (F : ProtectedFile) (s : FileState) : Prop := s.encrypted = true ↔ Protected F

theorem readObject_at_once {F : ProtectedFile} {s : FileState} {r : ObjRef} (hs : Knows F s) (h : ReadableAtOnce F r) :
    readObject F s r = F.objs r := by
  rw [readObject]
  rcases h with h | h | h
  · simp [h]
  · have : s.encrypted = false := by
      cases e : s.encrypted with
      | false => rfl
      | true => exact absurd (hs.mp e) h
    simp [this]
  · rw [h]; split <;> rfl

theorem readObject_ok {F : ProtectedFile} {s : FileState} {r : ObjRef} {v : Obj} (hs : Knows F s) (hu : s.unlocked = false)
    (h : readObject F s r = .ok v) : ReadableAtOnce F r ∧ F.objs r = .ok v := by
  rw [readObject] at h
  by_cases c : (s.encrypted && F.packed r && !s.unlocked) = true
  · rw [if_pos c] at h
    split at h
    · exact ⟨.inr (.inr ‹_›), h⟩
    · cases h
    · cases h
  · rw [if_neg c] at h
    refine ⟨?_, h⟩
    rw [hu] at c
    cases e : F.packed r with
    | false => exact .inl e
    | true =>
      refine .inr (.inl fun hp => ?_)
      rw [hs.mpr hp, e] at c
      exact c rfl

theorem followRef_of_stands {F : ProtectedFile} {s : FileState} {p q : Spot} {o v : Obj} (hs : Knows F s)
    (h : Rests F p o q v) : followRef F s (p, o) = .ok (q, v) := by
  cases h with
  | here _ hv =>
    cases o with
    | ref n g => exact absurd rfl (hv n g)
    | _ => rfl
  | refers n g =>
    rename_i hr ho hv
    simp only [followRef, readObject_at_once hs hr, ho]
    rfl

theorem rests_of_followRef {F : ProtectedFile} {s : FileState} {p q : Spot} {o v : Obj} (hs : Knows F s)
    (hu : s.unlocked = false) (hv : ∀ n g, v ≠ .ref n g) (h : followRef F s (p, o) = .ok (q, v)) : Rests F p o q v := by
  cases o with
  | ref n g =>
    simp only [followRef] at h
    cases e : readObject F s (n, g) with
    | error x => rw [e] at h; cases h
    | ok w =>
      rw [e] at h
      cases h
      obtain ⟨a, b⟩ := readObject_ok hs hu e
      exact .refers p n g v a b hv
  | _ => cases h; exact .here p _ hv

theorem entryAt_of {F : ProtectedFile} {s : FileState} {p q : Spot} {d : Dict} {k : Bytes} {v : Obj} (hs : Knows F s)
    (h : EntryAt F p d k q v) : entryAt F s p d k = .ok (q, v) ∧ (mapFind k d).isNone = false := by
  obtain ⟨o, ho, h⟩ := h
  rw [valueAt_eq] at ho
  simp [entryAt, ho, followRef_of_stands hs h]

theorem entryAt_spec {F : ProtectedFile} {s : FileState} {p q : Spot} {d : Dict} {k : Bytes} {v : Obj} (hs : Knows F s)
    (hu : s.unlocked = false) (hv : ∀ n g, v ≠ .ref n g) (h : entryAt F s p d k = .ok (q, v)) : EntryAt F p d k q v := by
  rw [entryAt] at h
  cases e : mapFind k d with
  | none => rw [e] at h; cases h
  | some o =>
    rw [e] at h
    exact ⟨o, (valueAt_eq k d).trans e, rests_of_followRef hs hu hv h⟩

theorem isNone_of_absent {d : Dict} {k : Bytes} (h : Absent d k) : (mapFind k d).isNone = true := by
  rw [absent_iff.mp h]; rfl

theorem absent_of_isNone {d : Dict} {k : Bytes} (h : (mapFind k d).isNone = true) : Absent d k :=
  absent_iff.mpr (by cases e : mapFind k d with | none => rfl | some _ => rw [e] at h; cases h)

/-- What `exemptField` finds is the contents of a signature field. -/
def FieldContents (F : ProtectedFile) (p : Spot) (o : Obj) (c : Spot) : Prop :=
  ∃ y d r q v stored, Rests F p o y (.dict d) ∧ EntryAt F y d (b! "FT") r (.name (b! "Sig")) ∧
    EntryAt F y d (b! "V") q (.dict v) ∧ EntryAt F q v (b! "Contents") c (.hex stored)

theorem exemptField_of {F : ProtectedFile} {s : FileState} {p c : Spot} {o : Obj} (hs : Knows F s)
    (h : FieldContents F p o c) : exemptField F s (p, o) = .ok (some c) := by
  obtain ⟨y, d, r, q, v, stored, h1, h2, h3, h4⟩ := h
  have e1 := followRef_of_stands hs h1
  obtain ⟨e2, n2⟩ := entryAt_of hs h2
  obtain ⟨e3, n3⟩ := entryAt_of hs h3
  obtain ⟨e4, n4⟩ := entryAt_of hs h4
  rw [exemptField, e1]
  simp [bind, Except.bind, e2, n2, e3, n3, e4, n4, pure, Except.pure]

theorem exemptField_spec {F : ProtectedFile} {s : FileState} {p c : Spot} {o : Obj} (hs : Knows F s) (hu : s.unlocked = false)
    (h : exemptField F s (p, o) = .ok (some c)) : FieldContents F p o c := by
  rw [exemptField] at h
  cases e1 : followRef F s (p, o) with
  | error x => rw [e1] at h; cases h
  | ok y =>
    obtain ⟨y, w⟩ := y
    rw [e1] at h
    simp only [bind, Except.bind, pure, Except.pure] at h
    cases w with
    | dict d =>
      simp only at h
      by_cases n2 : (mapFind (b! "FT") d).isNone = true
      · rw [if_pos n2] at h; cases h
      · rw [if_neg n2] at h
        cases e2 : entryAt F s y d (b! "FT") with
        | error x => rw [e2] at h; cases h
        | ok z =>
          obtain ⟨r, w⟩ := z
          rw [e2] at h
          cases w with
          | name t =>
            simp only at h
            by_cases ht : t = b! "Sig"
            · rw [if_neg (by simpa using ht)] at h
              subst ht
              by_cases n3 : (mapFind (b! "V") d).isNone = true
              · rw [if_pos n3] at h; cases h
              · rw [if_neg n3] at h
                cases e3 : entryAt F s y d (b! "V") with
                | error x => rw [e3] at h; cases h
                | ok z =>
                  obtain ⟨q, w⟩ := z
                  rw [e3] at h
                  cases w with
                  | dict v =>
                    simp only at h
                    by_cases n4 : (mapFind (b! "Contents") v).isNone = true
                    · rw [if_pos n4] at h; cases h
                    · rw [if_neg n4] at h
                      cases e4 : entryAt F s q v (b! "Contents") with
                      | error x => rw [e4] at h; cases h
                      | ok z =>
                        obtain ⟨c', w⟩ := z
                        rw [e4] at h
                        cases w with
                        | hex stored =>
                          cases h
                          exact ⟨y, d, r, q, v, stored, rests_of_followRef hs hu (by intro n g h; cases h) e1,
                            entryAt_spec hs hu (by intro n g h; cases h) e2, entryAt_spec hs hu (by intro n g h; cases h) e3,
                            entryAt_spec hs hu (by intro n g h; cases h) e4⟩
                        | _ => cases h
                  | _ => cases h
            · rw [if_pos ht] at h; cases h
          | _ => cases h
    | _ => cases h

theorem exemptField_proper {F : ProtectedFile} {s : FileState} {p : Spot} {o : Obj} (hs : Knows F s)
    (h : ProperField F p o) : ∃ c, exemptField F s (p, o) = .ok c := by
  obtain ⟨q, v, h1, h⟩ := h
  have e1 := followRef_of_stands hs h1
  rw [exemptField, e1]
  simp only [bind, Except.bind, pure, Except.pure]
  cases v with
  | dict d =>
    simp only
    rcases h d rfl with h2 | ⟨r, t, h2, h⟩
    · exact ⟨_, by rw [if_pos (isNone_of_absent h2)]⟩
    · obtain ⟨e2, n2⟩ := entryAt_of hs h2
      simp only [n2, e2, Bool.false_eq_true, if_false]
      by_cases ht : t = b! "Sig"
      · rw [if_neg (by simpa using ht)]
        rcases h ht with h3 | ⟨r', x, h3, h4⟩
        · exact ⟨_, by rw [if_pos (isNone_of_absent h3)]⟩
        · obtain ⟨e3, n3⟩ := entryAt_of hs h3
          simp only [n3, e3, Bool.false_eq_true, if_false]
          rcases h4 with h4 | ⟨c, bytes, h4⟩
          · exact ⟨_, by rw [if_pos (isNone_of_absent h4)]⟩
          · obtain ⟨e4, n4⟩ := entryAt_of hs h4
            simp only [n4, e4, Bool.false_eq_true, if_false]
            exact ⟨_, rfl⟩
      · exact ⟨_, by rw [if_pos ht]⟩
  | _ => exact ⟨_, rfl⟩

theorem exemptFields_facts (F : ProtectedFile) (s : FileState) (p : Spot) : ∀ (l : List Obj) (i : Nat),
    ((∀ j o, l[j]? = some o → ∃ c, exemptField F s (p.child (.index (i + j)), o) = .ok c) →
      (exemptFields F s p i l).1 = .ok () ∧
      ∀ j o c, l[j]? = some o → exemptField F s (p.child (.index (i + j)), o) = .ok (some c) → c ∈ (exemptFields F s p i l).2) ∧
    ∀ c ∈ (exemptFields F s p i l).2, ∃ j o, l[j]? = some o ∧
      exemptField F s (p.child (.index (i + j)), o) = .ok (some c) := by
  intro l
  induction l with
  | nil => intro i; exact ⟨fun _ => ⟨rfl, by intro j o c h; simp at h⟩, by intro c h; cases h⟩
  | cons o l ih =>
    intro i
    obtain ⟨ih1, ih2⟩ := ih (i + 1)
    have shift : ∀ j, i + 1 + j = i + (j + 1) := by omega
    rw [exemptFields]
    constructor
    · intro h
      obtain ⟨c0, h0⟩ := h 0 o rfl
      obtain ⟨a, b⟩ := ih1 fun j o' ho => by rw [shift]; exact h (j + 1) o' ho
      simp only [Nat.add_zero] at h0
      rw [h0]
      cases c0 with
      | none =>
        refine ⟨a, ?_⟩
        intro j o' c ho hc
        cases j with
        | zero => cases ho; simp only [Nat.add_zero] at hc; rw [h0] at hc; cases hc
        | succ j => exact b j o' c ho (by rw [shift]; exact hc)
      | some c0 =>
        refine ⟨a, ?_⟩
        intro j o' c ho hc
        cases j with
        | zero => cases ho; simp only [Nat.add_zero] at hc; rw [h0] at hc; cases hc; exact .head _
        | succ j => exact .tail _ (b j o' c ho (by rw [shift]; exact hc))
    · intro c hc
      cases e : exemptField F s (p.child (.index i), o) with
      | error x => rw [e] at hc; cases hc
      | ok c0 =>
        rw [e] at hc
        cases c0 with
        | none =>
          obtain ⟨j, o', ho, hj⟩ := ih2 c hc
          exact ⟨j + 1, o', ho, by rw [← shift]; exact hj⟩
        | some c0 =>
          simp only [List.mem_cons] at hc
          rcases hc with rfl | hc
          · exact ⟨0, o, rfl, e⟩
          · obtain ⟨j, o', ho, hj⟩ := ih2 c hc
            exact ⟨j + 1, o', ho, by rw [← shift]; exact hj⟩

theorem mem_exemptStreams (ps : List TrailerPart) : ∀ (i : Nat) (q : Spot), q ∈ exemptStreams i ps ↔
    ∃ j part, ps[j]? = some part ∧ part.stream = true ∧ q = ⟨.trailer (i + j), []⟩ := by
  induction ps with
  | nil => intro i q; simp [exemptStreams]
  | cons p ps ih =>
    intro i q
    rw [exemptStreams]
    have shift : ∀ j, i + 1 + j = i + (j + 1) := by omega
    constructor
    · intro h
      split at h
      · rcases List.mem_cons.mp h with rfl | h
        · exact ⟨0, p, rfl, ‹_›, rfl⟩
        · obtain ⟨j, part, a, b, c⟩ := (ih (i + 1) q).mp h
          exact ⟨j + 1, part, a, b, by rw [c, shift]⟩
      · obtain ⟨j, part, a, b, c⟩ := (ih (i + 1) q).mp h
        exact ⟨j + 1, part, a, b, by rw [c, shift]⟩
    · rintro ⟨j, part, a, b, c⟩
      cases j with
      | zero => cases a; rw [if_pos b, c]; exact .head _
      | succ j =>
        have := (ih (i + 1) q).mpr ⟨j, part, a, b, by rw [c, shift]⟩
        split
        · exact .tail _ this
        · exact this

theorem mem_exemptIds (ps : List TrailerPart) : ∀ (i : Nat) (q : Spot), q ∈ exemptIds i ps ↔
    ∃ j part o, ps[j]? = some part ∧ valueAt (b! "ID") part.trailer = some o ∧ q = ⟨.trailer (i + j), [.key (b! "ID")]⟩ := by
  induction ps with
  | nil => intro i q; simp [exemptIds]
  | cons p ps ih =>
    intro i q
    rw [exemptIds]
    have shift : ∀ j, i + 1 + j = i + (j + 1) := by omega
    constructor
    · intro h
      split at h
      · rcases List.mem_cons.mp h with rfl | h
        · obtain ⟨o, ho⟩ := Option.isSome_iff_exists.mp ‹_›
          exact ⟨0, p, o, rfl, (valueAt_eq _ _).trans ho, rfl⟩
        · obtain ⟨j, part, o, a, b, c⟩ := (ih (i + 1) q).mp h
          exact ⟨j + 1, part, o, a, b, by rw [c, shift]⟩
      · obtain ⟨j, part, o, a, b, c⟩ := (ih (i + 1) q).mp h
        exact ⟨j + 1, part, o, a, b, by rw [c, shift]⟩
    · rintro ⟨j, part, o, a, b, c⟩
      cases j with
      | zero =>
        cases a
        rw [valueAt_eq] at b
        rw [if_pos (by rw [b]; rfl), c]
        exact .head _
      | succ j =>
        have := (ih (i + 1) q).mpr ⟨j, part, o, a, b, by rw [c, shift]⟩
        split
        · exact .tail _ this
        · exact this

theorem isExempt_iff (F : ProtectedFile) (s : FileState) (p : Spot) : isExempt F s p = true ↔
    (∃ q ∈ s.exempt, Within p q) ∨ ∃ r, p.home = .object r ∧ F.packed r = true := by
  rw [isExempt, Bool.or_eq_true]
  refine or_congr ?_ ?_
  · rw [List.any_eq_true]
    refine exists_congr fun q => and_congr_right fun _ => ?_
    rw [Bool.and_eq_true, beq_iff_eq, List.isPrefixOf_iff_prefix]
    exact ⟨fun ⟨a, more, b⟩ => ⟨a.symm, more, b.symm⟩, fun ⟨a, more, b⟩ => ⟨a.symm, more, b.symm⟩⟩
  · cases h : p.home with
    | trailer i => simp
    | object r => simp

/-- The form, as `formFields` finds it. -/
theorem formFields_of {F : ProtectedFile} {s : FileState} {part : TrailerPart} {ps : List TrailerPart} (hs : Knows F s)
    (hu : s.unlocked = false) (hp : F.parts = part :: ps) :
    (ProperForm F part.trailer → formFields F s part.trailer = .ok none ∨ ∃ r l, FormAt F r l ∧
      formFields F s part.trailer = .ok (some (r, l)) ∧ ∀ i o, l[i]? = some o → ProperField F (r.child (.index i)) o) ∧
    (∀ r l, FormAt F r l → formFields F s part.trailer = .ok (some (r, l))) ∧
    ∀ r l, formFields F s part.trailer = .ok (some (r, l)) → FormAt F r l := by
  refine ⟨?_, ?_, ?_⟩
  · rintro (h | ⟨p, root, h1, h⟩)
    · left; rw [formFields, absent_iff.mp h]; rfl
    obtain ⟨o, ho, h1'⟩ := id h1
    rw [valueAt_eq] at ho
    have e1 := followRef_of_stands hs h1'
    rw [formFields, ho]
    simp only [bind, Except.bind, pure, Except.pure]
    rw [show followRef F s (⟨Home.trailer 0, [.key (b! "Root")]⟩, o) = _ from e1]
    simp only
    rcases h with h | ⟨q, form, h2, h⟩
    · left; rw [if_pos (isNone_of_absent h)]
    obtain ⟨e2, n2⟩ := entryAt_of hs h2
    simp only [n2, e2, Bool.false_eq_true, if_false]
    rcases h with h | ⟨r, l, h3, h⟩
    · left; rw [if_pos (isNone_of_absent h)]
    obtain ⟨e3, n3⟩ := entryAt_of hs h3
    simp only [n3, e3, Bool.false_eq_true, if_false]
    exact .inr ⟨r, l, ⟨part, ps, p, root, q, form, hp, h1, h2, h3⟩, rfl, h⟩
  · rintro r l ⟨part', ps', p, root, q, form, hp', ⟨o, ho, h1⟩, h2, h3⟩
    rw [hp] at hp'
    cases hp'
    rw [valueAt_eq] at ho
    have e1 := followRef_of_stands hs h1
    obtain ⟨e2, n2⟩ := entryAt_of hs h2
    obtain ⟨e3, n3⟩ := entryAt_of hs h3
    rw [formFields, ho]
    simp only [bind, Except.bind, pure, Except.pure]
    rw [show followRef F s (⟨Home.trailer 0, [.key (b! "Root")]⟩, o) = _ from e1]
    simp only [n2, e2, n3, e3, Bool.false_eq_true, if_false]
  · intro r l h
    rw [formFields] at h
    cases ho : mapFind (b! "Root") part.trailer with
    | none => rw [ho] at h; cases h
    | some o =>
      rw [ho] at h
      simp only [bind, Except.bind, pure, Except.pure] at h
      cases e1 : followRef F s (⟨Home.trailer 0, [.key (b! "Root")]⟩, o) with
      | error x => rw [e1] at h; cases h
      | ok y =>
        obtain ⟨p, w⟩ := y
        rw [e1] at h
        cases w with
        | dict root =>
          simp only at h
          by_cases n2 : (mapFind (b! "AcroForm") root).isNone = true
          · rw [if_pos n2] at h; cases h
          · rw [if_neg n2] at h
            cases e2 : entryAt F s p root (b! "AcroForm") with
            | error x => rw [e2] at h; cases h
            | ok y =>
              obtain ⟨q, w⟩ := y
              rw [e2] at h
              cases w with
              | dict form =>
                simp only at h
                by_cases n3 : (mapFind (b! "Fields") form).isNone = true
                · rw [if_pos n3] at h; cases h
                · rw [if_neg n3] at h
                  cases e3 : entryAt F s q form (b! "Fields") with
                  | error x => rw [e3] at h; cases h
                  | ok y =>
                    obtain ⟨r', w⟩ := y
                    rw [e3] at h
                    cases w with
                    | arr l' =>
                      cases h
                      exact ⟨part, ps, p, root, q, form, hp, ⟨o, (valueAt_eq _ _).trans ho,
                        rests_of_followRef hs hu (by intro n g h; cases h) e1⟩,
                        entryAt_spec hs hu (by intro n g h; cases h) e2, entryAt_spec hs hu (by intro n g h; cases h) e3⟩
                    | _ => cases h
              | _ => cases h
        | _ => cases h

theorem exemptFields_all (F : ProtectedFile) (s : FileState) (p : Spot) : ∀ (l : List Obj) (i : Nat),
    (exemptFields F s p i l).1 = .ok () → ∀ j o, l[j]? = some o → ∃ c, exemptField F s (p.child (.index (i + j)), o) = .ok c := by
  intro l
  induction l with
  | nil => intro i _ j o h; simp at h
  | cons o l ih =>
    intro i h j o' ho
    have shift : ∀ j, i + 1 + j = i + (j + 1) := by omega
    rw [exemptFields] at h
    cases e : exemptField F s (p.child (.index i), o) with
    | error x => rw [e] at h; cases h
    | ok c =>
      cases j with
      | zero => cases ho; exact ⟨c, e⟩
      | succ j =>
        rw [e] at h
        rw [← shift]
        exact ih (i + 1) (by cases c <;> exact h) j o' ho

theorem exemptDictionary_facts {F : ProtectedFile} {part : TrailerPart} {ps : List TrailerPart} (hp : F.parts = part :: ps) :
    (ProperEncrypt F part.trailer → ∃ x, exemptDictionary F part.trailer = .ok x) ∧
    ∀ x, exemptDictionary F part.trailer = .ok x →
      ((x.map (·.2)).getD false = true ↔ Protected F) ∧
      ∀ q, q ∈ (x.map (·.1)).toList ↔ ∃ o, valueAt (b! "Encrypt") part.trailer = some o ∧
        (((∀ n g, o ≠ .ref n g) ∧ q = ⟨.trailer 0, [.key (b! "Encrypt")]⟩) ∨ ∃ n g, o = .ref n g ∧ q = ⟨.object (n, g), []⟩) := by
  have prot : Protected F ↔ ∃ o, valueAt (b! "Encrypt") part.trailer = some o ∧
      (((∀ n g, o ≠ .ref n g) ∧ o ≠ .null) ∨ ∃ n g v, o = .ref n g ∧ F.objs (n, g) = .ok v ∧ v ≠ .null) := by
    constructor
    · rintro ⟨p, ps', h, r⟩; rw [hp] at h; cases h; exact r
    · intro r; exact ⟨part, ps, hp, r⟩
  rw [prot]
  simp only [ProperEncrypt, valueAt_eq]
  rw [exemptDictionary]
  cases e : mapFind (b! "Encrypt") part.trailer with
  | none => exact ⟨fun _ => ⟨_, rfl⟩, by intro x h; cases h; simp⟩
  | some o =>
    cases o with
    | ref n g =>
      simp only [Option.some.injEq, Obj.ref.injEq]
      constructor
      · intro h
        obtain ⟨a, v, b⟩ := h n g ⟨rfl, rfl⟩
        rw [a, b]
        simp only [Bool.false_eq_true, if_false]
        cases v <;> exact ⟨_, rfl⟩
      · intro x h
        split at h
        · cases h
        · split at h
          · cases h; rename_i h; simp_all
          · cases h; rename_i v h hv; simp_all
          · cases h
    | null => exact ⟨fun _ => ⟨_, rfl⟩, by intro x h; cases h; simp⟩
    | _ => exact ⟨fun _ => ⟨_, rfl⟩, by intro x h; cases h; simp⟩

/-- The exempted places themselves. -/
inductive ExemptRoot (F : ProtectedFile) : Spot → Prop where
  | dictionary (part : TrailerPart) (ps : List TrailerPart) (o : Obj) : F.parts = part :: ps →
      valueAt (b! "Encrypt") part.trailer = some o → (∀ n g, o ≠ .ref n g) → ExemptRoot F ⟨.trailer 0, [.key (b! "Encrypt")]⟩
  | object (part : TrailerPart) (ps : List TrailerPart) (n g : Nat) : F.parts = part :: ps →
      valueAt (b! "Encrypt") part.trailer = some (.ref n g) → ExemptRoot F ⟨.object (n, g), []⟩
  | identifier (i : Nat) (part : TrailerPart) (o : Obj) : F.parts[i]? = some part → valueAt (b! "ID") part.trailer = some o →
      ExemptRoot F ⟨.trailer i, [.key (b! "ID")]⟩
  | stream (i : Nat) (part : TrailerPart) : F.parts[i]? = some part → part.stream = true → ExemptRoot F ⟨.trailer i, []⟩
  | signature (stored : Bytes) (c : Spot) : SignatureAt F 0 c stored → ExemptRoot F c

theorem notEncrypted_iff (F : ProtectedFile) (p : Spot) : NotEncrypted F 0 p ↔
    (∃ q, ExemptRoot F q ∧ Within p q) ∨ ∃ r, p.home = .object r ∧ F.packed r = true := by
  constructor
  · intro h
    cases h with
    | dictionary part ps o a b c d => exact .inl ⟨_, .dictionary part ps o a b c, d⟩
    | dictionaryObject part ps n g a b c => exact .inl ⟨_, .object part ps n g a b, c⟩
    | identifier i part o a b c => exact .inl ⟨_, .identifier i part o a b, c⟩
    | stream i part a b c => exact .inl ⟨_, .stream i part a b, c, p.steps, rfl⟩
    | packed r a b => exact .inr ⟨r, a, b⟩
    | signature stored c a b => exact .inl ⟨_, .signature stored c a, b⟩
  · rintro (⟨q, h, w⟩ | ⟨r, a, b⟩)
    · cases h with
      | dictionary part ps o a b c => exact .dictionary part ps o a b c w
      | object part ps n g a b => exact .dictionaryObject part ps n g a b w
      | identifier i part o a b => exact .identifier i part o a b w
      | stream i part a b => exact .stream i part a b w.1
      | signature stored c a => exact .signature stored q a w
    · exact .packed r a b

theorem signature_iff {F : ProtectedFile} {c : Spot} : (∃ stored, SignatureAt F 0 c stored) ↔
    ∃ r l i o, FormAt F r l ∧ l[i]? = some o ∧ FieldContents F (r.child (.index i)) o c := by
  constructor
  · rintro ⟨stored, p, d, q, v, hf, h1, h2⟩
    cases hf with
    | own =>
      rename_i r l i q' hform hitem ht
      obtain ⟨o, ho, hst⟩ := hitem
      exact ⟨r, l, i, o, hform, ho, p, d, q', q, v, stored, hst, ht, h1, h2⟩
  · rintro ⟨r, l, i, o, hform, ho, p, d, q', q, v, stored, hst, ht, h1, h2⟩
    exact ⟨stored, p, d, q, v, .own r p l i d q' _ hform ⟨o, ho, hst⟩ ht, h1, h2⟩

/-- What a successful `initializeFile` leaves. -/
theorem initializeFile_facts (F : ProtectedFile) :
    (ProperStart F → (initializeFile F .fresh).1 = .ok ()) ∧
    ((initializeFile F .fresh).1 = .ok () → (initializeFile F .fresh).2.initialized = true ∧
      (initializeFile F .fresh).2.unlocked = false ∧ Knows F (initializeFile F .fresh).2 ∧
      ∀ q, q ∈ (initializeFile F .fresh).2.exempt ↔ ExemptRoot F q) := by
  cases hp : F.parts with
  | nil =>
    constructor
    · rintro ⟨part, ps, h, _⟩; rw [hp] at h; cases h
    · intro h; simp [initializeFile, FileState.fresh, hp] at h
  | cons part ps =>
    obtain ⟨ok, facts⟩ := exemptDictionary_facts hp
    cases ex : exemptDictionary F part.trailer with
    | error e =>
      constructor
      · rintro ⟨part', ps', h, a, _⟩
        rw [hp] at h; cases h
        obtain ⟨x, h⟩ := ok a
        rw [ex] at h; cases h
      · intro h; simp [initializeFile, FileState.fresh, hp, ex] at h
    | ok x =>
      obtain ⟨enc, dict⟩ := facts x ex
      have hinit : initializeFile F .fresh =
          (let s1 : FileState := ⟨true, (x.map (·.2)).getD false, false,
            (x.map (·.1)).toList ++ exemptStreams 0 F.parts ++ exemptIds 0 F.parts⟩
          let r := exemptSignatures F s1 part.trailer
          (r.1, { s1 with exempt := s1.exempt ++ r.2 })) := by
        simp [initializeFile, FileState.fresh, hp, ex]
      generalize hs1 : (⟨true, (x.map (·.2)).getD false, false,
            (x.map (·.1)).toList ++ exemptStreams 0 F.parts ++ exemptIds 0 F.parts⟩ : FileState) = s1 at hinit
      have k1 : Knows F s1 := by rw [← hs1]; exact enc
      have u1 : s1.unlocked = false := by rw [← hs1]
      obtain ⟨f1, f2, f3⟩ := formFields_of k1 u1 hp
      rw [hinit]
      simp only
      constructor
      · rintro ⟨part', ps', h, _, form⟩
        rw [hp] at h; cases h
        rw [exemptSignatures]
        rcases f1 form with e | ⟨r, l, _, e, hl⟩
        · rw [e]
        · rw [e]
          exact ((exemptFields_facts F s1 r l 0).1 fun j o ho => by
            rw [Nat.zero_add]; exact exemptField_proper k1 (hl j o ho)).1
      · intro h
        refine ⟨by rw [← hs1], u1, k1, ?_⟩
        have sigs : ∀ q, q ∈ (exemptSignatures F s1 part.trailer).2 ↔ ∃ stored, SignatureAt F 0 q stored := by
          intro q
          rw [signature_iff]
          rw [exemptSignatures] at h ⊢
          cases e : formFields F s1 part.trailer with
          | error x => rw [e] at h; cases h
          | ok y =>
            rw [e] at h
            cases y with
            | none =>
              constructor
              · intro h; cases h
              · rintro ⟨r, l, i, o, a, _⟩
                have := f2 r l a
                rw [e] at this; cases this
            | some y =>
              obtain ⟨r, l⟩ := y
              simp only at h ⊢
              obtain ⟨g1, g2⟩ := exemptFields_facts F s1 r l 0
              have all := exemptFields_all F s1 r l 0 h
              constructor
              · intro hq
                obtain ⟨j, o, ho, hj⟩ := g2 q hq
                rw [Nat.zero_add] at hj
                exact ⟨r, l, j, o, f3 r l e, ho, exemptField_spec k1 u1 hj⟩
              · rintro ⟨r', l', i, o, a, ho, hc⟩
                have := f2 r' l' a
                rw [e] at this; cases this
                exact (g1 all).2 i o q ho (by rw [Nat.zero_add]; exact exemptField_of k1 hc)
        intro q
        rw [← hs1]
        simp only [List.mem_append]
        rw [← hs1] at sigs
        rw [dict q, mem_exemptStreams, mem_exemptIds, sigs q]
        constructor
        · rintro (((⟨o, ho, ⟨hn, rfl⟩ | ⟨n, g, rfl, rfl⟩⟩ | ⟨j, p, a, b, rfl⟩) | ⟨j, p, o, a, b, rfl⟩) | ⟨stored, a⟩)
          · exact .dictionary part ps o hp ho hn
          · exact .object part ps n g hp ho
          · rw [Nat.zero_add]; exact .stream j p a b
          · rw [Nat.zero_add]; exact .identifier j p o a b
          · exact .signature stored q a
        · intro hq
          cases hq with
          | dictionary p ps' o a b c => rw [hp] at a; cases a; exact .inl (.inl (.inl ⟨o, b, .inl ⟨c, rfl⟩⟩))
          | object p ps' n g a b => rw [hp] at a; cases a; exact .inl (.inl (.inl ⟨_, b, .inr ⟨n, g, rfl, rfl⟩⟩))
          | identifier i p o a b => exact .inl (.inr ⟨i, p, o, a, b, by rw [Nat.zero_add]⟩)
          | stream i p a b => exact .inl (.inl (.inr ⟨i, p, a, b, by rw [Nat.zero_add]⟩))
          | signature stored c a => exact .inr ⟨stored, a⟩

end VPdf
