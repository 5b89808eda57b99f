import Verif.Spec.FormFields
import Verif.Props.ViewSettings
import Verif.Props.Date
/-
  C104: fields of forms and their signatures.
-/
namespace VPdf
open Spec

theorem find_of_has {s : PStore} {d : Dict} {k : Bytes} {v : Obj} (h : HasEntry s d k v) : ∃ o, mapFind k d = some o := by
  obtain ⟨o, ho, _⟩ := deref_has h
  exact ⟨o, ho⟩

theorem has_of_treeEntry {s : PStore} {d : Dict} {k : Bytes} {v : Obj} (h : treeEntry s d k = .ok v) (hv : ∀ n g, v ≠ .ref n g) :
    HasEntry s d k v := by
  refine ⟨hv, ?_⟩
  unfold treeEntry at h
  cases e : mapFind k d with
  | none => rw [e] at h; cases h
  | some o =>
    rw [e] at h
    cases o with
    | ref a b => cases h; exact .inr ⟨a, b, rfl, rfl⟩
    | _ => cases h; exact .inl rfl

theorem fieldKind_own {s : PStore} {d : Dict} {n : Bytes} {k : FieldKind} (h : HasEntry s d (b! "FT") (.name n)) (hk : KindName n k) :
    fieldKind s d = .ok k := by
  obtain ⟨o, ho⟩ := find_of_has h
  unfold fieldKind
  rw [ho]
  dsimp only
  rw [treeEntry_of_has h, ok_bind]
  dsimp only
  cases hk <;> rfl

theorem fieldKind_absent {s : PStore} {d : Dict} (h : Absent d (b! "FT")) : fieldKind s d = .ok .nonTerminal := by
  unfold fieldKind
  rw [absent_iff.mp h]

theorem fieldKind_spec {s : PStore} {d : Dict} {k : FieldKind} (h : fieldKind s d = .ok k) :
    (Absent d (b! "FT") ∧ k = .nonTerminal) ∨ ∃ n, HasEntry s d (b! "FT") (.name n) ∧ KindName n k := by
  unfold fieldKind at h
  cases e : mapFind (b! "FT") d with
  | none => rw [e] at h; cases h; exact .inl ⟨absent_iff.mpr e, rfl⟩
  | some o =>
    rw [e] at h
    dsimp only at h
    obtain ⟨v, hv, h⟩ := bind_ok h
    cases v with
    | name n =>
      dsimp only at h
      refine .inr ⟨n, has_of_treeEntry hv (by simp), ?_⟩
      by_cases h1 : n = b! "Btn"
      · rw [if_pos h1] at h; cases h; subst h1; exact .button
      rw [if_neg h1] at h
      by_cases h2 : n = b! "Tx"
      · rw [if_pos h2] at h; cases h; subst h2; exact .text
      rw [if_neg h2] at h
      by_cases h3 : n = b! "Ch"
      · rw [if_pos h3] at h; cases h; subst h3; exact .choice
      rw [if_neg h3] at h
      by_cases h4 : n = b! "Sig"
      · rw [if_pos h4] at h; cases h; subst h4; exact .signature
      rw [if_neg h4] at h; cases h
    | _ => cases h

/-- **C104: the form of a document** is the one its catalog has, and its fields are those of its array. -/
theorem C104_form (s : PStore) (catalog form : Dict) :
    (HasEntry s catalog (b! "AcroForm") (.dict form) → catalogForm s catalog = .ok (some form)) ∧
    (Absent catalog (b! "AcroForm") → catalogForm s catalog = .ok none) ∧
    (∀ l, HasEntry s form (b! "Fields") (.arr l) → fieldList s form = .ok (some l) ∧ fieldCount l = l.length) ∧
    (Absent form (b! "Fields") → fieldList s form = .ok none) := by
  refine ⟨fun h => ?_, fun h => ?_, fun l h => ⟨?_, rfl⟩, fun h => ?_⟩
  · exact dictEntry_of_has h
  · unfold catalogForm dictEntry; rw [absent_iff.mp h]
  · obtain ⟨o, ho⟩ := find_of_has h
    unfold fieldList; rw [ho]; dsimp only; rw [treeArray_of_has h]; rfl
  · unfold fieldList; rw [absent_iff.mp h]

/-- **C104 (partial): every field of the array can be asked for, and has its own kind.**  Missing: fields that inherit their kind
and fields below others, for which the claim is false (below). -/
theorem C104_fields_partial (s : PStore) (l : List Obj) (i : Nat) (o : Obj) (d : Dict) (ho : l[i]? = some o) (hd : Refers s o (.dict d)) :
    (∀ n k, HasEntry s d (b! "FT") (.name n) → KindName n k → fieldAtIndex s l i = .ok (k, d)) ∧
    (Absent d (b! "FT") → (∀ k, ¬ FieldHasKind s d k) → fieldAtIndex s l i = .ok (.nonTerminal, d)) := by
  have key : ∀ k, fieldKind s d = .ok k → fieldAtIndex s l i = .ok (k, d) := by
    intro k hk
    unfold fieldAtIndex
    rw [ho]
    dsimp only
    rw [derefOne_of_refers hd]
    dsimp only
    rw [hk]; rfl
  exact ⟨fun n k h hn => key k (fieldKind_own h hn), fun h _ => key _ (fieldKind_absent h)⟩

/-- **C104: what is shown as a field of some kind is one**: the field is the one at that place, and a kind other than a mere group is
the one it says itself. -/
theorem C104_fields_only (s : PStore) (l : List Obj) (i : Nat) (k : FieldKind) (d : Dict) (h : fieldAtIndex s l i = .ok (k, d)) :
    (∃ o, l[i]? = some o ∧ Refers s o (.dict d)) ∧ (k ≠ .nonTerminal → FieldHasKind s d k) ∧
    (k = .nonTerminal → Absent d (b! "FT")) := by
  unfold fieldAtIndex at h
  cases e : l[i]? with
  | none => rw [e] at h; cases h
  | some o =>
    rw [e] at h
    dsimp only at h
    cases e2 : derefOne s o with
    | dict d' =>
      rw [e2] at h
      dsimp only at h
      obtain ⟨k', hk, h⟩ := bind_ok h
      cases h
      refine ⟨⟨o, rfl, refers_of_derefOne e2 (by simp)⟩, fun hn => ?_, fun hn => ?_⟩
      · rcases fieldKind_spec hk with ⟨_, h⟩ | ⟨n, h1, h2⟩
        · exact absurd h hn
        · exact .own d n k h1 h2
      · rcases fieldKind_spec hk with ⟨h, _⟩ | ⟨n, _, h2⟩
        · exact h
        · subst hn; cases h2
    | _ => rw [e2] at h; cases h

/-- **C104 is false of fields that inherit their kind.**  Every one of them is shown as a mere group of fields, and its signature
cannot be asked for. -/
theorem C104_inherited_counterexample (s : PStore) (l : List Obj) (i : Nat) (o : Obj) (d parent : Dict) (k : FieldKind)
    (ho : l[i]? = some o) (hd : Refers s o (.dict d)) (h : Absent d (b! "FT")) (hp : HasEntry s d (b! "Parent") (.dict parent))
    (hk : FieldHasKind s parent k) :
    FieldHasKind s d k ∧ k ≠ .nonTerminal ∧ fieldAtIndex s l i = .ok (.nonTerminal, d) ∧
      signatureValue s (.nonTerminal, d) = .error .conversion := by
  refine ⟨.inherited d parent k h hp hk, ?_, ?_, rfl⟩
  · intro e
    clear hp
    induction hk with
    | own _ _ _ _ hn => subst e; cases hn
    | inherited _ _ _ _ _ _ ih => exact ih e
  · unfold fieldAtIndex
    rw [ho]
    dsimp only
    rw [derefOne_of_refers hd]
    dsimp only
    rw [fieldKind_absent h]; rfl

/-- **C104 is false of fields below others.**  A field of the form that is not in the array itself is never shown. -/
theorem C104_kids_counterexample (s : PStore) (form d d' : Dict) (l kids : List Obj) (o : Obj) (hl : HasEntry s form (b! "Fields") (.arr l))
    (hd : FormField s form d) (hk : HasEntry s d (b! "Kids") (.arr kids)) (ho : o ∈ kids) (hr : Refers s o (.dict d'))
    (hn : ∀ o' ∈ l, ¬ Refers s o' (.dict d')) :
    FormField s form d' ∧ fieldList s form = .ok (some l) ∧ ∀ i k, fieldAtIndex s l i ≠ .ok (k, d') := by
  refine ⟨.kid d kids o d' hd hk ho hr, ((C104_form s [] form).2.2.1 l hl).1, ?_⟩
  intro i k e
  obtain ⟨⟨o', h1, h2⟩, _⟩ := C104_fields_only s l i k d' e
  exact hn o' (List.mem_of_getElem? h1) h2

/-- **C104: a field of an unknown kind** is refused, and so is a place behind the last field; the other fields are shown as before. -/
theorem C104_unknown (s : PStore) (l : List Obj) (i : Nat) :
    (l.length ≤ i → fieldAtIndex s l i = .error .throw) ∧
    ∀ o d n, l[i]? = some o → Refers s o (.dict d) → HasEntry s d (b! "FT") (.name n) → (∀ k, ¬ KindName n k) →
      fieldAtIndex s l i = .error .throw := by
  refine ⟨fun h => ?_, fun o d n ho hd hn hk => ?_⟩
  · unfold fieldAtIndex; rw [List.getElem?_eq_none h]
  · unfold fieldAtIndex
    rw [ho]
    dsimp only
    rw [derefOne_of_refers hd]
    dsimp only
    obtain ⟨o', ho'⟩ := find_of_has hn
    unfold fieldKind
    rw [ho']
    dsimp only
    rw [treeEntry_of_has hn, ok_bind]
    dsimp only
    have hb : n ≠ b! "Btn" := by rintro rfl; exact hk _ .button
    have ht : n ≠ b! "Tx" := by rintro rfl; exact hk _ .text
    have hc : n ≠ b! "Ch" := by rintro rfl; exact hk _ .choice
    have hs : n ≠ b! "Sig" := by rintro rfl; exact hk _ .signature
    rw [if_neg hb, if_neg ht, if_neg hc, if_neg hs]
    rfl

/-- **C104: the signature of a field** is its value, and is missing only if the field has none. -/
theorem C104_value (s : PStore) (d sig : Dict) :
    (HasEntry s d (b! "V") (.dict sig) → signatureValue s (.signature, d) = .ok (some sig)) ∧
    (signatureValue s (.signature, d) = .ok (some sig) → HasEntry s d (b! "V") (.dict sig)) ∧
    (Absent d (b! "V") ↔ signatureValue s (.signature, d) = .ok none) := by
  refine ⟨fun h => dictEntry_of_has h, fun h => ?_, fun h => ?_, fun h => ?_⟩
  · have h : dictEntry s d (b! "V") = .ok (some sig) := h
    unfold dictEntry at h
    split at h
    · cases h
    · obtain ⟨v, hv, h⟩ := bind_ok h
      cases v <;> cases h
      exact has_of_treeEntry hv (by simp)
  · show dictEntry s d (b! "V") = .ok none
    unfold dictEntry
    rw [absent_iff.mp h]
  · have h : dictEntry s d (b! "V") = .ok none := h
    unfold dictEntry at h
    split at h
    · rename_i e; exact absent_iff.mpr e
    · obtain ⟨v, hv, h⟩ := bind_ok h
      cases v <;> cases h

theorem stringEntry_spec (s : PStore) (d : Dict) (k t : Bytes) : stringEntry s d k = .ok (some t) ↔ TextEntry s d k t := by
  constructor
  · intro h
    unfold stringEntry at h
    split at h
    · cases h
    · obtain ⟨v, hv, h⟩ := bind_ok h
      cases v <;> cases h
      · exact .inl (has_of_treeEntry hv (by simp))
      · exact .inr (has_of_treeEntry hv (by simp))
  · rintro (h | h) <;>
    · obtain ⟨o, ho⟩ := find_of_has h
      unfold stringEntry
      rw [ho]
      dsimp only
      rw [treeEntry_of_has h]; rfl

theorem stringEntry_none (s : PStore) (d : Dict) (k : Bytes) : stringEntry s d k = .ok none ↔ Absent d k := by
  constructor
  · intro h
    unfold stringEntry at h
    split at h
    · rename_i e; exact absent_iff.mpr e
    · obtain ⟨v, hv, h⟩ := bind_ok h
      cases v <;> cases h
  · intro h
    unfold stringEntry; rw [absent_iff.mp h]

/-- **C104: what a signature says about itself** is reported as it stands, and is missing only if it is not there. -/
theorem C104_texts (s : PStore) (sig : Dict) (e : SignatureText) :
    (∀ t, signatureText s sig e = .ok (some t) ↔ TextEntry s sig (textEntry e) t) ∧
    (signatureText s sig e = .ok none ↔ Absent sig (textEntry e)) := by
  have hk : e.key = textEntry e := by cases e <;> rfl
  unfold signatureText
  rw [hk]
  exact ⟨fun t => stringEntry_spec s sig _ t, stringEntry_none s sig _⟩

/-- **C104: the time of a signature** is that of the date the entry is the text of. -/
theorem C104_time (s : PStore) (sig : Dict) (v : DateFields) :
    (signingTime s sig = .ok (some v) ↔ ∃ t, TextEntry s sig (b! "M") t ∧ DateText t v) ∧
    (signingTime s sig = .ok none ↔ Absent sig (b! "M")) := by
  refine ⟨⟨fun h => ?_, fun h => ?_⟩, fun h => ?_, fun h => ?_⟩
  · unfold signingTime at h
    obtain ⟨r, hr, h⟩ := bind_ok h
    cases r with
    | none => cases h
    | some t =>
      dsimp only at h
      obtain ⟨v', hv, h⟩ := bind_ok h
      cases h
      exact ⟨t, (stringEntry_spec s sig _ t).mp hr, (C52_accepts t v).mp hv⟩
  · obtain ⟨t, h1, h2⟩ := h
    unfold signingTime
    rw [(stringEntry_spec s sig _ t).mpr h1, ok_bind]
    dsimp only
    rw [(C52_accepts t v).mpr h2]; rfl
  · unfold signingTime at h
    obtain ⟨r, hr, h⟩ := bind_ok h
    cases r with
    | none => exact (stringEntry_none s sig _).mp hr
    | some t =>
      dsimp only at h
      obtain ⟨v', hv, h⟩ := bind_ok h
      cases h
  · unfold signingTime
    rw [(stringEntry_none s sig _).mpr h]; rfl

theorem boxPart_int {s : PStore} {o : Obj} {v : Int} (h : Refers s o (.int v)) : boxPart s o = .ok v := by
  unfold boxPart; rw [derefOne_of_refers h]; rfl

/-- **C104: the signature itself** is the string of hexadecimal digits that stands there, and its revision the number. -/
theorem C104_contents (s : PStore) (sig : Dict) :
    (∀ t, signatureContents s sig = .ok t ↔ HasEntry s sig (b! "Contents") (.hex t)) ∧
    (∀ v, HasEntry s sig (b! "R") (.int v) → signatureRevision s sig = .ok (some v)) ∧
    (Absent sig (b! "R") ↔ signatureRevision s sig = .ok none) := by
  refine ⟨fun t => ⟨fun h => ?_, fun h => ?_⟩, fun v h => ?_, fun h => ?_, fun h => ?_⟩
  · unfold signatureContents at h
    obtain ⟨v, hv, h⟩ := bind_ok h
    cases v <;> cases h
    exact has_of_treeEntry hv (by simp)
  · unfold signatureContents; rw [treeEntry_of_has h]; rfl
  · obtain ⟨o, ho, hd⟩ := deref_has h
    unfold signatureRevision boxPart
    rw [ho]
    dsimp only
    rw [hd]; rfl
  · unfold signatureRevision; rw [absent_iff.mp h]
  · unfold signatureRevision at h
    split at h
    · rename_i e; exact absent_iff.mpr e
    · obtain ⟨v, _, h⟩ := bind_ok h; cases h

/-- **C104 (partial): the ranges of bytes a signature covers.**  Their number is right, and so is the first one.  Missing: the other
ranges, for which the claim is false (below). -/
theorem C104_ranges_partial (s : PStore) (sig : Dict) (l : List Obj) (rs : List (Nat × Nat))
    (h : HasEntry s sig (b! "ByteRange") (.arr l)) (hr : SaysRanges s l rs) :
    byteRanges s sig = .ok (some l) ∧ byteRangeCount l = rs.length ∧
      ∀ r, rs[0]? = some r → byteRangeAt s l 0 = .ok ((r.1 : Int), (r.2 : Int)) := by
  refine ⟨?_, ?_, fun r h0 => ?_⟩
  · obtain ⟨o, ho⟩ := find_of_has h
    unfold byteRanges
    rw [ho]
    dsimp only
    rw [treeArray_of_has h, ok_bind, if_neg (by rw [hr.1]; omega)]
    rfl
  · rw [byteRangeCount, hr.1]; omega
  · obtain ⟨a, b, ha, hb, h1, h2⟩ := hr.2 0 r h0
    unfold byteRangeAt byteRangeItem
    rw [show l[0]? = some a from ha, show l[0 + 1]? = some b from hb]
    dsimp only
    rw [boxPart_int h1, boxPart_int h2]; rfl

theorem ranges_item {s : PStore} {l : List Obj} {rs : List (Nat × Nat)} (hr : SaysRanges s l rs) (m : Nat) (r : Nat × Nat)
    (h : rs[m / 2]? = some r) : byteRangeItem s l m = .ok ((if m % 2 = 0 then r.1 else r.2 : Nat) : Int) := by
  obtain ⟨a, b, ha, hb, h1, h2⟩ := hr.2 (m / 2) r h
  unfold byteRangeItem
  rcases Nat.mod_two_eq_zero_or_one m with e | e
  · rw [show 2 * (m / 2) = m by omega] at ha
    rw [ha]; dsimp only
    rw [boxPart_int h1, if_pos e]
  · rw [show 2 * (m / 2) + 1 = m by omega] at hb
    rw [hb]; dsimp only
    rw [boxPart_int h2, if_neg (by omega)]

/-- **C104 is false of the second range.**  For every signature, the second range is reported to begin where the length of the first
one says and to be as long as the offset of the second one. -/
theorem C104_ranges_counterexample (s : PStore) (l : List Obj) (rs : List (Nat × Nat)) (r0 r1 : Nat × Nat) (hr : SaysRanges s l rs)
    (h0 : rs[0]? = some r0) (h1 : rs[1]? = some r1) :
    byteRangeAt s l 1 = .ok ((r0.2 : Int), (r1.1 : Int)) ∧
    (r0.2 ≠ r1.1 → byteRangeAt s l 1 ≠ .ok ((r1.1 : Int), (r1.2 : Int))) := by
  have e : byteRangeAt s l 1 = .ok ((r0.2 : Int), (r1.1 : Int)) := by
    unfold byteRangeAt
    rw [ranges_item hr 1 r0 h0, show byteRangeItem s l (1 + 1) = _ from ranges_item hr 2 r1 h1]; rfl
  refine ⟨e, fun hne h => ?_⟩
  rw [e] at h
  simp only [Except.ok.injEq, Prod.mk.injEq] at h
  exact hne (by exact_mod_cast h.1)

/-- **C104 is false of what is signed.**  Take any signature in the usual form: the file from its start to `a`, and from `b` on, but
not the bytes between, where the signature itself stands.  The ranges that are reported contain every one of these bytes. -/
theorem C104_hole_counterexample (s : PStore) (l : List Obj) (a b c : Nat) (hr : SaysRanges s l [(0, a), (b, c)])
    (p : Nat) (hp : a ≤ p ∧ p < b) :
    (∀ r ∈ [(0, a), (b, c)], ¬ Covers r p) ∧
    ∃ i r, i < byteRangeCount l ∧ byteRangeAt s l i = .ok ((r.1 : Nat), (r.2 : Nat)) ∧ Covers r p := by
  refine ⟨?_, 1, (a, b), ?_, (C104_ranges_counterexample s l _ (0, a) (b, c) hr rfl rfl).1, ?_⟩
  · intro r h
    simp only [List.mem_cons, List.not_mem_nil, or_false] at h
    rcases h with rfl | rfl <;> unfold Covers <;> dsimp only <;> omega
  · rw [byteRangeCount, hr.1]; simp
  · unfold Covers; dsimp only; omega

/-- **C104: an odd number of items** is refused, and a signature without the entry is reported so. -/
theorem C104_odd (s : PStore) (sig : Dict) :
    (∀ l, HasEntry s sig (b! "ByteRange") (.arr l) → l.length % 2 = 1 → byteRanges s sig = .error .throw) ∧
    (byteRanges s sig = .ok none ↔ Absent sig (b! "ByteRange")) := by
  refine ⟨fun l h ho => ?_, fun h => ?_, fun h => ?_⟩
  · obtain ⟨o, ho'⟩ := find_of_has h
    unfold byteRanges
    rw [ho']
    dsimp only
    rw [treeArray_of_has h, ok_bind, if_pos (by omega)]
  · unfold byteRanges at h
    split at h
    · rename_i e; exact absent_iff.mpr e
    · obtain ⟨l, _, h⟩ := bind_ok h
      split at h <;> cases h
  · unfold byteRanges; rw [absent_iff.mp h]

/-! ### Cases -/

/-- A form with a signed field, and a group with a text field below it. -/
def fieldStore : PStore := fun r =>
  if r = (1, 0) then .dict [(b! "FT", .name (b! "Sig")), (b! "V", .ref 2 0)]
  else if r = (2, 0) then .dict [(b! "ByteRange", .arr [.int 0, .int 840, .int 960, .ref 5 0]), (b! "Contents", .hex (b! "signature")),
    (b! "M", .lit (b! "D:20240229235959Z")), (b! "Reason", .lit (b! "Approved"))]
  else if r = (3, 0) then .dict [(b! "FT", .name (b! "Tx")), (b! "Kids", .arr [.ref 4 0])]
  else if r = (4, 0) then .dict [(b! "Parent", .ref 3 0)]
  else if r = (5, 0) then .int 240
  else .null

example : HasEntry fieldStore [(b! "Fields", .arr [.ref 1 0, .ref 3 0])] (b! "Fields") (.arr [.ref 1 0, .ref 3 0]) :=
  ⟨(by intro n g e; cases e), .inl rfl⟩

example : (match fieldAtIndex fieldStore [.ref 1 0, .ref 3 0, .ref 4 0] 0 with | .ok (.signature, _) => true | _ => false) = true ∧
    (match fieldAtIndex fieldStore [.ref 1 0, .ref 3 0, .ref 4 0] 1 with | .ok (.text, _) => true | _ => false) = true ∧
    (match fieldAtIndex fieldStore [.ref 1 0, .ref 3 0, .ref 4 0] 2 with | .ok (.nonTerminal, _) => true | _ => false) = true := by
  decide +kernel

/-- The field below the text field is a text field. -/
example : FieldHasKind fieldStore [(b! "Parent", .ref 3 0)] .text := by
  refine .inherited _ [(b! "FT", .name (b! "Tx")), (b! "Kids", .arr [.ref 4 0])] _ (absent_iff.mpr rfl)
    ⟨(by intro n g e; cases e), .inr ⟨3, 0, rfl, rfl⟩⟩ (.own _ (b! "Tx") _ ⟨(by intro n g e; cases e), .inl rfl⟩ .text)

/-- The field below the text field is a field of the form but stands in no array of it. -/
example : FormField fieldStore [(b! "Fields", .arr [.ref 1 0, .ref 3 0])] [(b! "Parent", .ref 3 0)] := by
  refine .kid [(b! "FT", .name (b! "Tx")), (b! "Kids", .arr [.ref 4 0])] [.ref 4 0] (.ref 4 0) _
    (.root [.ref 1 0, .ref 3 0] (.ref 3 0) _ ⟨(by intro n g e; cases e), .inl rfl⟩ (by simp) ⟨(by intro n g e; cases e), .inr ⟨3, 0, rfl, rfl⟩⟩)
    ⟨(by intro n g e; cases e), .inl rfl⟩ (by simp) ⟨(by intro n g e; cases e), .inr ⟨4, 0, rfl, rfl⟩⟩

/-- The ranges of the signature: the second one is reported as the 960 bytes from 840 on. -/
example : SaysRanges fieldStore [.int 0, .int 840, .int 960, .ref 5 0] [(0, 840), (960, 240)] := by
  refine ⟨rfl, ?_⟩
  intro i r h
  match i with
  | 0 => cases h; exact ⟨_, _, rfl, rfl, ⟨(by intro n g e; cases e), .inl rfl⟩, ⟨(by intro n g e; cases e), .inl rfl⟩⟩
  | 1 => cases h; exact ⟨_, _, rfl, rfl, ⟨(by intro n g e; cases e), .inl rfl⟩, ⟨(by intro n g e; cases e), .inr ⟨5, 0, rfl, rfl⟩⟩⟩
  | i + 2 => simp at h

example : byteRangeAt fieldStore [.int 0, .int 840, .int 960, .ref 5 0] 1 = .ok (840, 960) := by decide +kernel

end VPdf
