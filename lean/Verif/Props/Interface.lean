import Verif.Model.InterfaceTable
import Verif.Spec.Interface
/-
  C122: null arguments are refused by all functions of the interface, handles are used as what they are, and exceptions are
  reported.
-/
namespace VPdf
open Spec

/-! ### Tests of single functions -/

/-- The parameters that are checked before anything else happens. -/
def leadingChecks : List ApiStep → List Nat
  | .check i :: l => i :: leadingChecks l
  | .convert i j _ _ :: _ => [i, j]
  | .release i _ :: _ => [i]
  | _ => []

/-- Is the parameter an address that is needed? -/
def ApiParam.needed : ApiParam → Bool
  | .handle _ | .result _ | .memory => true
  | _ => false

/-- All addresses that are needed are checked first. -/
def checksAll (f : ApiFunction) : Bool :=
  (List.range f.params.length).all fun i => (f.params[i]?.any ApiParam.needed) → (leadingChecks f.steps).contains i

/-- The class is the one of the parameter, or the base of a filter. -/
def rightView (f : ApiFunction) (i : Nat) (c : CppClass) : Bool :=
  match f.params[i]? with
  | some (.handle h) => classOf h = c || (c = .FilterBase && [CppClass.FlateDecodeFilter, .DCTDecodeFilter, .ASCII85DecodeFilter,
      .ASCIIHexDecodeFilter, .LZWDecodeFilter, .JPXDecodeFilter].contains (classOf h))
  | some _ => true
  | none => false

/-- The steps use checked parameters, with the right classes. -/
def usesRight (f : ApiFunction) : List Nat → List ApiStep → Bool
  | _, [] => true
  | k, .check i :: l => usesRight f (i :: k) l
  | k, .work _ us :: l => us.all (fun u => k.contains u.1 && u.2.all (rightView f u.1)) && usesRight f k l
  | _, .convert i _ s _ :: _ => rightView f i s && (match f.params[i]? with | some (.handle _) => true | _ => false)
  | k, .release i c :: l => rightView f i c && usesRight f (i :: k) l
  | _, .hand _ _ :: _ => true

theorem refused_of_leading {w : ApiWorld} {args : Nat → ApiArg} : ∀ {l : List ApiStep} {i : Nat},
    i ∈ leadingChecks l → args i = .null → runApi w args l = .refused
  | .check j :: l, i, h, hn => by
    rw [runApi]
    split
    · rfl
    · rename_i hj
      rw [leadingChecks, List.mem_cons] at h
      rcases h with rfl | h
      · exact absurd hn hj
      · exact refused_of_leading h hn
  | .convert a b s d :: l, i, h, hn => by
    rw [leadingChecks] at h
    rw [runApi, if_pos]
    simp at h
    rcases h with rfl | rfl <;> simp [hn]
  | .release a c :: l, i, h, hn => by
    simp [leadingChecks] at h
    subst h
    rw [runApi, if_pos hn]
  | [], i, h, _ => by simp [leadingChecks] at h
  | .work g us :: l, i, h, _ => by simp [leadingChecks] at h
  | .hand j c :: l, i, h, _ => by simp [leadingChecks] at h

theorem needs_iff {f : ApiFunction} {i : Nat} : Needs f i ↔ f.params[i]?.any ApiParam.needed = true := by
  unfold Needs
  cases f.params[i]? with
  | none => simp
  | some p => cases p <;> simp [ApiParam.needed]

theorem checksAll_sound {f : ApiFunction} (h : checksAll f = true) {i : Nat} (hi : Needs f i) : i ∈ leadingChecks f.steps := by
  unfold checksAll at h
  rw [needs_iff] at hi
  have hl : i < f.params.length := by
    by_cases hl : i < f.params.length
    · exact hl
    · rw [List.getElem?_eq_none (by omega)] at hi; simp at hi
  have := List.all_eq_true.mp h i (List.mem_range.mpr hl)
  simpa [hi] using this

theorem rightView_sound {f : ApiFunction} {sub : CppClass → CppClass → Bool} (hs : Hierarchy sub) {args : Nat → ApiArg}
    (ha : RightTypes sub f args) {i : Nat} {c : CppClass} (h : rightView f i c = true) : wrongClass sub (args i) c = false := by
  unfold rightView at h
  split at h
  · rename_i k hk
    have := ha i _ hk
    rcases this with h0 | ⟨o, ho, hc⟩
    · rw [h0]; rfl
    · rw [ho]
      simp only [wrongClass, Bool.not_eq_false']
      simp only [Bool.or_eq_true, decide_eq_true_eq, Bool.and_eq_true] at h
      rcases h with rfl | ⟨rfl, h⟩
      · exact hc
      · obtain ⟨f1, f2, f3, f4, f5, f6⟩ := hs.filters
        refine hs.trans _ _ _ hc ?_
        simp only [List.contains_eq_mem, List.mem_cons, List.not_mem_nil, or_false, decide_eq_true_eq] at h
        rcases h with h | h | h | h | h | h <;> rw [h] <;> assumption
  · rename_i p hp hq
    have := ha i p hq
    cases p with
    | handle k => exact absurd rfl (hp k)
    | value => simp only at this; rw [this]; rfl
    | result k => rcases this with h | h <;> rw [h] <;> rfl
    | memory => rcases this with h | h <;> rw [h] <;> rfl
    | optional => rcases this with h | h <;> rw [h] <;> rfl
  · cases h

theorem usesRight_sound {f : ApiFunction} {w : ApiWorld} (hs : Hierarchy w.sub) {args : Nat → ApiArg}
    (ha : RightTypes w.sub f args) : ∀ (l : List ApiStep) (k : List Nat), (∀ i ∈ k, args i ≠ .null) → usesRight f k l = true →
    runApi w args l ≠ .crash ∧ runApi w args l ≠ .misuse
  | [], _, _, _ => by simp [runApi]
  | .check i :: l, k, hk, h => by
    rw [runApi]
    split
    · simp
    · rename_i hn
      exact usesRight_sound hs ha l (i :: k) (by simpa [hn] using hk) h
  | .work g us :: l, k, hk, h => by
    rw [usesRight, Bool.and_eq_true] at h
    obtain ⟨h1, h2⟩ := h
    rw [List.all_eq_true] at h1
    rw [runApi, if_neg, if_neg]
    · split
      · split <;> simp
      · exact usesRight_sound hs ha l k hk h2
    · simp only [Bool.not_eq_true, List.any_eq_false]
      intro u hu
      have := h1 u hu
      rw [Bool.and_eq_true] at this
      cases hc : u.2 with
      | none => simp
      | some c =>
        rw [hc] at this
        simp [rightView_sound hs ha (by simpa using this.2)]
    · simp only [Bool.not_eq_true, List.any_eq_false]
      intro u hu
      have := h1 u hu
      rw [Bool.and_eq_true] at this
      simpa using hk u.1 (by simpa using this.1)
  | .convert i j s d :: l, k, hk, h => by
    rw [usesRight, Bool.and_eq_true] at h
    rw [runApi]
    split
    · simp
    · rename_i hn
      have hv := rightView_sound hs ha h.1
      have hh : ∃ o, args i = .object o := by
        have h2 := h.2
        split at h2
        · rename_i q hq
          rcases ha i _ hq with h0 | ⟨o, ho, _⟩
          · exact absurd (.inl h0) hn
          · exact ⟨o, ho⟩
        · cases h2
      obtain ⟨o, ho⟩ := hh
      rw [ho] at hv ⊢
      simp only [wrongClass, Bool.not_eq_false'] at hv
      simp only [hv, Bool.not_true, Bool.false_eq_true, if_false]
      split <;> simp
  | .release i c :: l, k, hk, h => by
    rw [usesRight, Bool.and_eq_true] at h
    rw [runApi]
    split
    · simp
    · rename_i hn
      rw [rightView_sound hs ha h.1]
      exact usesRight_sound hs ha l (i :: k) (by simpa [hn] using hk) h.2
  | .hand j c :: l, k, hk, h => by simp [runApi]

/-! ### The properties -/

/-- The functions that do not check one of their addresses. -/
def uncheckedNames : List String :=
  ["PageContents_RecalculateStreamData", "PageLabel_Prefix", "PageLabel_Start", "PageLabel_Style", "DictionaryObject_Remove"]

/-- The functions that take every filter for the Flate filter. -/
def confusedNames : List String :=
  ["FilterBase_Decode", "DCTDecodeFilter_Decode", "ASCII85DecodeFilter_Decode", "ASCIIHexDecodeFilter_Decode",
   "LZWDecodeFilter_Decode", "JPXDecodeFilter_Decode"]

/-- **C122**, null arguments: every function of the interface but five refuses a call in which an address that it needs is
null, whatever the other arguments are, before it does anything. -/
theorem C122_null_partial (f : ApiFunction) (hf : f ∈ interface) (hn : f.name ∉ uncheckedNames) (w : ApiWorld)
    (args : Nat → ApiArg) (i : Nat) (hi : Needs f i) (ha : args i = .null) :
    runApi w args f.steps = .refused := by
  have key : ∀ f ∈ interface, f.name ∉ uncheckedNames → checksAll f = true := by decide +kernel
  exact refused_of_leading (checksAll_sound (key f hf hn) hi) ha

/-- **C122**, handles: no function of the interface but eleven accesses the address 0 or uses an object as one of another
class, when it is given arguments of the right types, null or not. -/
theorem C122_use_partial (f : ApiFunction) (hf : f ∈ interface) (hn : f.name ∉ uncheckedNames) (hc : f.name ∉ confusedNames)
    (w : ApiWorld) (hs : Hierarchy w.sub) (args : Nat → ApiArg) (ha : RightTypes w.sub f args) :
    runApi w args f.steps ≠ .crash ∧ runApi w args f.steps ≠ .misuse := by
  have key : ∀ f ∈ interface, f.name ∉ uncheckedNames → f.name ∉ confusedNames → usesRight f [] f.steps = true := by
    decide +kernel
  exact usesRight_sound hs ha f.steps [] (by simp) (key f hf hn hc)

/-- The functions that hand out an object as a handle of another class. -/
def wrongResultNames : List String :=
  ["OutlineItemColor_GetRed", "OutlineItemColor_GetGreen", "OutlineItemColor_GetBlue", "PageObject_GetParent"]

/-- The class of the object is the one of the handle, or a table for a section. -/
def rightHand (h : HandleType) (c : CppClass) : Bool :=
  classOf h = c || (c = .XrefTable && classOf h = .XrefBase)

/-- What the steps hand out has the class of the result of the function. -/
def handsRight (f : ApiFunction) : List ApiStep → Bool
  | [] => true
  | .convert _ _ _ d :: _ => (match f.resultType with | some h => classOf h = d | none => false)
  | .hand _ c :: _ => (match f.resultType with | some h => rightHand h c | none => false)
  | _ :: l => handsRight f l

theorem handsRight_sound {f : ApiFunction} {w : ApiWorld} (hs : Hierarchy w.sub) (hm : Makes w) {args : Nat → ApiArg} :
    ∀ (l : List ApiStep), handsRight f l = true → ∀ o, runApi w args l = .done (some o) →
    ∃ h, f.resultType = some h ∧ w.sub o.cls (classOf h) = true
  | [], _, o, ho => by simp [runApi] at ho
  | .check i :: l, h, o, ho => by
    rw [runApi] at ho
    split at ho
    · cases ho
    · exact handsRight_sound hs hm l h o ho
  | .work g us :: l, h, o, ho => by
    rw [runApi] at ho
    split at ho
    · cases ho
    · split at ho
      · cases ho
      · split at ho
        · split at ho <;> cases ho
        · exact handsRight_sound hs hm l h o ho
  | .convert i j s d :: l, h, o, ho => by
    rw [runApi] at ho
    rw [handsRight] at h
    split at h
    · rename_i k hk
      refine ⟨k, hk, ?_⟩
      split at ho
      · cases ho
      · split at ho
        · split at ho
          · cases ho
          · split at ho
            · rename_i hd
              injection ho with ho; injection ho with ho; subst ho
              rw [of_decide_eq_true h]; exact hd
            · cases ho
        · cases ho
    · cases h
  | .release i c :: l, h, o, ho => by
    rw [runApi] at ho
    split at ho
    · cases ho
    · split at ho
      · cases ho
      · exact handsRight_sound hs hm l h o ho
  | .hand j c :: l, h, o, ho => by
    rw [runApi] at ho
    rw [handsRight] at h
    injection ho with ho; injection ho with ho; subst ho
    split at h
    · rename_i k hk
      refine ⟨k, hk, ?_⟩
      simp only [rightHand, Bool.or_eq_true, decide_eq_true_eq, Bool.and_eq_true] at h
      rcases h with h | ⟨h1, h2⟩
      · rw [h]; exact hm c
      · rw [h2]; subst h1; exact hs.trans _ _ _ (hm _) hs.tables
    · cases h

/-- **C122**, results: what a function of the interface hands out, other than four of them, is an object of the class that
belongs to the type of the handle. -/
theorem C122_result_partial (f : ApiFunction) (hf : f ∈ interface) (hn : f.name ∉ wrongResultNames) (w : ApiWorld)
    (hs : Hierarchy w.sub) (hm : Makes w) (args : Nat → ApiArg) (o : ApiObject) (ho : runApi w args f.steps = .done (some o)) :
    ∃ h, f.resultType = some h ∧ w.sub o.cls (classOf h) = true := by
  have key : ∀ f ∈ interface, f.name ∉ wrongResultNames → handsRight f f.steps = true := by decide +kernel
  exact handsRight_sound hs hm f.steps (key f hf hn) o ho

/-- **C122**, programs: however many functions a program calls, in whatever order and with whatever handles it was given (or
null), no call accesses the address 0 or uses an object as one of another class, and all handles it has are handles of objects
of their class - if it avoids the fifteen functions for which this is false. -/
theorem C122_program_partial (sub : CppClass → CppClass → Bool) (hs : Hierarchy sub) (held : List (HandleType × ApiObject))
    (os : List ApiOutcome)
    (h : Runs sub (fun f => f ∈ interface ∧ f.name ∉ uncheckedNames ∧ f.name ∉ confusedNames ∧ f.name ∉ wrongResultNames) held os) :
    AllRight sub held ∧ ∀ o ∈ os, o ≠ .crash ∧ o ≠ .misuse := by
  induction h with
  | start => exact ⟨by simp [AllRight], by simp⟩
  | call w f args held os hr hf hw hm ha ih =>
    subst hw
    have right : RightTypes w.sub f args := by
      intro i p hp
      have := ha i p hp
      cases p with
      | handle h =>
        rcases this with h | ⟨o, ho, hh⟩
        · exact .inl h
        · exact .inr ⟨o, ho, ih.1 _ hh⟩
      | value => exact this
      | result h => exact this
      | memory => exact this
      | optional => exact this
    refine ⟨?_, ?_⟩
    · unfold afterCall
      split
      · rename_i o h ho hh
        intro x hx
        rw [List.mem_cons] at hx
        rcases hx with rfl | hx
        · obtain ⟨k, hk, hc⟩ := C122_result_partial f hf.1 hf.2.2.2 w hs hm args o ho
          rw [hh] at hk
          injection hk with hk
          subst hk
          exact hc
        · exact ih.1 x hx
      · exact ih.1
    · intro o ho
      rw [List.mem_cons] at ho
      rcases ho with rfl | ho
      · exact C122_use_partial f hf.1 hf.2.1 hf.2.2.1 w hs args right
      · exact ih.2 o ho

/-- The step is inside `try`. -/
def ApiStep.reported : ApiStep → Bool
  | .work g _ => g
  | _ => true

theorem reported_sound {w : ApiWorld} {args : Nat → ApiArg} : ∀ (l : List ApiStep), l.all ApiStep.reported = true →
    runApi w args l ≠ .escaped
  | [], _ => by simp [runApi]
  | .check i :: l, h => by
    rw [runApi]
    split
    · simp
    · exact reported_sound l (by simpa [ApiStep.reported] using h)
  | .work g us :: l, h => by
    simp only [List.all_cons, Bool.and_eq_true, ApiStep.reported] at h
    rw [runApi, h.1]
    split
    · simp
    · split
      · simp
      · split
        · simp
        · exact reported_sound l h.2
  | .convert i j s d :: l, h => by
    rw [runApi]
    split
    · simp
    · split
      · split
        · simp
        · split <;> simp
      · simp
  | .release i c :: l, h => by
    rw [runApi]
    split
    · simp
    · split
      · simp
      · exact reported_sound l (by simpa [ApiStep.reported] using h)
  | .hand j c :: l, h => by simp [runApi]

/-- The functions that do their work outside `try`: they read or write members of objects, or release them. -/
def plainNames : List String :=
  ["ContentInstruction_GetInstructionType", "ContentInstructionCollection_Remove", "ContentInstructionCollection_Clear",
   "ContentObject_GetObjectType", "ContentOperation_GetOperationType", "ContentOperator_GetOperatorType",
   "Annotation_GetAnnotationType", "CharacterMap_GetCharacterMapType", "Date_GetYear", "Date_SetYear", "Date_GetMonth",
   "Date_SetMonth", "Date_GetDay", "Date_SetDay", "Date_GetHour", "Date_SetHour", "Date_GetMinute", "Date_SetMinute",
   "Date_GetSecond", "Date_SetSecond", "Date_GetTimezone", "Date_SetTimezone", "Date_GetHourOffset", "Date_SetHourOffset",
   "Date_GetMinuteOffset", "Date_SetMinuteOffset", "DocumentEncryptionSettings_GetAlgorithm",
   "DocumentEncryptionSettings_SetAlgorithm", "DocumentEncryptionSettings_GetKeyLength",
   "DocumentEncryptionSettings_SetKeyLength", "DocumentEncryptionSettings_GetUserAccessPermissions",
   "DocumentEncryptionSettings_SetUserAccessPermissions", "Field_GetType", "Font_GetFontType",
   "OutlineBase_GetOutlineType", "OutlineItemFlags_IsItalic", "OutlineItemFlags_IsBold", "PageLabels_Release",
   "ArrayObject_GetSize", "BooleanObject_GetValue", "BooleanObject_SetValue", "DictionaryObject_GetSize", "File_Release",
   "IndirectReferenceObject_GetReferencedObjectNumber", "IndirectReferenceObject_GetReferencedGenerationNumber",
   "Object_GetObjectType", "Object_GetOffset", "BaseObjectAttribute_GetAttributeType",
   "ImageMetadataObjectAttribute_GetColorComponents", "ImageMetadataObjectAttribute_SetColorComponents",
   "ImageMetadataObjectAttribute_GetColorSpace", "ImageMetadataObjectAttribute_SetColorSpace",
   "ImageMetadataObjectAttribute_GetWidth", "ImageMetadataObjectAttribute_SetWidth",
   "ImageMetadataObjectAttribute_GetHeight", "ImageMetadataObjectAttribute_SetHeight", "StringObject_GetStringType",
   "Xref_Clear", "Xref_GetLastXrefOffset", "XrefEntry_InUse", "XrefEntry_GetType", "XrefEntry_GetObjectNumber",
   "XrefEntry_GetGenerationNumber", "XrefFreeEntry_GetObjectNumber", "XrefFreeEntry_GetGenerationNumber",
   "XrefFreeEntry_InUse", "XrefFreeEntry_GetNextFreeObjectNumber", "XrefUsedEntry_GetObjectNumber",
   "XrefUsedEntry_GetGenerationNumber", "XrefUsedEntry_GetOffset", "XrefUsedEntry_InUse",
   "XrefCompressedEntry_GetObjectNumber", "XrefCompressedEntry_GetGenerationNumber", "XrefCompressedEntry_InUse",
   "XrefCompressedEntry_GetIndex", "XrefCompressedEntry_GetObjectStreamNumber", "Buffer_GetData", "BufferArray_GetSize",
   "Errors_GetLastError", "Errors_GetPrintableErrorTextLength", "Errors_GetPrintableErrorText",
   "Errors_GetLastErrorMessageLength", "Errors_GetLastErrorMessage", "LibraryInfo_GetVersionMajor",
   "LibraryInfo_GetVersionMinor", "LibraryInfo_GetVersionPatch", "LibraryInfo_GetVersionBuild", "LibraryInfo_GetAuthor",
   "LibraryInfo_GetBuildDay", "LibraryInfo_GetBuildMonth", "LibraryInfo_GetBuildYear", "IUnknown_AddRef"]

/-- **C122**, exceptions: every function of the interface but the ones that read or write single members reports every
exception of its work as an error, whatever the arguments are. -/
theorem C122_exceptions_partial (f : ApiFunction) (hf : f ∈ interface) (hn : f.name ∉ plainNames) (w : ApiWorld)
    (args : Nat → ApiArg) : runApi w args f.steps ≠ .escaped := by
  have key : ∀ f ∈ interface, f.name ∉ plainNames → f.steps.all ApiStep.reported = true := by decide +kernel
  exact reported_sound f.steps (key f hf hn)

/-- The function is a conversion of the handle `0` to the type of the result `1`. -/
def isConversion (f : ApiFunction) : Bool :=
  match f.params, f.steps with
  | [.handle h, .result k], [.convert 0 1 s d] => classOf h = s && classOf k = d
  | _, _ => false

/-- The function contains a conversion. -/
def hasConversion (f : ApiFunction) : Bool := f.steps.any fun s => match s with | .convert .. => true | _ => false

/-- **C122**, conversions: a handle is converted to one of another type exactly if its object is of the class of that type,
and the new handle is one of the same object; otherwise the call is refused. -/
theorem C122_convert (f : ApiFunction) (hf : f ∈ interface) (hc : hasConversion f = true) :
    ∃ h k, f.params = [.handle h, .result k] ∧ ∀ (w : ApiWorld) (args : Nat → ApiArg) (o : ApiObject), args 0 = .object o →
      args 1 = .memory → w.sub o.cls (classOf h) = true →
      runApi w args f.steps = if w.sub o.cls (classOf k) = true then .done (some o) else .refused := by
  have key : ∀ f ∈ interface, hasConversion f = true → isConversion f = true := by decide +kernel
  have h := key f hf hc
  unfold isConversion at h
  split at h
  · rename_i h1 k1 s d hp hs
    simp only [Bool.and_eq_true, decide_eq_true_eq] at h
    obtain ⟨rfl, rfl⟩ := h
    refine ⟨h1, k1, hp, fun w args o h0 h1' hw => ?_⟩
    rw [hs, runApi, if_neg (by simp [h0, h1']), h0]
    simp [hw]
  · cases h

/-- The steps use the parameter without a check. -/
def crashesAt (i : Nat) : List ApiStep → Bool
  | .check j :: l => j ≠ i && crashesAt i l
  | .work _ us :: _ => us.any fun u => u.1 = i
  | _ => false

theorem crashesAt_sound {i : Nat} {w : ApiWorld} {args : Nat → ApiArg} (ha : ∀ j, args j = .null ↔ j = i) :
    ∀ (l : List ApiStep), crashesAt i l = true → runApi w args l = .crash
  | .check j :: l, h => by
    simp only [crashesAt, Bool.and_eq_true, decide_eq_true_eq] at h
    rw [runApi, if_neg (fun hj => h.1 ((ha j).mp hj))]
    exact crashesAt_sound ha l h.2
  | .work g us :: l, h => by
    simp only [crashesAt, List.any_eq_true, decide_eq_true_eq] at h
    obtain ⟨u, hu, rfl⟩ := h
    rw [runApi, if_pos]
    rw [List.any_eq_true]
    exact ⟨u, hu, by simpa using (ha u.1).mpr rfl⟩
  | [], h => by cases h
  | .convert .. :: l, h => by cases h
  | .release .. :: l, h => by cases h
  | .hand .. :: l, h => by cases h

/-- **C122** is false of null arguments for each of the five functions: with all other arguments present, the null address is
accessed. -/
theorem C122_null_counterexample (f : ApiFunction) (hf : f ∈ interface) (hn : f.name ∈ uncheckedNames) :
    ∃ i, Needs f i ∧ ∀ (w : ApiWorld) (args : Nat → ApiArg), (∀ j, args j = .null ↔ j = i) →
      runApi w args f.steps = .crash := by
  have key : ∀ f ∈ interface, f.name ∈ uncheckedNames → (List.range f.params.length).any
      (fun i => f.params[i]?.any ApiParam.needed && crashesAt i f.steps) = true := by decide +kernel
  obtain ⟨i, _, h⟩ := List.any_eq_true.mp (key f hf hn)
  rw [Bool.and_eq_true] at h
  exact ⟨i, needs_iff.mpr h.1, fun w args ha => crashesAt_sound ha f.steps h.2⟩

/-- **C122** is false of decoding: every filter that is no Flate filter is used as one. -/
theorem C122_filter_counterexample (f : ApiFunction) (hf : f ∈ interface) (hn : f.name ∈ confusedNames) (w : ApiWorld)
    (args : Nat → ApiArg) (o b : ApiObject) (h0 : args 0 = .object o) (ho : w.sub o.cls .FlateDecodeFilter = false)
    (h1 : args 1 = .object b) (h2 : args 2 = .memory) :
    runApi w args f.steps = .misuse := by
  have key : ∀ f ∈ interface, f.name ∈ confusedNames →
      (match f.steps with
        | [.check 0, .check 1, .check 2, .work true [(2, none), (0, some .FlateDecodeFilter), (1, some .Buffer)], .hand 2 .Buffer] => true
        | _ => false) = true := by decide +kernel
  have h := key f hf hn
  split at h
  · rename_i hs
    rw [hs]
    simp [runApi, h0, h1, h2, wrongClass, ho]
  · cases h

/-- The function hands out an object of a class that is not the one of the handle. -/
def handsOther (f : ApiFunction) : Bool :=
  match f.params, f.steps with
  | [.handle h, .result k], [.check 0, .check 1, .work true [(1, none), (0, some c)], .hand 1 d] =>
    classOf h = c && [(CppClass.RealObject, CppClass.IntegerObject), (.PageNodeBase, .PageTree)].contains (d, classOf k)
  | _, _ => false

/-- **C122** is false of the components of colours and the parents of pages: whenever these are asked for, what is handed out
as a handle for integers is a real number, and what is handed out as a page tree is a node of one. -/
theorem C122_result_counterexample (f : ApiFunction) (hf : f ∈ interface) (hn : f.name ∈ wrongResultNames) :
    ∃ h k d, f.params = [.handle h, .result k] ∧ ((d, classOf k) = (CppClass.RealObject, CppClass.IntegerObject) ∨
        (d, classOf k) = (CppClass.PageNodeBase, CppClass.PageTree)) ∧
      ∀ (w : ApiWorld) (args : Nat → ApiArg) (o : ApiObject), args 0 = .object o → args 1 = .memory →
        w.sub o.cls (classOf h) = true → w.throws = false → runApi w args f.steps = .done (some (w.made d)) := by
  have key : ∀ f ∈ interface, f.name ∈ wrongResultNames → handsOther f = true := by decide +kernel
  have h := key f hf hn
  unfold handsOther at h
  split at h
  · rename_i h1 k1 c d hp hs
    simp only [Bool.and_eq_true, decide_eq_true_eq] at h
    obtain ⟨rfl, h⟩ := h
    refine ⟨h1, k1, d, hp, by simpa using h, fun w args o h0 h1' hw ht => ?_⟩
    rw [hs]
    simp [runApi, h0, h1', wrongClass, hw, ht]
  · cases h

/-! ### Examples -/

/-- The classes of an example: filters and tables are derived from their bases, every class from `IUnknown`. -/
def exampleSub (a b : CppClass) : Bool :=
  a = b || b = .IUnknown || (a = .XrefTable && b = .XrefBase) || (b = .FilterBase && [CppClass.FlateDecodeFilter, .DCTDecodeFilter,
    .ASCII85DecodeFilter, .ASCIIHexDecodeFilter, .LZWDecodeFilter, .JPXDecodeFilter].contains a)

example : Hierarchy exampleSub := by
  refine ⟨fun a b c h1 h2 => ?_, by decide, by decide⟩
  revert h1 h2
  simp only [exampleSub, Bool.or_eq_true, decide_eq_true_eq, Bool.and_eq_true, List.contains_eq_mem, List.mem_cons,
    List.not_mem_nil, or_false]
  rintro (((rfl | rfl) | ⟨rfl, rfl⟩) | ⟨rfl, h⟩) (((rfl | rfl) | ⟨h1, rfl⟩) | ⟨rfl, h2⟩) <;> simp_all

/-- A world of the example. -/
def exampleWorld : ApiWorld := ⟨exampleSub, false, fun c => ⟨7, c⟩⟩

example : Makes exampleWorld := fun c => by simp [exampleWorld, exampleSub]

/-- A program that makes a buffer and asks for its size, and one that decodes it with an ASCII85 filter. -/
def exampleProgram : List ApiOutcome :=
  [runApi exampleWorld (fun _ => .memory) [.check 0, .work true [(0, none)], .hand 0 .Buffer],
   runApi exampleWorld (fun i => if i = 0 then .object ⟨7, .ASCII85DecodeFilter⟩ else if i = 1 then .object ⟨8, .Buffer⟩ else .memory)
     [.check 0, .check 1, .check 2, .work true [(2, none), (0, some .FlateDecodeFilter), (1, some .Buffer)], .hand 2 .Buffer]]

example : exampleProgram = [.done (some ⟨7, .Buffer⟩), .misuse] := by decide +kernel

/-- A program that makes a buffer, and then asks to convert it to a handle for everything. -/
example : ∃ held os, Runs exampleSub
    (fun f => f ∈ interface ∧ f.name ∉ uncheckedNames ∧ f.name ∉ confusedNames ∧ f.name ∉ wrongResultNames) held os ∧
    held.map Prod.fst = [.IUnknown, .Buffer] ∧ os.length = 2 := by
  have k1 : ∃ f ∈ interface, f.name = "Buffer_Create" ∧ f.params = [.result .Buffer] ∧
      runApi exampleWorld (fun _ => .memory) f.steps = .done (some ⟨7, .Buffer⟩) := by decide +kernel
  have k2 : ∃ f ∈ interface, f.name = "Buffer_ToUnknown" ∧ f.params = [.handle .Buffer, .result .IUnknown] ∧
      runApi exampleWorld (fun i => if i = 0 then .object ⟨7, .Buffer⟩ else .memory) f.steps = .done (some ⟨7, .Buffer⟩) := by
    decide +kernel
  obtain ⟨f, hf, fn, fp, fr⟩ := k1
  obtain ⟨g, hg, gn, gp, gr⟩ := k2
  have hm : Makes exampleWorld := fun c => by simp [exampleWorld, exampleSub]
  have r1 := Runs.call (sub := exampleSub) (allowed := fun f => f ∈ interface ∧ f.name ∉ uncheckedNames ∧
    f.name ∉ confusedNames ∧ f.name ∉ wrongResultNames) exampleWorld f (fun _ => .memory) [] [] .start
    ⟨hf, by rw [fn]; decide +kernel, by rw [fn]; decide +kernel, by rw [fn]; decide +kernel⟩ rfl hm (by
      intro i p hp
      rw [fp] at hp
      match i, hp with
      | 0, hp => cases hp; exact .inr rfl)
  have e1 : afterCall exampleWorld f (fun _ => .memory) [] = [(.Buffer, ⟨7, .Buffer⟩)] := by
    simp [afterCall, fr, ApiFunction.resultType, fp]
  rw [e1] at r1
  have r2 := Runs.call exampleWorld g (fun i => if i = 0 then .object ⟨7, .Buffer⟩ else .memory) _ _ r1
    ⟨hg, by rw [gn]; decide +kernel, by rw [gn]; decide +kernel, by rw [gn]; decide +kernel⟩ rfl hm (by
      intro i p hp
      rw [gp] at hp
      match i, hp with
      | 0, hp => cases hp; exact .inr ⟨_, rfl, by simp⟩
      | 1, hp => cases hp; exact .inr rfl)
  exact ⟨_, _, r2, by simp [afterCall, gr, ApiFunction.resultType, gp], rfl⟩

example : (interface.filter fun f => f.name ∈ confusedNames ++ uncheckedNames ++ wrongResultNames).length = 15 := by decide +kernel

example : 100 < (interface.filter hasConversion).length ∧ interface.length = 738 := by decide +kernel

end VPdf
