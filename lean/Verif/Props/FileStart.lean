import Verif.Lemmas.FileStart
/-
  C103: what is not encrypted is read as it stands, and a file can be opened and unlocked.
-/
namespace VPdf
open Spec

theorem fileCalls_after (F : ProtectedFile) : ∀ (cs : List FileCall) (s : FileState), s.initialized = true →
    (fileCalls F s cs).initialized = true ∧ (fileCalls F s cs).encrypted = s.encrypted ∧
    (fileCalls F s cs).exempt = s.exempt ∧
    ((fileCalls F s cs).unlocked = true ↔ s.unlocked = true ∨
      (s.encrypted = true ∧ ∃ p, FileCall.password p ∈ cs ∧ F.unlock p = .ok true)) := by
  intro cs
  induction cs with
  | nil => intro s h; simp [fileCalls, h]
  | cons c cs ih =>
    intro s h
    rw [fileCalls]
    cases c with
    | start =>
      have : (fileCall F s .start).2 = s := by simp [fileCall, initializeFile, h]
      rw [this]
      obtain ⟨a, b, c, d⟩ := ih s h
      exact ⟨a, b, c, by rw [d]; simp⟩
    | password p =>
      cases he : s.encrypted with
      | false =>
        have : (fileCall F s (.password p)).2 = s := by simp [fileCall, givePassword, h, he]
        rw [this]
        obtain ⟨a, b, c, d⟩ := ih s h
        exact ⟨a, b.trans he, c, by rw [d, he]; simp⟩
      | true =>
        by_cases hu : F.unlock p = .ok true
        · have : (fileCall F s (.password p)).2 = { s with unlocked := true } := by
            simp [fileCall, givePassword, h, he, hu]
          rw [this]
          obtain ⟨a, b, c, d⟩ := ih { s with unlocked := true } h
          exact ⟨a, b.trans he, c, by rw [d]; simp [hu]⟩
        · have : (fileCall F s (.password p)).2 = s := by
            simp only [fileCall, givePassword, h, he, Bool.not_true, Bool.false_eq_true, if_false]
          rw [this]
          obtain ⟨a, b, c, d⟩ := ih s h
          refine ⟨a, b.trans he, c, ?_⟩
          rw [d, he]
          simp only [true_and, List.mem_cons, FileCall.password.injEq]
          constructor
          · rintro (h | ⟨q, hq, h⟩)
            · exact .inl h
            · exact .inr ⟨q, .inr hq, h⟩
          · rintro (h | ⟨q, rfl | hq, h⟩)
            · exact .inl h
            · exact absurd h hu
            · exact .inr ⟨q, hq, h⟩

theorem fileCalls_initialize (F : ProtectedFile) (cs : List FileCall) :
    fileCalls F .fresh (.start :: cs) = fileCalls F (initializeFile F .fresh).2 cs := by
  rw [fileCalls, fileCall]
  cases h : initializeFile F .fresh with
  | mk a b => cases a <;> rfl

theorem initializeFile_sets (F : ProtectedFile) : (initializeFile F .fresh).2.initialized = true := by
  rw [initializeFile]
  simp only [FileState.fresh, Bool.false_eq_true, if_false]
  split
  · rfl
  · split <;> rfl

theorem isExempt_start {F : ProtectedFile} (hi : (initializeFile F .fresh).1 = .ok ()) (cs : List FileCall) (p : Spot) :
    isExempt F (fileCalls F .fresh (.start :: cs)) p = true ↔ NotEncrypted F 0 p := by
  obtain ⟨i, u, k, e⟩ := (initializeFile_facts F).2 hi
  obtain ⟨_, _, he, _⟩ := fileCalls_after F cs _ i
  rw [isExempt_iff, notEncrypted_iff, fileCalls_initialize, he]
  simp only [e]

theorem encrypted_start {F : ProtectedFile} (hi : (initializeFile F .fresh).1 = .ok ()) (cs : List FileCall) :
    (fileCalls F .fresh (.start :: cs)).encrypted = true ↔ Protected F := by
  obtain ⟨i, u, k, e⟩ := (initializeFile_facts F).2 hi
  obtain ⟨_, he, _, _⟩ := fileCalls_after F cs _ i
  rw [fileCalls_initialize, he]
  exact k

/-- C103, first part: a file that follows the standard as far as it is read then can be opened; whatever passwords are given
afterwards, the strings that the standard exempts from encryption are read as they are in the file.  Partial: of the signatures,
only those of fields in the list of the form itself. -/
theorem C103_plain_partial (F : ProtectedFile) (h : ProperStart F) (cs : List FileCall) (p : Spot) (stored : Bytes)
    (hp : NotEncrypted F 0 p) : (initializeFile F .fresh).1 = .ok () ∧
      readString F (fileCalls F .fresh (.start :: cs)) p stored = .ok stored := by
  have hi := (initializeFile_facts F).1 h
  refine ⟨hi, ?_⟩
  rw [readString, (isExempt_start hi cs p).mpr hp]
  rfl

/-- C103, second part: all other strings of objects of an encrypted file are decrypted. -/
theorem C103_others (F : ProtectedFile) (hi : (initializeFile F .fresh).1 = .ok ()) (hf : Protected F) (cs : List FileCall)
    (p : Spot) (r : ObjRef) (stored : Bytes) (hr : p.home = .object r) (hp : ¬ NotEncrypted F 0 p) :
    readString F (fileCalls F .fresh (.start :: cs)) p stored = F.decrypt r stored := by
  have e : isExempt F (fileCalls F .fresh (.start :: cs)) p = false := by
    rw [← Bool.not_eq_true, isExempt_start hi cs p]; exact hp
  rw [readString, e, (encrypted_start hi cs).mpr hf, hr]
  rfl

/-- C103, third part: the strings of a file that is not encrypted are read as they are. -/
theorem C103_unprotected (F : ProtectedFile) (hi : (initializeFile F .fresh).1 = .ok ()) (hf : ¬ Protected F)
    (cs : List FileCall) (p : Spot) (stored : Bytes) :
    readString F (fileCalls F .fresh (.start :: cs)) p stored = .ok stored := by
  have e : (fileCalls F .fresh (.start :: cs)).encrypted = false := by
    rw [← Bool.not_eq_true, encrypted_start hi cs]; exact hf
  rw [readString, e]
  simp

/-- C103, fourth part: every object can be read when a right password has been given at any time since the file was opened, also
if wrong ones were given; without one the empty password decides about those in object streams. -/
theorem C103_password (F : ProtectedFile) (hi : (initializeFile F .fresh).1 = .ok ()) (cs : List FileCall) (r : ObjRef) :
    ((∃ p, FileCall.password p ∈ cs ∧ F.unlock p = .ok true) →
      indirectObject F (fileCalls F .fresh (.start :: cs)) r = F.objs r) ∧
    (F.packed r = false ∨ ¬ Protected F ∨ F.unlock [] = .ok true →
      indirectObject F (fileCalls F .fresh (.start :: cs)) r = F.objs r) ∧
    (Protected F → F.packed r = true → (∀ p, FileCall.password p ∈ cs → F.unlock p ≠ .ok true) → F.unlock [] = .ok false →
      indirectObject F (fileCalls F .fresh (.start :: cs)) r = .error .throw) := by
  obtain ⟨i, u, k, e⟩ := (initializeFile_facts F).2 hi
  obtain ⟨a, b, c, d⟩ := fileCalls_after F cs _ i
  have kn : Knows F (fileCalls F .fresh (.start :: cs)) := encrypted_start hi cs
  rw [fileCalls_initialize] at kn ⊢
  have ind : ∀ r, indirectObject F (fileCalls F (initializeFile F .fresh).2 cs) r =
      readObject F (fileCalls F (initializeFile F .fresh).2 cs) r := by
    intro r; rw [indirectObject, a]; rfl
  rw [ind]
  refine ⟨?_, fun h => readObject_at_once kn h, ?_⟩
  · rintro hp
    cases he : (initializeFile F .fresh).2.encrypted with
    | true => rw [readObject, d.mpr (.inr ⟨he, hp⟩)]; simp
    | false => rw [readObject, b, he]; simp
  · intro hp hk hn h0
    have hu : (fileCalls F (initializeFile F .fresh).2 cs).unlocked = false := by
      rw [← Bool.not_eq_true, d, u]
      rintro (h | ⟨_, p, hp, h⟩)
      · cases h
      · exact hn p hp h
    rw [readObject, kn.mpr hp, hk, hu, h0]
    rfl

/-- C103, fifth part: the answer to a password, after any calls that follow opening: no for a file that is not encrypted, for
another one what its dictionary says; before the file is opened, an error. -/
theorem C103_answer (F : ProtectedFile) (hi : (initializeFile F .fresh).1 = .ok ()) (cs : List FileCall) (p : Bytes) :
    (Protected F → (givePassword F (fileCalls F .fresh (.start :: cs)) p).1 = F.unlock p) ∧
    (¬ Protected F → (givePassword F (fileCalls F .fresh (.start :: cs)) p).1 = .ok false) ∧
    (givePassword F .fresh p).1 = .error .throw := by
  obtain ⟨i, u, k, e⟩ := (initializeFile_facts F).2 hi
  obtain ⟨a, _, _, _⟩ := fileCalls_after F cs _ i
  have kn := encrypted_start hi cs
  rw [fileCalls_initialize] at kn ⊢
  refine ⟨fun h => ?_, fun h => ?_, rfl⟩
  · rw [givePassword, a, kn.mpr h]
    simp only [Bool.not_true, Bool.false_eq_true, if_false]
    split <;> simp_all
  · have : (fileCalls F (initializeFile F .fresh).2 cs).encrypted = false := by
      rw [← Bool.not_eq_true, kn]; exact h
    rw [givePassword, a, this]
    rfl

/-- A state of the file once `Encrypt` has been read. -/
theorem initializeFile_start {F : ProtectedFile} {part : TrailerPart} {ps : List TrailerPart} (hp : F.parts = part :: ps)
    (hf : ProperEncrypt F part.trailer) : ∃ s1 : FileState, Knows F s1 ∧ s1.unlocked = false ∧ s1.initialized = true ∧
      (∀ q ∈ s1.exempt, ∀ r, q.home = .object r → valueAt (b! "Encrypt") part.trailer = some (.ref r.1 r.2)) ∧
      initializeFile F .fresh = ((exemptSignatures F s1 part.trailer).1,
        { s1 with exempt := s1.exempt ++ (exemptSignatures F s1 part.trailer).2 }) := by
  obtain ⟨ok, facts⟩ := exemptDictionary_facts hp
  obtain ⟨x, ex⟩ := ok hf
  obtain ⟨enc, dict⟩ := facts x ex
  refine ⟨⟨true, (x.map (·.2)).getD false, false,
    (x.map (·.1)).toList ++ exemptStreams 0 F.parts ++ exemptIds 0 F.parts⟩, enc, rfl, rfl, ?_, ?_⟩
  · intro q hq r hr
    simp only [List.mem_append] at hq
    rcases hq with (hq | hq) | hq
    · obtain ⟨o, ho, ⟨_, rfl⟩ | ⟨n, g, rfl, rfl⟩⟩ := (dict q).mp hq
      · cases hr
      · cases hr; exact ho
    · obtain ⟨j, p, _, _, rfl⟩ := (mem_exemptStreams _ _ _).mp hq; cases hr
    · obtain ⟨j, p, _, _, _, rfl⟩ := (mem_exemptIds _ _ _).mp hq; cases hr
  · simp [initializeFile, FileState.fresh, hp, ex]

/-- C103 fails for every encrypted file with a user password that is not empty and with its catalog in an object stream:
opening it fails, and a password cannot be given before that.  Opening it a second time is reported to succeed; then the right
password is taken, but the contents of signatures, like all strings of the objects that are not in object streams (the encryption
dictionary apart), are decrypted. -/
theorem C103_locked_counterexample (F : ProtectedFile) (part : TrailerPart) (ps : List TrailerPart) (n g : Nat)
    (hp : F.parts = part :: ps) (he : ProperEncrypt F part.trailer) (hf : Protected F)
    (hr : valueAt (b! "Root") part.trailer = some (.ref n g)) (hk : F.packed (n, g) = true) (h0 : F.unlock [] = .ok false) :
    (fileCall F .fresh .start).1 = .error .throw ∧
    (∀ p, (fileCall F .fresh (.password p)).1 = .error .throw) ∧
    (fileCall F (fileCall F .fresh .start).2 .start).1 = .ok true ∧
    (∀ cs p, F.unlock p = .ok true → (givePassword F (fileCalls F .fresh (.start :: .start :: cs)) p).1 = .ok true) ∧
    ∀ cs p r stored, p.home = .object r → F.packed r = false → valueAt (b! "Encrypt") part.trailer ≠ some (.ref r.1 r.2) →
      readString F (fileCalls F .fresh (.start :: .start :: cs)) p stored = F.decrypt r stored := by
  obtain ⟨s1, k1, u1, i1, e1, eq⟩ := initializeFile_start hp he
  have enc : s1.encrypted = true := k1.mpr hf
  have hs : exemptSignatures F s1 part.trailer = (.error .throw, []) := by
    rw [valueAt_eq] at hr
    have : formFields F s1 part.trailer = .error .throw := by
      rw [formFields, hr]
      simp only [bind, Except.bind, followRef, readObject, enc, hk, u1, h0]
      rfl
    rw [exemptSignatures, this]
  rw [hs] at eq
  simp only [List.append_nil] at eq
  have st : ∀ cs, fileCalls F .fresh (.start :: .start :: cs) = fileCalls F s1 cs := by
    intro cs
    rw [fileCalls_initialize, eq]
    simp only
    rw [fileCalls]
    have : (fileCall F s1 .start).2 = s1 := by simp [fileCall, initializeFile, i1]
    rw [this]
  have fc : fileCall F .fresh .start = (.error .throw, s1) := by rw [fileCall, eq]
  refine ⟨by rw [fc], fun p => rfl, ?_, ?_, ?_⟩
  · rw [fc]; simp [fileCall, initializeFile, i1]
  · intro cs p h
    obtain ⟨a, b, _, _⟩ := fileCalls_after F cs s1 i1
    rw [st, givePassword, a, b, enc, h]
    rfl
  · intro cs p r stored h1 h2 h3
    obtain ⟨_, b, c, _⟩ := fileCalls_after F cs s1 i1
    have ex : isExempt F (fileCalls F s1 cs) p = false := by
      rw [← Bool.not_eq_true, isExempt_iff, c]
      rintro (⟨q, hq, hw, _⟩ | ⟨r', h, h'⟩)
      · exact h3 (e1 q hq r (hw.symm.trans h1))
      · rw [h1] at h; cases h; rw [h2] at h'; cases h'
    rw [st, readString, ex, b, enc, h1]
    rfl

/-- C103 is false of files that could not be opened: after any failure of the first call, each further call to open the file reports
success, although nothing more is done; a file whose encryption dictionary cannot be read then counts as one that is not encrypted,
so its strings are handed out as they are stored and no password is accepted. -/
theorem C103_again_counterexample (F : ProtectedFile) (cs : List FileCall) :
    ((fileCall F .fresh .start).1 ≠ .ok true → (fileCall F (fileCalls F .fresh (.start :: cs)) .start).1 = .ok true) ∧
    ∀ part ps n g e, F.parts = part :: ps → valueAt (b! "Encrypt") part.trailer = some (.ref n g) → F.packed (n, g) = false →
      F.objs (n, g) = .error e → (fileCall F .fresh .start).1 = .error e ∧
      ∀ p stored, readString F (fileCalls F .fresh (.start :: cs)) p stored = .ok stored ∧
        ∀ pw, (givePassword F (fileCalls F .fresh (.start :: cs)) pw).1 = .ok false := by
  have hi := initializeFile_sets F
  obtain ⟨a, b, c, _⟩ := fileCalls_after F cs _ hi
  rw [fileCalls_initialize]
  refine ⟨fun _ => ?_, fun part ps n g e hp hv hk ho => ?_⟩
  · rw [fileCall, initializeFile, if_pos a]
  · have he : exemptDictionary F part.trailer = .error e := by
      rw [valueAt_eq] at hv
      rw [exemptDictionary, hv]
      simp only [hk, Bool.false_eq_true, if_false, ho]
    have hs : initializeFile F .fresh = (.error e, { FileState.fresh with initialized := true }) := by
      rw [initializeFile, hp]
      simp only [FileState.fresh, Bool.false_eq_true, if_false]
      rw [he]
    rw [hs] at b
    have b : (fileCalls F (initializeFile F .fresh).2 cs).encrypted = false := by rw [hs]; exact b
    refine ⟨by rw [fileCall, hs], fun p stored => ⟨?_, fun pw => ?_⟩⟩
    · rw [readString, b]; simp
    · rw [givePassword, a, b]; rfl

/-- C103 fails for every file, encrypted or not, whose form is a reference to an object that does not exist, which stands for
null, like an entry that is missing: it cannot be opened. -/
theorem C103_form_counterexample (F : ProtectedFile) (part : TrailerPart) (ps : List TrailerPart) (p : Spot) (root : Dict)
    (n g : Nat) (hp : F.parts = part :: ps) (he : ProperEncrypt F part.trailer)
    (hr : EntryAt F ⟨.trailer 0, []⟩ part.trailer (b! "Root") p (.dict root))
    (hf : valueAt (b! "AcroForm") root = some (.ref n g)) (hk : F.packed (n, g) = false) (hn : F.objs (n, g) = .ok .null) :
    (initializeFile F .fresh).1 = .error .conversion := by
  obtain ⟨s1, k1, u1, i1, e1, eq⟩ := initializeFile_start hp he
  rw [eq]
  simp only
  obtain ⟨o, ho, h1⟩ := hr
  rw [valueAt_eq] at ho hf
  have f1 := followRef_of_stands k1 h1
  have : formFields F s1 part.trailer = .error .conversion := by
    rw [formFields, ho]
    simp only [bind, Except.bind, pure, Except.pure]
    rw [show followRef F s1 (⟨Home.trailer 0, [.key (b! "Root")]⟩, o) = _ from f1]
    simp only [hf, Option.isNone_some, Bool.false_eq_true, if_false, entryAt, followRef, readObject, hk, hn, Bool.and_false,
      Bool.false_and, bind, Except.bind, pure, Except.pure]
  rw [exemptSignatures, this]

/-- C103 fails for every file, encrypted or not, whose first field is a signature with contents that are written as a literal
string: it cannot be opened. -/
theorem C103_literal_counterexample (F : ProtectedFile) (part : TrailerPart) (ps : List TrailerPart) (r y q t c : Spot) (o : Obj)
    (l : List Obj) (d v : Dict) (x : Bytes) (hp : F.parts = part :: ps) (he : ProperEncrypt F part.trailer)
    (hf : FormAt F r (o :: l)) (h1 : Rests F (r.child (.index 0)) o y (.dict d))
    (h2 : EntryAt F y d (b! "FT") t (.name (b! "Sig"))) (h3 : EntryAt F y d (b! "V") q (.dict v))
    (h4 : EntryAt F q v (b! "Contents") c (.lit x)) : (initializeFile F .fresh).1 = .error .conversion := by
  obtain ⟨s1, k1, u1, i1, _, eq⟩ := initializeFile_start hp he
  rw [eq]
  simp only
  obtain ⟨_, f2, _⟩ := formFields_of k1 u1 hp
  rw [exemptSignatures, f2 r _ hf]
  simp only
  have e1 := followRef_of_stands k1 h1
  obtain ⟨e2, n2⟩ := entryAt_of k1 h2
  obtain ⟨e3, n3⟩ := entryAt_of k1 h3
  obtain ⟨e4, n4⟩ := entryAt_of k1 h4
  have : exemptField F s1 (r.child (.index 0), o) = .error .conversion := by
    rw [exemptField, e1]
    simp [bind, Except.bind, e2, n2, e3, n3, e4, n4]
  rw [exemptFields, this]

/-! ### A file with a signature and one in a group of fields -/

/-- An encrypted file with two signatures; the second one is that of a field that belongs to another field.  `packed` are the
objects in object streams. -/
def sampleProtected (packed : ObjRef → Bool) : ProtectedFile where
  parts := [⟨[(b! "Encrypt", .ref 9 0), (b! "ID", .arr [.hex [7]]), (b! "Root", .ref 1 0)], false⟩]
  objs
    | (1, 0) => .ok (.dict [(b! "AcroForm", .ref 2 0)])
    | (2, 0) => .ok (.dict [(b! "Fields", .arr [.ref 3 0, .ref 6 0])])
    | (3, 0) => .ok (.dict [(b! "FT", .name (b! "Sig")), (b! "V", .ref 4 0)])
    | (4, 0) => .ok (.dict [(b! "Contents", .hex [1, 2]), (b! "Reason", .lit [5])])
    | (6, 0) => .ok (.dict [(b! "Kids", .arr [.ref 7 0])])
    | (7, 0) => .ok (.dict [(b! "FT", .name (b! "Sig")), (b! "V", .ref 8 0)])
    | (8, 0) => .ok (.dict [(b! "Contents", .hex [3, 4])])
    | (9, 0) => .ok (.dict [(b! "Filter", .name (b! "Standard"))])
    | _ => .ok .null
  packed := packed
  unlock p := .ok (p == b! "secret")
  decrypt _ x := .ok (x.map (· ^^^ 0x55))

theorem sampleProtected_stands {n : Nat} {p : Spot} {v : Obj} (h : (sampleProtected fun _ => false).objs (n, 0) = .ok v)
    (hv : ∀ n g, v ≠ .ref n g) : Rests (sampleProtected fun _ => false) p (.ref n 0) ⟨.object (n, 0), []⟩ v :=
  .refers p n 0 v (.inl rfl) h hv

theorem sampleProtected_proper : ProperStart (sampleProtected fun _ => false) := by
  refine ⟨_, _, rfl, ?_, .inr ⟨⟨.object (1, 0), []⟩, _, ⟨_, rfl, sampleProtected_stands rfl (by intro n g h; cases h)⟩,
    .inr ⟨⟨.object (2, 0), []⟩, _, ⟨_, rfl, sampleProtected_stands rfl (by intro n g h; cases h)⟩,
    .inr ⟨_, _, ⟨_, rfl, .here _ _ (by intro n g h; cases h)⟩, ?_⟩⟩⟩⟩
  · intro n g h
    cases h
    exact ⟨rfl, _, rfl⟩
  · intro i o h
    match i with
    | 0 =>
      cases h
      refine ⟨_, _, sampleProtected_stands rfl (by intro n g h; cases h), ?_⟩
      intro d hd
      cases hd
      exact .inr ⟨_, _, ⟨_, rfl, .here _ _ (by intro n g h; cases h)⟩, fun _ => .inr ⟨⟨.object (4, 0), []⟩, _,
        ⟨_, rfl, sampleProtected_stands rfl (by intro n g h; cases h)⟩, .inr ⟨_, _, _, rfl, .here _ _ (by intro n g h; cases h)⟩⟩⟩
    | 1 =>
      cases h
      refine ⟨_, _, sampleProtected_stands rfl (by intro n g h; cases h), ?_⟩
      intro d hd
      cases hd
      exact .inl (absent_iff.mpr rfl)
    | i + 2 => simp at h

theorem sampleProtected_form : FormAt (sampleProtected fun _ => false) ⟨.object (2, 0), [.key (b! "Fields")]⟩
    [.ref 3 0, .ref 6 0] :=
  ⟨_, _, ⟨.object (1, 0), []⟩, _, ⟨.object (2, 0), []⟩, _, rfl,
    ⟨_, rfl, sampleProtected_stands rfl (by intro n g h; cases h)⟩,
    ⟨_, rfl, sampleProtected_stands rfl (by intro n g h; cases h)⟩, ⟨_, rfl, .here _ _ (by intro n g h; cases h)⟩⟩

/-- The first signature is one of those of C103_plain_partial. -/
theorem sampleProtected_signature : SignatureAt (sampleProtected fun _ => false) 0 ⟨.object (4, 0), [.key (b! "Contents")]⟩ [1, 2] :=
  ⟨⟨.object (3, 0), []⟩, _, ⟨.object (4, 0), []⟩, _,
    .own _ _ _ 0 _ _ _ sampleProtected_form ⟨_, rfl, sampleProtected_stands rfl (by intro n g h; cases h)⟩
      ⟨_, rfl, .here _ _ (by intro n g h; cases h)⟩,
    ⟨_, rfl, sampleProtected_stands rfl (by intro n g h; cases h)⟩, ⟨_, rfl, .here _ _ (by intro n g h; cases h)⟩⟩

example : readString (sampleProtected fun _ => false)
    (fileCalls (sampleProtected fun _ => false) .fresh [.start, .password (b! "secret")])
    ⟨.object (4, 0), [.key (b! "Contents")]⟩ [1, 2] = .ok [1, 2] :=
  (C103_plain_partial _ sampleProtected_proper [.password (b! "secret")] _ _
    (.signature [1, 2] _ sampleProtected_signature ⟨rfl, [], rfl⟩)).2

/-- The other strings of the signature are decrypted. -/
example : readString (sampleProtected fun _ => false)
    (fileCalls (sampleProtected fun _ => false) .fresh [.start, .password (b! "secret")])
    ⟨.object (4, 0), [.key (b! "Reason")]⟩ [5] = .ok [0x50] := by rfl

/-- C103 fails for signatures of fields that belong to other fields: their contents are decrypted although they are not
encrypted. -/
theorem C103_kid_counterexample : ∃ (F : ProtectedFile) (c : Spot) (stored : Bytes), ProperStart F ∧ SignatureAt F 1 c stored ∧
    ∀ cs, ∃ other, readString F (fileCalls F .fresh (.start :: cs)) c stored = .ok other ∧ other ≠ stored := by
  refine ⟨sampleProtected fun _ => false, ⟨.object (8, 0), [.key (b! "Contents")]⟩, [3, 4], sampleProtected_proper, ?_, ?_⟩
  · exact ⟨⟨.object (7, 0), []⟩, _, ⟨.object (8, 0), []⟩, _,
      .kidOwn 0 ⟨.object (6, 0), []⟩ _ ⟨.object (6, 0), [.key (b! "Kids")]⟩ ⟨.object (7, 0), [.key (b! "FT")]⟩ _ _ _ 0 _ none
        (.none _ _ _ 1 _ sampleProtected_form ⟨_, rfl, sampleProtected_stands rfl (by intro n g h; cases h)⟩ (absent_iff.mpr rfl))
        ⟨_, rfl, .here _ _ (by intro n g h; cases h)⟩ ⟨_, rfl, sampleProtected_stands rfl (by intro n g h; cases h)⟩
        ⟨_, rfl, .here _ _ (by intro n g h; cases h)⟩,
      ⟨_, rfl, sampleProtected_stands rfl (by intro n g h; cases h)⟩, ⟨_, rfl, .here _ _ (by intro n g h; cases h)⟩⟩
  · intro cs
    obtain ⟨_, b, c, _⟩ := fileCalls_after (sampleProtected fun _ => false) cs
      (initializeFile (sampleProtected fun _ => false) .fresh).2 rfl
    refine ⟨[0x56, 0x51], ?_, by decide⟩
    rw [fileCalls_initialize, readString, isExempt, b, c]
    rfl

/-- With the catalog in an object stream the file cannot be opened. -/
example : (fileCall (sampleProtected (· == (1, 0))) .fresh .start).1 = .error .throw :=
  (C103_locked_counterexample (sampleProtected (· == (1, 0))) _ _ 1 0 rfl (by intro n g h; cases h; exact ⟨rfl, _, rfl⟩)
    ⟨_, _, rfl, _, rfl, .inr ⟨9, 0, _, rfl, rfl, by intro h; cases h⟩⟩ rfl rfl rfl).1

/-- The first signature is then decrypted. -/
example : readString (sampleProtected (· == (1, 0)))
    (fileCalls (sampleProtected (· == (1, 0))) .fresh [.start, .start, .password (b! "secret")])
    ⟨.object (4, 0), [.key (b! "Contents")]⟩ [1, 2] = .ok [0x54, 0x57] := by rfl

/-- Objects in object streams can be read with the password and not without. -/
example : (indirectObject (sampleProtected (· == (7, 0)))
      (fileCalls (sampleProtected (· == (7, 0))) .fresh [.start, .password (b! "wrong"), .password (b! "secret")]) (7, 0)).isOk
      = true ∧
    (indirectObject (sampleProtected (· == (7, 0)))
      (fileCalls (sampleProtected (· == (7, 0))) .fresh [.start, .password (b! "wrong")]) (7, 0)).isOk = false := by decide +kernel

/-- A file whose encryption dictionary cannot be read. -/
example : ∃ F : ProtectedFile, (fileCall F .fresh .start).1 = .error .throw ∧ (fileCall F (fileCall F .fresh .start).2 .start).1 = .ok true :=
  ⟨{ sampleProtected (fun _ => false) with objs := fun _ => .error .throw }, rfl, rfl⟩

end VPdf
