import Verif.Model.PageTree
/-
  The last steps of `File::Initialize` (syntax/files/file.cpp:154-174), which decide what is not encrypted, giving a password
  and reading of objects and strings afterwards.
  Simplifications: only one reference is followed, a reference to a reference fails to convert; streams among the objects count
  as null, neither of them can be converted; asserts are off.
-/
namespace VPdf

/-- What an object is part of in the end: the trailer of a section, the newest one is number 0, or an indirect object.
`Object::GetRootObjectNumber`, object.cpp:161-180. -/
inductive Home where
  | trailer (i : Nat)
  | object (r : ObjRef)
  deriving DecidableEq

/-- From a container to one of the objects in it: `m_owner` the other way round, object.h:104. -/
inductive SpotStep where
  | key (k : Bytes)
  | index (i : Nat)
  deriving DecidableEq

/-- The place of an object in a file.  Loaded objects are kept by the entries of the cross-reference sections
(xref_entry.h), so a place stands for the same C++ object all the time. -/
structure Spot where
  home : Home
  steps : List SpotStep
  deriving DecidableEq

/-- The place of something in the container at a place. object.cpp:203-214 goes the way back. -/
def Spot.child (p : Spot) (x : SpotStep) : Spot := ⟨p.home, p.steps ++ [x]⟩

/-- A section with its trailer; whether it is a cross-reference stream. xref.h. -/
structure TrailerPart where
  trailer : Dict
  stream : Bool

/-- A file after its cross-references have been read, file.cpp:141-151. -/
structure ProtectedFile where
  /-- the newest one first, file.h:138 -/
  parts : List TrailerPart
  /-- reading an object, `GetIndirectObjectInternal`, file.cpp:804-901; null for the ones that are missing -/
  objs : ObjRef → Res Obj
  /-- whether the object is in an object stream, xref_entry.h -/
  packed : ObjRef → Bool
  /-- the answer of `SetEncryptionPassword`, file.cpp:319-424, if the file is encrypted; see Encryption.lean -/
  unlock : Bytes → Res Bool
  /-- decryption of a string of an object with the key of the file, `File::DecryptString`, file.cpp:454-470; see
  Encryption.lean -/
  decrypt : ObjRef → Bytes → Res Bytes

/-- The members of a file that change: `_initialized`, whether `_encryption_dictionary` is set to something, whether there is a
key, and the places of the objects with `m_encryption_exempted`. file.h:139-145, object.h:106. -/
structure FileState where
  initialized : Bool
  encrypted : Bool
  unlocked : Bool
  exempt : List Spot

/-- A new `File`, file.cpp:105-111. -/
def FileState.fresh : FileState := ⟨false, false, false, []⟩

/-- Reading an object: one in an object stream needs the key, without one the empty password is tried. file.cpp:804-901,
176-231, 539-546.  Simplifications: the key of the empty password is not remembered, it is found again; no object stream is
without data or has a crypt filter of its own. -/
def readObject (F : ProtectedFile) (s : FileState) (r : ObjRef) : Res Obj :=
  if s.encrypted && F.packed r && !s.unlocked then
    match F.unlock [] with
    | .ok true => F.objs r
    | .ok false => .error .throw
    | .error e => .error e
  else F.objs r

/-- The object itself, or the one that is referred to, with its place. object_utils.h:132-159. -/
def followRef (F : ProtectedFile) (s : FileState) (x : Spot × Obj) : Res (Spot × Obj) :=
  match x.2 with
  | .ref n g => do
    let o ← readObject F s (n, g)
    pure (⟨.object (n, g), []⟩, o)
  | _ => .ok x

/-- `FindAs` before the conversion, dictionary_object.h:101-104, with the place. -/
def entryAt (F : ProtectedFile) (s : FileState) (p : Spot) (d : Dict) (k : Bytes) : Res (Spot × Obj) :=
  match mapFind k d with
  | none => .error .missing
  | some o => followRef F s (p.child (.key k), o)

/-- `File::ExemptEncryptionDictionary`, file.cpp:1210-1234: whether the file is encrypted, and the place that is exempted.
A dictionary in an object stream is looked for without end, as decrypting needs it: `ub`. -/
def exemptDictionary (F : ProtectedFile) (trailer : Dict) : Res (Option (Spot × Bool)) :=
  match mapFind (b! "Encrypt") trailer with
  | none => .ok none
  | some (.ref n g) =>
    if F.packed (n, g) then .error .ub
    else
      match F.objs (n, g) with
      | .ok .null => .ok (some (⟨.object (n, g), []⟩, false))
      | .ok _ => .ok (some (⟨.object (n, g), []⟩, true))
      | .error e => .error e
  | some .null => .ok (some (⟨.trailer 0, [.key (b! "Encrypt")]⟩, false))
  | some _ => .ok (some (⟨.trailer 0, [.key (b! "Encrypt")]⟩, true))

/-- `File::ExemptCrossReferenceStreams`, file.cpp:1317-1332; `i` is the number of the first of the sections. -/
def exemptStreams : Nat → List TrailerPart → List Spot
  | _, [] => []
  | i, p :: ps => if p.stream then ⟨.trailer i, []⟩ :: exemptStreams (i + 1) ps else exemptStreams (i + 1) ps

/-- `File::ExemptDocumentId`, file.cpp:1236-1255. -/
def exemptIds : Nat → List TrailerPart → List Spot
  | _, [] => []
  | i, p :: ps =>
    if (mapFind (b! "ID") p.trailer).isSome then ⟨.trailer i, [.key (b! "ID")]⟩ :: exemptIds (i + 1) ps
    else exemptIds (i + 1) ps

/-- One field of the form, file.cpp:1287-1314: the place of the contents of its signature. -/
def exemptField (F : ProtectedFile) (s : FileState) (x : Spot × Obj) : Res (Option Spot) := do
  let y ← followRef F s x
  match y.2 with
  | .dict d =>
    if (mapFind (b! "FT") d).isNone then pure none
    else
      match (← entryAt F s y.1 d (b! "FT")).2 with
      | .name n =>
        if n ≠ b! "Sig" then pure none
        else if (mapFind (b! "V") d).isNone then pure none
        else
          match ← entryAt F s y.1 d (b! "V") with
          | (q, .dict v) =>
            if (mapFind (b! "Contents") v).isNone then pure none
            else
              match ← entryAt F s q v (b! "Contents") with
              | (c, .hex _) => pure (some c)
              | _ => .error .conversion
          | _ => .error .conversion
      | _ => .error .conversion
  | _ => pure none

/-- The fields of the form, file.cpp:1286-1314, from number `i` on: an exception ends the loop, what has been exempted stays. -/
def exemptFields (F : ProtectedFile) (s : FileState) (p : Spot) : Nat → List Obj → Res Unit × List Spot
  | _, [] => (.ok (), [])
  | i, o :: os =>
    match exemptField F s (p.child (.index i), o) with
    | .error e => (.error e, [])
    | .ok none => exemptFields F s p (i + 1) os
    | .ok (some q) =>
      let r := exemptFields F s p (i + 1) os
      (r.1, q :: r.2)

/-- The array of fields of the form with its place, file.cpp:1266-1285; `none` if there is nothing to do. -/
def formFields (F : ProtectedFile) (s : FileState) (trailer : Dict) : Res (Option (Spot × List Obj)) := do
  match mapFind (b! "Root") trailer with
  | none => pure none
  | some o =>
    match ← followRef F s (⟨.trailer 0, [.key (b! "Root")]⟩, o) with
    | (p, .dict root) =>
      if (mapFind (b! "AcroForm") root).isNone then pure none
      else
        match ← entryAt F s p root (b! "AcroForm") with
        | (q, .dict form) =>
          if (mapFind (b! "Fields") form).isNone then pure none
          else
            match ← entryAt F s q form (b! "Fields") with
            | (r, .arr l) => pure (some (r, l))
            | _ => .error .conversion
        | _ => .error .conversion
    | _ => pure none

/-- `File::ExemptFileSignatures`, file.cpp:1257-1315. -/
def exemptSignatures (F : ProtectedFile) (s : FileState) (trailer : Dict) : Res Unit × List Spot :=
  match formFields F s trailer with
  | .error e => (.error e, [])
  | .ok none => (.ok (), [])
  | .ok (some (p, l)) => exemptFields F s p 0 l

/-- `File::Initialize`, file.cpp:123-174, of a file with readable cross-references: nothing happens when it is called again. -/
def initializeFile (F : ProtectedFile) (s : FileState) : Res Unit × FileState :=
  if s.initialized then (.ok (), s)
  else
    match F.parts with
    | [] => (.error .ub, { s with initialized := true })
    | p :: _ =>
      match exemptDictionary F p.trailer with
      | .error e => (.error e, { s with initialized := true })
      | .ok x =>
        let encrypted := (x.map (·.2)).getD false
        let dict := (x.map (·.1)).toList
        let s1 : FileState := { s with
          initialized := true
          encrypted := encrypted
          exempt := s.exempt ++ dict ++ exemptStreams 0 F.parts ++ exemptIds 0 F.parts }
        let r := exemptSignatures F s1 p.trailer
        (r.1, { s1 with exempt := s1.exempt ++ r.2 })

/-- `File::SetEncryptionPassword`, file.cpp:319-424. -/
def givePassword (F : ProtectedFile) (s : FileState) (password : Bytes) : Res Bool × FileState :=
  if !s.initialized then (.error .throw, s)
  else if !s.encrypted then (.ok false, s)
  else
    match F.unlock password with
    | .ok true => (.ok true, { s with unlocked := true })
    | r => (r, s)

/-- What a program does with a file before it reads: `File_Initialize`, `File_SetEncryptionPassword`
(implementation/syntax/c_file.cpp:70-82, 205-226). -/
inductive FileCall where
  | start
  | password (p : Bytes)

/-- One call: its answer, with `true` for a successful initialization. c_file.cpp:70-82, 205-226. -/
def fileCall (F : ProtectedFile) (s : FileState) : FileCall → Res Bool × FileState
  | .start =>
    match initializeFile F s with
    | (.ok _, s') => (.ok true, s')
    | (.error e, s') => (.error e, s')
  | .password p => givePassword F s p

/-- The file after calls, one after the other. c_file.cpp:70-82, 205-226. -/
def fileCalls (F : ProtectedFile) (s : FileState) : List FileCall → FileState
  | [] => s
  | c :: cs => fileCalls F (fileCall F s c).2 cs

/-- `File::GetIndirectObject`, file.cpp:793-802. -/
def indirectObject (F : ProtectedFile) (s : FileState) (r : ObjRef) : Res Obj :=
  if !s.initialized then .error .throw else readObject F s r

/-- `Object::IsEncryptionExempted`, object.cpp:203-214, of the object at a place; the objects in an object stream are exempted
by the parser (parser.cpp:401-404). -/
def isExempt (F : ProtectedFile) (s : FileState) (p : Spot) : Bool :=
  (s.exempt.any fun q => q.home == p.home && q.steps.isPrefixOf p.steps) ||
    match p.home with
    | .object r => F.packed r
    | .trailer _ => false

/-- `LiteralStringObject::GetValue`, `HexadecimalStringObject::GetValue` (string_object.cpp:158-169, 416-426) of the string at a
place with the bytes in the file; a string in a trailer has no object number, object.cpp:161-180. -/
def readString (F : ProtectedFile) (s : FileState) (p : Spot) (stored : Bytes) : Res Bytes :=
  if !isExempt F s p && s.encrypted then
    match p.home with
    | .trailer _ => .error .throw
    | .object r => F.decrypt r stored
  else .ok stored

end VPdf
