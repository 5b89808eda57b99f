import Verif.Model.Compare
/-
  Reference objects that remember what they refer to: syntax/objects/indirect_reference_object.cpp, and
  `DereferenceHelper` of syntax/utils/object_utils.h.  `deref` of Compare.lean is the same without the memory.
-/
namespace VPdf

/-- A reference object: the indirect object `n g` itself, when it is nothing but a reference, or one that somebody holds (in an
array, in a dictionary). indirect_reference_object.h:10-13. -/
inductive RefName
  | object (k : Nat × Nat)
  | held (i : Nat)
  deriving DecidableEq

/-- A reference object and the numbers it refers to, indirect_reference_object.h:47-48. -/
structure RefObject where
  name : RefName
  dest : Nat × Nat

/-- Which reference objects remember the object they refer to: `m_reference` is set and that object still exists,
indirect_reference_object.h:49.  Simplification: the remembered object is always the one with the numbers of the reference. -/
abbrev Remembers := RefName → Bool

/-- A copy of a reference object as a key of `visited`, object_utils.h:155: the numbers, and whether it remembers an object. -/
structure RefCopy where
  remembers : Bool
  dest : Nat × Nat

/-- `IndirectReferenceObject::IsReferenceInitialized`, indirect_reference_object.cpp:64-74: an object is remembered, and it is
not null.  `self` is `DereferenceHelper::Get`, which `IsType<NullObjectPtr>` starts with nothing visited
(object_utils.h:167-177). -/
def isInitialized (self : Remembers → RefObject → List RefCopy → Res PObj × Remembers) (objs : Objects) (s : Remembers)
    (remembers : Bool) (dest : Nat × Nat) : Res Bool × Remembers :=
  if !remembers then (.ok false, s)
  else
    match getIndirect objs dest.1 dest.2 with
    | .direct .null => (.ok false, s)
    | .direct (.ref n g) =>
      match self s ⟨.object dest, (n, g)⟩ [] with
      | (.ok (.direct .null), s') => (.ok false, s')
      | (.ok _, s') => (.ok true, s')
      | (.error e, s') => (.error e, s')
    | _ => (.ok true, s)

/-- `GetReferencedObjectNumber`, `GetReferencedGenerationNumber`, indirect_reference_object.cpp:20-42: the number itself is known
from the reference; what is modelled is whether it comes to an end, and what is remembered then. -/
def refNumber (self : Remembers → RefObject → List RefCopy → Res PObj × Remembers) (objs : Objects) (s : Remembers)
    (remembers : Bool) (dest : Nat × Nat) : Res Unit × Remembers :=
  match isInitialized self objs s remembers dest with
  | (.error e, s') => (.error e, s')
  | (.ok false, s') => (.ok (), s')
  | (.ok true, s') =>
    match isInitialized self objs s' remembers dest with
    | (.error e, s'') => (.error e, s'')
    | (.ok _, s'') => (.ok (), s'')

/-- The comparisons (`operator<`, indirect_reference_object.cpp:213-229) of a reference with keys of `visited`.  Simplification:
every key is compared, with its object number only; `std::map` compares as many as its tree is deep. -/
def compareKeys (self : Remembers → RefObject → List RefCopy → Res PObj × Remembers) (objs : Objects) (r : RefObject) :
    Remembers → List RefCopy → Res Unit × Remembers
  | s, [] => (.ok (), s)
  | s, c :: l =>
    match refNumber self objs s (s r.name) r.dest with
    | (.error e, s') => (.error e, s')
    | (.ok _, s') =>
      match refNumber self objs s' c.remembers c.dest with
      | (.error e, s'') => (.error e, s'')
      | (.ok _, s'') => compareKeys self objs r s'' l

/-- `IndirectReferenceObject::GetReferencedObject`, indirect_reference_object.cpp:171-193: the remembered object, or the one the
file finds, which is remembered from then on.  Simplification: the file still exists. -/
def referencedObject (self : Remembers → RefObject → List RefCopy → Res PObj × Remembers) (objs : Objects) (s : Remembers)
    (r : RefObject) : Res PObj × Remembers :=
  match isInitialized self objs s (s r.name) r.dest with
  | (.error e, s') => (.error e, s')
  | (.ok true, s') => (.ok (getIndirect objs r.dest.1 r.dest.2), s')
  | (.ok false, s') =>
    match isInitialized self objs s' (s' r.name) r.dest with
    | (.error e, s'') => (.error e, s'')
    | (.ok true, s'') => (.ok (getIndirect objs r.dest.1 r.dest.2), s'')
    | (.ok false, s'') => (.ok (getIndirect objs r.dest.1 r.dest.2), fun x => if x = r.name then true else s'' x)

/-- `DereferenceHelper::Get`, object_utils.h:132-159, of a reference: the object at the end of the chain.  The first argument
bounds the depth of calls. -/
def derefKept (objs : Objects) : Nat → Remembers → RefObject → List RefCopy → Res PObj × Remembers
  | 0, s, _, _ => (.error .timeout, s)
  | f + 1, s, r, visited =>
    match compareKeys (derefKept objs f) objs r s visited with
    | (.error e, s1) => (.error e, s1)
    | (.ok _, s1) =>
      if visited.any (fun c => c.dest == r.dest) then (.error .throw, s1)
      else
        match compareKeys (derefKept objs f) objs r s1 visited with
        | (.error e, s2) => (.error e, s2)
        | (.ok _, s2) =>
          match referencedObject (derefKept objs f) objs s2 r with
          | (.error e, s3) => (.error e, s3)
          | (.ok (.direct (.ref n g)), s3) => derefKept objs f s3 ⟨.object r.dest, (n, g)⟩ (⟨s1 r.name, r.dest⟩ :: visited)
          | (.ok o, s3) => (.ok o, s3)

/-- Requests for what is behind references, one after the other: `ObjectUtils::ConvertTo` of each, object_utils.h:179-197. -/
def derefAll (objs : Objects) (f : Nat) : Remembers → List RefObject → List (Res PObj) × Remembers
  | s, [] => ([], s)
  | s, r :: l =>
    let (o, s1) := derefKept objs f s r []
    let (os, s2) := derefAll objs f s1 l
    (o :: os, s2)

end VPdf
