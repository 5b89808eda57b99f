import Verif.Model.Incremental
import Verif.Model.Compare
/-
  The optimisations before a file is written: `FileWriter::CompressAndOptimize`, src/vanillapdf/syntax/files/file_writer.cpp:
  1778-1804, and its stages (1806-2586).  Three of the eight stages do nothing (2155-2161, 2313-2319, 2482-2488).

  Hybrid sections are in Model/Hybrid.  Not modelled: the stages on a chain of more than one section (that is, with the merge switched off); a
  cross-reference stream whose number is used again by a newer section.
-/
namespace VPdf

mutual
/-- The references in an object: `FileWriter::FindIndirectReferences`, file_writer.cpp:2547-2586. -/
def refsOf : Obj → List (Nat × Nat)
  | .ref n g => [(n, g)]
  | .arr l => refsItems l
  | .dict l => refsEntries l
  | .null => []
  | .bool _ => []
  | .int _ => []
  | .real _ _ => []
  | .name _ => []
  | .lit _ => []
  | .hex _ => []
/-- file_writer.cpp:2579-2585 -/
def refsItems : List Obj → List (Nat × Nat)
  | [] => []
  | o :: os => refsOf o ++ refsItems os
/-- file_writer.cpp:2562-2568 -/
def refsEntries : List (Bytes × Obj) → List (Nat × Nat)
  | [] => []
  | (_, o) :: os => refsOf o ++ refsEntries os
end

/-- The references of an indirect object, file_writer.cpp:2570-2577 for streams. -/
def refsS : SObj → List (Nat × Nat)
  | .direct o => refsOf o
  | .stream d _ => refsEntries d

mutual
/-- An object whose references were changed: the recursion of `FileWriter::RedirectReferences`, file_writer.cpp:2521-2545,
and of `InitializeReferences` (2498-2519). -/
def mapRefs (f : Nat × Nat → Nat × Nat) : Obj → Obj
  | .ref n g => .ref (f (n, g)).1 (f (n, g)).2
  | .arr l => .arr (mapRefsItems f l)
  | .dict l => .dict (mapRefsEntries f l)
  | .null => .null
  | .bool b => .bool b
  | .int i => .int i
  | .real m p => .real m p
  | .name n => .name n
  | .lit v => .lit v
  | .hex v => .hex v
/-- file_writer.cpp:2530-2534 -/
def mapRefsItems (f : Nat × Nat → Nat × Nat) : List Obj → List Obj
  | [] => []
  | o :: os => mapRefs f o :: mapRefsItems f os
/-- file_writer.cpp:2535-2539 -/
def mapRefsEntries (f : Nat × Nat → Nat × Nat) : List (Bytes × Obj) → List (Bytes × Obj)
  | [] => []
  | (k, o) :: os => (k, mapRefs f o) :: mapRefsEntries f os
end

/-- file_writer.cpp:2540-2544 for streams. -/
def mapRefsS (f : Nat × Nat → Nat × Nat) : SObj → SObj
  | .direct o => .direct (mapRefs f o)
  | .stream d body => .stream (mapRefsEntries f d) body

/-- `DictionaryObject::Merge`, dictionary_object.cpp:290-301: `std::map::insert` keeps the value that is there. -/
def dictMerge (d other : Dict) : Dict := other.foldl (fun r x => mapInsert x.1 x.2 r) d

/-- `FileWriter::MergeXrefs`, file_writer.cpp:1840-1972, for the chain of the destination, oldest section first: the free
head (1891-1892), all entries in use with the later ones replacing the earlier ones (1911-1942), the trailer of the oldest
cross-reference stream (1857-1887) with the missing entries taken from the trailer of the newest section (1945-1954), without
Prev (1956-1959). -/
def mergeSections (chain : List WSection) : List WSection :=
  match chain.getLast? with
  | none => chain
  | some last =>
    let base := chain.find? fun s => s.own.isSome
    let entries := ((chain.flatMap WSection.entries).filter WEntry.inUse).foldl (fun acc e => entryAdd e acc) [⟨0, 65535, .free 0⟩]
    let trailer := dictMerge ((base.map WSection.trailer).getD []) (cloneTrailer last.entries.length last.trailer)
    [⟨base.bind WSection.own, entries, mapErase (b! "Prev") trailer⟩]

/-- The entry a reference leads to: `XrefChain::Contains` and `GetXrefEntry`, xref_chain.cpp:10-49. -/
def findEntry (es : List WEntry) (n g : Nat) : Option WEntry :=
  match es.find? (fun e => e.num == n) with
  | some e => if e.gen = g then some e else none
  | none => none

/-- The entry that becomes marked by a reference, file_writer.cpp:2550-2560: a free entry gives the null object, which has
no entry. -/
def markedBy (es : List WEntry) (r : Nat × Nat) : Option Nat :=
  match findEntry es r.1 r.2 with
  | some e => if e.inUse then some e.num else none
  | none => none

/-- `GetReference` of an entry in the section: the stream object of a cross-reference stream has the trailer as its header
(xref.h:110-140). -/
def sectionObject (s : WSection) (e : WEntry) : SObj :=
  if s.own = some (e.num, e.gen) then .stream s.trailer []
  else
    match e.kind with
    | .free _ => .direct .null
    | .used _ (some o) => o
    | .used _ none => .direct .null
    | .compressed _ _ o => o

/-- The numbers marked at first, file_writer.cpp:2022-2079: the references of the trailer of a table; for a cross-reference
stream its own entry (whose object has the trailer as its header) and the object streams. -/
def rootMarks (s : WSection) : List Nat :=
  match s.own with
  | none => (refsEntries s.trailer).filterMap (markedBy s.entries)
  | some (n, _) =>
    n :: s.entries.filterMap fun e =>
      match e.kind with
      | .compressed sn _ _ => (findEntry s.entries sn 0).map WEntry.num
      | _ => none

/-- The loop of file_writer.cpp:2087-2116: as long as there is a marked entry that was not visited, the references of its
object are marked.  The order of the visits is that of an unordered map in the code and that of the entries here; the marks at
the end do not depend on it.  The first argument bounds the number of rounds. -/
def markLoop (s : WSection) : Nat → List Nat → List Nat → List Nat
  | 0, marked, _ => marked
  | f + 1, marked, visited =>
    match s.entries.find? (fun e => marked.contains e.num && !visited.contains e.num) with
    | none => marked
    | some e => markLoop s f ((refsS (sectionObject s e)).filterMap (markedBy s.entries) ++ marked) (e.num :: visited)

/-- `FileWriter::RemoveUnreferencedObjects`, file_writer.cpp:1974-2153, for one section.  Every round visits another entry. -/
def removeUnreferenced (s : WSection) : WSection :=
  let marked := markLoop s (s.entries.length + 1) (rootMarks s) []
  { s with entries := s.entries.filter fun e => match e.kind with | .free _ => true | _ => marked.contains e.num }

/-- `FileWriter::RemoveFreedObjects`, file_writer.cpp:1806-1838: the first entry stays. -/
def removeFreed (s : WSection) : WSection :=
  { s with entries := match s.entries with | [] => [] | e :: es => e :: es.filter WEntry.inUse }

/-- The position of the entry with number `n`, from `i` on: `squash_object_map` and `current_object_number`,
file_writer.cpp:2353-2373. -/
def newNumber (es : List WEntry) (i n : Nat) : Option Nat :=
  match es with
  | [] => none
  | e :: es => if e.num = n then some i else newNumber es (i + 1) n

/-- What `GetReferencedObjectNumber` of a reference gives after the entries were renumbered
(indirect_reference_object.cpp:19-41 and 64-74): the reference knows its object, and the object its entry.  A reference to the
null object counts as not initialised and keeps its number.  Simplification: an object that is itself a reference to null
counts as an object. -/
def squashRef (s : WSection) (r : Nat × Nat) : Nat × Nat :=
  match findEntry s.entries r.1 r.2 with
  | none => r
  | some e =>
    match sectionObject s e with
    | .direct .null => r
    | _ => ((newNumber s.entries 0 e.num).getD e.num, e.gen)

/-- The entries with their new numbers, file_writer.cpp:2356-2451, and the new numbers of object streams (2453-2479). -/
def renumber (s : WSection) (i : Nat) : List WEntry → List WEntry
  | [] => []
  | e :: es =>
    let k := match e.kind with
      | .free n => .free n
      | .used off o => .used off (o.map (mapRefsS (squashRef s)))
      | .compressed sn ix o => .compressed ((newNumber s.entries 0 sn).getD sn) ix (mapRefsS (squashRef s) o)
    ⟨i, e.gen, k⟩ :: renumber s (i + 1) es

/-- `FileWriter::SquashTableSpace`, file_writer.cpp:2321-2480, for one section. -/
def squash (s : WSection) : WSection :=
  { own := s.own.map fun o => ((newNumber s.entries 0 o.1).getD o.1, o.2)
    entries := renumber s 0 s.entries
    trailer := mapRefsEntries (squashRef s) s.trailer }

/-- What `std::unordered_set<ObjectPtr>` and `std::unordered_map<ObjectPtr, ObjectPtr>` (file_writer.cpp:2186-2187) use:
`Hash` and `Equals` (object.h:130, object.cpp:296).  Comparing may look up references in the document.  Comparisons that throw
are not modelled. -/
structure Cmp where
  hash : SObj → UInt64
  eq : WSection → SObj → SObj → Bool

/-- One element of `duplicit_list`: the duplicate, its hash value when it was inserted (libstdc++ keeps it in the node, as
the hash function may throw), and the object it is replaced by. file_writer.cpp:2187, 2230. -/
structure Dup where
  key : Nat × Nat
  hash : UInt64
  target : Nat × Nat
  deriving Repr

/-- What is in the document under a reference, file.cpp:793-893. -/
def currentObject (s : WSection) (r : Nat × Nat) : SObj :=
  match findEntry s.entries r.1 r.2 with
  | none => .direct .null
  | some e => sectionObject s e

/-- Lookup in `duplicit_list`: the hash value that was stored and the present value of the duplicate are compared.  If more
than one element fits, the code finds one of them, the model the first. file_writer.cpp:2190-2233, 2281. -/
def findDup (c : Cmp) (s : WSection) (dups : List Dup) (o : SObj) : Option Dup :=
  dups.find? fun d => c.hash o == d.hash && c.eq s o (currentObject s d.key)

/-- The first loop of `FileWriter::RemoveDuplicitIndirectObjects`, file_writer.cpp:2190-2233, over the entries in the order of
an unordered set.  `XrefUsedEntryPtr` leaves out compressed entries.  Simplification: entries that are not in use are left
out. -/
def findDups (c : Cmp) (s : WSection) : List WEntry → List WEntry → List Dup → List Dup
  | [], _, dups => dups
  | e :: es, unique, dups =>
    match e.kind with
    | .used _ (some _) =>
      let o := sectionObject s e
      match unique.find? fun u => c.hash o == c.hash (sectionObject s u) && c.eq s o (sectionObject s u) with
      | none => findDups c s es (unique ++ [e]) dups
      | some u =>
        match findDup c s dups o with
        | some _ => findDups c s es unique dups
        | none => findDups c s es unique (dups ++ [⟨(e.num, e.gen), c.hash o, (u.num, u.gen)⟩])
    | _ => findDups c s es unique dups

/-- What becomes of a reference, file_writer.cpp:2522-2529. -/
def redirect (c : Cmp) (s : WSection) (dups : List Dup) (r : Nat × Nat) : Nat × Nat :=
  match findDup c s dups (currentObject s r) with
  | some d => d.target
  | none => r

/-- One round of the second loop, file_writer.cpp:2240-2286.  Simplification: the references of one object are redirected at
once; in the code an object that refers to itself changes in between. -/
def redirectEntry (c : Cmp) (dups : List Dup) (s : WSection) (e : WEntry) : WSection :=
  if s.own = some (e.num, e.gen) then { s with trailer := mapRefsEntries (redirect c s dups) s.trailer }
  else
    { s with entries := s.entries.map fun x =>
        if x.num = e.num then
          { x with kind := match x.kind with
              | .free n => .free n
              | .used off o => .used off (o.map (mapRefsS (redirect c s dups)))
              | .compressed sn i o =>
                let sn' := match findEntry s.entries sn 0 with
                  | some h =>
                    match findDup c s dups (sectionObject s h) with
                    | some d => d.target.1
                    | none => sn
                  | none => sn
                .compressed sn' i (mapRefsS (redirect c s dups) o) }
        else x }

/-- The second loop and the trailer, file_writer.cpp:2240-2292. -/
def redirectAll (c : Cmp) (dups : List Dup) (s : WSection) (order : List WEntry) : WSection :=
  let s := order.foldl (redirectEntry c dups) s
  { s with trailer := mapRefsEntries (redirect c s dups) s.trailer }

/-- The third loop, file_writer.cpp:2294-2303, with `XrefChain::ReleaseEntry`, xref_chain.cpp:51-82. -/
def releaseDups (dups : List Dup) (s : WSection) : WSection :=
  { s with entries := s.entries.map fun e => if dups.any (fun d => d.key.1 == e.num) then ⟨e.num, 0, .free 0⟩ else e }

/-- `FileWriter::RemoveDuplicitIndirectObjects`, file_writer.cpp:2179-2311: `none` if there were no duplicates.  `order` is
the order in which the entries of the section are met. -/
def removeDupsOnce (c : Cmp) (order : WSection → List WEntry) (s : WSection) : Option WSection :=
  match findDups c s (order s) [] [] with
  | [] => none
  | dups => some (releaseDups dups (redirectAll c dups s (order s)))

/-- `FileWriter::RemoveAllDuplicitIndirectObjects`, file_writer.cpp:2163-2178.  The first argument bounds the number of
rounds. -/
def removeDupsLoop (c : Cmp) (order : WSection → List WEntry) : Nat → WSection → WSection
  | 0, s => s
  | f + 1, s =>
    match removeDupsOnce c order s with
    | none => s
    | some s' => removeDupsLoop c order f s'

/-- The same with enough rounds: every round frees an entry. file_writer.cpp:2163-2311. -/
def removeDups (c : Cmp) (order : WSection → List WEntry) (s : WSection) : WSection :=
  removeDupsLoop c order (s.entries.length + 1) s

/-- `FileWriter::CompressAndOptimize`, file_writer.cpp:1778-1804, for the chain of the destination, oldest section first. -/
def optimize (c : Cmp) (order : WSection → List WEntry) (chain : List WSection) : List WSection :=
  (mergeSections chain).map fun s => squash (removeFreed (removeDups c order (removeUnreferenced s)))

/-- The objects of the section, for comparisons that follow references.
What `GetReferencedObject` finds, file.cpp:793-893. -/
def sectionObjects (s : WSection) : Objects :=
  s.entries.map fun e => ((e.num, e.gen), match sectionObject s e with | .direct o => .direct o | .stream d _ => .stream d 0)

/-- The stream behind a chain of references (object_utils.h:132-159).  The first argument bounds the number of steps. -/
def followStream (s : WSection) : Nat → Obj → Option (Dict × Bytes)
  | 0, _ => none
  | f + 1, .ref n g =>
    match currentObject s (n, g) with
    | .direct o => followStream s f o
    | .stream d b => some (d, b)
  | _ + 1, _ => none

/-- The comparison succeeded and says "equal". The use of `std::equal_to` in file_writer.cpp:2187. -/
def saysEqual (r : Res Bool) : Bool := match r with | .ok b => b | .error _ => false

/-- `Equals` of indirect objects: eqObj (Model/Compare.lean), and `StreamObject::Equals`, stream_object.cpp:618-640. -/
def eqS (s : WSection) : SObj → SObj → Bool
  | .direct a, .direct b => saysEqual (eqObj (sectionObjects s) a b)
  | .direct _, .stream _ _ => false
  | .stream d x, .direct b =>
    match followStream s (s.entries.length + 1) b with
    | some (d', y) => saysEqual (eqObj (sectionObjects s) (.dict d) (.dict d')) && x == y
    | none => false
  | .stream d x, .stream d' y => saysEqual (eqObj (sectionObjects s) (.dict d) (.dict d')) && x == y

/-- `Hash` of indirect objects; for a stream it is that of the header (stream_object.cpp:613-616). -/
def hashS (H : StdHash) : SObj → UInt64
  | .direct o => hashObj H o
  | .stream d _ => hashObj H (.dict d)

/-- The comparison of the code. The comparison and hash function of `duplicit_list`, file_writer.cpp:2187. -/
def codeCmp (H : StdHash) : Cmp := ⟨hashS H, eqS⟩

end VPdf
