import Verif.Model.Object

/-! # Iterators of the C interface: dictionaries, instruction collections, cross-reference sections

An iterator holds two positions of the underlying container and no reference to the container (utils/base_iterator.h:8-40).
Positions of a `std::map` are nodes, so nodes carry an identity here: a removed and newly inserted key is another node. -/
namespace VPdf

/-- A dictionary whose nodes have identities, ordered by key.  `owners` counts the references to the object; the container is
destroyed with the last one.  dictionary_object.h:19-70, unknown_interface.h. -/
structure NodeDict (α : Type) where
  nodes : List (Nat × Bytes × α)
  fresh : Nat
  owners : Nat

/-- An iterator of a dictionary: a node, or the end (base_iterator.h:36-37). `m_invalid` is always the end
(c_dictionary_object.cpp:89). -/
abbrev Cursor := Option Nat

/-- What a client may do to the dictionary between two calls to the iterator: `DictionaryObject_Insert`, `_Remove`, `_Clear`,
`_Release` (c_dictionary_object.cpp:172-226, 265-268). -/
inductive DictEdit (α : Type) where
  | insert (k : Bytes) (v : α)
  | remove (k : Bytes)
  | clear
  | release

/-- `std::map::insert` of a node. dictionary_object.cpp:180-206. -/
def insertNode {α : Type} (i : Nat) (k : Bytes) (v : α) : List (Nat × Bytes × α) → List (Nat × Bytes × α)
  | [] => [(i, k, v)]
  | (i', k', v') :: rest =>
    if bytesLt k k' then (i, k, v) :: (i', k', v') :: rest
    else if bytesLt k' k then (i', k', v') :: insertNode i k v rest
    else (i', k', v') :: rest

/-- The effect of an edit on the container: dictionary_object.cpp:149-206 (a duplicate key changes nothing, whether the call
fails or not), 298-316, unknown_interface.cpp:24-40.  Calls with a handle of a destroyed dictionary are undefined. -/
def NodeDict.edit {α : Type} (d : NodeDict α) : DictEdit α → Res (NodeDict α)
  | .insert k v => if d.owners = 0 then .error .ub else .ok { d with nodes := insertNode d.fresh k v d.nodes, fresh := d.fresh + 1 }
  | .remove k => if d.owners = 0 then .error .ub else .ok { d with nodes := d.nodes.filter fun n => n.2.1 != k }
  | .clear => if d.owners = 0 then .error .ub else .ok { d with nodes := [] }
  | .release => if d.owners = 0 then .error .ub else .ok { d with owners := d.owners - 1 }

/-- A sequence of edits; the loop of a client, no counterpart in the library (calls of c_dictionary_object.cpp:174-240). -/
def NodeDict.edits {α : Type} (d : NodeDict α) : List (DictEdit α) → Res (NodeDict α)
  | [] => .ok d
  | e :: es => (d.edit e).bind fun d => d.edits es

/-- `DictionaryObject_GetIterator`, c_dictionary_object.cpp:81-94: the first node. -/
def NodeDict.getIterator {α : Type} (d : NodeDict α) : Res Cursor :=
  if d.owners = 0 then .error .ub else .ok (d.nodes.head?.map (·.1))

/-- The node at a position and those behind it; nothing if the node does not exist any more. base_iterator.h:46-48. -/
def nodesFrom {α : Type} (i : Nat) : List (Nat × Bytes × α) → Option (List (Nat × Bytes × α))
  | [] => none
  | n :: rest => if n.1 = i then some (n :: rest) else nodesFrom i rest

/-- `DictionaryObjectIterator_IsValid`, c_dictionary_object.cpp:155-172, base_iterator.h:60-63.  Comparing an iterator to a removed
node, or one into a destroyed container, is undefined. -/
def NodeDict.isValid {α : Type} (d : NodeDict α) (c : Cursor) : Res Bool :=
  if d.owners = 0 then .error .ub
  else
    match c with
    | none => .ok false
    | some i => if (nodesFrom i d.nodes).isSome then .ok true else .error .ub

/-- `DictionaryObjectIterator_GetKey` and `_GetValue`, c_dictionary_object.cpp:121-153, dictionary_object.h:47-53. -/
def NodeDict.getAt {α : Type} (d : NodeDict α) (c : Cursor) : Res (Bytes × α) :=
  if d.owners = 0 then .error .ub
  else
    match c with
    | none => .error .ub
    | some i =>
      match nodesFrom i d.nodes with
      | some (n :: _) => .ok n.2
      | _ => .error .ub

/-- `DictionaryObjectIterator_Next`, c_dictionary_object.cpp:96-107, dictionary_object.h:36-39. -/
def NodeDict.next {α : Type} (d : NodeDict α) (c : Cursor) : Res Cursor :=
  if d.owners = 0 then .error .ub
  else
    match c with
    | none => .error .ub
    | some i =>
      match nodesFrom i d.nodes with
      | some (_ :: rest) => .ok (rest.head?.map (·.1))
      | _ => .error .ub

/-- The loop every client writes around c_dictionary_object.cpp:81-172: while the iterator is valid, read the entry, do
something (`body`, the edits of one round, given the entry), go to the next. -/
def NodeDict.walk {α : Type} (body : Nat → Bytes × α → List (DictEdit α)) :
    Nat → Nat → NodeDict α → Cursor → Res (List (Bytes × α))
  | 0, _, _, _ => .error .timeout
  | fuel + 1, round, d, c => do
    let valid ← d.isValid c
    if valid then
      let e ← d.getAt c
      let d ← d.edits (body round e)
      let c ← d.next c
      let rest ← NodeDict.walk body fuel (round + 1) d c
      pure (e :: rest)
    else pure []

/-- From `GetIterator` to the end of the loop: c_dictionary_object.cpp:81-172. -/
def NodeDict.visit {α : Type} (body : Nat → Bytes × α → List (DictEdit α)) (fuel : Nat) (d : NodeDict α) : Res (List (Bytes × α)) :=
  d.getIterator.bind fun c => d.walk body fuel 0 c

/-! ### Collections that are vectors -/

/-- A collection of instructions, a `std::vector` (content_stream_operations.h, c_content_instruction.cpp:47-134).  `version`
counts the modifications. -/
structure VecColl (α : Type) where
  items : List α
  version : Nat

/-- An iterator of a collection: a position, the position of the end, and the version they belong to
(c_content_instruction.cpp:126). -/
structure VecCursor where
  pos : Nat
  limit : Nat
  version : Nat

/-- Changes of a collection. c_content_instruction.cpp:74-117. -/
inductive VecEdit (α : Type) where
  | append (a : α)
  | insert (at_ : Nat) (a : α)
  | remove (at_ : Nat)
  | clear

/-- `ContentInstructionCollection_Append`, `_Insert`, `_Remove`, `_Clear`, c_content_instruction.cpp:74-117: positions are not
checked. -/
def VecColl.edit {α : Type} (c : VecColl α) : VecEdit α → Res (VecColl α)
  | .append a => .ok ⟨c.items ++ [a], c.version + 1⟩
  | .insert i a => if i ≤ c.items.length then .ok ⟨c.items.take i ++ a :: c.items.drop i, c.version + 1⟩ else .error .ub
  | .remove i => if i < c.items.length then .ok ⟨c.items.take i ++ c.items.drop (i + 1), c.version + 1⟩ else .error .ub
  | .clear => .ok ⟨[], c.version + 1⟩

/-- A sequence of changes; the loop of a client, no counterpart in the library (calls of c_content_instruction.cpp:60-191). -/
def VecColl.edits {α : Type} (c : VecColl α) : List (VecEdit α) → Res (VecColl α)
  | [] => .ok c
  | e :: es => (c.edit e).bind fun c => c.edits es

/-- `ContentInstructionCollection_GetIterator`, c_content_instruction.cpp:119-132. -/
def VecColl.getIterator {α : Type} (c : VecColl α) : VecCursor := ⟨0, c.items.length, c.version⟩

/-- `ContentInstructionCollectionIterator_IsValid`, c_content_instruction.cpp:164-180: compares with the end at the time of
`GetIterator`; any modification of a vector makes that end invalid, and the comparison undefined. -/
def VecColl.isValid {α : Type} (c : VecColl α) (i : VecCursor) : Res Bool :=
  if i.version = c.version then .ok (decide (i.pos ≠ i.limit)) else .error .ub

/-- `ContentInstructionCollectionIterator_GetValue`, c_content_instruction.cpp:150-162. -/
def VecColl.getAt {α : Type} (c : VecColl α) (i : VecCursor) : Res α :=
  if i.version = c.version then
    match c.items[i.pos]? with
    | some a => .ok a
    | none => .error .ub
  else .error .ub

/-- `ContentInstructionCollectionIterator_Next`, c_content_instruction.cpp:182-191. -/
def VecColl.next {α : Type} (c : VecColl α) (i : VecCursor) : Res VecCursor :=
  if i.version = c.version ∧ i.pos < c.items.length then .ok { i with pos := i.pos + 1 } else .error .ub

/-- The loop of a client over a collection, c_content_instruction.cpp:119-191. -/
def VecColl.walk {α : Type} (body : Nat → α → List (VecEdit α)) : Nat → Nat → VecColl α → VecCursor → Res (List α)
  | 0, _, _, _ => .error .timeout
  | fuel + 1, round, c, i => do
    let valid ← c.isValid i
    if valid then
      let a ← c.getAt i
      let c ← c.edits (body round a)
      let i ← c.next i
      let rest ← VecColl.walk body fuel (round + 1) c i
      pure (a :: rest)
    else pure []

end VPdf
