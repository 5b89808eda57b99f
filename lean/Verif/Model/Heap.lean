import Verif.Model.Compare
/-
  Objects with identity: containers, observers, the `dirty` flag, cached hash values and clones
  (src/vanillapdf/syntax/objects/{object,dictionary_object,mixed_array_object,...}.cpp,
  src/vanillapdf/utils/{modify_observer_interface,observable_interface}.{h,cpp},
  src/vanillapdf/syntax/files/xref_entry.cpp).

  Not modelled: reference counts and destruction (an object that is destroyed unsubscribes), the owner back-links, the file
  link, locks, stream objects, attributes, and the key names of dictionaries as objects of their own.
-/
namespace VPdf

/-- The identity (address) of an object or a cross-reference entry. The pointer of deferred.h. -/
abbrev Id := Nat

/-- The content of an object.  `str`: a literal or hexadecimal string and whether its value has been decoded
(`_value->IsInitialized()`, string_object.cpp:145-174 and 377-431); `entry`: an `XrefUsedEntryBase` with its object
(xref_entry.h). -/
inductive Body where
  | null
  | bool (b : Bool)
  | int (i : Int)
  | real (m : Int) (p : Nat)
  | name (n : Bytes)
  | str (hexa : Bool) (v : Bytes) (decoded : Bool)
  | ref (num gen : Nat)
  | arr (items : List Id)
  | dict (entries : List (Bytes × Id))
  | entry (root : Option Id)
  deriving Repr

/-- The objects held by an object.
`_list` of dictionary_object.h and mixed_array_object.h, `m_reference` of indirect_reference_object.h, the object of xref_entry.h:112-139. -/
def Body.children : Body → List Id
  | .arr items => items
  | .dict entries => entries.map Prod.snd
  | .entry (some r) => [r]
  | _ => []

/-- An object: content, `m_initialized` (modify_observer_interface.h:36), `m_dirty` (object.h), the observers
(observable_interface.h:71), and `m_hash_cache`, where 0 stands for "not computed". -/
structure Node where
  body : Body := .null
  init : Bool := false
  dirty : Bool := false
  observers : List Id := []
  cache : UInt64 := 0

/-- All objects; identities from `next` on have not been used.
The address space; no counterpart in /repo other than `new` in deferred.h. -/
structure Heap where
  node : Id → Node
  next : Id

/-- No objects. Before the first `new` of deferred.h. -/
def Heap.empty : Heap := ⟨fun _ => {}, 0⟩

/-- Changes one object. Assignment to members of an object (any .cpp of syntax/objects). -/
def Heap.modify (h : Heap) (i : Id) (f : Node → Node) : Heap :=
  { h with node := fun j => if j = i then f (h.node j) else h.node j }

/-- Assigns the content of an object. Assignment to `_list`, `m_value` and the like (syntax/objects/*.cpp). -/
def Heap.setBody (h : Heap) (i : Id) (b : Body) : Heap := h.modify i fun n => { n with body := b }

/-- `m_hash_cache = 0`. mixed_array_object.cpp:60, dictionary_object.cpp:230, indirect_reference_object.cpp:120. -/
def Heap.resetCache (h : Heap) (i : Id) : Heap := h.modify i fun n => { n with cache := 0 }

/-- `IObservable::Subscribe`, observable_interface.h:13-23: observers form a set. -/
def Heap.subscribe (h : Heap) (i observer : Id) : Heap :=
  h.modify i fun n => { n with observers := if observer ∈ n.observers then n.observers else observer :: n.observers }

/-- `IObservable::Unsubscribe`, observable_interface.h:25-38. -/
def Heap.unsubscribe (h : Heap) (i observer : Id) : Heap :=
  h.modify i fun n => { n with observers := n.observers.filter fun o => o != observer }

/-- `Object::OnChanged` (object.cpp:216-223) with `IModifyObservable::OnChanged` (modify_observer_interface.cpp:29-60),
`ObserveeChanged` of the observers (mixed_array_object.cpp:53-61, dictionary_object.cpp:223-231, xref_entry.cpp:59-70), and
the reset of the hash cache.  An object that is not initialised only resets its own cache.  The first argument bounds the
depth of the recursion. -/
def onChanged : Nat → Heap → Id → Res Heap
  | 0, _, _ => .error .timeout
  | f + 1, h, i =>
    if (h.node i).init then do
      let h ← (h.node i).observers.foldlM (onChanged f) (h.modify i fun n => { n with dirty := true })
      pure (h.resetCache i)
    else pure (h.resetCache i)

/-- The end of a modifying function: `OnChanged()`.  When the recursion does not end, the content is changed all the same.
dictionary_object.cpp:170, 205, 224 and the other calls in syntax/objects/*.cpp. -/
def changed (f : Nat) (h : Heap) (i : Id) : Heap × Res Bool :=
  match onChanged f h i with
  | .ok h' => (h', .ok true)
  | .error e => (h, .error e)

/-- `SetInitialized` of arrays (mixed_array_object.cpp:43-51), dictionaries (dictionary_object.cpp:45-53) and other objects
(modify_observer_interface.h:29-31). -/
def setInitialized : Nat → Heap → Id → Bool → Res Heap
  | 0, _, _, _ => .error .timeout
  | f + 1, h, i, b =>
    let h := h.modify i fun n => { n with init := b }
    match (h.node i).body with
    | .arr items => items.foldlM (fun h j => setInitialized f h j b) h
    | .dict entries => entries.foldlM (fun h e => setInitialized f h e.2 b) h
    | _ => pure h

/-- The value of an object without parts, for `Hash`. The `Hash` functions of syntax/objects/*.cpp. -/
def Body.leaf : Body → Obj
  | .null => .null
  | .bool b => .bool b
  | .int i => .int i
  | .real m p => .real m p
  | .name n => .name n
  | .str true v _ => .hex v
  | .str false v _ => .lit v
  | .ref n g => .ref n g
  | .arr _ => .null
  | .dict _ => .null
  | .entry _ => .null

/-- `Hash` with the cache: mixed_array_object.cpp:171-184, dictionary_object.cpp:233-248,
indirect_reference_object.cpp:122-140, and the objects without parts. -/
def hashNode (H : StdHash) : Nat → Heap → Id → Res (UInt64 × Heap)
  | 0, _, _ => .error .timeout
  | f + 1, h, i =>
    match (h.node i).body with
    | .arr items =>
      if (h.node i).cache ≠ 0 then pure ((h.node i).cache, h)
      else do
        let (r, h) ← items.foldlM (fun (s : UInt64 × Heap) j => do
          let (v, h) ← hashNode H f s.2 j
          pure (s.1 ^^^ v, h)) (0, h)
        pure (r, h.modify i fun n => { n with cache := r })
    | .dict entries =>
      if (h.node i).cache ≠ 0 then pure ((h.node i).cache, h)
      else do
        let (r, h) ← entries.foldlM (fun (s : UInt64 × Heap) e => do
          let (v, h) ← hashNode H f s.2 e.2
          pure (s.1 ^^^ hashBytes H e.1 ^^^ v, h)) (0, h)
        pure (r, h.modify i fun n => { n with cache := r })
    | .ref n g =>
      if (h.node i).cache ≠ 0 then pure ((h.node i).cache, h)
      else
        let r := hashLeaf H (.ref n g)
        pure (r, h.modify i fun n => { n with cache := r })
    | .entry _ => .error .conversion
    | b => pure (hashLeaf H b.leaf, h)

/-- What a user of the library can do with objects.  `create` stands for the constructors.
The functions are those of syntax/objects/*.h and xref_entry.h; `step` cites them one by one. -/
inductive Op where
  | create (b : Body)
  | setInit (i : Id) (b : Bool)
  | setBool (i : Id) (b : Bool)
  | setInt (i : Id) (v : Int)
  | setReal (i : Id) (m : Int) (p : Nat)
  | setName (i : Id) (v : Bytes)
  | setString (i : Id) (v : Bytes)
  | getString (i : Id)
  | setRef (i : Id) (num gen : Nat)
  | append (a v : Id)
  | insertAt (a : Id) (at_ : Nat) (v : Id)
  | setAt (a : Id) (at_ : Nat) (v : Id)
  | removeAt (a : Id) (at_ : Nat)
  | clearArr (a : Id)
  | insert (d : Id) (k : Bytes) (v : Id) (overwrite : Bool)
  | remove (d : Id) (k : Bytes)
  | clear (d : Id)
  | merge (d e : Id)
  | setReference (e o : Id)
  | hash (i : Id)

/-- The object an operation is called on. `this` of the functions of syntax/objects/*.h. -/
def Op.target (h : Heap) : Op → Id
  | .create _ => h.next
  | .setInit i _ => i
  | .setBool i _ => i
  | .setInt i _ => i
  | .setReal i _ _ => i
  | .setName i _ => i
  | .setString i _ => i
  | .getString i => i
  | .setRef i _ _ => i
  | .append a _ => a
  | .insertAt a _ _ => a
  | .setAt a _ _ => a
  | .removeAt a _ => a
  | .clearArr a => a
  | .insert d _ _ _ => d
  | .remove d _ => d
  | .clear d => d
  | .merge d _ => d
  | .setReference e _ => e
  | .hash i => i

/-- A new object: constructors leave containers empty; `NameObject::CreateFromDecoded` (name_object.cpp:52-60) initialises. -/
def newNode : Body → Node
  | .arr _ => { body := .arr [] }
  | .dict _ => { body := .dict [] }
  | .entry _ => { body := .entry none }
  | .name n => { body := .name n, init := true }
  | b => { body := b }

/-- `std::map::erase` of a key. dictionary_object.cpp:169. -/
def mapErase {α : Type} (k : Bytes) (d : List (Bytes × α)) : List (Bytes × α) := d.filter fun e => e.1 != k

/-- One operation.  The result is the new state and the outcome: `true`, `false` (nothing to do), or an error.
The first argument bounds the depth of recursion.  Calling a function of the wrong class does not compile in C++; here it is
a conversion error.
The lines are cited case by case: dictionary_object.cpp, mixed_array_object.cpp, indirect_reference_object.cpp, xref_entry.cpp. -/
def step (H : StdHash) (f : Nat) (h : Heap) : Op → Heap × Res Bool
  -- constructors
  | .create b => ({ node := fun j => if j = h.next then newNode b else h.node j, next := h.next + 1 }, .ok true)
  | .setInit i b =>
    match setInitialized f h i b with
    | .ok h' => (h', .ok true)
    | .error e => (h, .error e)
  -- boolean_object.cpp:16-19
  | .setBool i b =>
    match (h.node i).body with
    | .bool _ => changed f (h.setBody i (.bool b)) i
    | _ => (h, .error .conversion)
  -- integer_object.h:92,105 and numeric_object.cpp:52-70: the backend that holds the number notifies its observers only if
  -- it is initialised, and `SetInitialized` is never called on a backend
  | .setInt i v =>
    match (h.node i).body with
    | .int _ => (h.setBody i (.int v), .ok true)
    | _ => (h, .error .conversion)
  -- real_object.h:46-48 and numeric_object.cpp:71-79, likewise
  | .setReal i m p =>
    match (h.node i).body with
    | .real _ _ => (h.setBody i (.real m p), .ok true)
    | _ => (h, .error .conversion)
  -- name_object.cpp:84-89
  | .setName i v =>
    match (h.node i).body with
    | .name _ => changed f (h.setBody i (.name v)) i
    | _ => (h, .error .conversion)
  -- string_object.cpp:176-181 and 433-438 with buffer.h:123-126: the buffer notifies only if it is initialised, that is, if
  -- the value has been decoded or set before
  | .setString i v =>
    match (h.node i).body with
    | .str x _ true => changed f (h.setBody i (.str x v true)) i
    | .str x _ false => (h.setBody i (.str x v true), .ok true)
    | _ => (h, .error .conversion)
  -- string_object.cpp:145-174 and 377-431
  | .getString i =>
    match (h.node i).body with
    | .str x v _ => (h.setBody i (.str x v true), .ok true)
    | _ => (h, .error .conversion)
  -- indirect_reference_object.cpp:42-58
  | .setRef i n g =>
    match (h.node i).body with
    | .ref _ _ => changed f (h.setBody i (.ref n g)) i
    | _ => (h, .error .conversion)
  -- mixed_array_object.cpp:73-78
  | .append a v =>
    match (h.node a).body with
    | .arr l => changed f ((h.setBody a (.arr (l ++ [v]))).subscribe v a) a
    | _ => (h, .error .conversion)
  -- mixed_array_object.cpp:80-89
  | .insertAt a k v =>
    match (h.node a).body with
    | .arr l =>
      if k > l.length then (h, .error .throw)
      else changed f ((h.setBody a (.arr (l.take k ++ v :: l.drop k))).subscribe v a) a
    | _ => (h, .error .conversion)
  -- mixed_array_object.cpp:110-120: the old value stays subscribed
  | .setAt a k v =>
    match (h.node a).body with
    | .arr l =>
      if k ≥ l.length then (h, .error .throw)
      else changed f ((h.setBody a (.arr (l.set k v))).subscribe v a) a
    | _ => (h, .error .conversion)
  -- mixed_array_object.cpp:91-104
  | .removeAt a k =>
    match (h.node a).body with
    | .arr l =>
      match l[k]? with
      | none => (h, .ok false)
      | some v => changed f ((h.unsubscribe v a).setBody a (.arr (l.eraseIdx k))) a
    | _ => (h, .error .conversion)
  -- mixed_array_object.cpp:106-108: neither unsubscribes nor notifies
  | .clearArr a =>
    match (h.node a).body with
    | .arr _ => (h.setBody a (.arr []), .ok true)
    | _ => (h, .error .conversion)
  -- dictionary_object.cpp:180-206: `std::map::insert` keeps the value of a key that is present, also when overwriting
  | .insert d k v overwrite =>
    match (h.node d).body with
    | .dict l =>
      if !overwrite && (mapFind k l).isSome then (h, .error .duplicateKey)
      else changed f ((h.setBody d (.dict (mapInsert k v l))).subscribe v d) d
    | _ => (h, .error .conversion)
  -- dictionary_object.cpp:149-173
  | .remove d k =>
    match (h.node d).body with
    | .dict l =>
      match mapFind k l with
      | none => (h, .ok false)
      | some v => changed f ((h.unsubscribe v d).setBody d (.dict (mapErase k l))) d
    | _ => (h, .error .conversion)
  -- dictionary_object.cpp:303-324
  | .clear d =>
    match (h.node d).body with
    | .dict l => changed f ((l.foldl (fun h e => h.unsubscribe e.2 d) h).setBody d (.dict [])) d
    | _ => (h, .error .conversion)
  -- dictionary_object.cpp:290-301: without owner and subscription
  | .merge d e =>
    match (h.node d).body, (h.node e).body with
    | .dict l, .dict l' => changed f (h.setBody d (.dict (l'.foldl (fun m x => mapInsert x.1 x.2 m) l))) d
    | _, _ => (h, .error .conversion)
  -- xref_entry.cpp:84-106 and 126-149
  | .setReference e o =>
    match (h.node e).body with
    | .entry old =>
      let h := match old with | some r => h.unsubscribe r e | none => h
      let h := (h.setBody e (.entry (some o))).subscribe o e
      (h.modify e fun n => { n with dirty := n.dirty || n.init }, .ok true)
    | _ => (h, .error .conversion)
  | .hash i =>
    match hashNode H f h i with
    | .ok (_, h') => (h', .ok true)
    | .error e => (h, .error e)

/-- `MixedArrayObject::GetValue`, mixed_array_object.h:44: `std::vector::at` throws outside the bounds. -/
def getAt (h : Heap) (a : Id) (k : Nat) : Res Id :=
  match (h.node a).body with
  | .arr l => match l[k]? with | some v => .ok v | none => .error .throw
  | _ => .error .conversion

/-- `DictionaryObject::TryFind`, dictionary_object.cpp:133-147; `Find` (115-126) throws where this is `none`, and `Contains`
(213-217) tells whether it is not. -/
def findIn (h : Heap) (d : Id) (k : Bytes) : Option Id :=
  match (h.node d).body with
  | .dict l => mapFind k l
  | _ => none

/-- `GetSize` of arrays and dictionaries. mixed_array_object.h:42, dictionary_object.h:143. -/
def sizeOf_ (h : Heap) (i : Id) : Nat := (h.node i).body.children.length

/-- A history: the state after a sequence of operations, whatever their outcomes.
No counterpart in /repo: the calls come from the user of the functions of syntax/objects/*.h. -/
def run (H : StdHash) (f : Nat) (h : Heap) (ops : List Op) : Heap := ops.foldl (fun h o => (step H f h o).1) h

/-- `Clone` of the classes of objects: null_object.cpp:38-47, boolean_object.cpp:43-50, integer_object.cpp:30-37,
real_object.cpp:26-32, name_object.cpp:113-119, string_object.cpp:110-134 (which decodes the original),
indirect_reference_object.cpp:248-262, mixed_array_object.cpp:63-71, dictionary_object.cpp:19-32; the flag `dirty` is copied
(`CloneBaseProperties`, object.cpp:258-273), `m_initialized` is not. -/
def clone : Nat → Heap → Id → Res (Id × Heap)
  | 0, _, _ => .error .timeout
  | f + 1, h, i =>
    let a := h.next
    let start (b : Body) : Heap :=
      { node := fun j => if j = a then { body := b, dirty := (h.node i).dirty } else h.node j, next := a + 1 }
    match (h.node i).body with
    | .entry _ => .error .conversion
    | .arr items => do
      let h ← items.foldlM (fun (h : Heap) x => do
        let (c, h) ← clone f h x
        match (h.node a).body with
        | .arr l => pure ((h.setBody a (.arr (l ++ [c]))).subscribe c a)
        | _ => throw .conversion) (start (.arr []))
      pure (a, h)
    | .dict entries => do
      let h ← entries.foldlM (fun (h : Heap) e => do
        let (c, h) ← clone f h e.2
        match (h.node a).body with
        | .dict l => pure ((h.setBody a (.dict (mapInsert e.1 c l))).subscribe c a)
        | _ => throw .conversion) (start (.dict []))
      pure (a, h)
    | .str x v _ => pure (a, (start (.str x v true)).setBody i (.str x v true))
    | b => pure (a, start b)

end VPdf
