import Verif.Model.Object

/-! # Name objects and their copies

A name object holds a pointer to a buffer; its copy constructor is the one the compiler makes (name_object.h:13-16), so a copy
has the same buffer, and by utils/unknown_interface.h:181 also the same counter of weak references.  Functions of dictionaries
that take a `const NameObject&` make such copies. -/
namespace VPdf

/-- A name object: its buffer, its counter of weak references, whether it has subscribed to the buffer (only the constructor
without arguments subscribes, name_object.cpp:15-17), whether it is marked as changed. name_object.h:13-52, object.h:100-112. -/
structure NameCell where
  buf : Nat
  counter : Nat
  subscribed : Bool
  dirty : Bool

/-- Buffers, counters (true: active), name objects, and dictionaries as lists of key objects and values.
dictionary_object.h:19-70. Simplification: an entry is searched by comparing with every key; a `std::map` whose keys have been
changed under it may miss more. -/
structure NameHeap (α : Type) where
  bufs : List Bytes
  active : List Bool
  names : List NameCell
  dicts : List (List (Nat × α))

/-- Calls of a client: functions of c_name_object.cpp, c_buffer.cpp, c_dictionary_object.cpp. -/
inductive NameOp (α : Type) where
  /-- `NameObject_CreateFromDecodedString` -/
  | create (v : Bytes)
  /-- `NameObject_SetValue` -/
  | set (n : Nat) (v : Bytes)
  /-- `Buffer_SetData` on the result of `NameObject_GetValue` -/
  | setBuffer (n : Nat) (v : Bytes)
  /-- `DictionaryObject_Insert` -/
  | insert (d n : Nat) (v : α)
  /-- `DictionaryObject_InsertConst`; the library itself inserts with its constants in this way -/
  | insertConst (d n : Nat) (v : α)
  /-- `DictionaryObject_Find` -/
  | find (d n : Nat)
  /-- `DictionaryObject_Remove` -/
  | remove (d n : Nat)

/-- The value of a name, `NameObject::GetValue`, name_object.cpp:78-80. -/
def NameHeap.value {α : Type} (h : NameHeap α) (n : Nat) : Bytes :=
  match h.names[n]? with
  | some c => h.bufs.getD c.buf []
  | none => []

/-- The value that a dictionary has for a key, `_list.find`, dictionary_object.cpp:114-142. -/
def NameHeap.lookup {α : Type} (h : NameHeap α) (d : Nat) (k : Bytes) : Option α :=
  ((h.dicts.getD d []).find? fun e => h.value e.1 == k).map (·.2)

/-- `NameObject::CreateFromDecoded`, name_object.cpp:53-60, and the constructor, 15-17: a new buffer, to which the name
subscribes. -/
def NameHeap.create {α : Type} (h : NameHeap α) (v : Bytes) : NameHeap α :=
  { h with bufs := h.bufs ++ [v], active := h.active ++ [true], names := h.names ++ [⟨h.bufs.length, h.active.length, true, false⟩] }

/-- The copy constructor of names: the members are copied, observers are not (modify_observer_interface.cpp:21-23). -/
def NameHeap.copy {α : Type} (h : NameHeap α) (n : Nat) : NameHeap α :=
  match h.names[n]? with
  | some c => { h with names := h.names ++ [⟨c.buf, c.counter, false, c.dirty⟩] }
  | none => { h with names := h.names ++ [⟨h.bufs.length, h.active.length, false, false⟩] }

/-- The destructor of a name, or of a copy of it: `~IWeakReferenceable` deactivates the counter, unknown_interface.h:187-191. -/
def NameHeap.destroy {α : Type} (h : NameHeap α) (n : Nat) : NameHeap α :=
  match h.names[n]? with
  | some c => { h with active := h.active.set c.counter false }
  | none => h

/-- Marks one name. object.cpp (`OnChanged`). -/
def NameHeap.mark {α : Type} (h : NameHeap α) (n : Nat) : NameHeap α :=
  { h with names := h.names.modify n fun c => { c with dirty := true } }

/-- The buffer of a name gets new contents: every name that has subscribed to it and whose counter is active is marked,
modify_observer_interface.cpp:32-60, name_object.cpp:74-76. -/
def NameHeap.assign {α : Type} (h : NameHeap α) (n : Nat) (v : Bytes) : NameHeap α :=
  match h.names[n]? with
  | some c =>
    { h with
      bufs := h.bufs.set c.buf v
      names := h.names.map fun m => if m.buf = c.buf ∧ m.subscribed ∧ h.active.getD m.counter false then { m with dirty := true } else m }
  | none => h

/-- One call.  `insert` and `insertConst` without overwriting: c_dictionary_object.cpp:200-240, dictionary_object.cpp:175-206;
`find`: c_dictionary_object.cpp:20-50, dictionary_object.cpp:109-123; `remove`: c_dictionary_object.cpp:174-186,
dictionary_object.cpp:144-173; `set`: name_object.cpp:82-87.  `find` and `remove` make a copy and destroy it: what is left is the
deactivated counter, which is that of the argument.  The copy of `insertConst` gets a number even if it is destroyed. -/
def NameHeap.step {α : Type} (h : NameHeap α) : NameOp α → Res (Option α) × NameHeap α
  | .create v => (.ok none, h.create v)
  | .set n v => (.ok none, (h.assign n v).mark n)
  | .setBuffer n v => (.ok none, h.assign n v)
  | .insert d n v =>
    match h.lookup d (h.value n) with
    | some _ => (.error .duplicateKey, h)
    | none => (.ok none, { h with dicts := h.dicts.modify d fun l => l ++ [(n, v)] })
  | .insertConst d n v =>
    let m := h.names.length
    match h.lookup d (h.value n) with
    | some _ => (.error .duplicateKey, (h.copy n).destroy m)
    | none => (.ok none, { h.copy n with dicts := h.dicts.modify d fun l => l ++ [(m, v)] })
  | .find d n =>
    match h.lookup d (h.value n) with
    | some v => (.ok (some v), h.destroy n)
    | none => (.error .throw, h.destroy n)
  | .remove d n =>
    (.ok none, { h.destroy n with dicts := h.dicts.modify d fun l => l.filter fun e => h.value e.1 != h.value n })

/-- A sequence of calls with their results; the client's program, no counterpart in the library (c_dictionary_object.cpp and c_name_object.cpp have the calls). -/
def NameHeap.run {α : Type} (h : NameHeap α) : List (NameOp α) → List (Res (Option α)) × NameHeap α
  | [] => ([], h)
  | op :: ops =>
    let (r, h) := h.step op
    let (rs, h) := h.run ops
    (r :: rs, h)

end VPdf
