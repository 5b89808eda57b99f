import Verif.Model.Stream
/-
  Buffers, lists of buffers and streams made from buffers (C126), as a program sees them through `Buffer_*`, `BufferArray_*` and
  `InputStream_*` of the interface (src/vanillapdf/utils/buffer.{h,cpp}, buffer_array.{h,cpp},
  src/vanillapdf/implementation/utils/c_buffer.cpp, c_buffer_array.cpp, c_input_stream.cpp), with the reference counters that
  decide how long a buffer lives (unknown_interface.cpp, deferred.h).

  A handle is the number of an object; a handle of an object whose counter is zero is a dangling pointer, and its use is undefined.

  Not modelled: null pointers (Model/Interface.lean), threads (Model/RefCount.lean), observers of buffers (Model/Heap.lean),
  counters that overflow, streams that are released.
-/
namespace VPdf

/-- A buffer (utils/buffer.h) and its reference counter (unknown_interface.h). -/
structure BufCell where
  data : Bytes
  refs : Nat
  deriving DecidableEq, Repr

/-- A list of buffers (utils/buffer_array.h): the buffers it refers to, and its own reference counter (unknown_interface.h). -/
structure BufList where
  items : List Nat
  refs : Nat
  deriving DecidableEq, Repr

/-- All buffers, lists and streams that were made. The objects of c_buffer.cpp, c_buffer_array.cpp and c_input_stream.cpp. -/
structure BufWorld where
  bufs : List BufCell
  lists : List BufList
  streams : List IStream

/-- The calls: functions of c_buffer.cpp, c_buffer_array.cpp and c_input_stream.cpp.  `setFrom b c` is `Buffer_SetData` with the
pointer and the size that `Buffer_GetData` gives for `c`. -/
inductive BufCall where
  | make (d : Bytes)
  | getData (b : Nat)
  | setData (b : Nat) (d : Bytes)
  | setFrom (b c : Nat)
  | copyTo (b room : Nat)
  | equals (b c : Nat)
  | releaseBuffer (b : Nat)
  | newList
  | size (l : Nat)
  | item (l i : Nat)
  | append (l b : Nat)
  | insert (l i b : Nat)
  | remove (l i : Nat)
  | releaseList (l : Nat)
  | stream (b : Nat)
  | read (s n : Nat)

/-- What a call answers: output parameters and return values of c_buffer.cpp, c_buffer_array.cpp and c_input_stream.cpp.  `noRoom`:
`VANILLAPDF_ERROR_INSUFFICIENT_SPACE`, nothing was copied. `absent`: `VANILLAPDF_ERROR_OBJECT_MISSING`. -/
inductive BufAnswer where
  | done
  | handle (i : Nat)
  | data (d : Bytes)
  | yes (b : Bool)
  | count (n : Nat)
  | noRoom
  | absent
  deriving DecidableEq, Repr

/-- `IUnknown::AddRef` (unknown_interface.cpp) of a buffer. -/
def BufWorld.addRef (w : BufWorld) (b : Nat) : BufWorld :=
  { w with bufs := w.bufs.modify b fun x => { x with refs := x.refs + 1 } }

/-- `IUnknown::Release` (unknown_interface.cpp) of a buffer. -/
def BufWorld.dropRef (w : BufWorld) (b : Nat) : BufWorld :=
  { w with bufs := w.bufs.modify b fun x => { x with refs := x.refs - 1 } }

/-- The destructors of the elements of a `std::vector<BufferPtr>` (buffer_array.h:14). -/
def BufWorld.dropAll (w : BufWorld) : List Nat → BufWorld
  | [] => w
  | b :: bs => BufWorld.dropAll (w.dropRef b) bs

/-- The use of a handle of a buffer, c_buffer.cpp: undefined for buffers that are gone. -/
def BufWorld.onBuffer (w : BufWorld) (b : Nat) (f : Bytes → BufWorld × Res BufAnswer) : BufWorld × Res BufAnswer :=
  match w.bufs[b]? with
  | some ⟨d, _ + 1⟩ => f d
  | _ => (w, .error .ub)

/-- The use of a handle of a list, c_buffer_array.cpp: undefined for lists that are gone. -/
def BufWorld.onList (w : BufWorld) (l : Nat) (f : List Nat → Nat → BufWorld × Res BufAnswer) : BufWorld × Res BufAnswer :=
  match w.lists[l]? with
  | some ⟨x, r + 1⟩ => f x r
  | _ => (w, .error .ub)

/-- A list is given other buffers. buffer_array.cpp:7-24. -/
def BufWorld.setItems (w : BufWorld) (l : Nat) (x : List Nat) : BufWorld :=
  { w with lists := w.lists.modify l fun y => { y with items := x } }

/-- One call.
* Buffers: c_buffer.cpp:8-105 over buffer.h. `vector::assign` with a range of the same vector is undefined.
* `BufferArray::At` is `vector::at`, which throws (buffer_array.h:31-32); the handle that is handed out counts.
* `BufferArray::Insert` and `Remove` (buffer_array.cpp:11-24) form `begin() + at`, which is undefined behind the end.
* `BufferArray_Release`: the last release destroys the list, which gives up its buffers.
* `Buffer_ToInputStream` and `InputStream_CreateFromBuffer` copy the contents (buffer.cpp:39-43). -/
def BufWorld.step (w : BufWorld) : BufCall → BufWorld × Res BufAnswer
  | .make d => ({ w with bufs := w.bufs ++ [⟨d, 1⟩] }, .ok (.handle w.bufs.length))
  | .getData b => w.onBuffer b fun d => (w, .ok (.data d))
  | .setData b d => w.onBuffer b fun _ => ({ w with bufs := w.bufs.modify b fun x => { x with data := d } }, .ok .done)
  | .setFrom b c => w.onBuffer c fun d => w.onBuffer b fun _ =>
    if b = c then (w, .error .ub) else ({ w with bufs := w.bufs.modify b fun x => { x with data := d } }, .ok .done)
  | .copyTo b room => w.onBuffer b fun d => (w, .ok (if d.length > room then .noRoom else .data d))
  | .equals b c => w.onBuffer b fun d => w.onBuffer c fun e => (w, .ok (.yes (d == e)))
  | .releaseBuffer b => w.onBuffer b fun _ => (w.dropRef b, .ok .done)
  | .newList => ({ w with lists := w.lists ++ [⟨[], 1⟩] }, .ok (.handle w.lists.length))
  | .size l => w.onList l fun x _ => (w, .ok (.count x.length))
  | .item l i => w.onList l fun x _ =>
    match x[i]? with
    | none => (w, .error .conversion)
    | some b => w.onBuffer b fun _ => (w.addRef b, .ok (.handle b))
  | .append l b => w.onList l fun x _ => w.onBuffer b fun _ => ((w.addRef b).setItems l (x ++ [b]), .ok .done)
  | .insert l i b => w.onList l fun x _ => w.onBuffer b fun _ =>
    if x.length < i then (w, .error .ub)
    else ((w.addRef b).setItems l (x.take i ++ b :: x.drop i), .ok .done)
  | .remove l i => w.onList l fun x _ =>
    if x.length < i then (w, .error .ub)
    else
      match x[i]? with
      | none => (w, .ok .absent)
      | some b => ((w.dropRef b).setItems l (x.eraseIdx i), .ok .done)
  | .releaseList l => w.onList l fun x r =>
    let w' := { w with lists := w.lists.modify l fun y => { y with refs := r } }
    if r = 0 then ((w'.dropAll x).setItems l [], .ok .done) else (w', .ok .done)
  | .stream b => w.onBuffer b fun d => ({ w with streams := w.streams ++ [.ofBytes false d] }, .ok (.handle w.streams.length))
  | .read s n =>
    match w.streams[s]? with
    | none => (w, .error .ub)
    | some x => ({ w with streams := w.streams.set s (x.read n).2 }, .ok (.data (x.read n).1))

/-- The answers of a history of calls (c_buffer.cpp, c_buffer_array.cpp, c_input_stream.cpp), and what there is at its end. -/
def BufWorld.run (w : BufWorld) : List BufCall → List (Res BufAnswer) × BufWorld
  | [] => ([], w)
  | c :: cs =>
    let rest := BufWorld.run (w.step c).1 cs
    ((w.step c).2 :: rest.1, rest.2)

/-- Nothing was made yet. Before the first call of c_buffer.cpp. -/
def BufWorld.start : BufWorld := ⟨[], [], []⟩

end VPdf
