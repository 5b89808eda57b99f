import Verif.Model.Strings
/-
  String objects in memory, as a program sees them through `StringObject_*`, `LiteralStringObject_*`,
  `HexadecimalStringObject_*`, `Buffer_*` and `Object_ToPdf` of the interface (src/vanillapdf/syntax/objects/string_object.{h,cpp},
  src/vanillapdf/implementation/syntax/c_string_object.cpp, src/vanillapdf/implementation/utils/c_buffer.cpp), in a document that is
  not encrypted.

  Not modelled: encryption (Model/Encryption.lean), whether owners are told of changes (Model/Heap.lean), more than one thread,
  objects that are released.
-/
namespace VPdf

/-- A string object, string_object.h:39-106: literal or hexadecimal; `raw` are the contents of `_raw_value`, `value` those of
`_value` once it is initialised. -/
structure PString where
  hex : Bool
  raw : Bytes
  value : Option Bytes

/-- A buffer that a program can hold: one of its own, or the value of a string. utils/buffer.h and `_value` of
string_object.h:70, 106. -/
inductive TextBuffer where
  | own (i : Nat)
  | value (s : Nat)
  deriving DecidableEq, Repr

/-- The strings and the buffers of a program. The objects made by c_string_object.cpp and c_buffer.cpp:8-33. -/
structure TextWorld where
  strings : List PString
  buffers : List Bytes

/-- The contents of a buffer; the value of a string can be held once it is initialised. `Buffer_GetData`, c_buffer.cpp:35-45. -/
def TextWorld.contents (w : TextWorld) : TextBuffer → Option Bytes
  | .own i => w.buffers[i]?
  | .value s => (w.strings[s]?).bind PString.value

/-- The raw value decoded: `GetRawValueDecoded` (string_object.cpp:187-368) or the loop in `HexadecimalStringObject::GetValue`
(388-414). -/
def PString.decode (x : PString) : Res Bytes := if x.hex then decodeHexPairs x.raw else decodeLiteral 0 x.raw

/-- `LiteralStringObject::GetValue` (string_object.cpp:145-174) and `HexadecimalStringObject::GetValue` (377-431): the value, and
the string, which keeps it. -/
def PString.get (x : PString) : PString × Res Bytes :=
  match x.value with
  | some d => (x, .ok d)
  | none =>
    match x.decode with
    | .error e => (x, .error e)
    | .ok d => ({ x with value := some d }, .ok d)

/-- The text of a value: `ToPdfStreamInternal`, string_object.cpp:447-484 and 486-576. -/
def PString.text (x : PString) (d : Bytes) : Bytes := if x.hex then writeHex d else writeLiteral d

/-- What a program can do with strings and buffers.  `load`: a string is read from a file (parser.cpp, `CreateFromEncoded`).
`clone`: a string is copied with the object it belongs to. `write`: `Object_ToPdf`, c_object.cpp:96-108. -/
inductive TextCall where
  | makeBuffer (d : Bytes)
  | create (hex : Bool)
  | load (hex : Bool) (raw : Bytes)
  | fromEncoded (hex : Bool) (b : TextBuffer)
  | fromDecoded (hex : Bool) (b : TextBuffer)
  | getValue (s : Nat)
  | setValue (s : Nat) (b : TextBuffer)
  | getData (b : TextBuffer)
  | setData (b : TextBuffer) (d : Bytes)
  | clone (s : Nat)
  | write (s : Nat)

/-- What a call answers. The output parameters of c_string_object.cpp, c_object.cpp and c_buffer.cpp. -/
inductive TextAnswer where
  | done
  | buffer (b : TextBuffer)
  | string (s : Nat)
  | data (d : Bytes)
  deriving DecidableEq, Repr

/-- A new string. c_string_object.cpp:69-137, 178-246. -/
def TextWorld.add (w : TextWorld) (x : PString) : TextWorld × Res TextAnswer :=
  ({ w with strings := w.strings ++ [x] }, .ok (.string w.strings.length))

/-- A call on a string that exists. The checks of handles in c_string_object.cpp; a wrong handle stands for a null pointer. -/
def TextWorld.on (w : TextWorld) (s : Nat) (f : PString → PString × Res TextAnswer) : TextWorld × Res TextAnswer :=
  match w.strings[s]? with
  | none => (w, .error .invalidArgument)
  | some x => ({ w with strings := w.strings.set s (f x).1 }, (f x).2)

/-- A call that is given a buffer. The checks of handles in c_string_object.cpp and c_buffer.cpp. -/
def TextWorld.given (w : TextWorld) (b : TextBuffer) (f : Bytes → TextWorld × Res TextAnswer) : TextWorld × Res TextAnswer :=
  match w.contents b with
  | none => (w, .error .invalidArgument)
  | some d => f d

/-- The calls:
* `CreateFromEncoded` and `CreateFromDecoded`, string_object.cpp:26-86, copy the contents of the buffer.
* `SetValue`: 176-181, 433-438.  `vector::assign` with iterators into the same vector is undefined.
* `Clone`: 110-134: the original is asked for its value, which may throw.
* `write`: 447-576, asks for the value. -/
def TextWorld.step (w : TextWorld) : TextCall → TextWorld × Res TextAnswer
  | .makeBuffer d => ({ w with buffers := w.buffers ++ [d] }, .ok (.buffer (.own w.buffers.length)))
  | .create hex => w.add ⟨hex, [], none⟩
  | .load hex raw => w.add ⟨hex, raw, none⟩
  | .fromEncoded hex b => w.given b fun d => w.add ⟨hex, d, none⟩
  | .fromDecoded hex b => w.given b fun d => w.add ⟨hex, [], some d⟩
  | .getValue s => w.on s fun x => (x.get.1, x.get.2.map fun _ => .buffer (.value s))
  | .setValue s b => if b = .value s then (w, .error .ub) else w.given b fun d => w.on s fun x => ({ x with value := some d }, .ok .done)
  | .getData b => w.given b fun d => (w, .ok (.data d))
  | .setData b d => w.given b fun _ =>
    match b with
    | .own i => ({ w with buffers := w.buffers.set i d }, .ok .done)
    | .value s => w.on s fun x => ({ x with value := some d }, .ok .done)
  | .clone s =>
    match w.strings[s]? with
    | none => (w, .error .invalidArgument)
    | some x =>
      match x.get.2 with
      | .error e => (w, .error e)
      | .ok d => TextWorld.add { w with strings := w.strings.set s x.get.1 } ⟨x.hex, x.raw, some d⟩
  | .write s => w.on s fun x => (x.get.1, x.get.2.map fun d => .data (x.text d))

/-- A history of calls of c_string_object.cpp and c_buffer.cpp. -/
def TextWorld.run (w : TextWorld) (calls : List TextCall) : TextWorld := calls.foldl (fun w c => (w.step c).1) w

/-- No strings and no buffers. Before the first call of c_string_object.cpp. -/
def TextWorld.start : TextWorld := ⟨[], []⟩

end VPdf
