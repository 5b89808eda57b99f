import Verif.Model.Filters
/-
  Stream objects in memory, as a program sees them through `StreamObject_*` and `Buffer_*` of the interface
  (src/vanillapdf/syntax/objects/stream_object.{h,cpp}, src/vanillapdf/implementation/syntax/c_stream_object.cpp,
  src/vanillapdf/implementation/utils/c_buffer.cpp), in a document that is not encrypted.

  Not modelled: encryption (Model/Encryption.lean), attributes (Model/Attributes.lean), the entries of the dictionary other than
  the filters, data that cannot be read from the file, more than one thread, streams and buffers that are released.
-/
namespace VPdf

/-- A stream object, stream_object.h:51-58.  `filter`: the entries `Filter` and `DecodeParms`, `none` when the filter is the null
object.  `raw`: the contents of `_body_raw` or, before they are read, the data in the file (160-202).  `decrypted`, `decoded`: the
contents of the two buffers once they are initialised.  `dirty`: `m_dirty` of object.h.  `hasFile`: `m_file` is set. -/
structure PStream where
  filter : Option FilterEntry
  raw : Bytes
  decrypted : Option Bytes
  decoded : Option Bytes
  dirty : Bool
  hasFile : Bool

/-- A buffer that a program can hold: one of its own, or one of the three buffers that belong to a stream.
utils/buffer.h, and `_body_raw`, `_body_decrypted`, `_body_decoded` of stream_object.h:54-56. -/
inductive BufferRef where
  | own (i : Nat)
  | raw (s : Nat)
  | decrypted (s : Nat)
  | decoded (s : Nat)
  deriving DecidableEq, Repr

/-- The streams and the buffers of a program. The objects made by c_stream_object.cpp:11-20 and c_buffer.cpp:8-33. -/
structure StreamWorld where
  streams : List PStream
  buffers : List Bytes

/-- The contents of a buffer; the buffers of a stream can be held once they are initialised. `Buffer_GetData`, c_buffer.cpp:35-45. -/
def StreamWorld.contents (w : StreamWorld) : BufferRef → Option Bytes
  | .own i => w.buffers[i]?
  | .raw s => (w.streams[s]?).map PStream.raw
  | .decrypted s => (w.streams[s]?).bind PStream.decrypted
  | .decoded s => (w.streams[s]?).bind PStream.decoded

/-- Replaces a stream. Assignments to the members of a stream, stream_object.cpp. -/
def StreamWorld.put (w : StreamWorld) (s : Nat) (x : PStream) : StreamWorld := { w with streams := w.streams.set s x }

/-- Decoding by the entry `Filter`, which may be null. stream_object.cpp:204-308. -/
def decodeEntry (m : Overflow) (k : Codecs) : Option FilterEntry → Bytes → Res Bytes
  | none, d => .ok d
  | some e, d => decodeBody m k e d

/-- Encoding by the entry `Filter`, which may be null. stream_object.cpp:354-429. -/
def encodeEntry (k : Codecs) : Option FilterEntry → Bytes → Res Bytes
  | none, d => .ok d
  | some e, d => encodeBody k e d

/-- `StreamObject::GetBodyDecrypted`, stream_object.cpp:432-452, in a document that is not encrypted.  Without a file it throws
unless the body is known. -/
def PStream.bodyDecrypted (x : PStream) : Res (Bytes × PStream) :=
  match x.decrypted with
  | some b => .ok (b, x)
  | none => if x.hasFile then .ok (x.raw, { x with decrypted := some x.raw }) else .error .throw

/-- `StreamObject::GetBody`, stream_object.cpp:204-308: which of the buffers is handed out (`true`: the decoded one, `false`: the
decrypted one, when the filter is null, 236-238), and the stream with the buffers that are known now.  The decrypted body is kept
also when decoding fails. -/
def PStream.body (m : Overflow) (k : Codecs) (x : PStream) : PStream × Res Bool :=
  match x.decoded with
  | some _ => (x, .ok true)
  | none =>
    match x.bodyDecrypted with
    | .error e => (x, .error e)
    | .ok (b, y) =>
      match x.filter with
      | none => (y, .ok false)
      | some e =>
        match decodeBody m k e b with
        | .error e => (y, .error e)
        | .ok d => ({ y with decoded := some d }, .ok true)

/-- `StreamObject::GetBodyEncoded`, stream_object.cpp:310-430, in a document that is not encrypted: the bytes that
`ToPdfStreamInternal` (598-611) writes between `stream` and `endstream`. -/
def PStream.encoded (k : Codecs) (x : PStream) : Res Bytes :=
  if x.hasFile then
    if x.dirty then
      match x.decoded with
      | none => .ok x.raw
      | some d => encodeEntry k x.filter d
    else .ok x.raw
  else .error .throw

/-- What a program can do with streams and buffers.  `load`: a stream is read from a file (parser.cpp:120-190).  `attach`: the stream
gets a file (`SetFile`, stream_object.cpp:141-146).  `setFilter`: the filters in the dictionary are changed, or another dictionary is
set (76-83), or another entry is changed and the filters stay as they are.  `write`: `Object_ToPdf`. -/
inductive StreamCall where
  | makeBuffer (d : Bytes)
  | create
  | load (f : Option FilterEntry) (d : Bytes)
  | attach (s : Nat)
  | setFilter (s : Nat) (f : Option FilterEntry)
  | getBody (s : Nat)
  | getBodyRaw (s : Nat)
  | setBody (s : Nat) (b : BufferRef)
  | getData (b : BufferRef)
  | setData (b : BufferRef) (d : Bytes)
  | clone (s : Nat)
  | write (s : Nat)

/-- What a call answers. The output parameters of c_stream_object.cpp and c_buffer.cpp. -/
inductive StreamAnswer where
  | done
  | buffer (b : BufferRef)
  | stream (s : Nat)
  | data (d : Bytes)
  deriving DecidableEq, Repr

/-- A call on a stream that exists. The checks of handles in c_stream_object.cpp; a wrong handle stands for a null pointer. -/
def StreamWorld.on (w : StreamWorld) (s : Nat) (f : PStream → PStream × Res StreamAnswer) : StreamWorld × Res StreamAnswer :=
  match w.streams[s]? with
  | none => (w, .error .invalidArgument)
  | some x => (w.put s (f x).1, (f x).2)

/-- The calls:
* `StreamObject_Create` (c_stream_object.cpp:11-20) with `StreamObject(true)` (stream_object.cpp:19-29): there is no data offset, so
  that the empty raw body counts as known (148-159).
* changes of the dictionary are told to the stream (`ObserveeChanged`, 49-51), which becomes dirty (53-70, object.cpp:216-223).
* `StreamObject_SetBody`: 85-93.  `vector::assign` with iterators into the same vector is undefined.
* `Buffer_SetData` (c_buffer.cpp:47-59): an initialised buffer tells its stream (buffer.h, `assign`; modify_observer_interface.cpp:29-60).
* `Object_Clone`: 110-139 with `CloneBaseProperties` (object.cpp:254-269), which copies the dirty flag and the file. -/
def StreamWorld.step (m : Overflow) (k : Codecs) (w : StreamWorld) : StreamCall → StreamWorld × Res StreamAnswer
  | .makeBuffer d => ({ w with buffers := w.buffers ++ [d] }, .ok (.buffer (.own w.buffers.length)))
  | .create => ({ w with streams := w.streams ++ [⟨some .absent, [], none, none, false, false⟩] }, .ok (.stream w.streams.length))
  | .load f d => ({ w with streams := w.streams ++ [⟨f, d, none, none, false, true⟩] }, .ok (.stream w.streams.length))
  | .attach s => w.on s fun x => ({ x with hasFile := true }, .ok .done)
  | .setFilter s f => w.on s fun x => ({ x with filter := f, dirty := true }, .ok .done)
  | .getBody s => w.on s fun x => ((x.body m k).1, (x.body m k).2.map fun b => .buffer (if b then .decoded s else .decrypted s))
  | .getBodyRaw s => w.on s fun x => (x, .ok (.buffer (.raw s)))
  | .setBody s b =>
    if b = .decoded s then (w, .error .ub)
    else
      match w.contents b with
      | none => (w, .error .invalidArgument)
      | some d => w.on s fun x => ({ x with decoded := some d, dirty := true }, .ok .done)
  | .getData b =>
    match w.contents b with
    | none => (w, .error .invalidArgument)
    | some d => (w, .ok (.data d))
  | .setData b d =>
    match w.contents b with
    | none => (w, .error .invalidArgument)
    | some _ =>
      match b with
      | .own i => ({ w with buffers := w.buffers.set i d }, .ok .done)
      | .raw s => w.on s fun x => ({ x with raw := d, dirty := true }, .ok .done)
      | .decrypted s => w.on s fun x => ({ x with decrypted := some d, dirty := true }, .ok .done)
      | .decoded s => w.on s fun x => ({ x with decoded := some d, dirty := true }, .ok .done)
  | .clone s =>
    match w.streams[s]? with
    | none => (w, .error .invalidArgument)
    | some x => ({ w with streams := w.streams ++ [x] }, .ok (.stream w.streams.length))
  | .write s =>
    match w.streams[s]? with
    | none => (w, .error .invalidArgument)
    | some x => (w, (x.encoded k).map .data)

/-- A history of calls of c_stream_object.cpp and c_buffer.cpp. -/
def StreamWorld.run (m : Overflow) (k : Codecs) (w : StreamWorld) (calls : List StreamCall) : StreamWorld :=
  calls.foldl (fun w c => (w.step m k c).1) w

/-- No streams and no buffers. Before the first call of c_stream_object.cpp. -/
def StreamWorld.start : StreamWorld := ⟨[], []⟩

end VPdf
