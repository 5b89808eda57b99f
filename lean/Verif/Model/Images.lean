import Verif.Model.Basic
/-
  Images: src/vanillapdf/syntax/filters/dct_decode_filter.cpp and jpx_decode_filter.cpp.

  The decoders themselves (libjpeg, OpenJPEG) are not modelled.  Modelled is what stands between them and the data: where they take bytes
  from, where they put them, and how the samples they return become the body of the stream.
-/
namespace VPdf

/-! ### Where libjpeg takes its bytes from -/

/-- `jpeg_source_mgr` as it is set up in dct_decode_filter.cpp:321-336: a pointer into the data and the number of bytes behind it. -/
structure JpegSource where
  data : Bytes
  next : Nat
  avail : Nat
  deriving DecidableEq

/-- The set-up of dct_decode_filter.cpp:332-336 for the body of a stream. -/
def jpegSource (data : Bytes) : JpegSource := ⟨data, 0, data.length⟩

/-- What libjpeg does with a source: take a byte, or skip bytes (`skip_input_data`, dct_decode_filter.cpp:65-77; the number
comes from the data). -/
inductive JpegRequest where
  | byte
  | skip (n : Nat)
  deriving DecidableEq

/-- A request.  If no bytes are left, libjpeg calls `fill_input_buffer` (dct_decode_filter.cpp:56-63), which reports success and changes
nothing (with assertions, the program ends there), and then takes the byte; the number of bytes left is an unsigned number of 64 bits.
`skip_input_data`, 65-77, moves on without a test. -/
def jpegRequest (s : JpegSource) : JpegRequest → Res (Option Byte × JpegSource)
  | .byte =>
    match s.data[s.next]? with
    | none => .error .ub
    | some b => .ok (some b, { s with next := s.next + 1, avail := (s.avail + 18446744073709551615) % 18446744073709551616 })
  | .skip n => .ok (none, { s with next := s.next + n, avail := (s.avail + (18446744073709551616 - n % 18446744073709551616)) % 18446744073709551616 })

/-- A run of requests: the bytes that were taken.  dct_decode_filter.cpp:338-391: every call of libjpeg is such a run. -/
def jpegRun (s : JpegSource) : List JpegRequest → Res Bytes
  | [] => .ok []
  | r :: rs => do
    let (b, s') ← jpegRequest s r
    let bs ← jpegRun s' rs
    .ok (b.toList ++ bs)

/-! ### Where libjpeg puts its bytes -/

/-- `CustomDestinationManager`, dct_decode_filter.cpp:22-34. -/
structure JpegTarget where
  buffer : Bytes
  next : Nat
  free : Nat
  stream : Bytes
  deriving DecidableEq

/-- `init_destination`, dct_decode_filter.cpp:88-103; constants.cpp:8. -/
def jpegInit (size : Nat) : JpegTarget := ⟨List.replicate size 0, 0, size, []⟩

/-- `empty_output_buffer`, dct_decode_filter.cpp:105-122. -/
def jpegEmpty (t : JpegTarget) : JpegTarget := { t with stream := t.stream ++ t.buffer, next := 0, free := t.buffer.length }

/-- How libjpeg puts a byte: it is stored, and if the buffer is full then, it is emptied (the interface of
`jpeg_destination_mgr`, dct_decode_filter.cpp:240-248). -/
def jpegPut (t : JpegTarget) (b : Byte) : JpegTarget :=
  let t' := { t with buffer := t.buffer.set t.next b, next := t.next + 1, free := t.free - 1 }
  if t'.free = 0 then jpegEmpty t' else t'

/-- `term_destination`, dct_decode_filter.cpp:124-139. -/
def jpegTerm (t : JpegTarget) : Bytes := t.stream ++ t.buffer.take (t.buffer.length - t.free)

/-- All the bytes of an image, dct_decode_filter.cpp:229-298 with the buffer of constants.cpp:8. -/
def jpegWrite (bs : Bytes) : Bytes := jpegTerm (bs.foldl jpegPut (jpegInit 4096))

/-! ### Loops -/

/-- `for (i = start; i < start + count; ++i)`, jpx_decode_filter.cpp:140-142, dct_decode_filter.cpp:359, 369. -/
def forLoop {σ : Type} (f : Nat → σ → Res σ) (start : Nat) : Nat → σ → Res σ
  | 0, s => .ok s
  | n + 1, s => do
    let s' ← f start s
    forLoop f (start + 1) n s'

/-- An assignment to an item of a buffer; there is no test of the index. jpx_decode_filter.cpp:147, dct_decode_filter.cpp:363-366. -/
def putItem (buf : Bytes) (i : Nat) (b : Byte) : Res Bytes := if i < buf.length then .ok (buf.set i b) else .error .ub

/-- An item of a row of libjpeg, dct_decode_filter.cpp:363-366. -/
def rowItem (row : Bytes) (i : Nat) : Res Byte :=
  match row[i]? with
  | some b => .ok b
  | none => .error .ub

/-- The items of one pixel, dct_decode_filter.cpp:360-366, 370-374. -/
def copyPixel (components : Nat) (row : Bytes) (i : Nat) (buf : Bytes) : Res Bytes :=
  forLoop (fun c buf => do
    let b ← rowItem row (i * components + c)
    putItem buf (i * components + c) b) 0 components buf

/-- A row of an image, dct_decode_filter.cpp:358-381: for one, three and four components.  For others the buffer stays as it is (with
assertions, the program ends there). -/
def dctRow (components width : Nat) (row buf : Bytes) : Res Bytes :=
  if components = 4 then forLoop (copyPixel 4 row) 0 width buf
  else if components = 3 then forLoop (copyPixel 3 row) 0 width buf
  else if components = 1 then if width ≤ row.length then .ok (row.take width ++ buf.drop width) else .error .ub
  else .ok buf

/-- The rows, dct_decode_filter.cpp:352-384: one buffer for all of them, the whole of which is written. -/
def dctRows (components width : Nat) : List Bytes → Bytes → Res Bytes
  | [], _ => .ok []
  | row :: rows, buf => do
    let buf' ← dctRow components width row buf
    let rest ← dctRows components width rows buf'
    .ok (buf' ++ rest)

/-- The body that results, dct_decode_filter.cpp:348-384, with `SafeMultiply` (math_utils.h:37-61) of unsigned numbers of 32 bits. -/
def dctBody (components width : Nat) (rows : List Bytes) : Res Bytes :=
  if width * components < 4294967296 then dctRows components width rows (List.replicate (width * components) 0)
  else .error .throw

/-! ### The samples of OpenJPEG -/

/-- `opj_image_comp_t`: the steps of its grid and its samples. jpx_decode_filter.cpp:146. -/
structure JpxComponent where
  dx : Nat
  dy : Nat
  data : List Int
  deriving DecidableEq

/-- The colour spaces of OpenJPEG that are told apart, jpx_decode_filter.cpp:128-130. -/
inductive JpxColors where
  | srgb
  | gray
  | cmyk
  | other
  deriving DecidableEq

/-- `opj_image_t`: the area on the grid, the components and the colour space. jpx_decode_filter.cpp:99-172. -/
structure JpxImage where
  x0 : Nat
  y0 : Nat
  x1 : Nat
  y1 : Nat
  comps : List JpxComponent
  colors : JpxColors
  deriving DecidableEq

/-- Unsigned numbers of 32 bits (`OPJ_UINT32`), jpx_decode_filter.cpp:135, 143-144. -/
def w32 (n : Nat) : Nat := n % 4294967296

/-- The size of the result, jpx_decode_filter.cpp:135. -/
def jpxSize (i : JpxImage) : Nat := w32 (w32 (i.x1 * i.y1) * i.comps.length)

/-- The body of the innermost loop, jpx_decode_filter.cpp:143-147. -/
def jpxSample (i : JpxImage) (y x c : Nat) (result : Bytes) : Res Bytes :=
  let offset := w32 (w32 (y * i.x1) + x)
  match i.comps[c]? with
  | none => .error .ub
  | some comp =>
    match comp.data[offset]? with
    | none => .error .ub
    | some v => if 0 ≤ v ∧ v ≤ 255 then putItem result (w32 (w32 (offset * i.comps.length) + c)) (UInt8.ofNat v.toNat) else .error .conversion

/-- The samples of an image, jpx_decode_filter.cpp:132-150. -/
def jpxPixels (i : JpxImage) : Res Bytes :=
  forLoop (fun y => forLoop (fun x => forLoop (fun c => jpxSample i y x c) 0 i.comps.length) 0 i.x1) 0 i.y1
    (List.replicate (jpxSize i) 0)

/-- `ImageMetadataObjectAttribute::ColorSpaceType`, image_metadata_object_attribute.h:11-16. -/
inductive ImageColors where
  | undefined
  | gray
  | rgb
  | cmyk
  deriving DecidableEq

/-- What is said about an image: image_metadata_object_attribute.h. -/
structure ImageFacts where
  width : Nat
  height : Nat
  components : Nat
  colors : ImageColors
  deriving DecidableEq

/-- The end of `JPXDecodeFilter::Decode`, jpx_decode_filter.cpp:128-182: the body and what is said about the image. -/
def jpxDecode (i : JpxImage) : Res (Bytes × ImageFacts) :=
  match i.colors with
  | .other => .error .throw
  | .srgb => do let r ← jpxPixels i; .ok (r, ⟨i.x1, i.y1, i.comps.length, .rgb⟩)
  | .gray => do let r ← jpxPixels i; .ok (r, ⟨i.x1, i.y1, i.comps.length, .gray⟩)
  | .cmyk => do let r ← jpxPixels i; .ok (r, ⟨i.x1, i.y1, i.comps.length, .cmyk⟩)

/-- `memory_stream_skip`, jpx_decode_filter.cpp:39-43, at a position of the data: the answer and the new position. -/
def jpxSkip (position n : Nat) : Nat × Nat := (position + n, position + n)

end VPdf
