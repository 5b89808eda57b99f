import Verif.Model.Numbers
import Verif.Model.Ints
/-
  Stream filters: src/vanillapdf/syntax/filters, and the filter loops of
  src/vanillapdf/syntax/objects/stream_object.cpp.
-/
namespace VPdf

/-! ### ASCIIHexDecode -/

/-- `ASCIIHexDecodeFilter::Decode` (syntax/filters/ascii_hex_decode_filter.cpp:21-69).  The first argument is
`hex_pair` when it holds one character.  A single character left at the end is completed by a NUL byte
(line 60). -/
def asciiHexDecode : Option Byte → Bytes → Res Bytes
  | pend, c :: s =>
    if c == 0x3E then asciiHexFinish pend
    else if isWhiteSpace c then asciiHexDecode pend s
    else match pend with
      | none => asciiHexDecode (some c) s
      | some p => do
        let b ← parseByte 16 [p, c]
        let r ← asciiHexDecode none s
        return b :: r
  | pend, [] => asciiHexFinish pend
where
  /-- lines 57-66 -/
  asciiHexFinish : Option Byte → Res Bytes
    | none => .ok []
    | some p => do
      let b ← parseByte 16 [p, 0]
      return [b]

/-! ### ASCII85Decode -/

/-- What a signed overflow of `int` does: undefined by the standard (`strict`), or two's complement wrapping as
with `-fwrapv` and in unoptimised builds (`wrap`). Concerns the `int` arithmetic of ascii_85_decode_filter.cpp:55-92. -/
inductive Overflow where
  | strict
  | wrap
  deriving DecidableEq, Repr

/-- Result of an `int` expression with mathematical value `v ≥ 0`. ascii_85_decode_filter.cpp:55-92. -/
def intArith (m : Overflow) (v : Int) : Res Int :=
  if v ≤ IntTy.i32.max then .ok v
  else match m with
    | .strict => .error .ub
    | .wrap => .ok (IntTy.i32.cast v)

/-- `value >> k & 0xFF` as a byte of the result; the shift of a negative `int` is arithmetic.
ascii_85_decode_filter.cpp:63-66, 78-88. -/
def shiftByte (v : Int) (k : Nat) : Byte := UInt8.ofNat ((v / ((2 ^ k : Nat) : Int)) % 256).toNat

/-- The group value loop (syntax/filters/ascii_85_decode_filter.cpp:58-60).  Only the last step can overflow, so the
intermediate values are exact. -/
def groupValue (ds : List Nat) : Int := ds.foldl (fun (v : Int) (d : Nat) => v * 85 + d) 0

/-- The final partial group (syntax/filters/ascii_85_decode_filter.cpp:74-88): with `n` digits the missing digits
contribute 85^(4-n) + ... + 85; one digit alone is only logged. -/
def a85Final (m : Overflow) (ds : List Nat) : Res Bytes :=
  match ds with
  | [a, b] => do
    let v ← intArith m (a * 85 * 85 * 85 * 85 + b * 85 * 85 * 85 + 85 * 85 * 85 + 85 * 85 + 85)
    return [shiftByte v 24]
  | [a, b, c] => do
    let v ← intArith m (a * 85 * 85 * 85 * 85 + b * 85 * 85 * 85 + c * 85 * 85 + 85 * 85 + 85)
    return [shiftByte v 24, shiftByte v 16]
  | [a, b, c, d] => do
    let v ← intArith m (a * 85 * 85 * 85 * 85 + b * 85 * 85 * 85 + c * 85 * 85 + d * 85 + 85)
    return [shiftByte v 24, shiftByte v 16, shiftByte v 8]
  | _ => .ok []

/-- The loop of `ASCII85DecodeFilter::Decode` (syntax/filters/ascii_85_decode_filter.cpp:12-91).  `ds` holds the
digits of the group being collected (`sequence[0..current)`). -/
def a85Loop (m : Overflow) : List Nat → Bytes → Res Bytes
  | ds, [] => a85Final m ds
  | ds, c :: s =>
    if c == 0x7E && s.head? == some 0x3E then a85Final m ds
    else if isWhiteSpace c then a85Loop m ds s
    else if c == 0x7A && ds.isEmpty then do
      let r ← a85Loop m [] s
      return 0 :: 0 :: 0 :: 0 :: r
    else if c < 0x21 || c > 0x75 then .error .throw
    else if ds.length = 4 then do
      let v ← intArith m (groupValue (ds ++ [c.toNat - 33]))
      let r ← a85Loop m [] s
      return shiftByte v 24 :: shiftByte v 16 :: shiftByte v 8 :: shiftByte v 0 :: r
    else a85Loop m (ds ++ [c.toNat - 33]) s

/-- `ASCII85DecodeFilter::Decode` on a buffer. ascii_85_decode_filter.cpp:12-101. -/
def ascii85Decode (m : Overflow) (s : Bytes) : Res Bytes := a85Loop m [] s

/-! ### Predictor of FlateDecode -/

/-- `current[i]`; indices used by the loops are below the row size. flate_decode_filter.cpp:119-181. -/
def at0 (row : Bytes) (i : Nat) : Byte := row.getD i 0

/-- `current[i] += v`. flate_decode_filter.cpp:119-181. -/
def addAt (row : Bytes) (i : Nat) (v : Byte) : Bytes := row.set i (at0 row i + v)

/-- Sub rows (syntax/filters/flate_decode_filter.cpp:120-126). -/
def undoSub (bpp : Nat) (row : Bytes) : Bytes :=
  (List.range (row.length - bpp)).foldl (fun cur i => addAt cur (bpp + i) (at0 cur i)) row

/-- Up rows (syntax/filters/flate_decode_filter.cpp:127-134). -/
def undoUp (prior row : Bytes) : Bytes :=
  (List.range row.length).foldl (fun cur i => addAt cur i (at0 prior i)) row

/-- Average rows (syntax/filters/flate_decode_filter.cpp:135-157): note that the second loop adds to `current[i]`. -/
def undoAverage (bpp : Nat) (prior row : Bytes) : Bytes :=
  let first := (List.range bpp).foldl (fun cur i => addAt cur i (at0 prior i / 2)) row
  (List.range (row.length - bpp)).foldl
    (fun cur i => addAt cur i (UInt8.ofNat (((at0 cur i).toNat + (at0 prior (bpp + i)).toNat) / 2))) first

/-- The Paeth predictor (syntax/filters/flate_decode_filter.cpp:168-183). -/
def paeth (a b c : Byte) : Byte :=
  let p : Int := a.toNat + b.toNat - c.toNat
  let pa := (p - a.toNat).natAbs
  let pb := (p - b.toNat).natAbs
  let pc := (p - c.toNat).natAbs
  if pa ≤ pb ∧ pa ≤ pc then a else if pb ≤ pc then b else c

/-- Paeth rows (syntax/filters/flate_decode_filter.cpp:158-188): note that the second loop adds to `current[i]`. -/
def undoPaeth (bpp : Nat) (prior row : Bytes) : Bytes :=
  let first := (List.range bpp).foldl (fun cur i => addAt cur i (at0 prior i)) row
  (List.range (row.length - bpp)).foldl
    (fun cur i => addAt cur i (paeth (at0 cur i) (at0 prior (bpp + i)) (at0 prior i))) first

/-- The switch on the filter type (syntax/filters/flate_decode_filter.cpp:117-193); an unknown type leaves the row.
The first loops of Average and Paeth run to `bytes_per_pixel`, past the end of a shorter row. -/
def undoRow (bpp : Nat) (ty : Byte) (prior row : Bytes) : Res Bytes :=
  if ty = 1 then .ok (undoSub bpp row)
  else if ty = 2 then .ok (undoUp prior row)
  else if ty = 3 then (if row.length < bpp then .error .ub else .ok (undoAverage bpp prior row))
  else if ty = 4 then (if row.length < bpp then .error .ub else .ok (undoPaeth bpp prior row))
  else .ok row

/-- The row loop (syntax/filters/flate_decode_filter.cpp:107-198). -/
def undoRows (bpp rowBytes : Nat) : Bytes → Bytes → Res Bytes
  | _, [] => .ok []
  | prior, ty :: s =>
    if s.length < rowBytes then .error .throw
    else do
      let row ← undoRow bpp ty prior (s.take rowBytes)
      let r ← undoRows bpp rowBytes row (s.drop rowBytes)
      return row ++ r
termination_by _ s => s.length
decreasing_by simp; omega

/-- `DecodeParms` of a Flate filter with the defaults of syntax/filters/flate_decode_filter.cpp:49-80. -/
structure PredictorParams where
  predictor : Int := 1
  colors : Int := 1
  bits : Int := 8
  columns : Int := 1
  deriving DecidableEq, Repr

/-- `FlateDecodeFilter::ApplyPredictor` (syntax/filters/flate_decode_filter.cpp:48-200). -/
def applyPredictor (p : PredictorParams) (data : Bytes) : Res Bytes :=
  if p.predictor = 1 then .ok data
  else if p.predictor = 2 then .error .notSupported
  else if p.predictor < 10 then .error .throw
  else do
    let colors ← safeConvert .u32 .i64 p.colors
    let columns ← safeConvert .u32 .i64 p.columns
    let bits ← safeConvert .u32 .i64 p.bits
    let pixelBits ← safeMultiply .u32 .u32 colors bits
    let cc ← safeMultiply .u32 .u32 colors columns
    let ccb ← safeMultiply .u32 .u32 cc bits
    let r7 ← safeAddition .u32 .u32 .i32 ccb 7
    let bpp := (pixelBits / 8).toNat
    let rowBytes := (r7 / 8).toNat
    undoRows bpp rowBytes (List.replicate rowBytes 0) data

/-! ### Filter chains -/

/-- The filters `FilterBase::GetFilterByName` knows (syntax/filters/filter.cpp), `Crypt` and any other name. -/
inductive FilterName where
  | flate | ascii85 | asciiHex | dct | lzw | jpx | crypt | other
  deriving DecidableEq, Repr

/-- The external codecs zlib and libjpeg, as parameters.
Called from zlib_wrapper.cpp, dct_decode_filter.cpp and jpx_decode_filter.cpp. -/
structure Codecs where
  deflate : Bytes → Bytes
  inflate : Bytes → Res Bytes
  dctEncode : Bytes → Res Bytes
  dctDecode : Bytes → Res Bytes
  jpxDecode : Bytes → Res Bytes

/-- `filter->Encode(data, params)` for the filter found by name: Flate ignores the parameters
(flate_decode_filter.cpp:26-28), ASCII85, ASCIIHex, LZW and JPX are not supported, unknown names throw. -/
def filterEncode (k : Codecs) (f : FilterName) (_ : PredictorParams) (d : Bytes) : Res Bytes :=
  match f with
  | .flate => .ok (k.deflate d)
  | .dct => k.dctEncode d
  | .ascii85 | .asciiHex | .lzw | .jpx => .error .notSupported
  | .crypt | .other => .error .throw

/-- `filter->Decode(data, params)` for the filter found by name.
stream_object.cpp:204-308 and the `Decode` functions of syntax/filters/*.cpp. -/
def filterDecode (m : Overflow) (k : Codecs) (f : FilterName) (p : PredictorParams) (d : Bytes) : Res Bytes :=
  match f with
  | .flate => do
    let x ← k.inflate d
    applyPredictor p x
  | .ascii85 => ascii85Decode m d
  | .asciiHex => asciiHexDecode none d
  | .dct => k.dctDecode d
  | .jpx => k.jpxDecode d
  | .lzw => .error .notSupported
  | .crypt | .other => .error .throw

/-- The `Filter` entry of a stream dictionary with the parameters that belong to each filter (default parameters
when `DecodeParms` is absent or null). stream_object.cpp:204-308. -/
inductive FilterEntry where
  | absent
  | name (f : FilterName) (p : PredictorParams)
  | array (fs : List (FilterName × PredictorParams))
  deriving Repr

/-- The decode loop (syntax/objects/stream_object.cpp:279-301): filters in array order, `Crypt` skipped. -/
def decodeChain (m : Overflow) (k : Codecs) : List (FilterName × PredictorParams) → Bytes → Res Bytes
  | [], d => .ok d
  | (f, p) :: fs, d =>
    if f = .crypt then decodeChain m k fs d
    else do
      let d ← filterDecode m k f p d
      decodeChain m k fs d

/-- The encode loop (syntax/objects/stream_object.cpp:391-416): filters in the same array order. -/
def encodeChain (k : Codecs) : List (FilterName × PredictorParams) → Bytes → Res Bytes
  | [], d => .ok d
  | (f, p) :: fs, d => do
    let d ← filterEncode k f p d
    encodeChain k fs d

/-- `StreamObject::GetBody` (syntax/objects/stream_object.cpp:204-308) in a document without encryption, as a
function of the stored bytes. -/
def decodeBody (m : Overflow) (k : Codecs) (e : FilterEntry) (stored : Bytes) : Res Bytes :=
  match e with
  | .absent => .ok stored
  | .name f p => if f = .crypt then .ok stored else filterDecode m k f p stored
  | .array fs => decodeChain m k fs stored

/-- `StreamObject::GetBodyEncoded` (syntax/objects/stream_object.cpp:310-430) of a changed stream with body `d` in a
document without encryption.  A single `Crypt` filter needs the parameters of its handler and is not modelled
(`throw`). -/
def encodeBody (k : Codecs) (e : FilterEntry) (d : Bytes) : Res Bytes :=
  match e with
  | .absent => .ok d
  | .name f p => filterEncode k f p d
  | .array fs => encodeChain k fs d

end VPdf
