import Verif.Model.Basic

/-! # The loops around zlib

`inflate` and `deflate` of zlib are parameters: functions of the state, the bytes offered and the space for the output.
The initial states stand for `inflateInit` and `deflateInit`. -/
namespace VPdf

/-- The codes zlib returns (zlib.h), as used in utils/zlib_wrapper.cpp:63-101, 145-161. -/
inductive ZStatus where
  | ok
  | streamEnd
  | bufError
  | needDict
  | dataError
  | memError
  | streamError
  deriving DecidableEq, Repr

/-- The outcome of one call of zlib: new state, bytes of the input used, bytes written, code (utils/zlib_wrapper.cpp:63-66). -/
structure ZStep (σ : Type) where
  state : σ
  used : Nat
  out : Bytes
  status : ZStatus

/-- `inflate(&strm, Z_NO_FLUSH)` with its state (utils/zlib_wrapper.cpp:23-40, 66). -/
structure Inflater where
  σ : Type
  start : σ
  call : σ → Bytes → Nat → ZStep σ

/-- `deflate(&strm, flush)` with its state; the flag is true for `Z_FINISH` (utils/zlib_wrapper.cpp:118-135, 149-152). -/
structure Deflater where
  σ : Type
  start : σ
  call : σ → Bytes → Nat → Bool → ZStep σ

/-- Exceptions of the loops: `ZlibDataErrorException` with the size of the output, `GeneralException`, and fuel that ran out
(utils/zlib_wrapper.cpp:68-93). -/
inductive ZFault where
  | data (size : Nat)
  | general
  | timeout
  deriving DecidableEq, Repr

/-- How the inner loop of `Inflate` ends: normally, or with `return result` (utils/zlib_wrapper.cpp:74-77, 95-97). -/
inductive ZChunk (σ : Type) where
  | more (s : σ) (acc : Bytes) (status : ZStatus)
  | returned (acc : Bytes)

/-- The inner loop of `Inflate` (utils/zlib_wrapper.cpp:62-97): `input` is what is left of the block, `acc` the result so
far.  The first argument bounds the number of rounds. -/
def inflateChunk (Z : Inflater) (expectErrors : Bool) : Nat → Z.σ → Bytes → Bytes → Except ZFault (ZChunk Z.σ)
  | 0, _, _, _ => .error .timeout
  | fuel + 1, s, input, acc =>
    let r := Z.call s input 4096
    match r.status with
    | .streamError => .error (.data acc.length)
    | .dataError => if expectErrors then .ok (.returned acc) else .error (.data acc.length)
    | .needDict | .memError => .error .general
    | .ok | .bufError | .streamEnd =>
      if r.out.length = 4096 then inflateChunk Z expectErrors fuel r.state (input.drop r.used) (acc ++ r.out)
      else .ok (.more r.state (acc ++ r.out) r.status)

/-- The outer loop of `Inflate` (utils/zlib_wrapper.cpp:46-100) on an input that is as long as announced: `total` bytes are
read, `rest` is left. -/
def inflateLoop (Z : Inflater) (expectErrors : Bool) (errorsAfter : Nat) : Nat → Z.σ → Nat → Bytes → Bytes → Except ZFault Bytes
  | 0, _, _, _, _ => .error .timeout
  | fuel + 1, s, total, rest, acc =>
    let size := if expectErrors && decide (errorsAfter ≤ total) then min 1 rest.length else min rest.length 4096
    let block := rest.take size
    if block.isEmpty then .ok acc
    else
      match inflateChunk Z expectErrors fuel s block acc with
      | .error e => .error e
      | .ok (.returned acc) => .ok acc
      | .ok (.more s acc status) =>
        if status = .streamEnd then .ok acc
        else inflateLoop Z expectErrors errorsAfter fuel s (total + block.length) (rest.drop size) acc

/-- `ZlibWrapper::Inflate` of a buffer (utils/zlib_wrapper.cpp:104-106, 173-207): when the data are damaged behind the first
output, the input is read again, byte by byte from the offset that is equal to the size of that output. -/
def inflateAll (Z : Inflater) (fuel : Nat) (input : Bytes) : Except ZFault Bytes :=
  match inflateLoop Z false input.length fuel Z.start 0 input [] with
  | .error (.data size) =>
    if size = 0 then .error (.data size)
    else inflateLoop Z (decide (input.length ≠ size)) size fuel Z.start 0 input []
  | r => r

/-- The inner loop of `Deflate` (utils/zlib_wrapper.cpp:146-161). -/
def deflateChunk (D : Deflater) (finish : Bool) : Nat → D.σ → Bytes → Bytes → Except ZFault (D.σ × Bytes × ZStatus)
  | 0, _, _, _ => .error .timeout
  | fuel + 1, s, input, acc =>
    let r := D.call s input 4096 finish
    if r.status = .streamError then .error (.data acc.length)
    else if r.out.length = 4096 then deflateChunk D finish fuel r.state (input.drop r.used) (acc ++ r.out)
    else .ok (r.state, acc ++ r.out, r.status)

/-- The outer loop of `Deflate` (utils/zlib_wrapper.cpp:137-164). -/
def deflateLoop (D : Deflater) : Nat → D.σ → Bytes → Bytes → Except ZFault Bytes
  | 0, _, _, _ => .error .timeout
  | fuel + 1, s, rest, acc =>
    let block := rest.take (min rest.length 4096)
    match deflateChunk D block.isEmpty fuel s block acc with
    | .error e => .error e
    | .ok (s, acc, status) =>
      if status = .streamEnd then .ok acc else deflateLoop D fuel s (rest.drop (min rest.length 4096)) acc

/-- `ZlibWrapper::Deflate` of a buffer (utils/zlib_wrapper.cpp:169-171, 197-200). -/
def deflateAll (D : Deflater) (fuel : Nat) (input : Bytes) : Except ZFault Bytes := deflateLoop D fuel D.start input []

end VPdf
