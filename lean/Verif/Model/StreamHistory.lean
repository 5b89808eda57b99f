/-
  Histories of calls of a stream in memory that is both read and written (C74): the functions of input_stream.cpp and
  output_stream.cpp on one `std::stringstream`, with the flags they share.
-/
import Verif.Model.Signing

namespace VPdf

/-- `OutputStream::SetOutputPosition(pos, way)` (output_stream.cpp:78-80) for a string stream: the offset is from the start, from
the position for writing, or from the end. -/
def IStream.setOutputPositionWay (s : IStream) (p : Int) (way : SeekDir) : IStream :=
  s.setOutputPosition (match way with
    | .beginning => p
    | .current => s.putPos + p
    | .end_ => s.data.length + p)

/-- A call of a stream that is read and written: the functions of input_stream.h:14-33 and output_stream.h:14-45. -/
inductive PipeCall where
  | write (d : Bytes)
  | read (n : Nat)
  | peek
  | get
  | whole
  | seekIn (p : Int) (way : SeekDir)
  | seekOut (p : Int) (way : SeekDir)
  | tellIn
  | tellOut
  deriving DecidableEq, Repr

/-- What a call returns: the results in input_stream.h:14-33 and output_stream.h:14-45. -/
inductive PipeAnswer where
  | done
  | bytes (b : Bytes)
  | byte (c : Option Byte)
  | place (p : Int)
  | error (f : Fault)
  deriving DecidableEq, Repr

/-- One call: input_stream.cpp:18-175, output_stream.cpp:18-80 and, for `whole`, `StreamUtils::InputStreamToBuffer`
(stream_utils.cpp:58-74), with as many rounds as the content can need. -/
def IStream.pipeCall (s : IStream) : PipeCall → PipeAnswer × IStream
  | .write d => (.done, s.write d)
  | .read n => (.bytes (s.read n).1, (s.read n).2)
  | .peek => (.byte s.peek.1, s.peek.2)
  | .get => (.byte s.get.1, s.get.2)
  | .whole =>
    match s.toBuffer (s.data.length + 2) with
    | .ok (b, s') => (.bytes b, s')
    | .error f => (.error f, s)
  | .seekIn p way => (.done, s.setPosition p way)
  | .seekOut p way => (.done, s.setOutputPositionWay p way)
  | .tellIn => (.place s.position.1, s.position.2)
  | .tellOut => (.place s.outputPosition, s)

/-- The answers of a history of calls (input_stream.cpp, output_stream.cpp), and the stream at its end. -/
def IStream.pipeRun (s : IStream) : List PipeCall → List PipeAnswer × IStream
  | [] => ([], s)
  | c :: cs =>
    let r := s.pipeCall c
    let rest := IStream.pipeRun r.2 cs
    (r.1 :: rest.1, rest.2)

end VPdf
