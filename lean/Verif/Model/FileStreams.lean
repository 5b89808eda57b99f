/-
  Histories of calls of a file that is opened for reading and writing (C125): `StreamUtils::InputOutputStreamFromFile`
  (stream_utils.cpp:37-47) and the functions of input_stream.cpp and output_stream.cpp on one `std::fstream`.  Other than a string
  stream, a file has one position for reading and writing ([filebuf]: "a joint file position is maintained").

  Simplified: the C++ standard leaves it open what happens when a write follows a read, or a read a write, without positioning
  ([filebuf], as for C streams); the model goes on at the joint position, as libstdc++ does.
-/
import Verif.Model.StreamHistory

namespace VPdf

/-- `std::ostream::write` on a file, for `OutputStream::Write` (output_stream.cpp:18-32): bytes between the end and a position behind
it become zero. -/
def IStream.fileWrite (s : IStream) (d : Bytes) : IStream :=
  if s.good then
    { s with
      data := s.data.take s.putPos ++ List.replicate (s.putPos - s.data.length) 0 ++ d ++ s.data.drop (s.putPos + d.length)
      putPos := s.putPos + d.length }
  else { s with fail := true }

/-- `OutputStream::SetOutputPosition` (output_stream.cpp:74-80) on a file: a file can be positioned behind its end. -/
def IStream.fileSeekOut (s : IStream) (p : Int) (way : SeekDir) : IStream :=
  let q : Int := match way with
    | .beginning => p
    | .current => s.putPos + p
    | .end_ => s.data.length + p
  if s.fail then s
  else if 0 ≤ q then { s with putPos := q.toNat }
  else { s with fail := true }

/-- One call on a file (input_stream.cpp:18-175, output_stream.cpp:18-80): what moves one position moves the other one as well. -/
def IStream.fileCall (s : IStream) (c : PipeCall) : PipeAnswer × IStream :=
  match c with
  | .write d => (.done, { s.fileWrite d with getPos := (s.fileWrite d).putPos })
  | .seekOut p way => (.done, { s.fileSeekOut p way with getPos := (s.fileSeekOut p way).putPos })
  | .tellOut => s.pipeCall .tellOut
  | c => ((s.pipeCall c).1, { (s.pipeCall c).2 with putPos := (s.pipeCall c).2.getPos })

/-- The answers of a history of calls on a file (input_stream.cpp, output_stream.cpp), and the file at its end. -/
def IStream.fileRun (s : IStream) : List PipeCall → List PipeAnswer × IStream
  | [] => ([], s)
  | c :: cs =>
    let r := s.fileCall c
    let rest := IStream.fileRun r.2 cs
    (r.1 :: rest.1, rest.2)

end VPdf
