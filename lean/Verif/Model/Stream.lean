/-
  Streams: src/vanillapdf/utils/streams/{input_stream,output_stream,stream_utils}.cpp over the streams of the C++ standard library.

  The state of a `std::iostream` is its content, its positions and its flags.  The first group of definitions is the behaviour
  that the standard prescribes for unformatted input and output ([istream.unformatted], [ostream.unformatted]) on a
  `std::stringbuf`, and on a `std::filebuf` where the two differ.  They are part of the trusted base.
  Not modelled: `badbit` (I/O errors), locks, the text mode of files.
-/
import Verif.Model.Basic

namespace VPdf

/-- A `std::iostream`.  `file` tells a file from a string stream: a file can be positioned behind its end.
`m_stream` of input_stream.h and output_stream.h. -/
structure IStream where
  data : Bytes
  file : Bool
  getPos : Nat
  putPos : Nat
  eof : Bool
  fail : Bool
  deriving DecidableEq, Repr

/-- A new stream over the given content, as made by `Buffer::ToInputStream` (buffer.cpp:39-43) or by opening a file
(stream_utils.cpp:25-35). -/
def IStream.ofBytes (file : Bool) (d : Bytes) : IStream :=
  { data := d, file, getPos := 0, putPos := if file then 0 else d.length, eof := false, fail := false }

/-- `std::ios::good`. Behind input_stream.cpp:18-142. -/
def IStream.good (s : IStream) : Bool := !s.eof && !s.fail

/-- `std::istream::peek`: the next character or `none` for the end.  Every input function on a stream that is not good sets
the fail flag (the sentry). Called in input_stream.cpp:102-175. -/
def IStream.peek (s : IStream) : Option Byte × IStream :=
  if s.good then
    match s.data[s.getPos]? with
    | some c => (some c, s)
    | none => (none, { s with eof := true })
  else (none, { s with fail := true })

/-- `std::istream::get`. Called in input_stream.cpp:102-175. -/
def IStream.get (s : IStream) : Option Byte × IStream :=
  if s.good then
    match s.data[s.getPos]? with
    | some c => (some c, { s with getPos := s.getPos + 1 })
    | none => (none, { s with eof := true, fail := true })
  else (none, { s with fail := true })

/-- `std::istream::ignore()`: like `get`, without the fail flag at the end. Called in input_stream.cpp:102-175. -/
def IStream.ignore (s : IStream) : IStream :=
  if s.good then
    match s.data[s.getPos]? with
    | some _ => { s with getPos := s.getPos + 1 }
    | none => { s with eof := true }
  else { s with fail := true }

/-- `std::istream::read`: the characters that could be read (their number is `gcount`).
Called in input_stream.cpp:18-33. -/
def IStream.rawRead (s : IStream) (n : Nat) : Bytes × IStream :=
  if s.good then
    let got := (s.data.drop s.getPos).take n
    if got.length = n then (got, { s with getPos := s.getPos + n })
    else (got, { s with getPos := s.getPos + got.length, eof := true, fail := true })
  else ([], { s with fail := true })

/-- `std::istream::tellg`. Called in input_stream.cpp:51-96. -/
def IStream.tellg (s : IStream) : Int × IStream :=
  if s.good then ((s.getPos : Int), s) else (-1, { s with fail := true })

/-- Whether the buffer can be positioned at `p`. Behind input_stream.cpp:61-96. -/
def IStream.seekable (s : IStream) (p : Int) : Bool := decide (0 ≤ p) && (s.file || decide (p ≤ s.data.length))

/-- `std::istream::seekg` to an absolute position (since C++11 it clears the eof flag).
Called in input_stream.cpp:51-96. -/
def IStream.seekg (s : IStream) (p : Int) : IStream :=
  let s := { s with eof := false }
  if s.fail then s
  else if s.seekable p then { s with getPos := p.toNat }
  else { s with fail := true }

/-- `SeekDirection`, seek_direction.h:8-12 -/
inductive SeekDir where
  | beginning | current | end_
  deriving DecidableEq, Repr

/-- The position meant by an offset and a direction ([istream.unformatted], `seekg(off, dir)`).
Behind input_stream.cpp:61-96. -/
def IStream.target (s : IStream) (p : Int) : SeekDir → Int
  | .beginning => p
  | .current => s.getPos + p
  | .end_ => s.data.length + p

/-- `InputStream::GetInputPosition`, input_stream.cpp:51-59 -/
def IStream.position (s : IStream) : Int × IStream := if s.eof then (-1, s) else s.tellg

/-- `InputStream::SetInputPosition(pos, way)`, input_stream.cpp:61-96; the assertions are compiled out, but the positions they
use are still asked for. -/
def IStream.setPosition (s : IStream) (p : Int) (way : SeekDir) : IStream :=
  let s := s.position.2
  if p = -1 then { s with eof := true }
  else
    let s := if s.eof || s.fail then { s with eof := false, fail := false } else s
    let s := s.seekg (s.target p way)
    -- `clear(rdstate() & failbit)` keeps the fail flag
    if s.fail then { s with eof := false } else s.position.2

/-- `InputStream::Read(len)`, input_stream.cpp:18-33 -/
def IStream.read (s : IStream) (n : Nat) : Bytes × IStream := s.rawRead n

/-- The loop of `InputStream::Readline`, input_stream.cpp:117-139.  The first argument bounds the number of rounds. -/
def IStream.readlineLoop : Nat → IStream → Bytes → Res (Bytes × IStream)
  | 0, _, _ => .error .timeout
  | f + 1, s, result =>
    match s.peek with
    | (none, s) => .ok (result, s)
    | (some _, s) =>
      match s.get with
      -- `SafeConvert<unsigned char>(-1)`
      | (none, _) => .error .conversion
      | (some c, s) =>
        if c = 0x0D then
          match s.peek with
          | (some 0x0A, s) => .ok (result, s.ignore)
          | (_, s) => .ok (result, s)
        else if c = 0x0A then .ok (result, s)
        else IStream.readlineLoop f s (result ++ [c])

/-- `InputStream::Readline`, input_stream.cpp:102-142 -/
def IStream.readline (f : Nat) (s : IStream) : Res (Bytes × IStream) :=
  if s.fail then .error .throw
  else if s.eof then .error .throw
  else s.readlineLoop f []

/-- The loop of a caller that reads lines while the end has not been met, as `Parser::ReadHeader` does (parser.cpp:738-740). -/
def IStream.readLines (f : Nat) : Nat → IStream → Res (List Bytes × IStream)
  | 0, _ => .error .timeout
  | n + 1, s =>
    if s.eof then .ok ([], s)
    else do
      let (l, s) ← s.readline f
      let (ls, s) ← IStream.readLines f n s
      .ok (l :: ls, s)

/-- The loop of `StreamUtils::InputStreamToBuffer`, stream_utils.cpp:58-74, with a buffer of the given size.  The first argument
bounds the number of rounds. -/
def IStream.toBufferLoop (size : Nat) : Nat → IStream → Bytes → Res (Bytes × IStream)
  | 0, _, _ => .error .timeout
  | f + 1, s, result =>
    match s.rawRead size with
    | ([], s) => .ok (result, s)
    | (got, s) => IStream.toBufferLoop size f s (result ++ got)

/-- `StreamUtils::InputStreamToBuffer`, stream_utils.cpp:58-74; `BUFFER_SIZE` is 4096 (constants.cpp:8). -/
def IStream.toBuffer (f : Nat) (s : IStream) : Res (Bytes × IStream) := s.toBufferLoop 4096 f []

/-- `OutputStream::Write` of bytes (output_stream.cpp:18-32), `std::ostream::write`: replaces what is at the position and extends
the content.  The sentry tests `good`.  Only for string streams, which have a position of their own for writing
(`InputOutputStreamFromMemory`, stream_utils.cpp:49-52). -/
def IStream.write (s : IStream) (d : Bytes) : IStream :=
  if s.good then
    { s with
      data := s.data.take s.putPos ++ d ++ s.data.drop (s.putPos + d.length)
      putPos := s.putPos + d.length }
  else { s with fail := true }

/-- `OutputStream::SetOutputPosition(pos)` (output_stream.cpp:74-76), `std::ostream::seekp`: nothing if the fail flag is set;
a string stream refuses positions behind its content and then sets the fail flag.  The flag for the end stays.
Only for string streams, as `write`. -/
def IStream.setOutputPosition (s : IStream) (p : Int) : IStream :=
  if s.fail then s
  else if 0 ≤ p ∧ p ≤ s.data.length then { s with putPos := p.toNat }
  else { s with fail := true }

/-- An operation of a stream for reading. The functions of input_stream.h:14-33. -/
inductive StreamOp where
  | read (n : Nat)
  | readline
  | peek
  | get
  | ignore
  | position
  | setPosition (p : Int) (way : SeekDir)
  deriving DecidableEq, Repr

/-- The stream after an operation.  An exception of `Readline` (input_stream.cpp:105-115) leaves the stream as it is. -/
def IStream.apply (s : IStream) : StreamOp → IStream
  | .read n => (s.read n).2
  | .readline => match s.readline (s.data.length + 1) with | .ok (_, s) => s | .error _ => s
  | .peek => s.peek.2
  | .get => s.get.2
  | .ignore => s.ignore
  | .position => s.position.2
  | .setPosition p way => s.setPosition p way

end VPdf
