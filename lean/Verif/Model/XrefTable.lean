import Verif.Model.Parser
import Verif.Model.Ints
import Verif.Model.Xref
/-
  The text of cross-reference tables: `FileWriter::WriteXrefTable` and `Parser::ReadXrefTable`.
-/
namespace VPdf

/-- `fmt::format("{:0w}", i)` of an integer: sign, then digits padded with zeros to the total width `w`.
Used in `FileWriter::WriteXrefTable`, file_writer.cpp:1419-1501. -/
def fmtZero (w : Nat) (i : Int) : Bytes :=
  let sign : Bytes := if i < 0 then [0x2D] else []
  let digits := natDec i.natAbs
  sign ++ List.replicate (w - (sign.length + digits.length)) 0x30 ++ digits

example : fmtZero 10 17 = b! "0000000017" ∧ fmtZero 5 65535 = b! "65535" ∧ fmtZero 10 (-1) = b! "-000000001" := by decide

/-- One line of the table, file_writer.cpp:1449-1488.  `inUse` is the flag `InUse()` of a used entry; the line of an
entry that is not in use is left out (1472-1475).  A table has no compressed entries. -/
def writeTableLine (inUse : XEntry → Bool) (e : XEntry) : Bytes :=
  match e.kind with
  | .free next => fmtZero 10 next ++ b! " " ++ fmtZero 5 e.gen ++ b! " f \n"
  | .used offset => if inUse e then fmtZero 10 offset ++ b! " " ++ fmtZero 5 e.gen ++ b! " n \n" else []
  | .compressed _ _ => []

/-- The loop of file_writer.cpp:1436-1442: the entries with the numbers `n`, `n + 1`, ... and the others.  The sum
cannot exceed 64 bits as the entries are sorted. -/
def takeRun : Nat → List XEntry → List XEntry × List XEntry
  | _, [] => ([], [])
  | n, e :: es =>
    if e.num = n then
      let (a, b) := takeRun (n + 1) es
      (e :: a, b)
    else ([], e :: es)

/-- The loop over subsections, file_writer.cpp:1431-1492.  The first argument bounds the number of subsections. -/
def writeSubsections (inUse : XEntry → Bool) : Nat → List XEntry → Bytes
  | 0, _ => []
  | _ + 1, [] => []
  | f + 1, e :: es =>
    let (run, rest) := takeRun (e.num + 1) es
    natDec e.num ++ b! " " ++ natDec (run.length + 1) ++ b! "\n" ++
      (e :: run).flatMap (writeTableLine inUse) ++ writeSubsections inUse f rest

/-- `FileWriter::WriteXrefTable`, file_writer.cpp:1419-1501, for the entries of the table and its trailer. -/
def writeXrefTable (inUse : XEntry → Bool) (entries : EntrySet) (trailer : Dict) : Bytes :=
  b! "xref\n" ++ writeSubsections inUse entries.length (EntrySet.sorted entries) ++
    b! "trailer\n" ++ writeObj (.dict trailer) ++ b! "\n"

/-- `std::stoull`: a negative number wraps around. Used in parser.cpp:528-529. -/
def stoull (s : Bytes) : Res Nat := do
  let v ← strtolInt 10 s
  if v.natAbs ≤ 18446744073709551615 then pure (v % 18446744073709551616).toNat else throw .conversion

/-- `Buffer == "x"` for a text of one character (utils/buffer.cpp:84-87): `strncmp` with the size of the buffer, so an
empty buffer is equal too, and a NUL byte behind the character ends the comparison. -/
def valueIs (t : Token) (c : Byte) : Bool := t.value == [] || t.value == [c] || t.value.take 2 == [c, 0]

/-- `Parser::ReadTableEntry`, parser.cpp:484-518. -/
def readTableEntry (num : Nat) (s : Bytes) : Res (XEntry × Bytes) := do
  let (to, s) ← expectSkip parserKeywords .integer s
  let (tg, s) ← expectSkip parserKeywords .integer s
  let offset ← stoll to.value
  let gen ← stoll tg.value
  let gen := if gen > 65535 then 65535 else gen
  let (t, r) ← readTokenSkip parserKeywords s
  if valueIs t 0x6E then do
    let g ← safeConvert .u16 .i64 gen
    pure (⟨num, g.toNat, .used offset⟩, r)
  else if valueIs t 0x66 then do
    let g ← safeConvert .u16 .i64 gen
    pure (⟨num, g.toNat, .free 0⟩, r)
  else throw .throw

/-- The loop over the entries of a subsection, parser.cpp:530-533: `n` more entries, the next has index `i`. -/
def readTableEntries (base : Nat) : Nat → Nat → Bytes → EntrySet → Res (EntrySet × Bytes)
  | 0, _, s, l => pure (l, s)
  | n + 1, i, s, l => do
    let num ← safeAddition .u64 .u64 .u64 base i
    let (e, s) ← readTableEntry num.toNat s
    let l ← EntrySet.add e l
    readTableEntries base n (i + 1) s l

/-- The loop over subsections, parser.cpp:524-534.  The first argument bounds the number of subsections. -/
def readSubsections : Nat → Bytes → EntrySet → Res (EntrySet × Bytes)
  | 0, _, _ => .error .timeout
  | f + 1, s, l => do
    let (t, _) ← readTokenSkip parserKeywords s
    if t.type == .keyword (b! "trailer") then pure (l, s)
    else do
      let (tb, s) ← expectSkip parserKeywords .integer s
      let (ts, s) ← expectSkip parserKeywords .integer s
      let base ← stoull tb.value
      let size ← stoull ts.value
      let (l, s) ← readTableEntries base size 0 s l
      readSubsections f s l

/-- `Parser::ReadXrefTable`, parser.cpp:520-545: the entries, the trailer and the remaining input.  Simplification: a
trailer that is an indirect reference is refused, the library would follow it. -/
def readXrefTable (e : Env) (s : Bytes) : Res (EntrySet × Dict × Bytes) := do
  let (_, s) ← expectSkip parserKeywords (.keyword (b! "xref")) s
  let (l, s) ← readSubsections (s.length + 1) s []
  let (_, s) ← expectSkip parserKeywords (.keyword (b! "trailer")) s
  let (o, s) ← parse e s
  match o with
  | .direct (.dict d) => pure (l, d, s)
  | _ => throw .conversion

example : writeXrefTable (fun _ => true) [⟨7, 0, .used 200⟩, ⟨0, 65535, .free 3⟩, ⟨3, 1, .free 0⟩, ⟨1, 0, .used 17⟩]
    [(b! "Size", .int 8)] =
  b! "xref\n0 2\n0000000003 65535 f \n0000000017 00000 n \n3 1\n0000000000 00001 f \n7 1\n0000000200 00000 n \ntrailer\n<</Size 8>>\n" := by decide

example : readXrefTable ⟨[], true, fun _ _ => .error .missing⟩
  (b! "xref\n0 2\n0000000003 65535 f \n0000000017 00000 n \n3 1\n0000000000 00001 f\r\n trailer <</Size 8>>\nstartxref\n") =
  .ok ([⟨0, 65535, .free 0⟩, ⟨1, 0, .used 17⟩, ⟨3, 1, .free 0⟩], [(b! "Size", .int 8)], b! "\nstartxref\n") := by rfl

end VPdf
