import Verif.Model.Optimize
/-
  The ordinary save, with all optimisations: `FileWriter::Write`, src/vanillapdf/syntax/files/file_writer.cpp:34-86.
-/
namespace VPdf

/-- `FileWriter::Write`, file_writer.cpp:34-86: the header, the cloned sections (`CloneXrefChain`, 786-815, which turns the
chain round), `CompressAndOptimize` (1778-1804) and `WriteXrefChain` (1318-1352).  The sections of the source are given newest
first, as in its chain.  With a licence `ApplyWatermark` does nothing (1535-1538); the watermark is in Model/Watermark.lean.
Not modelled: observers, hybrid sections (Model/Hybrid.lean), encryption (Model/SecureSave.lean), the content of object streams
(Model/SaveStreams.lean). -/
def saveOptimized (c : Codec) (cmp : Cmp) (order : WSection → List WEntry) (v : PdfVersion) (sections : List WSection) : Res Bytes :=
  let chain := optimize cmp order (sections.map cloneSection).reverse
  writeChain c (destResolve chain) (writeHeader v) none chain

end VPdf
