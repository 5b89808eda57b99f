import Verif.Spec.StreamHistory
/-
  When a program that reads and writes a file may rely on two places, one for reading and one for writing (C125).
-/
namespace VPdf.Spec

/-- Whether the file stands at the place for reading, and whether it stands at the place for writing. -/
structure Standing where
  reading : Bool
  writing : Bool

/-- A program reads when the file stands at the place for reading and writes when it stands at the place for writing.  It gets there
by positioning from the start or from the end. -/
def Standing.Fit (m : Standing) : PipeCall → Prop
  | .read _ | .peek | .get | .whole | .tellIn => m.reading = true
  | .write _ | .tellOut => m.writing = true
  | .seekIn _ way => way = .current → m.reading = true
  | .seekOut _ way => way = .current → m.writing = true

/-- Where the file stands after a call. -/
def Standing.next (m : Standing) : PipeCall → Standing
  | .read _ | .get | .whole | .seekIn .. => ⟨true, false⟩
  | .write _ | .seekOut .. => ⟨false, true⟩
  | .peek | .tellIn | .tellOut => m

/-- All calls of a history fit. -/
def Standing.AllFit (m : Standing) : List PipeCall → Prop
  | [] => True
  | c :: cs => m.Fit c ∧ Standing.AllFit (m.next c) cs

end VPdf.Spec
