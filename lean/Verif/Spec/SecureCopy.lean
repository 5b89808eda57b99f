import Verif.Spec.SecureSave
import Verif.Model.SecureCopy

/-! What a user expects of copying objects between documents. -/
namespace VPdf.Spec

/-- Where references lead: `m` lists the numbers of the copied objects and of their copies; other references are kept. -/
def Renumbered (m : List (ObjRef × ObjRef)) (q c : ObjRef) : Prop := (q, c) ∈ m ∨ c = q ∧ ∀ x, (q, x) ∉ m

mutual

/-- The object `w` is `v`, except that its references are changed by `R`. -/
inductive CopiedAs (R : ObjRef → ObjRef → Prop) : Obj → Obj → Prop
  | ref {q c : ObjRef} : R q c → CopiedAs R (.ref q.1 q.2) (.ref c.1 c.2)
  | value {o : Obj} : Scalar o → (∀ n g, o ≠ .ref n g) → CopiedAs R o o
  | lit (v : Bytes) : CopiedAs R (.lit v) (.lit v)
  | hex (v : Bytes) : CopiedAs R (.hex v) (.hex v)
  | arr {vs ws : List Obj} : CopiedItems R vs ws → CopiedAs R (.arr vs) (.arr ws)
  | dict {vs ws : Dict} : CopiedEntries R vs ws → CopiedAs R (.dict vs) (.dict ws)

/-- The same for the items of arrays, in order. -/
inductive CopiedItems (R : ObjRef → ObjRef → Prop) : List Obj → List Obj → Prop
  | nil : CopiedItems R [] []
  | cons {v w : Obj} {vs ws : List Obj} : CopiedAs R v w → CopiedItems R vs ws → CopiedItems R (v :: vs) (w :: ws)

/-- The same for the entries of dictionaries, with the same keys. -/
inductive CopiedEntries (R : ObjRef → ObjRef → Prop) : Dict → Dict → Prop
  | nil : CopiedEntries R [] []
  | cons {key : Bytes} {v w : Obj} {vs ws : Dict} : CopiedAs R v w → CopiedEntries R vs ws →
      CopiedEntries R ((key, v) :: vs) ((key, w) :: ws)

end

end VPdf.Spec
