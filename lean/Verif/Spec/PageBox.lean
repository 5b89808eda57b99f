import Verif.Model.PageBox
import Verif.Spec.Destinations
import Verif.Spec.NameTree
/-
  The media box of a page (ISO 32000-1, 7.7.3.3 table 30, 7.7.3.4 and 7.9.5).
-/
namespace VPdf.Spec

/-- The object is the number `m / 10^k`. -/
inductive IsNumber (s : PStore) (o : Obj) : Int → Nat → Prop where
  | int (v : Int) : Refers s o (.int v) → IsNumber s o v 0
  | real (m : Int) (k : Nat) : Refers s o (.real m k) → IsNumber s o m k

/-- The page has a box of its own, with these four numbers. -/
def OwnBox (s : PStore) (page : Dict) (ns : Fin 4 → Int × Nat) : Prop :=
  ∃ a b c d, HasEntry s page (b! "MediaBox") (.arr [a, b, c, d]) ∧
    IsNumber s a (ns 0).1 (ns 0).2 ∧ IsNumber s b (ns 1).1 (ns 1).2 ∧ IsNumber s c (ns 2).1 (ns 2).2 ∧ IsNumber s d (ns 3).1 (ns 3).2

/-- The box of a page: its own, or that of its parent. -/
inductive HasBox (s : PStore) : Dict → (Fin 4 → Int × Nat) → Prop where
  | own (page : Dict) (ns : Fin 4 → Int × Nat) : OwnBox s page ns → HasBox s page ns
  | inherited (page parent : Dict) (ns : Fin 4 → Int × Nat) : Absent page (b! "MediaBox") → HasEntry s page (b! "Parent") (.dict parent) →
      HasBox s parent ns → HasBox s page ns

/-- A number that fits in 64 bits. -/
def Fits64 (n : Int × Nat) : Prop := -(2 ^ 63) * (10 ^ n.2 : Nat) ≤ n.1 ∧ n.1 < 2 ^ 63 * (10 ^ n.2 : Nat)

/-- `v` is the number `m / 10^k` without its fraction. -/
def WholePart (v : Int) (n : Int × Nat) : Prop :=
  v.natAbs * 10 ^ n.2 ≤ n.1.natAbs ∧ n.1.natAbs < (v.natAbs + 1) * 10 ^ n.2 ∧ (0 < v → 0 < n.1) ∧ (v < 0 → n.1 < 0)

/-- The four coordinates. -/
def Coordinates (b : Box) : Fin 4 → Int
  | 0 => b.llx
  | 1 => b.lly
  | 2 => b.urx
  | 3 => b.ury

end VPdf.Spec
