import Verif.Model.Names

/-! # Names as values -/
namespace VPdf.Spec

/-- Names by number, and dictionaries as maps from texts to values. -/
structure ValueState (α : Type) where
  names : List Bytes
  dicts : List (Bytes → Option α)

/-- The value of a dictionary for a key. -/
def ValueState.lookup {α : Type} (s : ValueState α) (d : Nat) (k : Bytes) : Option α := s.dicts.getD d (fun _ => none) k

/-- What the calls should do: a change of a name changes that name and nothing else; a dictionary keeps the text that the key
had when it was inserted; a copy is a new name with the same text. -/
def ValueState.step {α : Type} (s : ValueState α) : NameOp α → Res (Option α) × ValueState α
  | .create v => (.ok none, { s with names := s.names ++ [v] })
  | .set n v => (.ok none, { s with names := s.names.set n v })
  | .setBuffer n v => (.ok none, { s with names := s.names.set n v })
  | .insert d n v =>
    let k := s.names.getD n []
    if (s.lookup d k).isSome then (.error .duplicateKey, s)
    else (.ok none, { s with dicts := s.dicts.modify d fun f q => if q = k then some v else f q })
  | .insertConst d n v =>
    let k := s.names.getD n []
    if (s.lookup d k).isSome then (.error .duplicateKey, { s with names := s.names ++ [k] })
    else (.ok none, { names := s.names ++ [k], dicts := s.dicts.modify d fun f q => if q = k then some v else f q })
  | .find d n =>
    let k := s.names.getD n []
    match s.lookup d k with
    | some v => (.ok (some v), s)
    | none => (.error .throw, s)
  | .remove d n =>
    let k := s.names.getD n []
    (.ok none, { s with dicts := s.dicts.modify d fun f q => if q = k then none else f q })

/-- A sequence of calls. -/
def ValueState.run {α : Type} (s : ValueState α) : List (NameOp α) → List (Res (Option α)) × ValueState α
  | [] => ([], s)
  | op :: ops =>
    let (r, s) := s.step op
    let (rs, s) := s.run ops
    (r :: rs, s)

/-- The names that a call ties to a dictionary: keys, and names of which a copy becomes a key. -/
def tiedBy {α : Type} (count : Nat) : NameOp α → List Nat
  | .insert _ n _ => [n]
  | .insertConst _ n _ => [n, count]
  | _ => []

/-- The number of names a call makes. -/
def madeBy {α : Type} : NameOp α → Nat
  | .create _ | .insertConst .. => 1
  | _ => 0

/-- The names in a call exist, and no name is changed after it was inserted into a dictionary. -/
def Careful {α : Type} (count : Nat) (tied : List Nat) : List (NameOp α) → Prop
  | [] => True
  | op :: ops =>
    (match op with
      | .set n _ | .setBuffer n _ => n < count ∧ n ∉ tied
      | .insert _ n _ | .insertConst _ n _ | .find _ n | .remove _ n => n < count
      | .create _ => True) ∧
    Careful (count + madeBy op) (tied ++ tiedBy count op) ops

/-- Calls that make a copy of the name `n`. -/
def copies {α : Type} (n : Nat) : NameOp α → Bool
  | .insertConst _ m _ | .find _ m | .remove _ m => m == n
  | _ => false

end VPdf.Spec
