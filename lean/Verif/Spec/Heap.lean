import Verif.Model.Heap
/-
  What containers, change notification, comparison, hashing and cloning have to do.  Only data types and the names of the
  operations are taken from the model.
-/
namespace VPdf.Spec

/-! ### Values -/

mutual
/-- Same type and same content.  Literal and hexadecimal strings are both strings; reals are compared as numbers. -/
inductive Same : Obj → Obj → Prop where
  | null : Same .null .null
  | bool (b : Bool) : Same (.bool b) (.bool b)
  | int (i : Int) : Same (.int i) (.int i)
  | real (m n : Int) (p q : Nat) : m * 10 ^ q = n * 10 ^ p → Same (.real m p) (.real n q)
  | name (n : List UInt8) : Same (.name n) (.name n)
  | litLit (v : List UInt8) : Same (.lit v) (.lit v)
  | litHex (v : List UInt8) : Same (.lit v) (.hex v)
  | hexLit (v : List UInt8) : Same (.hex v) (.lit v)
  | hexHex (v : List UInt8) : Same (.hex v) (.hex v)
  | ref (n g : Nat) : Same (.ref n g) (.ref n g)
  | arr (xs ys : List Obj) : SameItems xs ys → Same (.arr xs) (.arr ys)
  | dict (xs ys : List (List UInt8 × Obj)) : SameEntries xs ys → Same (.dict xs) (.dict ys)
/-- Item by item. -/
inductive SameItems : List Obj → List Obj → Prop where
  | nil : SameItems [] []
  | cons (x y : Obj) (xs ys : List Obj) : Same x y → SameItems xs ys → SameItems (x :: xs) (y :: ys)
/-- Entry by entry, in the order of the keys. -/
inductive SameEntries : List (List UInt8 × Obj) → List (List UInt8 × Obj) → Prop where
  | nil : SameEntries [] []
  | cons (k : List UInt8) (x y : Obj) (xs ys : List (List UInt8 × Obj)) :
      Same x y → SameEntries xs ys → SameEntries ((k, x) :: xs) ((k, y) :: ys)
end

mutual
/-- Nowhere in the two objects is a reference to be compared with a direct object, or an integer with a real. -/
def comparable : Obj → Obj → Bool
  | .ref _ _, .ref _ _ => true
  | .ref _ _, _ => false
  | _, .ref _ _ => false
  | .int _, .real _ _ => false
  | .real _ _, .int _ => false
  | .arr xs, .arr ys => comparableItems xs ys
  | .dict xs, .dict ys => comparableEntries xs ys
  | _, _ => true
def comparableItems : List Obj → List Obj → Bool
  | x :: xs, y :: ys => comparable x y && comparableItems xs ys
  | _, _ => true
def comparableEntries : List (List UInt8 × Obj) → List (List UInt8 × Obj) → Bool
  | (_, x) :: xs, (_, y) :: ys => comparable x y && comparableEntries xs ys
  | _, _ => true
end

mutual
/-- The object `i` of the heap has the value `o`. -/
inductive HasValue (h : Heap) : Id → Obj → Prop where
  | null (i : Id) : (h.node i).body = .null → HasValue h i .null
  | bool (i : Id) (b : Bool) : (h.node i).body = .bool b → HasValue h i (.bool b)
  | int (i : Id) (v : Int) : (h.node i).body = .int v → HasValue h i (.int v)
  | real (i : Id) (m : Int) (p : Nat) : (h.node i).body = .real m p → HasValue h i (.real m p)
  | name (i : Id) (n : List UInt8) : (h.node i).body = .name n → HasValue h i (.name n)
  | lit (i : Id) (v : List UInt8) (x : Bool) : (h.node i).body = .str false v x → HasValue h i (.lit v)
  | hex (i : Id) (v : List UInt8) (x : Bool) : (h.node i).body = .str true v x → HasValue h i (.hex v)
  | ref (i : Id) (n g : Nat) : (h.node i).body = .ref n g → HasValue h i (.ref n g)
  | arr (i : Id) (items : List Id) (os : List Obj) :
      (h.node i).body = .arr items → HasItems h items os → HasValue h i (.arr os)
  | dict (i : Id) (entries : List (List UInt8 × Id)) (os : List (List UInt8 × Obj)) :
      (h.node i).body = .dict entries → HasEntries h entries os → HasValue h i (.dict os)
inductive HasItems (h : Heap) : List Id → List Obj → Prop where
  | nil : HasItems h [] []
  | cons (i : Id) (o : Obj) (is : List Id) (os : List Obj) :
      HasValue h i o → HasItems h is os → HasItems h (i :: is) (o :: os)
inductive HasEntries (h : Heap) : List (List UInt8 × Id) → List (List UInt8 × Obj) → Prop where
  | nil : HasEntries h [] []
  | cons (k : List UInt8) (i : Id) (o : Obj) (is : List (List UInt8 × Id)) (os : List (List UInt8 × Obj)) :
      HasValue h i o → HasEntries h is os → HasEntries h ((k, i) :: is) ((k, o) :: os)
end

/-! ### Containers as mathematical objects -/

/-- What is at each identity, if it is a container of the kind in question; `next` is the next unused identity. -/
structure Store (α : Type) where
  next : Id
  at_ : Id → Option α

/-- Replaces the container at an identity, if there is one. -/
def Store.alter {α : Type} (s : Store α) (i : Id) (f : α → α) : Store α :=
  { s with at_ := fun j => if j = i then (s.at_ j).map f else s.at_ j }

/-- A new object. -/
def Store.alloc {α : Type} (s : Store α) (c : Option α) : Store α :=
  { next := s.next + 1, at_ := fun j => if j = s.next then c else s.at_ j }

/-- The operations of a sequence; everything else leaves all sequences alone.  Out-of-range operations do nothing. -/
def seqStep (s : Store (List Id)) : Op → Store (List Id)
  | .create (.arr _) => s.alloc (some [])
  | .create _ => s.alloc none
  | .append a v => s.alter a fun l => l ++ [v]
  | .insertAt a k v => s.alter a fun l => l.insertIdx k v
  | .setAt a k v => s.alter a fun l => l.set k v
  | .removeAt a k => s.alter a fun l => l.eraseIdx k
  | .clearArr a => s.alter a fun _ => []
  | _ => s

/-- A mathematical map. -/
abbrev Map := List UInt8 → Option Id

/-- The operations of a map; everything else leaves all maps alone. -/
def mapStep (s : Store Map) : Op → Store Map
  | .create (.dict _) => s.alloc (some fun _ => none)
  | .create _ => s.alloc none
  | .insert d k v overwrite => s.alter d fun m => if overwrite = false ∧ m k ≠ none then m else
      fun q => if q = k then some v else m q
  | .remove d k => s.alter d fun m q => if q = k then none else m q
  | .clear d => s.alter d fun _ _ => none
  | .merge d e => match s.at_ e with
    | some m' => s.alter d fun m q => match m' q with | some v => some v | none => m q
    | none => s
  | _ => s

/-- The operation does not replace a value: no overwriting insertion of a key that is present, no merge of dictionaries with
a common key. -/
def NoReplace (s : Store Map) : Op → Prop
  | .insert d k _ overwrite => overwrite = true → ∀ m, s.at_ d = some m → m k = none
  | .merge d e => ∀ m m', s.at_ d = some m → s.at_ e = some m' → ∀ k, m k = none ∨ m' k = none
  | _ => True

/-- The same for all operations of a history. -/
def NoReplaceAll (s : Store Map) : List Op → Prop
  | [] => True
  | op :: ops => NoReplace s op ∧ NoReplaceAll (mapStep s op) ops

/-! ### Nesting -/

/-- `j` is `c` itself or an object nested in `c` at any depth, and all objects from `c` down to `j` are initialised. -/
inductive Nested (h : Heap) : Id → Id → Prop where
  | self (j : Id) : (h.node j).init = true → Nested h j j
  | inside (c x j : Id) : (h.node c).init = true → x ∈ (h.node c).body.children → Nested h x j → Nested h c j

/-- `j` is nested in `c` at depth one or more. -/
inductive Inside (h : Heap) : Id → Id → Prop where
  | one (c j : Id) : j ∈ (h.node c).body.children → Inside h c j
  | more (c x j : Id) : x ∈ (h.node c).body.children → Inside h x j → Inside h c j

/-! ### Histories -/

/-- The objects an operation mentions, besides a new one. -/
def mentions : Op → List Id
  | .create _ => []
  | .setInit i _ | .setBool i _ | .setInt i _ | .setReal i _ _ | .setName i _ | .setString i _ | .getString i
  | .setRef i _ _ | .removeAt i _ | .clearArr i | .remove i _ | .clear i | .hash i => [i]
  | .append a v | .insertAt a _ v | .setAt a _ v | .insert a _ v _ | .merge a v | .setReference a v => [a, v]

/-- The operation mentions only objects that exist, it is not a merge of dictionaries, and it does not remove one of several
occurrences of the same object in the same container. -/
def Proper (h : Heap) (op : Op) : Prop :=
  (∀ i ∈ mentions op, i < h.next) ∧
  match op with
  | .merge _ _ => False
  | .removeAt a k => ∀ l v, (h.node a).body = .arr l → l[k]? = some v → v ∉ l.eraseIdx k
  | .remove d k => ∀ l v, (h.node d).body = .dict l → (k, v) ∈ l → ∀ k', (k', v) ∈ l → k' = k
  | _ => True

/-- The states after all histories of such operations, whatever their outcomes. -/
inductive Reached (H : StdHash) (f : Nat) : Heap → Prop where
  | start : Reached H f Heap.empty
  | next (h : Heap) (op : Op) : Reached H f h → Proper h op → Reached H f (step H f h op).1

/-- The operations that change the value of an object. -/
def modifies : Op → Bool
  | .create _ | .setInit _ _ | .getString _ | .hash _ => false
  | _ => true

/-- The modifications that nobody is told about: numbers, clearing an array, and the first `SetValue` of a string whose value
has not been read before. -/
def unnoticed (h : Heap) : Op → Bool
  | .setInt _ _ | .setReal _ _ _ | .clearArr _ => true
  | .setString i _ => match (h.node i).body with | .str _ _ decoded => !decoded | _ => false
  | _ => false

/-- The operations that keep cached hash values right: proper, with notification that ends; hash values are taken only of
objects whose parts are initialised, nothing is made uninitialised, arrays are not cleared, and unnoticed modifications
happen only to objects that are not in a container. -/
def HashSafe (H : StdHash) (f : Nat) (h : Heap) (op : Op) : Prop :=
  Proper h op ∧ (step H f h op).2 ≠ .error .timeout ∧
  match op with
  | .setInit _ b => b = true
  | .hash i => ∀ j, Inside h i j → (h.node j).init = true
  | .clearArr _ => False
  | op => unnoticed h op = true → ∀ c, ¬Inside h c (op.target h)

/-- The states after all histories of such operations. -/
inductive HashReached (H : StdHash) (f : Nat) : Heap → Prop where
  | start : HashReached H f Heap.empty
  | next (h : Heap) (op : Op) : HashReached H f h → HashSafe H f h op → HashReached H f (step H f h op).1

end VPdf.Spec
