import Verif.Spec.PageTree
/-
  What name trees and number trees are (ISO 32000-1, 7.9.6 and 7.9.7), independently of the way the library reads them.
-/
namespace VPdf.Spec

/-- `o` is the object `v`, which is not a reference, or a reference to it. -/
def Refers (s : PStore) (o v : Obj) : Prop :=
  (∀ n g, v ≠ .ref n g) ∧ (o = v ∨ ∃ n g, o = .ref n g ∧ s (n, g) = v)

/-- `o` is a string with the bytes `k`. -/
def IsString (s : PStore) (o : Obj) (k : Bytes) : Prop := Refers s o (.lit k) ∨ Refers s o (.hex k)

/-- An array of keys and values contains the pair. -/
def PairOf (s : PStore) (l : List Obj) (k : Bytes) (v : Obj) : Prop :=
  ∃ i ko, l[2 * i]? = some ko ∧ l[2 * i + 1]? = some v ∧ IsString s ko k

/-- The keys of the array are strings. -/
def KeysAreStrings (s : PStore) (l : List Obj) : Prop :=
  ∀ i ko, l[2 * i]? = some ko → ∃ k, IsString s ko k

/-- The dictionary has no entry of this name. -/
def Absent (d : Dict) (k : Bytes) : Prop := ∀ v, (k, v) ∉ d

/-- The entries of a name tree: those of the nodes that can be reached by Kids. -/
inductive TreeEntry (s : PStore) : Dict → Bytes → Obj → Prop where
  | here (d : Dict) (l : List Obj) (k : Bytes) (v : Obj) : HasEntry s d (b! "Names") (.arr l) → PairOf s l k v →
      TreeEntry s d k v
  | kid (d : Dict) (l : List Obj) (o : Obj) (d' : Dict) (k : Bytes) (v : Obj) : HasEntry s d (b! "Kids") (.arr l) →
      o ∈ l → Refers s o (.dict d') → TreeEntry s d' k v → TreeEntry s d k v

/-- A leaf or an intermediate node of a name tree. -/
inductive NameNode (s : PStore) : Dict → Prop where
  | leaf (d : Dict) (l : List Obj) : HasEntry s d (b! "Names") (.arr l) → KeysAreStrings s l →
      ¬ Absent d (b! "Limits") → Absent d (b! "Kids") → NameNode s d
  | inner (d : Dict) (l : List Obj) : HasEntry s d (b! "Kids") (.arr l) → ¬ Absent d (b! "Limits") →
      Absent d (b! "Names") → (∀ o ∈ l, ∃ d', Refers s o (.dict d')) →
      (∀ o ∈ l, ∀ d', Refers s o (.dict d') → NameNode s d') → NameNode s d

/-- The root of a name tree without kids: with its entries, or without any. -/
def FlatRoot (s : PStore) (d : Dict) : Prop :=
  Absent d (b! "Kids") ∧ (Absent d (b! "Names") ∨ ∃ l, HasEntry s d (b! "Names") (.arr l) ∧ KeysAreStrings s l)

/-- The root of a name tree with kids. -/
def KidsRoot (s : PStore) (d : Dict) (l : List Obj) : Prop :=
  HasEntry s d (b! "Kids") (.arr l) ∧ Absent d (b! "Names") ∧ ∀ o ∈ l, ∃ d', Refers s o (.dict d') ∧ NameNode s d'

/-- The root of a name tree. -/
def NameRoot (s : PStore) (d : Dict) : Prop := FlatRoot s d ∨ ∃ l, KidsRoot s d l

/-- No key has two values. -/
def UniqueKeys (s : PStore) (d : Dict) : Prop := ∀ k v w, TreeEntry s d k v → TreeEntry s d k w → v = w

/-- The lexical order of the keys that name trees require: by the values of the bytes. -/
def Lexical : Bytes → Bytes → Prop
  | [], [] => False
  | [], _ :: _ => True
  | _ :: _, [] => False
  | a :: x, b :: y => a.toNat < b.toNat ∨ (a = b ∧ Lexical x y)

/-- The keys of the array increase. -/
def InOrder (s : PStore) (l : List Obj) : Prop :=
  ∀ i j ki kj koi koj, i < j → l[2 * i]? = some koi → l[2 * j]? = some koj → IsString s koi ki → IsString s koj kj →
    Lexical ki kj

/-- A leaf or an intermediate node of a number tree; it has no entry Names. -/
inductive NumberNode (s : PStore) : Dict → Prop where
  | leaf (d : Dict) (l : List Obj) : HasEntry s d (b! "Nums") (.arr l) → Absent d (b! "Kids") →
      Absent d (b! "Names") → NumberNode s d
  | inner (d : Dict) (l : List Obj) (o : Obj) (d' : Dict) : HasEntry s d (b! "Kids") (.arr l) → o ∈ l →
      Refers s o (.dict d') → NumberNode s d' → NumberNode s d

end VPdf.Spec
