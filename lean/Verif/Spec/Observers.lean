import Verif.Model.Observers
/-
  What an observer of a save is told.
-/
namespace VPdf.Spec

/-- The callbacks do not subscribe, unsubscribe or release observers. -/
def Passive (act : Callbacks) : Prop := ∀ r ev l, (act r ev l).1 = []

/-- No callback fails. -/
def Obliging (act : Callbacks) : Prop := ∀ r ev l, (act r ev l).2 = true

/-- An object of the saved file: its number and generation, where it stands, its text, and whether the section lists its
offset. -/
structure SavedObject where
  num : Nat
  gen : Nat
  off : Nat
  text : Bytes
  listed : Bool

/-- The object stands in the file: its text is there, from `n g obj` to `endobj`. -/
def SavedObject.In (b : Bytes) (w : SavedObject) : Prop :=
  ∃ before body after, b = before ++ w.text ++ after ∧ before.length = w.off ∧
    w.text = natDec w.num ++ b! " " ++ natDec w.gen ++ b! " obj\n" ++ body ++ b! "\nendobj\n"

/-- What is told of one object, and how much has been written at that time. -/
def SavedObject.told (w : SavedObject) : List (SaveEvent × Nat) :=
  (if w.listed then [(.entryBefore w.num w.gen, w.off), (.entryAfter w.num w.gen w.off, w.off)] else []) ++
  [(.objectBefore w.num w.gen, w.off), (.objectAfter w.num w.gen w.off, w.off), (.writeBefore w.num w.gen, w.off),
    (.writeAfter w.num w.gen, w.off + w.text.length)]

/-- What is told of a whole save. -/
def sessionTold (objs : List SavedObject) (total : Nat) : List (SaveEvent × Nat) :=
  [(.initializing, 0)] ++ objs.flatMap SavedObject.told ++ [(.flushBefore, total), (.flushAfter, total), (.finalizing, total)]

/-- The objects of a section: those of its entries in use, and its own stream. -/
def HasObject (s : WSection) (n g : Nat) : Prop :=
  (∃ e ∈ s.entries, e.inUse = true ∧ e.num = n ∧ e.gen = g) ∨ s.own = some (n, g)

/-- What one observer was told. -/
def toldTo (r : ObserverRef) (calls : List ObserverCall) : List (SaveEvent × Nat) :=
  (calls.filter (fun c => c.who == r)).map (fun c => (c.event, c.pos))

/-- All calls succeeded, each judged by the calls before it. -/
def AllSucceed (act : Callbacks) (calls : List ObserverCall) : Prop :=
  ∀ pre c post, calls = pre ++ c :: post → (act c.who c.event pre).2 = true

end VPdf.Spec
