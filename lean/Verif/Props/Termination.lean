import Verif.Lemmas.ParseTerm
/-
  C57: termination of the parser of objects.
-/
namespace VPdf
open Spec

/-- **C57**, partial: in an input in which no `/Length` is followed by a minus sign, the reader of objects finishes at every position, for
every nesting and all stream lengths (`Fault.timeout` marks a reader that needs more than `2 n + 2` nested calls on
`n` remaining bytes).  Missing: inputs with negative lengths, for which `C57_counterexample` shows that the
property is false. -/
theorem C57_terminates_partial (e : Env) (s : Bytes) (hs : s <:+ e.whole) (hm : NoNegativeLength e.whole)
    (hr : ∀ n g i, e.resolveInt n g = .ok i → 0 ≤ i) (ht : ∀ n g, e.resolveInt n g ≠ .error .timeout) :
    parse e s ≠ .error .timeout :=
  (terminates ⟨hm, hr, ht⟩ _).d1 s hs (by omega)

example : NoNegativeLength (b! "<</A[-1(x)]/Length 3>>stream\nabc\nendstream") := noNegative_of_drop (by decide)

/-- **C57**, partial: a finished reader has consumed input, and never stands before its start. -/
theorem C57_progress_partial (e : Env) (s r : Bytes) (p : PObj) (hs : s <:+ e.whole) (hm : NoNegativeLength e.whole)
    (hr : ∀ n g i, e.resolveInt n g = .ok i → 0 ≤ i) (ht : ∀ n g, e.resolveInt n g ≠ .error .timeout)
    (h : parse e s = .ok (p, r)) : r <:+ e.whole ∧ r.length < s.length :=
  let t := (terminates ⟨hm, hr, ht⟩ _).d2 s p r hs h
  ⟨t.1, t.2.1⟩

/-- A file whose stream has a negative length. -/
def evilFile : Bytes := b! "endstream << <</Length -35>>stream\n"

/-- The same file behind the word `endstream`. -/
def evilRest : Bytes := b! " << <</Length -35>>stream\n"

/-- The rest of the loop of `readDict` behind a key and a value. -/
def readDictRest (e : Env) (f : Nat) (k v : PObj) (r2 : Bytes) (acc : Dict) : Res (Dict × Bytes) :=
  match v, k with
  | .direct .null, _ => readDict e f r2 acc
  | .direct o, .direct (.name n) =>
    match mapFind n acc with
    | some _ => readDict e f r2 acc
    | none => readDict e f r2 (mapInsert n o acc)
  | .stream _ _, .direct (.name n) =>
    match mapFind n acc with
    | some _ => readDict e f r2 acc
    | none => throw .conversion
  | _, _ => readDict e f r2 acc

/-- **C57** fails: on this input of 26 bytes the reader never finishes, whatever the number of nested calls allowed.
The negative length sends the reader back to the start of the input, where it finds `endstream`, takes the stream
for a dictionary key, and meets the same dictionary again as its value. -/
theorem C57_counterexample (r : Nat → Nat → Res Int) (i : Bool) (fuel : Nat) :
    readDirect ⟨evilFile, i, r⟩ fuel evilRest = .error .timeout := by
  induction fuel using Nat.strongRecOn with
  | _ f ih =>
    match f with
    | 0 => rfl
    | 1 => rfl
    | 2 => rfl
    | 3 => rfl
    | 4 => rfl
    | f + 5 =>
      have key : readDirect ⟨evilFile, i, r⟩ (f + 3) (b! " <</Length -35>>stream\n") =
          .ok (.stream [(b! "Length", .int (-35))] 35, evilRest) := rfl
      have e1 : readDirect ⟨evilFile, i, r⟩ (f + 5) evilRest =
          (readDirect ⟨evilFile, i, r⟩ (f + 3) (b! " <</Length -35>>stream\n") >>= fun x =>
            readDirect ⟨evilFile, i, r⟩ (f + 3) x.2 >>= fun y => readDictRest ⟨evilFile, i, r⟩ (f + 3) x.1 y.1 y.2 []) >>=
            fun z => readStreamPart ⟨evilFile, i, r⟩ z.1 z.2 := rfl
      rw [e1, key, ok_bind]
      dsimp only
      rw [ih (f + 3) (by omega)]
      rfl

end VPdf
