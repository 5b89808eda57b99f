import Verif.Lemmas.Names

/-! # C89: names are values -/
namespace VPdf
open Spec

/-- A client with `count` empty dictionaries and no names. -/
def NameHeap.start (α : Type) (count : Nat) : NameHeap α := ⟨[], [], [], List.replicate count []⟩

/-- C89, restricted to clients that change no name once a dictionary has it as a key or has a copy of it: every call gives the
result it would have if names were values, and afterwards every name has its own text, and every dictionary has the value of the
specification for every key. -/
theorem C89_values_partial {α : Type} (count : Nat) (ops : List (NameOp α)) (careful : Careful 0 [] ops) :
    ((NameHeap.start α count).run ops).1 = (ValueState.run ⟨[], List.replicate count fun _ => none⟩ ops).1 ∧
    (∀ n, n < ((NameHeap.start α count).run ops).2.names.length → ((NameHeap.start α count).run ops).2.value n =
      (ValueState.run ⟨[], List.replicate count fun _ => none⟩ ops).2.names.getD n []) ∧
    ∀ d k, ((NameHeap.start α count).run ops).2.lookup d k =
      (ValueState.run ⟨[], List.replicate count fun _ => none⟩ ops).2.lookup d k := by
  have a : Agree (NameHeap.start α count) ⟨[], List.replicate count fun _ => none⟩ [] := by
    refine ⟨rfl, nofun, nofun, nofun, nofun, by simp [NameHeap.start], ?_, ?_⟩
    · intro d e he
      have : (NameHeap.start α count).dicts.getD d [] = [] := by
        show (List.replicate count ([] : List (Nat × α))).getD d [] = []
        rw [List.getD_eq_getElem?_getD, List.getElem?_replicate]
        split <;> rfl
      rw [this] at he
      cases he
    · intro d k
      unfold NameHeap.lookup ValueState.lookup NameHeap.start
      dsimp only
      rw [List.getD_eq_getElem?_getD, List.getElem?_replicate, List.getD_eq_getElem?_getD, List.getElem?_replicate]
      by_cases h : d < count <;> simp [h]
  obtain ⟨h1, tied, h2⟩ := names_run ops _ _ _ a careful
  exact ⟨h1, h2.values, h2.lookups⟩

/-- Calls that meet the hypothesis: two names with one text, two dictionaries, changes before insertion, the use of a changed
name for lookups and for removal. -/
def sampleNameOps : List (NameOp Nat) :=
  [.create (b! "A"), .create (b! "B"), .set 0 (b! "B"), .insert 0 1 10, .insertConst 1 1 20, .find 0 0, .setBuffer 0 (b! "C"),
   .find 0 0, .insert 1 0 30, .find 1 1, .remove 0 1, .find 0 1, .insert 1 1 5]

example : Careful 0 [] sampleNameOps := by simp [Careful, sampleNameOps, tiedBy, madeBy]

set_option maxRecDepth 100000 in
example : ((NameHeap.start Nat 2).run sampleNameOps).1.map Except.toOption =
    [some none, some none, some none, some none, some none, some (some 10), some none, none, some none, some (some 20), some none,
      none, none] := by decide +kernel

/-- C89, the mark that makes a changed name be written again: whatever happened before and after a name was made, as long as no
copy of it was made since (no lookup, removal or insertion by reference with it), a change of its text through its buffer marks
it. -/
theorem C89_noticed_partial {α : Type} (count : Nat) (before after : List (NameOp α)) (v w : Bytes)
    (careful : Careful 0 [] (before ++ .create v :: after))
    (uncopied : ∀ op ∈ after, copies ((NameHeap.start α count).run before).2.names.length op = false) :
    (((NameHeap.start α count).run (before ++ .create v :: (after ++ [.setBuffer ((NameHeap.start α count).run before).2.names.length w]))).2.names[
      ((NameHeap.start α count).run before).2.names.length]?).map NameCell.dirty = some true := by
  have k0 : CountersExist (NameHeap.start α count) := nofun
  obtain ⟨c1, tied, c2⟩ := careful_append before (.create v :: after) (NameHeap.start α count) [] careful
  have k1 := counted_run before _ _ k0 c1
  obtain ⟨-, c3⟩ := c2
  rw [show madeBy (NameOp.create v : NameOp α) = 1 from rfl, ← show (((NameHeap.start α count).run before).2.create v).names.length =
    ((NameHeap.start α count).run before).2.names.length + 1 by simp [NameHeap.create]] at c3
  have t := told_run after _ _ _ (counted_create k1 v) c3 uncopied (told_create k1 v)
  have := told_marked t w
  rw [run_append_names, run_cons_names, run_append_names]
  exact this

/-- C89, the same mark when the text is set at the name itself: whatever happened before, the name is marked. -/
theorem C89_set_noticed {α : Type} (count : Nat) (before : List (NameOp α)) (n : Nat) (v : Bytes)
    (h : n < ((NameHeap.start α count).run before).2.names.length) :
    (((NameHeap.start α count).run (before ++ [.set n v])).2.names[n]?).map NameCell.dirty = some true := by
  rw [run_append_names]
  have key : ∀ hp : NameHeap α, n < hp.names.length → ((hp.run [.set n v]).2.names[n]?).map NameCell.dirty = some true := by
    intro hp hn
    have hl : (hp.assign n v).names.length = hp.names.length := by
      unfold NameHeap.assign
      split <;> simp
    simp [NameHeap.run, NameHeap.step, NameHeap.mark, hl, hn]
  exact key _ h

/-- A case: another name is made, inserted and used for lookups; the name itself becomes a key. -/
example : Careful 0 [] ([.create (b! "A"), .insert 0 0 1] ++ .create (b! "B") :: [.find 0 0, .insert 1 1 7, .insertConst 1 0 3] : List (NameOp Nat)) ∧
    ∀ op ∈ ([.find 0 0, .insert 1 1 7, .insertConst 1 0 3] : List (NameOp Nat)), copies 1 op = false := by
  constructor
  · simp [Careful, madeBy]
  · simp [copies]


/-- C89 fails, whatever the texts: a client inserts a value with a name as key and then uses the name for something else.  The
entry moves to the new text; with the old text the dictionary no longer has it. -/
theorem C89_insert_counterexample {α : Type} (count : Nat) (a b : Bytes) (v : α) (hne : a ≠ b) :
    ((NameHeap.start α (count + 1)).run [.create a, .insert 0 0 v, .set 0 b]).2.lookup 0 a = none ∧
    ((NameHeap.start α (count + 1)).run [.create a, .insert 0 0 v, .set 0 b]).2.lookup 0 b = some v ∧
    (ValueState.run ⟨[], List.replicate (count + 1) fun _ => none⟩ [.create a, .insert 0 0 v, .set 0 b]).2.lookup 0 a = some v := by
  refine ⟨?_, ?_, ?_⟩
  · simp [NameHeap.run, NameHeap.step, NameHeap.start, NameHeap.create, NameHeap.lookup, NameHeap.value, NameHeap.assign,
      NameHeap.mark, List.replicate_succ, Ne.symm hne]
  · simp [NameHeap.run, NameHeap.step, NameHeap.start, NameHeap.create, NameHeap.lookup, NameHeap.value, NameHeap.assign,
      NameHeap.mark, List.replicate_succ]
  · simp [ValueState.run, ValueState.step, ValueState.lookup, List.replicate_succ]

/-- The same with the call that is documented to leave the key alone: the copy it makes has the buffer of the original, so that
a change of the original renames the entry. -/
theorem C89_insert_const_counterexample {α : Type} (count : Nat) (a b : Bytes) (v : α) (hne : a ≠ b) :
    ((NameHeap.start α (count + 1)).run [.create a, .insertConst 0 0 v, .set 0 b]).2.lookup 0 a = none ∧
    ((NameHeap.start α (count + 1)).run [.create a, .insertConst 0 0 v, .set 0 b]).2.lookup 0 b = some v := by
  refine ⟨?_, ?_⟩
  · simp [NameHeap.run, NameHeap.step, NameHeap.start, NameHeap.create, NameHeap.copy, NameHeap.lookup, NameHeap.value,
      NameHeap.assign, NameHeap.mark, List.replicate_succ, Ne.symm hne]
  · simp [NameHeap.run, NameHeap.step, NameHeap.start, NameHeap.create, NameHeap.copy, NameHeap.lookup, NameHeap.value,
      NameHeap.assign, NameHeap.mark, List.replicate_succ]

/-- Two dictionaries that got an entry with the same constant share the text of their keys: a client that changes the key it
obtained from one of them (name 2, the second copy) renames the entry of the other, and changes the constant. -/
theorem C89_constant_counterexample {α : Type} (a b : Bytes) (v w : α) (hne : a ≠ b) :
    ((NameHeap.start α 2).run [.create a, .insertConst 0 0 v, .insertConst 1 0 w, .set 2 b]).2.lookup 0 a = none ∧
    ((NameHeap.start α 2).run [.create a, .insertConst 0 0 v, .insertConst 1 0 w, .set 2 b]).2.lookup 0 b = some v ∧
    ((NameHeap.start α 2).run [.create a, .insertConst 0 0 v, .insertConst 1 0 w, .set 2 b]).2.value 0 = b := by
  refine ⟨?_, ?_, ?_⟩
  · simp [NameHeap.run, NameHeap.step, NameHeap.start, NameHeap.create, NameHeap.copy, NameHeap.lookup, NameHeap.value,
      NameHeap.assign, NameHeap.mark, List.replicate_succ, Ne.symm hne]
  · simp [NameHeap.run, NameHeap.step, NameHeap.start, NameHeap.create, NameHeap.copy, NameHeap.lookup, NameHeap.value,
      NameHeap.assign, NameHeap.mark, List.replicate_succ]
  · simp [NameHeap.run, NameHeap.step, NameHeap.start, NameHeap.create, NameHeap.copy, NameHeap.lookup, NameHeap.value,
      NameHeap.assign, NameHeap.mark, List.replicate_succ]

/-- Looking something up changes the name that was used: before, a change of its text through its buffer marks it as changed
(so that it is written when the file is saved); afterwards it does not, because the copy made for the lookup has taken the name's
counter of weak references with it. -/
theorem C89_lookup_counterexample {α : Type} (count : Nat) (a b : Bytes) :
    (((NameHeap.start α count).run [.create a, .setBuffer 0 b]).2.names[0]?).map NameCell.dirty = some true ∧
    (((NameHeap.start α count).run [.create a, .find 0 0, .setBuffer 0 b]).2.names[0]?).map NameCell.dirty = some false ∧
    (((NameHeap.start α count).run [.create a, .find 0 0, .setBuffer 0 b]).2.value 0) = b := by
  have hl : ∀ k, (({ bufs := [a], active := [true], names := [⟨0, 0, true, false⟩], dicts := List.replicate count [] } : NameHeap α).lookup 0 k) = none := by
    intro k
    unfold NameHeap.lookup
    dsimp only
    rw [List.getD_eq_getElem?_getD, List.getElem?_replicate]
    split <;> rfl
  refine ⟨?_, ?_, ?_⟩
  · simp [NameHeap.run, NameHeap.step, NameHeap.start, NameHeap.create, NameHeap.assign]
  · simp [NameHeap.run, NameHeap.step, NameHeap.start, NameHeap.create, NameHeap.assign, hl, NameHeap.destroy]
  · simp [NameHeap.run, NameHeap.step, NameHeap.start, NameHeap.create, NameHeap.assign, hl, NameHeap.destroy, NameHeap.value]

end VPdf
