import Verif.Lemmas.HeapSteps
/-
  C25 Dictionaries are maps.  C26 Arrays are sequences.
-/
namespace VPdf
open Spec

/-- The arrays of a heap, seen as sequences. -/
def arrays (h : Heap) : Store (List Id) :=
  ⟨h.next, fun i => match (h.node i).body with | .arr l => some l | _ => none⟩

/-- The dictionaries of a heap, seen as maps. -/
def dicts (h : Heap) : Store Map :=
  ⟨h.next, fun i => match (h.node i).body with | .dict _ => some (findIn h i) | _ => none⟩

/-! ### C26 -/

theorem insertIdx_take_drop {α : Type} (l : List α) (k : Nat) (v : α) (hk : k ≤ l.length) :
    l.insertIdx k v = l.take k ++ v :: l.drop k := by
  induction l generalizing k with
  | nil => obtain rfl : k = 0 := by simpa using hk
           simp
  | cons a l ih =>
    cases k with
    | zero => simp
    | succ k => simp [List.insertIdx_succ_cons, ih k (by simpa using hk)]

theorem insertIdx_long {α : Type} (l : List α) (k : Nat) (v : α) (hk : l.length < k) : l.insertIdx k v = l := by
  induction l generalizing k with
  | nil => cases k with
    | zero => simp at hk
    | succ k => simp
  | cons a l ih =>
    cases k with
    | zero => simp at hk
    | succ k => simp [List.insertIdx_succ_cons, ih k (by simpa using hk)]

theorem arrays_step (H : StdHash) (f : Nat) (h : Heap) (op : Op) :
    arrays (step H f h op).1 = seqStep (arrays h) op := by
  have key : ∀ i, (arrays (step H f h op).1).at_ i = (seqStep (arrays h) op).at_ i := by
    intro i
    by_cases hc : ∃ b, op = .create b
    · obtain ⟨b, rfl⟩ := hc
      simp only [arrays, (step_create H f h b).2]
      by_cases hi : i = h.next
      · subst hi; cases b <;> simp [seqStep, Store.alloc, newNode]
      · cases b <;> simp [seqStep, Store.alloc, hi]
    · have hc : ∀ b, op ≠ .create b := fun b hb => hc ⟨b, hb⟩
      by_cases hi : i = op.target h
      · subst hi
        simp only [arrays, step_body_target H f h op hc]
        cases op with
        | create b => exact absurd rfl (hc b)
        | append a v => cases e : (h.node a).body <;> simp [newBody, Op.target, seqStep, Store.alter, e]
        | insertAt a k v =>
          cases e : (h.node a).body <;> simp [newBody, Op.target, seqStep, Store.alter, e]
          rename_i l
          by_cases hk : l.length < k
          · rw [if_pos hk, insertIdx_long l k v hk]
          · rw [if_neg hk, insertIdx_take_drop l k v (by omega)]
        | setAt a k v =>
          cases e : (h.node a).body <;> simp [newBody, Op.target, seqStep, Store.alter, e]
          rename_i l
          by_cases hk : l.length ≤ k
          · rw [if_pos hk, List.set_eq_of_length_le hk]
          · rw [if_neg hk]
        | removeAt a k =>
          cases e : (h.node a).body <;> simp [newBody, Op.target, seqStep, Store.alter, e]
          rename_i l
          cases e2 : l[k]? with
          | none => rw [List.eraseIdx_of_length_le (by simpa using e2)]
          | some v => rfl
        | clearArr a => cases e : (h.node a).body <;> simp [newBody, Op.target, seqStep, Store.alter, e]
        | merge d x =>
          cases e : (h.node d).body <;> simp [newBody, Op.target, seqStep, e]
          cases e2 : (h.node x).body <;> simp
        | insert d k v ow =>
          cases e : (h.node d).body <;> simp only [newBody, Op.target, seqStep, e]
          rename_i l
          by_cases hx : (!ow && (mapFind k l).isSome) = true
          · rw [if_pos hx]
          · rw [if_neg hx]
        | remove d k =>
          cases e : (h.node d).body <;> simp [newBody, Op.target, seqStep, e]
          rename_i l
          cases e2 : mapFind k l <;> simp
        | setInit i b => rfl
        | hash i => rfl
        | setBool i b => cases e : (h.node i).body <;> simp [newBody, Op.target, seqStep, e]
        | setInt i b => cases e : (h.node i).body <;> simp [newBody, Op.target, seqStep, e]
        | setReal i b c => cases e : (h.node i).body <;> simp [newBody, Op.target, seqStep, e]
        | setName i b => cases e : (h.node i).body <;> simp [newBody, Op.target, seqStep, e]
        | setString i b => cases e : (h.node i).body <;> simp [newBody, Op.target, seqStep, e]
        | getString i => cases e : (h.node i).body <;> simp [newBody, Op.target, seqStep, e]
        | setRef i n g => cases e : (h.node i).body <;> simp [newBody, Op.target, seqStep, e]
        | clear i => cases e : (h.node i).body <;> simp [newBody, Op.target, seqStep, e]
        | setReference i o => cases e : (h.node i).body <;> simp [newBody, Op.target, seqStep, e]
      · simp only [arrays, step_body_other H f h op i hi]
        cases op <;> first | (exact absurd rfl (hc _)) | rfl |
          (simp only [seqStep, Store.alter]; rw [if_neg (by simpa [Op.target] using hi)])
  have hn : (arrays (step H f h op).1).next = (seqStep (arrays h) op).next := by
    by_cases hc : ∃ b, op = .create b
    · obtain ⟨b, rfl⟩ := hc
      cases b <;> rfl
    · have hc : ∀ b, op ≠ .create b := fun b hb => hc ⟨b, hb⟩
      show (step H f h op).1.next = _
      rw [step_next H f h op hc]
      cases op <;> first | (exact absurd rfl (hc _)) | rfl
  cases h1 : arrays (step H f h op).1 with
  | mk n a =>
    cases h2 : seqStep (arrays h) op with
    | mk n' a' =>
      rw [h1, h2] at key hn
      have : a = a' := funext key
      simp only at hn
      rw [this, hn]

/-- **C26**: after any history, every array is the sequence obtained by the same operations. -/
theorem C26_history (H : StdHash) (f : Nat) (h : Heap) (ops : List Op) :
    arrays (run H f h ops) = ops.foldl seqStep (arrays h) := by
  induction ops generalizing h with
  | nil => rfl
  | cons op ops ih =>
    show arrays (run H f (step H f h op).1 ops) = _
    rw [ih, arrays_step]; rfl

/-- **C26**, observation: size and element access are those of the sequence; outside the bounds access fails. -/
theorem C26_access (h : Heap) (a : Id) (l : List Id) (hl : (arrays h).at_ a = some l) :
    sizeOf_ h a = l.length ∧ (∀ k (hk : k < l.length), getAt h a k = .ok l[k]) ∧
    (∀ k, l.length ≤ k → getAt h a k = .error .throw) := by
  have : (h.node a).body = .arr l := by
    revert hl; simp only [arrays]; cases (h.node a).body <;> simp
  refine ⟨?_, fun k hk => ?_, fun k hk => ?_⟩
  · rw [sizeOf_, this]; rfl
  · rw [getAt, this]; simp [hk]
  · rw [getAt, this]; simp [hk]

/-- **C26**, errors: operations outside the bounds report it and change nothing at all. -/
theorem C26_out_of_range (H : StdHash) (f : Nat) (h : Heap) (a : Id) (l : List Id) (hl : (arrays h).at_ a = some l)
    (k : Nat) (v : Id) :
    (l.length < k → step H f h (.insertAt a k v) = (h, .error .throw)) ∧
    (l.length ≤ k → step H f h (.setAt a k v) = (h, .error .throw)) ∧
    (l.length ≤ k → step H f h (.removeAt a k) = (h, .ok false)) := by
  have : (h.node a).body = .arr l := by
    revert hl; simp only [arrays]; cases (h.node a).body <;> simp
  refine ⟨fun hk => ?_, fun hk => ?_, fun hk => ?_⟩
  · simp [step, this, hk]
  · simp [step, this, hk]
  · simp [step, this, hk]

/-- A history of an array: two numbers are put in, a third one between them, the first is removed. -/
def arrayHistory : List Op :=
  [.create (.arr []), .create (.int 5), .create (.int 6), .create (.int 7), .append 0 1, .append 0 2, .insertAt 0 1 3,
    .removeAt 0 0, .insertAt 0 9 1]

example : (arrays (run gnuHash 5 Heap.empty arrayHistory)).at_ 0 = some [3, 2] := by
  rw [C26_history]; rfl
example : getAt (run gnuHash 5 Heap.empty arrayHistory) 0 1 = .ok 2 :=
  (C26_access _ 0 [3, 2] (by rw [C26_history]; rfl)).2.1 1 (by decide)

/-! ### C25 -/

theorem dicts_at (h : Heap) (d : Id) : (dicts h).at_ d =
    (match (h.node d).body with | .dict l => some (fun k => mapFind k l) | _ => none) := by
  simp only [dicts]
  cases e : (h.node d).body <;> simp
  funext k; simp [findIn, e]

theorem dicts_step (H : StdHash) (f : Nat) (h : Heap) (hs : SortedDicts h) (op : Op) (hr : NoReplace (dicts h) op) :
    dicts (step H f h op).1 = mapStep (dicts h) op := by
  have key : ∀ i, (dicts (step H f h op).1).at_ i = (mapStep (dicts h) op).at_ i := by
    intro i
    by_cases hc : ∃ b, op = .create b
    · obtain ⟨b, rfl⟩ := hc
      rw [dicts_at, (step_create H f h b).2]
      by_cases hi : i = h.next
      · subst hi
        cases b <;> simp [mapStep, Store.alloc, newNode, mapFind, show (dicts h).next = h.next from rfl]
      · cases b <;> simp [mapStep, Store.alloc, hi, show (dicts h).next = h.next from rfl, dicts_at]
    · have hc : ∀ b, op ≠ .create b := fun b hb => hc ⟨b, hb⟩
      by_cases hi : i = op.target h
      · subst hi
        rw [dicts_at, step_body_target H f h op hc]
        cases op with
        | create b => exact absurd rfl (hc b)
        | merge d x =>
          simp only [newBody, Op.target, mapStep]
          cases e2 : (h.node x).body with
          | dict l' =>
            rw [show (dicts h).at_ x = some (fun k => mapFind k l') by rw [dicts_at, e2]]
            cases e : (h.node d).body <;> simp [Store.alter, dicts_at, e, e2]
            rename_i l
            funext q
            rw [(mapMerge_spec l' l (hs d l e)).2]
            rcases hr _ _ (by rw [dicts_at, e]) (by rw [dicts_at, e2]) q with h1 | h1
            · rw [h1]; cases mapFind q l' <;> rfl
            · rw [h1]; cases mapFind q l <;> rfl
          | _ =>
            rw [show (dicts h).at_ x = none by rw [dicts_at, e2]]
            cases e : (h.node d).body <;> simp [dicts_at, e, e2]
        | insert d k v ow =>
          cases e : (h.node d).body <;> simp [newBody, Op.target, mapStep, Store.alter, dicts_at, e]
          rename_i l
          cases e2 : mapFind k l with
          | none =>
            simp
            funext q
            rw [mapInsert_find (hs d l e) e2]
          | some w =>
            cases ow with
            | false => simp
            | true =>
              have := hr rfl _ (by rw [dicts_at, e])
              rw [e2] at this; cases this
        | remove d k =>
          cases e : (h.node d).body <;> simp [newBody, Op.target, mapStep, Store.alter, dicts_at, e]
          rename_i l
          cases e2 : mapFind k l with
          | none =>
            simp
            funext q
            by_cases hq : q = k
            · rw [if_pos hq, hq, e2]
            · rw [if_neg hq]
          | some v =>
            simp
            funext q
            rw [mapErase_find]
        | clear d => cases e : (h.node d).body <;> simp [newBody, Op.target, mapStep, Store.alter, dicts_at, e] <;> rfl
        | setInit i b => simp only [newBody, mapStep, dicts_at]
        | hash i => simp only [newBody, mapStep, dicts_at]
        | setBool i b => cases e : (h.node i).body <;> simp [newBody, Op.target, mapStep, dicts_at, e]
        | setInt i b => cases e : (h.node i).body <;> simp [newBody, Op.target, mapStep, dicts_at, e]
        | setReal i b c => cases e : (h.node i).body <;> simp [newBody, Op.target, mapStep, dicts_at, e]
        | setName i b => cases e : (h.node i).body <;> simp [newBody, Op.target, mapStep, dicts_at, e]
        | setString i b => cases e : (h.node i).body <;> simp [newBody, Op.target, mapStep, dicts_at, e]
        | getString i => cases e : (h.node i).body <;> simp [newBody, Op.target, mapStep, dicts_at, e]
        | setRef i n g => cases e : (h.node i).body <;> simp [newBody, Op.target, mapStep, dicts_at, e]
        | clearArr i => cases e : (h.node i).body <;> simp [newBody, Op.target, mapStep, dicts_at, e]
        | append a v => cases e : (h.node a).body <;> simp [newBody, Op.target, mapStep, dicts_at, e]
        | insertAt a k v =>
          cases e : (h.node a).body <;> simp only [newBody, Op.target, mapStep, dicts_at, e]
          rename_i l
          by_cases hx : k > l.length
          · rw [if_pos hx]
          · rw [if_neg hx]
        | setAt a k v =>
          cases e : (h.node a).body <;> simp only [newBody, Op.target, mapStep, dicts_at, e]
          rename_i l
          by_cases hx : k ≥ l.length
          · rw [if_pos hx]
          · rw [if_neg hx]
        | removeAt a k =>
          cases e : (h.node a).body <;> simp [newBody, Op.target, mapStep, dicts_at, e]
          rename_i l
          cases e2 : l[k]? <;> simp
        | setReference i o => cases e : (h.node i).body <;> simp [newBody, Op.target, mapStep, dicts_at, e]
      · rw [dicts_at, step_body_other H f h op i hi, ← dicts_at]
        cases op <;> first | (exact absurd rfl (hc _)) | rfl |
          (simp only [mapStep, Store.alter]; rw [if_neg (by simpa [Op.target] using hi)]) |
          (simp only [mapStep]; split <;> first | rfl | (simp only [Store.alter]; rw [if_neg (by simpa [Op.target] using hi)]))
  have hn : (dicts (step H f h op).1).next = (mapStep (dicts h) op).next := by
    by_cases hc : ∃ b, op = .create b
    · obtain ⟨b, rfl⟩ := hc
      cases b <;> rfl
    · have hc : ∀ b, op ≠ .create b := fun b hb => hc ⟨b, hb⟩
      show (step H f h op).1.next = _
      rw [step_next H f h op hc]
      cases op <;> first | (exact absurd rfl (hc _)) | rfl | (simp only [mapStep]; split <;> rfl)
  cases h1 : dicts (step H f h op).1 with
  | mk n a =>
    cases h2 : mapStep (dicts h) op with
    | mk n' a' =>
      rw [h1, h2] at key hn
      have : a = a' := funext key
      simp only at hn
      rw [this, hn]

/-- **C25**, partial: after any history without replacement of values, every dictionary is the map obtained by the same
operations.  Missing: overwriting insertions and merges of dictionaries with common keys, see the counterexamples. -/
theorem C25_history_partial (H : StdHash) (f : Nat) (h : Heap) (hs : SortedDicts h) (ops : List Op)
    (hr : NoReplaceAll (dicts h) ops) : dicts (run H f h ops) = ops.foldl mapStep (dicts h) := by
  induction ops generalizing h with
  | nil => rfl
  | cons op ops ih =>
    show dicts (run H f (step H f h op).1 ops) = _
    have e := dicts_step H f h hs op hr.1
    rw [ih _ (step_sorted H f hs op) (by rw [e]; exact hr.2), e]; rfl

/-- **C25**, outcomes: an insertion without overwriting of a key that is present is refused and changes nothing; the removal
of an absent key says so and changes nothing. -/
theorem C25_refused (H : StdHash) (f : Nat) (h : Heap) (d : Id) (m : Map) (hm : (dicts h).at_ d = some m) (k : Bytes) (v : Id) :
    (m k ≠ none → step H f h (.insert d k v false) = (h, .error .duplicateKey)) ∧
    (m k = none → step H f h (.remove d k) = (h, .ok false)) := by
  rw [dicts_at] at hm
  cases e : (h.node d).body <;> rw [e] at hm <;> cases hm
  constructor
  · intro hk
    simp only [step, e]
    rw [if_pos]
    simpa [Option.isSome_iff_ne_none] using hk
  · intro hk
    simp only at hk
    simp only [step, e, hk]

theorem run_sorted (H : StdHash) (f : Nat) (ops : List Op) : ∀ h, SortedDicts h → SortedDicts (run H f h ops) := by
  induction ops with
  | nil => intro h hs; exact hs
  | cons op ops ih => intro h hs; exact ih _ (step_sorted H f hs op)

/-- Keys in the order of the dictionary. -/
def keysOf (h : Heap) (d : Id) : List Bytes :=
  match (h.node d).body with | .dict l => l.map Prod.fst | _ => []

/-- **C25**, iteration: after any history, whatever the operations, the iteration of a dictionary visits every key that is
found, once, and in ascending order; the size is the number of these keys. -/
theorem C25_iteration (H : StdHash) (f : Nat) (ops : List Op) (d : Id) (m : Map)
    (hm : (dicts (run H f Heap.empty ops)).at_ d = some m) :
    (∀ k, k ∈ keysOf (run H f Heap.empty ops) d ↔ m k ≠ none) ∧
    (keysOf (run H f Heap.empty ops) d).Pairwise (fun a b => bytesLt a b = true) ∧
    (keysOf (run H f Heap.empty ops) d).Nodup ∧
    sizeOf_ (run H f Heap.empty ops) d = (keysOf (run H f Heap.empty ops) d).length := by
  have hs : SortedDicts (run H f Heap.empty ops) := run_sorted H f ops _ (fun i l hl => by cases hl)
  rw [dicts_at] at hm
  generalize run H f Heap.empty ops = h at *
  cases e : (h.node d).body <;> rw [e] at hm <;> cases hm
  rename_i l
  have hsl := hs d l e
  have hk : keysOf h d = l.map Prod.fst := by simp [keysOf, e]
  have hp : (l.map Prod.fst).Pairwise (fun a b => bytesLt a b = true) := List.pairwise_map.mpr hsl
  refine ⟨?_, ?_, ?_, ?_⟩
  · intro k
    rw [hk]
    show k ∈ l.map Prod.fst ↔ mapFind k l ≠ none
    clear hsl hk hp hs e
    induction l with
    | nil => simp [mapFind]
    | cons x l ih =>
      obtain ⟨k', v⟩ := x
      rw [List.map_cons, List.mem_cons, mapFind]
      by_cases h' : k = k'
      · simp [h']
      · simp only [h', false_or]
        rw [if_neg (by simpa using h')]
        exact ih
  · rw [hk]; exact hp
  · rw [hk]
    exact hp.imp (fun h => bytesLt_ne h)
  · rw [hk, sizeOf_, e]; simp [Body.children]

/-- A history of two dictionaries. -/
def dictHistory : List Op :=
  [.create (.dict []), .create (.int 5), .create (.int 6), .insert 0 (b! "B") 1 false, .insert 0 (b! "A") 2 true,
    .insert 0 (b! "B") 2 false, .create (.dict []), .insert 3 (b! "C") 1 false, .merge 0 3, .remove 0 (b! "B")]

example : NoReplaceAll (dicts Heap.empty) dictHistory := by
  refine ⟨trivial, trivial, trivial, ?_, ?_, ?_, trivial, ?_, ?_, trivial, trivial⟩
  · intro h; cases h
  · intro _ m hm; cases hm; rfl
  · intro h; cases h
  · intro h; cases h
  · intro m m' hm hm' k
    cases hm; cases hm'
    by_cases hk : k = b! "C"
    · subst hk; left; rfl
    · right; simp [hk]
example : (keysOf (run gnuHash 5 Heap.empty dictHistory) 0) = [b! "A", b! "C"] := by rfl
example : findIn (run gnuHash 5 Heap.empty dictHistory) 0 (b! "C") = some 1 := by rfl

/-- **C25** fails for overwriting: whatever the dictionary, an overwriting insertion of a key that is present succeeds and
leaves the old value in place. -/
theorem C25_overwrite_counterexample (H : StdHash) (f : Nat) (h : Heap) (hs : SortedDicts h) (d : Id) (m : Map)
    (hm : (dicts h).at_ d = some m) (k : Bytes) (old new : Id) (hk : m k = some old) :
    findIn (step H f h (.insert d k new true)).1 d k = some old := by
  rw [dicts_at] at hm
  cases e : (h.node d).body <;> rw [e] at hm <;> cases hm
  rename_i l
  have := step_body_target H f h (.insert d k new true) (by intro b hb; cases hb)
  rw [Op.target] at this
  simp only [findIn, this, newBody, Op.target, e]
  simp only [Bool.not_true, Bool.false_and, Bool.false_eq_true, if_false]
  rw [mapFind_insert (hs d l e), if_pos rfl, show mapFind k l = some old from hk]

example : findIn (run gnuHash 5 Heap.empty
    [.create (.dict []), .create (.int 5), .create (.int 6), .insert 0 (b! "A") 1 false, .insert 0 (b! "A") 2 true]) 0 (b! "A")
    = some 1 := by rfl

/-- **C25** fails for merging: the comment in the code says that conflicting entries are overridden; they are kept. -/
theorem C25_merge_counterexample (H : StdHash) (f : Nat) (h : Heap) (hs : SortedDicts h) (d e : Id) (m m' : Map)
    (hm : (dicts h).at_ d = some m) (hm' : (dicts h).at_ e = some m') (k : Bytes) (old new : Id) (hk : m k = some old)
    (_hk' : m' k = some new) : findIn (step H f h (.merge d e)).1 d k = some old := by
  rw [dicts_at] at hm hm'
  cases e1 : (h.node d).body <;> rw [e1] at hm <;> cases hm
  cases e2 : (h.node e).body <;> rw [e2] at hm' <;> cases hm'
  rename_i l l'
  have := step_body_target H f h (.merge d e) (by intro b hb; cases hb)
  rw [Op.target] at this
  simp only [findIn, this, newBody, Op.target, e1, e2]
  rw [(mapMerge_spec l' l (hs d l e1)).2, show mapFind k l = some old from hk]

end VPdf
