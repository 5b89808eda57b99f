import Verif.Lemmas.Iterators

/-! # Iterating over dictionaries and collections (C88) -/
namespace VPdf
open Spec (LiveDict mapOf Walk KeyMap)

/-- **C88**, dictionaries that are edited during the walk.  What a client may do in a round is arbitrary (`body`), except that
it must not remove the entry that is being shown, clear the dictionary, or give up its reference.  Then nothing undefined
happens, every round shows the next key of the dictionary as it is then, and the loop ends at once behind the last key.
It can go on for ever only if keys are inserted.  Partial: the exceptions should not be undefined. -/
theorem C88_walk_partial {α : Type} (body : Nat → Bytes × α → List (DictEdit α)) {d : NodeDict α} (hd : LiveDict d)
    (hb : ∀ i e, .release ∉ body i e ∧ .remove e.1 ∉ body i e ∧ .clear ∉ body i e) (fuel : Nat) :
    match d.visit body fuel with
    | .ok shown => Walk body 0 (mapOf d) none shown
    | .error e => e = .timeout ∧ ((∀ i e k v, .insert k v ∉ body i e) → fuel ≤ d.nodes.length) := by
  have h := dict_walk_spec body hb fuel 0 d _ none hd stands_start
  have hv : d.visit body fuel = d.walk body fuel 0 (d.nodes.head?.map (·.1)) := by
    unfold NodeDict.visit NodeDict.getIterator
    rw [if_neg (Nat.ne_of_gt hd.owned)]
    rfl
  rw [hv]
  revert h
  cases d.walk body fuel 0 (d.nodes.head?.map (·.1)) with
  | ok shown => exact id
  | error e =>
    rintro ⟨h1, h2⟩
    refine ⟨h1, fun hi => Nat.le_trans (h2 hi) ?_⟩
    exact List.length_filter_le _ _

/-- **C88**: an entry that is in the dictionary at the start and is not removed is shown exactly once, with its value,
whatever else is inserted and removed in the meantime; keys come in ascending order. -/
theorem C88_kept_partial {α : Type} (body : Nat → Bytes × α → List (DictEdit α)) {d : NodeDict α} (hd : LiveDict d)
    (hb : ∀ i e, .release ∉ body i e ∧ .remove e.1 ∉ body i e ∧ .clear ∉ body i e) {fuel : Nat} {shown : List (Bytes × α)}
    (h : d.visit body fuel = .ok shown) {k : Bytes} {v : α} (hk : mapOf d k = some v) (hr : ∀ i e, .remove k ∉ body i e) :
    (k, v) ∈ shown ∧ shown.Pairwise fun a b => bytesLt a.1 b.1 = true := by
  have hw := C88_walk_partial body hd hb fuel
  rw [h] at hw
  exact ⟨walk_shows hw hk (fun _ h => by cases h) fun i e => ⟨hr i e, (hb i e).2.2⟩, (walk_sorted hw).2⟩

/-- **C88**: a loop that changes nothing shows exactly the entries, each once, in ascending order of keys. -/
theorem C88_unchanged {α : Type} {d : NodeDict α} (hd : LiveDict d) {fuel : Nat} (hf : d.nodes.length < fuel) :
    ∃ shown, d.visit (fun _ _ => []) fuel = .ok shown ∧ (shown.Pairwise fun a b => bytesLt a.1 b.1 = true) ∧
      ∀ k v, (k, v) ∈ shown ↔ mapOf d k = some v := by
  have hb : ∀ (i : Nat) (e : Bytes × α), DictEdit.release ∉ ([] : List (DictEdit α)) ∧ .remove e.1 ∉ ([] : List (DictEdit α)) ∧
      .clear ∉ ([] : List (DictEdit α)) := fun _ _ => ⟨nofun, nofun, nofun⟩
  have hw := C88_walk_partial (fun _ _ => []) hd hb fuel
  cases h : d.visit (fun _ _ => []) fuel with
  | error e =>
    rw [h] at hw
    exact absurd (hw.2 fun _ _ _ _ => nofun) (Nat.not_le_of_lt hf)
  | ok shown =>
    rw [h] at hw
    refine ⟨shown, rfl, (walk_sorted hw).2, fun k v => ⟨?_, fun hk => walk_shows hw hk (fun _ h => by cases h) fun _ _ => ⟨nofun, nofun⟩⟩⟩
    clear h hf
    generalize mapOf d = m at hw
    generalize (none : Option Bytes) = last at hw
    generalize 0 = round at hw
    intro he
    induction hw with
    | done h => cases he
    | «show» h hv hr ih =>
      rcases List.mem_cons.mp he with he | he
      · cases he; exact hv
      · exact ih he

/-- **C88** is false for the removal of the entry that is being shown: for every dictionary that is not empty, a loop that
removes what it shows uses freed memory. -/
theorem C88_remove_counterexample {α : Type} {d : NodeDict α} (hd : LiveDict d) (hne : d.nodes ≠ []) (fuel : Nat) :
    d.visit (fun _ e => [.remove e.1]) (fuel + 1) = .error .ub := by
  have ho := Nat.ne_of_gt hd.owned
  obtain ⟨n, post, h⟩ : ∃ n post, d.nodes = n :: post := by
    cases hn : d.nodes with
    | nil => exact absurd hn hne
    | cons n post => exact ⟨n, post, rfl⟩
  have hfrom : nodesFrom n.1 d.nodes = some (n :: post) := by rw [h]; simp [nodesFrom]
  have hv : d.isValid (some n.1) = .ok true := by
    unfold NodeDict.isValid
    rw [if_neg ho]
    dsimp only
    rw [hfrom]
    rfl
  have hg : d.getAt (some n.1) = .ok n.2 := by
    unfold NodeDict.getAt
    rw [if_neg ho]
    dsimp only
    rw [hfrom]
  have hnone : ∀ l : List (Nat × Bytes × α), (∀ m ∈ l, m.1 ≠ n.1) → nodesFrom n.1 l = none := by
    intro l hl
    induction l with
    | nil => rfl
    | cons a l ih =>
      unfold nodesFrom
      rw [if_neg (hl a List.mem_cons_self)]
      exact ih fun m hm => hl m (List.mem_cons_of_mem _ hm)
  unfold NodeDict.visit NodeDict.getIterator
  rw [if_neg ho, h]
  show NodeDict.walk (fun _ e => [.remove e.1]) (fuel + 1) 0 d (some n.1) = _
  unfold NodeDict.walk
  show (d.isValid (some n.1)).bind _ = _
  rw [hv]
  show (d.getAt (some n.1)).bind _ = _
  rw [hg]
  show (d.edits [.remove n.2.1]).bind _ = _
  unfold NodeDict.edits NodeDict.edit
  dsimp only
  rw [if_neg ho]
  show (NodeDict.next { d with nodes := d.nodes.filter fun m => m.2.1 != n.2.1 } (some n.1)).bind _ = _
  unfold NodeDict.next
  rw [if_neg (show ¬ d.owners = 0 from ho)]
  dsimp only
  rw [hnone]
  · rfl
  · intro m hm
    obtain ⟨hm, hk⟩ := List.mem_filter.mp hm
    have hi := hd.ids
    rw [h] at hm hi
    rcases List.mem_cons.mp hm with rfl | hm
    · simp at hk
    · exact Ne.symm ((List.pairwise_cons.mp hi).1 m hm)

/-- **C88** is false after the last reference to the dictionary is released: the iterator does not keep it. -/
theorem C88_release_counterexample {α : Type} {d : NodeDict α} (ho : d.owners = 1) {d' : NodeDict α} (h : d.edit .release = .ok d')
    (c : Cursor) : d'.isValid c = .error .ub ∧ d'.getAt c = .error .ub ∧ d'.next c = .error .ub := by
  have : d'.owners = 0 := by
    unfold NodeDict.edit at h
    dsimp only at h
    rw [if_neg (by omega)] at h
    cases h
    show d.owners - 1 = 0
    omega
  refine ⟨?_, ?_, ?_⟩
  · unfold NodeDict.isValid; rw [if_pos this]
  · unfold NodeDict.getAt; rw [if_pos this]
  · unfold NodeDict.next; rw [if_pos this]

/-- **C88**, collections of instructions: a loop that changes nothing shows all items in their order. -/
theorem C88_collection_partial {α : Type} (c : VecColl α) {fuel : Nat} (hf : c.items.length < fuel) :
    c.walk (fun _ _ => []) fuel 0 c.getIterator = .ok c.items := by
  have key : ∀ (fuel round pos : Nat), pos ≤ c.items.length → c.items.length - pos < fuel →
      c.walk (fun _ _ => []) fuel round ⟨pos, c.items.length, c.version⟩ = .ok (c.items.drop pos) := by
    intro fuel
    induction fuel with
    | zero => intro _ _ _ h; omega
    | succ fuel ih =>
      intro round pos hp hf
      unfold VecColl.walk
      show (c.isValid _).bind _ = _
      unfold VecColl.isValid
      rw [if_pos rfl]
      by_cases h : pos = c.items.length
      · subst h
        rw [List.drop_length, decide_eq_false (by simp)]
        rfl
      · rw [decide_eq_true h]
        have hlt : pos < c.items.length := by omega
        have hg : c.getAt ⟨pos, c.items.length, c.version⟩ = .ok c.items[pos] := by
          unfold VecColl.getAt
          rw [if_pos rfl, List.getElem?_eq_getElem hlt]
        have hn : c.next ⟨pos, c.items.length, c.version⟩ = .ok ⟨pos + 1, c.items.length, c.version⟩ := by
          unfold VecColl.next
          rw [if_pos ⟨rfl, hlt⟩]
        show (c.getAt _).bind _ = _
        rw [hg]
        show (c.next _).bind _ = _
        rw [hn]
        show (c.walk _ fuel (round + 1) _).bind _ = _
        rw [ih (round + 1) (pos + 1) hlt (by omega), List.drop_eq_getElem_cons hlt]
        rfl
  exact key fuel 0 0 (Nat.zero_le _) (by omega)

/-- **C88** is false for collections of instructions that are changed during a walk, by whatever edit: `IsValid` compares with
an end that does not exist any more. -/
theorem C88_collection_counterexample {α : Type} {c c' : VecColl α} {e : VecEdit α} (h : c.edit e = .ok c') :
    c'.isValid c.getIterator = .error .ub := by
  have : c'.version = c.version + 1 := by
    unfold VecColl.edit at h
    split at h
    · cases h; rfl
    · split at h
      · cases h; rfl
      · cases h
    · split at h
      · cases h; rfl
      · cases h
    · cases h; rfl
  unfold VecColl.isValid VecColl.getIterator
  rw [if_neg (by rw [this]; exact Nat.ne_of_lt (Nat.lt_succ_self _))]

/-- **C88** is false for positions behind the end: they are not refused. -/
theorem C88_position_counterexample {α : Type} (c : VecColl α) (a : α) {i : Nat} (h : c.items.length < i) :
    c.edit (.insert i a) = .error .ub ∧ c.edit (.remove i) = .error .ub ∧ c.edit (.remove c.items.length) = .error .ub := by
  refine ⟨?_, ?_, ?_⟩ <;> unfold VecColl.edit <;> dsimp only <;> rw [if_neg (by omega)]

/-! ### The hypotheses are met -/

/-- A dictionary of three entries. -/
def sampleNodes : NodeDict Nat := ⟨[(2, b! "A", 10), (0, b! "M", 20), (1, b! "Z", 30)], 3, 1⟩

theorem sampleNodes_live : LiveDict sampleNodes := ⟨by decide, by decide, by decide, by decide⟩

/-- A loop that inserts B and removes Z when A is shown. -/
def sampleBody : Nat → Bytes × Nat → List (DictEdit Nat)
  | 0, e => if e.1 = b! "A" then [.insert (b! "B") 11, .remove (b! "Z")] else []
  | _, _ => []

example : sampleNodes.visit sampleBody 5 = .ok [(b! "A", 10), (b! "B", 11), (b! "M", 20)] := by rfl

example : ∀ i e, DictEdit.release ∉ sampleBody i e ∧ .remove e.1 ∉ sampleBody i e ∧ .clear ∉ sampleBody i e := by
  intro i e
  cases i with
  | succ _ => exact ⟨nofun, nofun, nofun⟩
  | zero =>
    by_cases h : e.1 = b! "A"
    · have : sampleBody 0 e = [.insert (b! "B") 11, .remove (b! "Z")] := if_pos h
      rw [this, h]; simp
    · have : sampleBody 0 e = [] := if_neg h
      rw [this]; exact ⟨nofun, nofun, nofun⟩

example : sampleNodes.visit (fun _ _ => []) 4 = .ok [(b! "A", 10), (b! "M", 20), (b! "Z", 30)] := by rfl
example : sampleNodes.visit (fun _ e => [.remove e.1]) 4 = .error .ub := C88_remove_counterexample sampleNodes_live (by decide) 3
example : ∃ d', sampleNodes.edit .release = .ok d' := ⟨_, rfl⟩
example : (⟨[1, 2, 3], 0⟩ : VecColl Nat).walk (fun _ _ => []) 4 0 (VecColl.getIterator ⟨[1, 2, 3], 0⟩) = .ok [1, 2, 3] := by rfl
example : ∃ c', (⟨[1, 2, 3], 0⟩ : VecColl Nat).edit (.remove 1) = .ok c' := ⟨_, rfl⟩

end VPdf
