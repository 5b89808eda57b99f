import Verif.Lemmas.Notify
/-
  C27 Modifications mark every enclosing object as changed.
-/
namespace VPdf
open Spec

/-- **C27**, partial: after any proper history, a successful modification marks the modified object and every object around it
as changed, up to the entry of the cross-reference table, provided the objects in between are initialised.  Missing: the
modifications that are unnoticed, and histories with merges or with removals of an object that is in the same container
twice; see the counterexamples. -/
theorem C27_marks_partial (H : StdHash) (f : Nat) (h : Heap) (r : Reached H f h) (op : Op) (hm : modifies op = true)
    (hu : unnoticed h op = false) (hs : ∀ e o, op ≠ .setReference e o) (ho : (step H f h op).2 = .ok true) (c : Id)
    (n : Nested h c (op.target h)) : ((step H f h op).1.node c).dirty = true :=
  (step_marks H f (reached_wired r).1 op hm hu hs ho n).1

/-- **C27** for replacing the object of an entry of the cross-reference table: the entry is marked. -/
theorem C27_entry (H : StdHash) (f : Nat) (h : Heap) (e o : Id) (ho : (step H f h (.setReference e o)).2 = .ok true)
    (hi : (h.node e).init = true) :
    ((step H f h (.setReference e o)).1.node e).dirty = true ∧
    ((step H f h (.setReference e o)).1.node e).body = .entry (some o) := by
  refine ⟨?_, ?_⟩
  · cases eb : (h.node e).body <;> simp only [step, eb] at ho ⊢ <;> first | (cases ho; done) | skip
    rename_i old
    rw [modify_same, subscribe_init, setBody_init]
    cases old with
    | none => simp [hi]
    | some r => simp [unsubscribe_init, hi]
  · have := step_body_target H f h (.setReference e o) (by intro b hb; cases hb)
    rw [Op.target] at this
    rw [this]
    cases eb : (h.node e).body <;> simp only [step, eb] at ho <;> first | (cases ho; done) | skip
    simp [newBody, Op.target, eb]

/-- **C27**, the mark is permanent: whatever is done afterwards, it is still there when the file is saved. -/
theorem C27_marks_stay (H : StdHash) (f : Nat) (h : Heap) (ops : List Op) (c : Id) (hc : c < h.next)
    (hd : (h.node c).dirty = true) : ((run H f h ops).node c).dirty = true := run_marksStay H f ops h c hc hd

/-- **C27**, termination: notification ends if the observers are nowhere circular. -/
theorem C27_ends (h : Heap) (rank : Id → Nat) (hr : ∀ i, ∀ o ∈ (h.node i).observers, rank o < rank i) (i : Id) :
    ∃ f h', onChanged f h i = .ok h' := ⟨rank i + 1, onChanged_ends rank _ h hr i (by omega)⟩

/-- A tree: the entry 0 holds the dictionary 1, with an array 2 under the key `A`, with a boolean 3, a name 4 and a number 5. -/
def treeHistory : List Op :=
  [.create (.entry none), .create (.dict []), .create (.arr []), .create (.bool true), .create (.name (b! "N")),
    .create (.int 5), .append 2 3, .append 2 4, .append 2 5, .insert 1 (b! "A") 2 false, .setReference 0 1, .setInit 0 true,
    .setInit 1 true]

/-- All states along a history of proper operations are reached. -/
theorem reached_run (H : StdHash) (f : Nat) (ops : List Op) : ∀ h, Reached H f h →
    (∀ k op, ops[k]? = some op → Proper (run H f h (ops.take k)) op) → Reached H f (run H f h ops) := by
  induction ops with
  | nil => intro h r _; exact r
  | cons op ops ih =>
    intro h r hp
    refine ih _ (.next h op r (hp 0 op rfl)) fun k o hk => ?_
    exact hp (k + 1) o hk

theorem tree_reached : Reached gnuHash 9 (run gnuHash 9 Heap.empty treeHistory) := by
  refine reached_run _ _ _ _ .start fun k op hk => ?_
  match k with
  | 0 | 1 | 2 | 3 | 4 | 5 | 6 | 7 | 8 | 9 | 10 | 11 | 12 =>
    cases hk
    refine ⟨?_, ?_⟩
    · simp only [mentions]; decide
    · trivial
  | n + 13 => simp [treeHistory] at hk

example : ((step gnuHash 9 (run gnuHash 9 Heap.empty treeHistory) (.setName 4 (b! "M"))).1.node 0).dirty = true := by
  refine C27_marks_partial gnuHash 9 _ tree_reached _ rfl rfl (by intro e o h; cases h) rfl 0 ?_
  refine .inside 0 1 _ rfl (by exact List.mem_cons_self ..) ?_
  refine .inside 1 2 _ rfl (by exact List.mem_cons_self ..) ?_
  exact .inside 2 4 4 rfl (by decide) (.self 4 rfl)

example : ((step gnuHash 9 (run gnuHash 9 Heap.empty treeHistory) (.setReference 0 2)).1.node 0).dirty = true :=
  (C27_entry gnuHash 9 _ 0 2 rfl rfl).1
example : ((run gnuHash 9 (step gnuHash 9 (run gnuHash 9 Heap.empty treeHistory) (.setBool 3 false)).1
    [.setInit 0 false, .removeAt 2 0, .create .null, .setReference 0 6]).node 0).dirty = true :=
  C27_marks_stay _ _ _ _ 0 (by decide) (by
    refine C27_marks_partial gnuHash 9 _ tree_reached _ rfl rfl (by intro e o h; cases h) rfl 0 ?_
    refine .inside 0 1 _ rfl (by exact List.mem_cons_self ..) ?_
    refine .inside 1 2 _ rfl (by exact List.mem_cons_self ..) ?_
    exact .inside 2 3 3 rfl (by decide) (.self 3 rfl))
example : ∃ f h', onChanged f (run gnuHash 9 Heap.empty treeHistory) 4 = .ok h' :=
  C27_ends _ id (by
    intro i o ho
    match i with
    | 0 => cases ho
    | 1 => have : o ∈ [0] := ho; simp at this; subst this; decide
    | 2 => have : o ∈ [1] := ho; simp at this; subst this; decide
    | 3 => have : o ∈ [2] := ho; simp at this; subst this; decide
    | 4 => have : o ∈ [2] := ho; simp at this; subst this; decide
    | 5 => have : o ∈ [2] := ho; simp at this; subst this; decide
    | n + 6 =>
      have : (Heap.node (run gnuHash 9 Heap.empty treeHistory) (n + 6)).observers = [] := rfl
      rw [this] at ho; cases ho) 4

/-! ### What is not noticed -/

/-- **C27** fails for numbers: whatever holds it, a change of an integer marks nothing. -/
theorem C27_integer_counterexample (H : StdHash) (f : Nat) (h : Heap) (i : Id) (old new : Int)
    (hi : (h.node i).body = .int old) :
    (step H f h (.setInt i new)).2 = .ok true ∧ ((step H f h (.setInt i new)).1.node i).body = .int new ∧
    ∀ c, ((step H f h (.setInt i new)).1.node c).dirty = (h.node c).dirty := by
  simp only [step, hi, true_and]
  refine ⟨by rw [setBody_node, if_pos rfl], fun c => ?_⟩
  rw [Heap.setBody, modify_node]; split <;> rfl

/-- **C27** fails for reals in the same way. -/
theorem C27_real_counterexample (H : StdHash) (f : Nat) (h : Heap) (i : Id) (m m' : Int) (p p' : Nat)
    (hi : (h.node i).body = .real m p) :
    (step H f h (.setReal i m' p')).2 = .ok true ∧ ((step H f h (.setReal i m' p')).1.node i).body = .real m' p' ∧
    ∀ c, ((step H f h (.setReal i m' p')).1.node c).dirty = (h.node c).dirty := by
  simp only [step, hi, true_and]
  refine ⟨by rw [setBody_node, if_pos rfl], fun c => ?_⟩
  rw [Heap.setBody, modify_node]; split <;> rfl

/-- **C27** fails for clearing an array. -/
theorem C27_clear_counterexample (H : StdHash) (f : Nat) (h : Heap) (a : Id) (l : List Id) (ha : (h.node a).body = .arr l) :
    (step H f h (.clearArr a)).2 = .ok true ∧ ((step H f h (.clearArr a)).1.node a).body = .arr [] ∧
    ∀ c, ((step H f h (.clearArr a)).1.node c).dirty = (h.node c).dirty := by
  simp only [step, ha, true_and]
  refine ⟨by rw [setBody_node, if_pos rfl], fun c => ?_⟩
  rw [Heap.setBody, modify_node]; split <;> rfl

/-- **C27** fails for a string whose value has not been read before. -/
theorem C27_string_counterexample (H : StdHash) (f : Nat) (h : Heap) (i : Id) (x : Bool) (old new : Bytes)
    (hi : (h.node i).body = .str x old false) :
    (step H f h (.setString i new)).2 = .ok true ∧ ((step H f h (.setString i new)).1.node i).body = .str x new true ∧
    ∀ c, ((step H f h (.setString i new)).1.node c).dirty = (h.node c).dirty := by
  simp only [step, hi, true_and]
  refine ⟨by rw [setBody_node, if_pos rfl], fun c => ?_⟩
  rw [Heap.setBody, modify_node]; split <;> rfl

/-- **C27** fails for objects that were created by the program and put into an initialised container: they are not
initialised, so their changes are not passed on. -/
theorem C27_created_counterexample (H : StdHash) (f : Nat) (h : Heap) (i : Id) (old new : Bool)
    (hi : (h.node i).body = .bool old) (hn : (h.node i).init = false) :
    (step H (f + 1) h (.setBool i new)).2 = .ok true ∧ ((step H (f + 1) h (.setBool i new)).1.node i).body = .bool new ∧
    ∀ c, ((step H (f + 1) h (.setBool i new)).1.node c).dirty = (h.node c).dirty := by
  have e : onChanged (f + 1) (h.setBody i (.bool new)) i = .ok ((h.setBody i (.bool new)).resetCache i) := by
    rw [onChanged, setBody_init, hn]; rfl
  simp only [step, hi, changed, e, true_and]
  refine ⟨by rw [(frame_reset _ _).body, setBody_node, if_pos rfl], fun c => ?_⟩
  rw [Heap.resetCache, modify_node]
  split <;> (rw [Heap.setBody, modify_node]; split <;> rfl)

/-- **C27** for names: unlike other objects, a name made by the program is marked when it is changed, in every state. -/
theorem C27_new_name (H : StdHash) (f : Nat) (h : Heap) (old new : Bytes) :
    let h1 := (step H (f + 1) h (.create (.name old))).1
    (step H (f + 1) h1 (.setName h.next new)).2 = .ok true ∧
    ((step H (f + 1) h1 (.setName h.next new)).1.node h.next).dirty = true ∧
    ((step H (f + 1) h1 (.setName h.next new)).1.node h.next).body = .name new := by
  intro h1
  have hn : h1.node h.next = { body := .name old, init := true } := by simp [h1, step, newNode]
  have e : onChanged (f + 1) (h1.setBody h.next (.name new)) h.next =
      .ok (((h1.setBody h.next (.name new)).modify h.next fun n => { n with dirty := true }).resetCache h.next) := by
    rw [onChanged, setBody_init, hn, if_pos rfl]
    have ho : ((h1.setBody h.next (.name new)).node h.next).observers = [] := by
      rw [Heap.setBody, modify_node, if_pos rfl, hn]
    rw [ho]
    rfl
  simp only [step, hn, changed, e, true_and]
  refine ⟨?_, ?_⟩
  · rw [Heap.resetCache, modify_node, if_pos rfl, modify_node, if_pos rfl]
  · rw [(frame_reset _ _).body, modify_node, if_pos rfl, setBody_node, if_pos rfl]

/-- **C27** fails after a merge: the dictionary 0 takes the value 1 over from the dictionary 2; a change of 1 does not
mark 0. -/
theorem C27_merge_counterexample :
    let h := run gnuHash 9 Heap.empty [.create (.dict []), .create (.bool true), .create (.dict []),
      .insert 2 (b! "K") 1 false, .setInit 0 true, .setInit 2 true, .merge 0 2]
    Nested { h with node := fun i => { h.node i with dirty := false } } 0 1 ∧
    ((step gnuHash 9 { h with node := fun i => { h.node i with dirty := false } } (.setBool 1 false)).1.node 0).dirty = false :=
  ⟨.inside 0 1 1 rfl (by decide) (.self 1 rfl), rfl⟩

/-- **C27** fails after removing one of two occurrences of an object: a change of the other occurrence does not mark the array. -/
theorem C27_duplicate_counterexample :
    let h := run gnuHash 9 Heap.empty [.create (.arr []), .create (.bool true), .append 0 1, .append 0 1, .setInit 0 true,
      .removeAt 0 0]
    Nested { h with node := fun i => { h.node i with dirty := false } } 0 1 ∧
    ((step gnuHash 9 { h with node := fun i => { h.node i with dirty := false } } (.setBool 1 false)).1.node 0).dirty = false :=
  ⟨.inside 0 1 1 rfl (by decide) (.self 1 rfl), rfl⟩

/-- Notification never ends for an initialised array that has been put into itself. -/
theorem C27_cycle_counterexample (f : Nat) : ∀ (h : Heap) (a : Id), (h.node a).init = true → a ∈ (h.node a).observers →
    ∃ e, onChanged f h a = .error e := by
  induction f with
  | zero => intro h a _ _; exact ⟨_, rfl⟩
  | succ f ih =>
    intro h a hi ho
    rw [onChanged, if_pos hi]
    cases hf : (h.node a).observers.foldlM (onChanged f) (h.modify a fun n => { n with dirty := true }) with
    | error e => exact ⟨e, rfl⟩
    | ok h1 =>
      obtain ⟨b1, b2, r1, hk, r2⟩ := foldlM_hit Frame.refl Frame.trans _
        (fun b x b' _ => onChanged_frame f b x b') a ho _ _ hf
      have r1 := Frame.trans _ _ _ (frame_dirty h a) r1
      obtain ⟨e, he⟩ := ih b1 a ((r1.init a).trans hi) (by rw [r1.obs]; exact ho)
      rw [he] at hk; cases hk

example : ∃ e, (step gnuHash 9 (run gnuHash 9 Heap.empty [.create (.arr []), .setInit 0 true]) (.append 0 0)).2 = .error e :=
  ⟨_, rfl⟩

end VPdf
