import Verif.Lemmas.Clone
import Verif.Props.Equality
import Verif.Props.Notify
/-
  C30 Cloning yields an independent equal object.
-/
namespace VPdf
open Spec

theorem reached_sorted {H : StdHash} {f : Nat} {h : Heap} (r : Reached H f h) : SortedDicts h := by
  induction r with
  | start => intro i l hl; cases hl
  | next h op _ _ ih => exact step_sorted H f ih op

/-- **C30**, partial: after any history, a clone has the value the original had, the original keeps its value, and the two
compare equal.  Missing: streams, which are not in the model of objects with identity, and histories with `Merge`. -/
theorem C30_equal_partial (objs : Objects) (H : StdHash) (g f : Nat) (h : Heap) (r : Reached H g h) (i c : Id)
    (hi : i < h.next) (h' : Heap) (hc : clone f h i = .ok (c, h')) :
    ∃ o, HasValue h i o ∧ HasValue h' i o ∧ HasValue h' c o ∧ eqObj objs o o = .ok true := by
  have cl := (reached_wired r).2
  obtain ⟨_, x, _, o, o1, o2⟩ := clone_good f h i c h' hc cl (reached_sorted r) hi
  exact ⟨o, o1, x.holds_old cl hi o1, o2, C29_refl objs o⟩

/-- Every object that has a value, that is, every object not containing itself, can be cloned. -/
theorem C30_succeeds (H : StdHash) (g : Nat) (h : Heap) (r : Reached H g h) (i : Id) (hi : i < h.next) (o : Obj)
    (ho : HasValue h i o) : ∃ f c h', clone f h i = .ok (c, h') := by
  obtain ⟨c, h', hc⟩ := clone_ends o (levels o) (Nat.le_refl _) h i (reached_wired r).2 (reached_sorted r) hi ho
  exact ⟨_, c, h', hc⟩

/-- Cloning leaves the values of all objects alone, not only the one of the original. -/
theorem C30_others (H : StdHash) (g f : Nat) (h : Heap) (r : Reached H g h) (i c : Id) (hi : i < h.next) (h' : Heap)
    (hc : clone f h i = .ok (c, h')) (j : Id) (hj : j < h.next) (o : Obj) (ho : HasValue h j o) : HasValue h' j o := by
  have cl := (reached_wired r).2
  obtain ⟨_, x, _⟩ := clone_good f h i c h' hc cl (reached_sorted r) hi
  exact x.holds_old cl hj ho

theorem Extended.inside_new {h h' : Heap} (x : Extended h h') {a k : Id} (ha : h.next ≤ a) (ha' : a < h'.next)
    (n : Inside h' a k) : h.next < k ∧ k < h'.next := by
  induction n with
  | one a j hj => exact x.range a ha ha' j hj
  | more a m j hm _ ih =>
    obtain ⟨h1, h2⟩ := x.range a ha ha' m hm
    exact ih (Nat.le_of_lt h1) h2

theorem Extended.inside_old {h h' : Heap} (cl : Bounded h) (x : Extended h h') {a k : Id} (ha : a < h.next)
    (n : Inside h' a k) : k < h.next := by
  induction n with
  | one a j hj => rw [strip_children (x.old a ha)] at hj; exact cl a j hj
  | more a m j hm _ ih => rw [strip_children (x.old a ha)] at hm; exact ih (cl a m hm)

/-- **C30**: the clone has no part in common with anything that was there before. -/
theorem C30_disjoint (H : StdHash) (g f : Nat) (h : Heap) (r : Reached H g h) (i c : Id) (hi : i < h.next) (h' : Heap)
    (hc : clone f h i = .ok (c, h')) (j k : Id) (hj : j < h.next) (h1 : k = j ∨ Inside h' j k) : ¬(k = c ∨ Inside h' c k) := by
  have cl := (reached_wired r).2
  obtain ⟨rfl, x, _⟩ := clone_good f h i c h' hc cl (reached_sorted r) hi
  have hk : k < h.next := by
    rcases h1 with rfl | h1
    · exact hj
    · exact x.inside_old cl hj h1
  rintro (rfl | h2)
  · exact Nat.lt_irrefl _ hk
  · exact Nat.lt_asymm hk (x.inside_new (Nat.le_refl _) x.lt h2).1

/-- **C30**, partial: later changes to the clone and its parts, or to objects made later, and whatever else they do, leave the
original's value; and later changes to the original, or to anything but the clone and its parts, leave the clone's value.
Each operation of the later history is called on the object `Op.target`.  Missing: streams. -/
theorem C30_independent_partial (H : StdHash) (g f : Nat) (h : Heap) (r : Reached H g h) (i c : Id) (hi : i < h.next)
    (h' : Heap) (hc : clone f h i = .ok (c, h')) (o : Obj) (ho : HasValue h i o) (later : List Op) :
    ((∀ (n : Nat) (op : Op), later[n]? = some op → ∀ k, (k = i ∨ Inside h' i k) → op.target (run H g h' (later.take n)) ≠ k) →
      HasValue (run H g h' later) i o) ∧
    ((∀ (n : Nat) (op : Op), later[n]? = some op → ∀ k, (k = c ∨ Inside h' c k) → op.target (run H g h' (later.take n)) ≠ k) →
      HasValue (run H g h' later) c o) := by
  have cl := (reached_wired r).2
  obtain ⟨_, x, _, o', o1, o2⟩ := clone_good f h i c h' hc cl (reached_sorted r) hi
  obtain rfl := holds_unique ho o1
  exact ⟨fun hl => run_others H g later h' i _ (x.holds_old cl hi ho) hl, fun hl => run_others H g later h' c _ o2 hl⟩

/-- **C30** for one operation on the clone or on any of its parts: the original keeps its value, whatever the operation. -/
theorem C30_change (H : StdHash) (g f : Nat) (h : Heap) (r : Reached H g h) (i c : Id) (hi : i < h.next) (h' : Heap)
    (hc : clone f h i = .ok (c, h')) (o : Obj) (ho : HasValue h i o) (op : Op)
    (ht : op.target h' = c ∨ Inside h' c (op.target h')) : HasValue (step H g h' op).1 i o := by
  refine (C30_independent_partial H g f h r i c hi h' hc o ho [op]).1 ?_
  intro n op' hn k hk hk'
  match n with
  | 0 =>
    cases hn
    exact C30_disjoint H g f h r i c hi h' hc i k hi hk (by rw [← hk']; exact ht)
  | n + 1 => cases hn

/-! ### An example -/

/-- `<< /A [true (s)] /B 5 >>` -/
def cloneHistory : List Op :=
  [.create (.dict []), .create (.arr []), .create (.bool true), .create (.str false (b! "s") false), .create (.int 5),
    .append 1 2, .append 1 3, .insert 0 (b! "B") 4 false, .insert 0 (b! "A") 1 false]

theorem cloneHistory_reached : Reached gnuHash 9 (run gnuHash 9 Heap.empty cloneHistory) := by
  refine reached_run _ _ _ _ .start fun k op hk => ?_
  match k with
  | 0 | 1 | 2 | 3 | 4 | 5 | 6 | 7 | 8 => cases hk; exact ⟨by simp only [mentions]; decide, trivial⟩
  | n + 9 => simp [cloneHistory] at hk

theorem cloneHistory_holds : HasValue (run gnuHash 9 Heap.empty cloneHistory) 0
    (.dict [(b! "A", .arr [.bool true, .lit (b! "s")]), (b! "B", .int 5)]) :=
  .dict 0 [(b! "A", 1), (b! "B", 4)] _ rfl (.cons _ 1 _ _ _ (.arr 1 [2, 3] _ rfl
    (.cons 2 _ _ _ (.bool 2 true rfl) (.cons 3 _ _ _ (.lit 3 _ false rfl) .nil))) (.cons _ 4 _ _ _ (.int 4 5 rfl) .nil))

/-- The clone is object 5; changing the integer in it (object 9) changes the clone and not the original. -/
example : ∃ h', clone 9 (run gnuHash 9 Heap.empty cloneHistory) 0 = .ok (5, h') ∧
    HasValue (step gnuHash 9 h' (.setInt 9 7)).1 0 (.dict [(b! "A", .arr [.bool true, .lit (b! "s")]), (b! "B", .int 5)]) ∧
    HasValue (step gnuHash 9 h' (.setInt 9 7)).1 5 (.dict [(b! "A", .arr [.bool true, .lit (b! "s")]), (b! "B", .int 7)]) := by
  refine ⟨_, rfl, ?_, ?_⟩
  · refine C30_change gnuHash 9 9 _ cloneHistory_reached 0 5 (by decide) _ rfl _ cloneHistory_holds _ (.inr (.one _ _ ?_))
    decide
  · exact .dict 5 [(b! "A", 6), (b! "B", 9)] _ rfl (.cons _ 6 _ _ _ (.arr 6 [7, 8] _ rfl
      (.cons 7 _ _ _ (.bool 7 true rfl) (.cons 8 _ _ _ (.lit 8 _ true rfl) .nil))) (.cons _ 9 _ _ _ (.int 9 7 rfl) .nil))

/-- An array that contains itself cannot be cloned: the recursion does not end. -/
theorem C30_cycle_counterexample : ∀ f, clone f (run gnuHash 9 Heap.empty [.create (.arr []), .append 0 0]) 0 = .error .timeout := by
  suffices ∀ f (h : Heap), (h.node 0).body = .arr [0] → 0 < h.next → clone f h 0 = .error .timeout from
    fun f => this f _ rfl (by decide)
  intro f
  induction f with
  | zero => intro h _ _; rfl
  | succ f ih =>
    intro h hb hn
    rw [clone, hb]
    dsimp only
    rw [List.foldlM_cons, ih _ (by dsimp only; rw [if_neg (Nat.ne_of_lt hn)]; exact hb) (Nat.succ_pos _)]
    rfl

end VPdf
