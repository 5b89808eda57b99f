import Verif.Lemmas.HashCache
/-
  C28 Equal objects have equal hashes.
-/
namespace VPdf
open Spec

/-- The hash of `double` depends only on the number. -/
def RealHash (H : StdHash) : Prop := ∀ m n p q, m * 10 ^ q = n * 10 ^ p → H.hreal m p = H.hreal n q

/-- **C28**, values: the hash value computed anew depends only on type and content. -/
theorem C28_same (H : StdHash) (hr : RealHash H) (a b : Obj) (h : Same a b) : hashObj H a = hashObj H b := hash_same H hr h

/-- **C28**, values, partial: objects that compare equal have the same hash value.  Missing: comparisons of a direct object
with a reference, and of an integer with a real; see the counterexamples. -/
theorem C28_equal_partial (objs : Objects) (H : StdHash) (hr : RealHash H) (a b : Obj) (hc : comparable a b = true)
    (he : eqObj objs a b = .ok true) : hashObj H a = hashObj H b := by
  rcases eqObj_right objs a b hc with ⟨_, h2⟩ | ⟨h1, _⟩
  · exact hash_same H hr h2
  · rw [h1] at he; cases he

/-- **C28**, histories, partial: after any history of safe operations, the hash value returned, cached or not, is the one
computed anew from the present value.  Missing: the operations that are not safe, see the counterexamples. -/
theorem C28_cache_partial (H : StdHash) (f : Nat) (h : Heap) (r : HashReached H f h) (i : Id) (o : Obj) (ho : HasValue h i o)
    (hi : ∀ j, Inside h i j → (h.node j).init = true) (f' : Nat) (v : UInt64) (h' : Heap)
    (hv : hashNode H f' h i = .ok (v, h')) : v = hashObj H o := by
  obtain ⟨⟨o', h1, h2⟩, _⟩ := hashNode_good H f' h i v h' hv (hashReached_ok r) hi
  rw [h2, holds_unique h1 ho]

/-- **C28**, histories, partial: two objects that compare equal after such a history have equal hash values. -/
theorem C28_history_partial (objs : Objects) (H : StdHash) (hr : RealHash H) (f : Nat) (h : Heap) (r : HashReached H f h)
    (i j : Id) (a b : Obj) (ha : HasValue h i a) (hb : HasValue h j b) (hc : comparable a b = true) (he : eqObj objs a b = .ok true)
    (hi : ∀ k, Inside h i k → (h.node k).init = true) (hj : ∀ k, Inside h j k → (h.node k).init = true)
    (f' : Nat) (v w : UInt64) (h1 h2 : Heap) (hv : hashNode H f' h i = .ok (v, h1)) (hw : hashNode H f' h1 j = .ok (w, h2)) :
    v = w := by
  rw [C28_cache_partial H f h r i a ha hi f' v h1 hv]
  obtain ⟨_, ok⟩ := hashNode_good H f' h i v h1 hv (hashReached_ok r) hi
  have oc := hashNode_only H f' _ _ _ _ hv
  obtain ⟨⟨o', k1, k2⟩, _⟩ := hashNode_good H f' h1 j w h2 hw ok (fun k hk => by
    rw [oc.init]; exact hj k (inside_same oc.sameBodies hk))
  rw [k2, holds_unique k1 (holds_same oc.sameBodies hb)]
  exact C28_equal_partial objs H hr a b hc he

/-- The hash functions of the examples respect numbers. -/
theorem gnuHash_real : RealHash gnuHash := by
  intro m n p q h
  have e : m.tdiv (10 ^ p) = n.tdiv (10 ^ q) := by
    have hp : (0 : Int) < 10 ^ p := Int.pow_pos (by decide)
    have hq : (0 : Int) < 10 ^ q := Int.pow_pos (by decide)
    rw [← Int.mul_tdiv_mul_of_pos_left m (10 ^ p) hq, ← Int.mul_tdiv_mul_of_pos_left n (10 ^ q) hp, h, Int.mul_comm (10 ^ p)]
  simp only [gnuHash]
  push_cast
  rw [e]

/-! ### A history -/

/-- Two equal arrays with a boolean and a name; the hash of the first is taken, the boolean is changed and changed back, and
a name is changed for another one, then the other array is given the same name. -/
def hashHistory : List Op :=
  [.create (.arr []), .create (.bool true), .create (.name (b! "N")), .append 0 1, .append 0 2, .setInit 0 true,
    .create (.arr []), .create (.name (b! "M")), .create (.bool true), .append 3 5, .append 3 4, .setInit 3 true,
    .hash 0, .setBool 1 false, .hash 0, .setBool 1 true, .setName 2 (b! "M")]

theorem hashReached_run (H : StdHash) (f : Nat) (ops : List Op) : ∀ h, HashReached H f h →
    (∀ k op, ops[k]? = some op → HashSafe H f (run H f h (ops.take k)) op) → HashReached H f (run H f h ops) := by
  induction ops with
  | nil => intro h r _; exact r
  | cons op ops ih =>
    intro h r hp
    refine ih _ (.next h op r (hp 0 op rfl)) fun k o hk => ?_
    exact hp (k + 1) o hk

theorem inside_two {h : Heap} {a x y : Id} (ha : (h.node a).body = .arr [x, y]) (hx : (h.node x).body.children = [])
    (hy : (h.node y).body.children = []) {j : Id} (n : Inside h a j) : j = x ∨ j = y := by
  cases n with
  | one _ _ hj => rw [ha] at hj; simpa [Body.children] using hj
  | more _ z _ hz n =>
    rw [ha] at hz
    have hz : z = x ∨ z = y := by simpa [Body.children] using hz
    rcases hz with rfl | rfl
    · cases n with
      | one _ _ h => rw [hx] at h; cases h
      | more _ _ _ h _ => rw [hx] at h; cases h
    · cases n with
      | one _ _ h => rw [hy] at h; cases h
      | more _ _ _ h _ => rw [hy] at h; cases h

theorem hashHistory_reached : HashReached gnuHash 9 (run gnuHash 9 Heap.empty hashHistory) := by
  refine hashReached_run _ _ _ _ .start fun k op hk => ?_
  match k with
  | 0 | 1 | 2 | 3 | 4 | 6 | 7 | 8 | 9 | 10 | 13 | 15 | 16 =>
    cases hk
    exact ⟨⟨by simp only [mentions]; decide, trivial⟩, (by intro h; cases h), (by intro h; cases h)⟩
  | 5 | 11 =>
    cases hk
    exact ⟨⟨by simp only [mentions]; decide, trivial⟩, (by intro h; cases h), rfl⟩
  | 12 | 14 =>
    cases hk
    refine ⟨⟨by simp only [mentions]; decide, trivial⟩, (by intro h; cases h), fun j hj => ?_⟩
    rcases inside_two (x := 1) (y := 2) rfl rfl rfl hj with rfl | rfl <;> rfl
  | n + 17 => simp [hashHistory] at hk

example : ∃ v h1 h2, hashNode gnuHash 9 (run gnuHash 9 Heap.empty hashHistory) 0 = .ok (v, h1) ∧
    hashNode gnuHash 9 h1 3 = .ok (v, h2) ∧ v = hashObj gnuHash (.arr [.bool true, .name (b! "M")]) := by
  refine ⟨_, _, _, rfl, rfl, ?_⟩
  refine C28_cache_partial gnuHash 9 _ hashHistory_reached 0 (.arr [.bool true, .name (b! "M")]) ?_ ?_ 9 _ _ rfl
  · exact .arr _ [1, 2] _ rfl (.cons _ _ _ _ (.bool 1 true rfl) (.cons _ _ _ _ (.name 2 _ rfl) .nil))
  · intro j hj
    rcases inside_two (x := 1) (y := 2) rfl rfl rfl hj with rfl | rfl <;> rfl

/-! ### What goes wrong otherwise -/

/-- **C28** fails for references: an integer compares equal to a reference to it, but the hash values differ. -/
theorem C28_reference_counterexample :
    eqObj [((7, 0), .direct (.int 5))] (.int 5) (.ref 7 0) = .ok true ∧
    hashObj gnuHash (.int 5) ≠ hashObj gnuHash (.ref 7 0) := ⟨rfl, by decide⟩

/-- **C28** fails for numbers, whatever the hash function of reals, if only it tells 1.5 from 1.2. -/
theorem C28_number_counterexample (H : StdHash) (hr : H.hreal 15 1 ≠ H.hreal 12 1) :
    ∃ x, eqObj [] (.int 1) x = .ok true ∧ hashObj H (.int 1) ≠ hashObj H x := by
  by_cases h : hashObj H (.int 1) = hashObj H (.real 15 1)
  · exact ⟨.real 12 1, rfl, by rw [h]; exact hr⟩
  · exact ⟨.real 15 1, rfl, h⟩

/-- **C28** fails after an unnoticed change: two equal arrays of one integer each; the hash of the first was taken before its
integer was changed to 6. -/
theorem C28_integer_counterexample :
    let h := run gnuHash 9 Heap.empty [.create (.arr []), .create (.int 5), .append 0 1, .create (.arr []), .create (.int 6),
      .append 2 3, .setInit 0 true, .setInit 2 true, .hash 0, .setInt 1 6]
    HasValue h 0 (.arr [.int 6]) ∧ HasValue h 2 (.arr [.int 6]) ∧
    (hashNode gnuHash 9 h 0).map Prod.fst = .ok 5 ∧ (hashNode gnuHash 9 h 2).map Prod.fst = .ok 6 :=
  ⟨.arr _ [1] _ rfl (.cons _ _ _ _ (.int 1 6 rfl) .nil), .arr _ [3] _ rfl (.cons _ _ _ _ (.int 3 6 rfl) .nil), rfl, rfl⟩

/-- **C28** fails after clearing an array. -/
theorem C28_clear_counterexample :
    let h := run gnuHash 9 Heap.empty [.create (.arr []), .create (.int 5), .append 0 1, .create (.arr []), .setInit 0 true,
      .setInit 2 true, .hash 0, .clearArr 0]
    HasValue h 0 (.arr []) ∧ HasValue h 2 (.arr []) ∧
    (hashNode gnuHash 9 h 0).map Prod.fst = .ok 5 ∧ (hashNode gnuHash 9 h 2).map Prod.fst = .ok 0 :=
  ⟨.arr _ [] _ rfl .nil, .arr _ [] _ rfl .nil, rfl, rfl⟩

/-- **C28** fails when a part is not initialised, as every newly created object: its changes do not reset the cache of the
array around it. -/
theorem C28_created_counterexample :
    let h := run gnuHash 9 Heap.empty [.create (.arr []), .create (.bool true), .append 0 1, .create (.arr []),
      .create (.bool false), .append 2 3, .hash 0, .setBool 1 false]
    HasValue h 0 (.arr [.bool false]) ∧ HasValue h 2 (.arr [.bool false]) ∧
    (hashNode gnuHash 9 h 0).map Prod.fst = .ok 1 ∧ (hashNode gnuHash 9 h 2).map Prod.fst = .ok 0 :=
  ⟨.arr _ [1] _ rfl (.cons _ _ _ _ (.bool 1 false rfl) .nil), .arr _ [3] _ rfl (.cons _ _ _ _ (.bool 3 false rfl) .nil),
    rfl, rfl⟩

end VPdf
