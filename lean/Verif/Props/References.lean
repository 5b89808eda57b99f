import Verif.Lemmas.References
/-
  C95: following references.
-/
namespace VPdf
open Spec

/-- **C95** (partial): when a chain of references ends, every request for what is behind a reference at its beginning returns the
object at the end, whatever was asked before: whatever reference objects remember, and whoever holds the reference.  The depth
of calls depends on the chain alone.  Missing: chains that do not end (`C95_cycle_counterexample`). -/
theorem C95_end_partial (objs : Objects) (n : Nat) (k : Nat × Nat) (v : PObj) (h : ChainEnds objs n k v) :
    ∃ N, ∀ f, N ≤ f → ∀ (s : Remembers) (name : RefName), (derefKept objs f s ⟨name, k⟩ []).1 = .ok v := by
  obtain ⟨N, hN⟩ := derefKept_follows objs (n + 1)
  exact ⟨N, fun f hf s name => hN f hf s ⟨name, k⟩ n v (by omega) h⟩

/-- **C95** (partial), for requests one after the other: each returns the object at the end of its chain. -/
theorem C95_sequence_partial (objs : Objects) (m : Nat) : ∃ N, ∀ f, N ≤ f → ∀ (s : Remembers) (l : List (RefObject × PObj)),
    (∀ x ∈ l, ∃ n, n ≤ m ∧ ChainEnds objs n x.1.dest x.2) →
    (derefAll objs f s (l.map (·.1))).1 = l.map fun x => .ok x.2 := by
  obtain ⟨N, hN⟩ := derefKept_follows objs (m + 1)
  refine ⟨N, fun f hf s l => ?_⟩
  induction l generalizing s with
  | nil => intro _; rfl
  | cons x l ih =>
    intro h
    obtain ⟨n, hn, hc⟩ := h x (by simp)
    have h1 := hN f hf s x.1 n x.2 (by omega) hc
    have h2 := ih (derefKept objs f s x.1 []).2 (fun y hy => h y (by simp [hy]))
    simp only [List.map_cons, derefAll]
    rw [h1, h2]

/-- **C95** (partial): memory changes nothing: following references without any (`deref`, which the model of comparisons and
conversions uses) returns the same. -/
theorem C95_memory_partial (objs : Objects) (n : Nat) (k : Nat × Nat) (v : PObj) (h : ChainEnds objs n k v) (s : Remembers)
    (name : RefName) : ∃ N, ∀ f, N ≤ f →
      (derefKept objs f s ⟨name, k⟩ []).1 = .ok v ∧ deref objs f [] (.direct (.ref k.1 k.2)) = .ok v := by
  obtain ⟨N, hN⟩ := C95_end_partial objs n k v h
  exact ⟨N + n + 2, fun f hf => ⟨hN f (by omega) s name,
    deref_ends h f [] (by omega) (fun c hc => by cases hc)⟩⟩

/-- A chain of three references, the last one to a number. -/
def sampleChain : Objects := [((1, 0), .direct (.ref 2 0)), ((2, 0), .direct (.ref 3 0)), ((3, 0), .direct (.int 7)),
  ((5, 0), .direct (.ref 6 0)), ((6, 0), .direct (.ref 7 0)), ((7, 0), .direct (.ref 6 0))]

example : ChainEnds sampleChain 2 (1, 0) (.direct (.int 7)) :=
  .step (k' := (2, 0)) rfl (.step (k' := (3, 0)) rfl (.last rfl (fun _ _ h => by cases h)))

/-- A missing object ends a chain with null. -/
example : ChainEnds sampleChain 0 (9, 0) (.direct .null) := .last rfl (fun _ _ h => by cases h)

/-- **C95** fails of every chain that does not end, in every file: in a file just opened the first request behind a reference
that somebody holds fails with an error, as it should; the same request made again never returns, whatever depth of calls the
stack allows. -/
theorem C95_cycle_counterexample (objs : Objects) (k : Nat × Nat) (h : ChainCycles objs k) (i : Nat) :
    ∃ N, ∀ f, N ≤ f → (derefKept objs f (fun _ => false) ⟨.held i, k⟩ []).1 = .error .throw ∧
      ∀ f', (derefKept objs f' (derefKept objs f (fun _ => false) ⟨.held i, k⟩ []).2 ⟨.held i, k⟩ []).1 = .error .timeout := by
  obtain ⟨on, hk, hon⟩ := h
  refine ⟨objs.length + 2, fun f hf => ?_⟩
  obtain ⟨f, rfl⟩ : ∃ g, f = g + 1 := ⟨f - 1, by omega⟩
  obtain ⟨k', ho, hr⟩ := hon k hk
  have href : referencedObject (derefKept objs f) objs (fun _ => false) ⟨.held i, k⟩ =
      (.ok (.direct (.ref k'.1 k'.2)), fun x => if x = .held i then true else false) := by
    unfold referencedObject isInitialized
    simp only [Bool.not_false, if_true]
    rw [hr]
  have hfirst : derefKept objs (f + 1) (fun _ => false) ⟨.held i, k⟩ [] =
      derefKept objs f (fun x => if x = .held i then true else false) ⟨.object k, (k'.1, k'.2)⟩ [⟨false, k⟩] := by
    rw [derefKept, compareKeys]
    simp only [List.any_nil, Bool.false_eq_true, if_false]
    rw [compareKeys]
    dsimp only
    rw [href]
  rw [hfirst]
  refine walking_ends hon (i := i) (k := k) objs.length f _ ⟨.object k, (k'.1, k'.2)⟩ ⟨false, k⟩ [] ?_ ho (by simp) (by simp) (by omega)
  exact {
    name := rfl
    held := by simp
    objects := fun j => by simp
    fresh := fun d hd => by simp at hd; rw [hd]
    last := hr
    links := fun j hj => by cases hj
    nodup := by simp
    keys := by
      intro x hx
      simp at hx
      rw [hx]
      exact getIndirect_mem hr }

/-- The reference to 5 leads to a cycle of two objects. -/
example : ChainCycles sampleChain (5, 0) :=
  ⟨fun j => j = (5, 0) ∨ j = (6, 0) ∨ j = (7, 0), Or.inl rfl, fun j hj => by
    rcases hj with rfl | rfl | rfl
    · exact ⟨(6, 0), by simp, rfl⟩
    · exact ⟨(7, 0), by simp, rfl⟩
    · exact ⟨(6, 0), by simp, rfl⟩⟩

/-- Every chain ends or cycles. -/
theorem C95_ends_or_cycles (objs : Objects) (k : Nat × Nat) : (∃ n v, ChainEnds objs n k v) ∨ ChainCycles objs k := by
  by_cases h : ∃ n v, ChainEnds objs n k v
  · exact Or.inl h
  · refine Or.inr ⟨fun j => ¬ ∃ n v, ChainEnds objs n j v, h, fun j hj => ?_⟩
    by_cases hr : ∃ n g, getIndirect objs j.1 j.2 = .direct (.ref n g)
    · obtain ⟨n, g, hr⟩ := hr
      exact ⟨(n, g), fun ⟨m, v, hc⟩ => hj ⟨m + 1, v, .step (k' := (n, g)) hr hc⟩, hr⟩
    · exact absurd ⟨0, _, .last rfl fun n g he => hr ⟨n, g, he⟩⟩ hj

end VPdf
