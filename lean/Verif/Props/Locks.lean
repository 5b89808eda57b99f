import Verif.Lemmas.LocksOnce
/-
  Calls of several threads on one file (C90-C92).
-/
namespace VPdf
open Spec

section
variable {L : Layout} {calls : List (List Call)} {sched : List Nat} {t : Threads}

/-- **C90** (partial): if no length of a stream is a reference, object streams are at offsets, and references are compared in one
order only, threads never wait for each other.  Missing: lengths that are references, and comparisons in both orders, for which
it is false, see the counterexamples. -/
theorem C90_no_deadlock_partial (hL : NoNesting L) (hc : ∀ l ∈ calls, ∀ c ∈ l, Ascending c)
    (h : (Threads.start calls).run L sched = some t) : ¬ Deadlock L t := by
  obtain ⟨B, hb⟩ := bound_exists calls
  obtain ⟨held, hs⟩ := run_inOrder hL sched (inOrder_start (B := B) hc hb) h
  exact fun hd => hd.1 (sorted_progress hs hd.2)

/-- **C90** (partial): and no schedule goes on for ever, so that all calls return however the threads are scheduled. -/
theorem C90_all_return_partial (hL : NoNesting L) (calls : List (List Call)) :
    ∃ N, ∀ sched t, (Threads.start calls).run L sched = some t → sched.length ≤ N :=
  ⟨(Threads.start calls).weight L, fun sched _ h => by have := run_weight hL sched h; omega⟩

/-- **C90**, for every file and any calls: one thread alone never waits for a lock. -/
theorem C90_one_thread {cs : List Call} (h : (Threads.start [cs]).run L sched = some t) : ¬ Deadlock L t := by
  obtain ⟨held, hs⟩ := run_fair sched (fair_start [cs]) h
  have hl : t.todo.length = 1 := by rw [run_length sched h]; rfl
  exact fun hd => hd.1 (alone_goes_on hs hl hd.2)

/-- **C90**, for every file and any calls: when all calls have returned, no lock is left taken. -/
theorem C90_locks_free (h : (Threads.start calls).run L sched = some t) (hr : AllReturned t) (l : Mutex) : t.sh.owner l = none := by
  obtain ⟨held, hs⟩ := run_fair sched (fair_start calls) h
  exact fair_free hs hr l

/-- **C90**, for every file and any calls: a thread unlocks only locks that it has. -/
theorem C90_unlock_own {i : Nat} {l : Mutex} {r : List Act} (h : (Threads.start calls).run L sched = some t)
    (hi : t.todo[i]? = some (.release l :: r)) : ∃ k, t.sh.owner l = some (i, k) := by
  obtain ⟨held, hs⟩ := run_fair sched (fair_start calls) h
  obtain ⟨h', hh, _⟩ := hs.2.1 i _ hi
  have hmem : l ∈ held i := by rw [hh]; simp
  have := hs.1 l
  cases ho : t.sh.owner l with
  | none => rw [ho] at this; exact absurd hmem (this i)
  | some x =>
    obtain ⟨j, k⟩ := x
    rw [ho] at this
    have : i = j := Decidable.byContradiction fun hne => this.2.2 i hne hmem
    exact ⟨k, by rw [this]⟩

/-- **C91**, for every file whose object streams list their objects: when the calls of a thread have returned, the objects it asked
for are stored, and the data of the streams it asked for. -/
theorem C91_stored (hm : ∀ n s, L.place n = .packed s → n ∈ L.members s) (h : (Threads.start calls).run L sched = some t) {i : Nat}
    {cs : List Call} (hc : calls[i]? = some cs) (hr : t.todo[i]? = some []) :
    (∀ c ∈ cs, ∀ n, Asks c n → n ∈ t.sh.log) ∧ ∀ n, .data n ∈ cs → t.sh.bodies n = true := by
  have hk := promise_kept (run_promise hm sched (promise_start L calls) h) hc hr
  have hlog := run_logged sched (t := Threads.start calls) (fun n => by simp [Threads.start]) h
  exact ⟨fun c hcs n ha => (hlog n).mp (hk.1 c hcs n ha), hk.2⟩

/-- **C91** (partial): an object in one place is stored at most once, however many threads ask for it.  Missing: streams with a
reference as Length, files whose object streams list objects that are elsewhere by now, for which it is false, see the
counterexample. -/
theorem C91_once_partial (hL : NoNesting L) {n : Nat} (hn : OnePlace L n) (h : (Threads.start calls).run L sched = some t) :
    t.sh.log.count n ≤ 1 := by
  unfold OnePlace at hn
  cases hp : L.place n with
  | used k =>
    rw [hp] at hn
    obtain ⟨held, hs⟩ := run_onceUsed (lengthOf_nil hL n) hn sched (onceUsed_start n calls) h
    rw [hs.count]; split <;> omega
  | packed s =>
    rw [hp] at hn
    obtain ⟨held, hs⟩ := run_oncePacked hL hp hn.1 hn.2 sched (oncePacked_start L n s calls) h
    exact hs.le_one

/-- **C92** (partial): two threads are never about to store the same object.  Missing: a thread that reads the flag of an object
while another one stores the object, which happens, see the counterexample. -/
theorem C92_one_writer_partial (hL : NoNesting L) {n : Nat} (hn : OnePlace L n) (h : (Threads.start calls).run L sched = some t)
    {i j : Nat} {l m : List Act} (hi : t.todo[i]? = some (.mark n :: l)) (hj : t.todo[j]? = some (.mark n :: m)) : i = j := by
  unfold OnePlace at hn
  cases hp : L.place n with
  | used k =>
    rw [hp] at hn
    obtain ⟨held, hs⟩ := run_onceUsed (lengthOf_nil hL n) hn sched (onceUsed_start n calls) h
    rcases hs.place i _ hi with h | ⟨_, h1, _⟩
    · exact absurd (by simp) h
    · rcases hs.place j _ hj with h | ⟨_, h2, _⟩
      · exact absurd (by simp) h
      · exact hs.fair.1.unique h1 h2
  | packed s =>
    rw [hp] at hn
    obtain ⟨held, hs⟩ := run_oncePacked hL hp hn.1 hn.2 sched (oncePacked_start L n s calls) h
    rcases hs.place i _ hi with h | ⟨_, h1⟩
    · exact absurd (by simp) h.1
    · rcases hs.place j _ hj with h | ⟨_, h2⟩
      · exact absurd (by simp) h.1
      · exact hs.fair.1.unique (h1.stm (hs.fair.2.1 i _ hi)) (h2.stm (hs.fair.2.1 j _ hj))
end

/-! ### examples and counterexamples -/

/-- A file: 1 and 2 at offsets, 3 an object stream with 4 and 5, whose N is the object 2. -/
def packedLayout : Layout where
  place n := if n = 4 ∨ n = 5 then .packed 3 else .used none
  heads s := if s = 3 then [2] else []
  members s := if s = 3 then [4, 5] else []

theorem packedLayout_noNesting : NoNesting packedLayout := by
  refine ⟨fun n k h => ?_, fun n s h => ?_, fun s h hh => ?_⟩
  · simp only [packedLayout] at h; split at h <;> cases h
  · simp only [packedLayout] at h
    split at h
    · injection h with h; subst h; exact ⟨none, rfl⟩
    · cases h
  · simp only [packedLayout] at hh
    split at hh
    · simp at hh; subst hh; exact ⟨none, rfl⟩
    · cases hh

/-- Three threads on this file. -/
def threeThreads : List (List Call) := [[.object 4, .data 1], [.follow 7 5, .object 1], [.compare 6 7, .object 4]]

example : ∀ l ∈ threeThreads, ∀ c ∈ l, Ascending c := by
  intro l hl c hc
  simp only [threeThreads, List.mem_cons, List.not_mem_nil, or_false] at hl
  rcases hl with rfl | rfl | rfl <;> simp at hc <;> rcases hc with rfl | rfl <;> simp [Ascending]

example : OnePlace packedLayout 4 ∧ OnePlace packedLayout 1 := by
  refine ⟨⟨rfl, fun s' h => ?_⟩, fun s => ?_⟩
  · simp [packedLayout, h]
  · simp only [packedLayout]; split <;> simp

example : ∀ n s, packedLayout.place n = .packed s → n ∈ packedLayout.members s := by
  intro n s h
  simp only [packedLayout] at h ⊢
  split at h
  · rename_i hn; injection h with h; subst h; simpa using hn
  · cases h

/-- Which threads run until all calls have returned, if each runs as long as it can. -/
def greedy (L : Layout) : Nat → Threads → List Nat → List Nat × Threads
  | 0, t, acc => (acc.reverse, t)
  | f + 1, t, acc =>
    match (List.range t.todo.length).findSome? fun i => (t.step L i).map fun u => (i, u) with
    | some (i, u) => greedy L f u (i :: acc)
    | none => (acc.reverse, t)

-- all three threads return, and every object has been stored once
set_option maxRecDepth 100000 in
example : ((Threads.start threeThreads).run packedLayout (greedy packedLayout 100 (.start threeThreads) []).1).map
    (fun t => (t.todo, t.sh.log)) = some ([[], [], []], [1, 5, 4, 2, 3]) := by decide +kernel

-- and in another order, in which the second thread unpacks and the first one waits for it
set_option maxRecDepth 100000 in
example : ((Threads.start threeThreads).run packedLayout [1, 1, 1, 0, 1, 1, 1, 1]).map
    (fun t => (t.todo.map List.length, t.sh.log, (t.step packedLayout 0).isNone)) = some ([5, 6, 5], [], true) := by decide +kernel

/-- Steps of a list of threads, for the counterexamples. -/
theorem deadlock_of_check {L : Layout} {t : Threads} (h1 : t.todo.any (fun l => !l.isEmpty) = true)
    (h2 : (List.range t.todo.length).all (fun i => (t.step L i).isNone) = true) : Deadlock L t := by
  refine ⟨fun hr => ?_, fun i => ?_⟩
  · obtain ⟨l, hl, hne⟩ := List.any_eq_true.mp h1
    rw [hr l hl] at hne; cases hne
  · by_cases hi : i < t.todo.length
    · have := List.all_eq_true.mp h2 i (List.mem_range.mpr hi)
      simpa using this
    · unfold Threads.step
      rw [List.getElem?_eq_none (by omega)]

theorem deadlock_run {L : Layout} {calls : List (List Call)} {sched : List Nat}
    (h : ((Threads.start calls).run L sched).any (fun t => t.todo.any (fun l => !l.isEmpty) &&
      (List.range t.todo.length).all (fun i => (t.step L i).isNone)) = true) :
    ∃ t, (Threads.start calls).run L sched = some t ∧ Deadlock L t := by
  cases ht : (Threads.start calls).run L sched with
  | none => rw [ht] at h; cases h
  | some t =>
    rw [ht] at h
    simp only [Option.any_some, Bool.and_eq_true] at h
    exact ⟨t, rfl, deadlock_of_check h.1 h.2⟩

/-- A file with a stream 5 whose Length is the object 6. -/
def lengthLayout : Layout where
  place n := if n = 5 then .used (some 6) else .used none
  heads _ := []
  members _ := []

/-- **C90** (counterexample): one thread loads a stream, another one the object its Length refers to.  The first has the input and
waits for the entry of the length, the second has this entry and waits for the input. -/
theorem C90_length_counterexample : ∃ sched t, (Threads.start [[.object 5], [.object 6]]).run lengthLayout sched = some t ∧
    Deadlock lengthLayout t :=
  ⟨[0, 0, 0, 0, 0, 1, 1, 1], deadlock_run (by decide +kernel)⟩

/-- A file with a stream 5 whose Length is the object 6 in the object stream 3. -/
def packedLengthLayout : Layout where
  place n := if n = 5 then .used (some 6) else if n = 6 then .packed 3 else .used none
  heads _ := []
  members s := if s = 3 then [6] else []

/-- **C90** (counterexample): the same with a length in an object stream, and a thread that asks for any object of it: the first
thread has the input and waits for the object streams, the second one has these and waits for the input. -/
theorem C90_packed_length_counterexample : ∃ sched t,
    (Threads.start [[.object 5], [.object 6]]).run packedLengthLayout sched = some t ∧ Deadlock packedLengthLayout t :=
  ⟨[0, 0, 0, 0, 0, 1, 1, 1, 1, 1], deadlock_run (by decide +kernel)⟩

/-- **C90** (counterexample): two threads compare the same two references, in different order. -/
theorem C90_compare_counterexample : ∃ sched t, (Threads.start [[.compare 1 2], [.compare 2 1]]).run packedLayout sched = some t ∧
    Deadlock packedLayout t :=
  ⟨[0, 1], deadlock_run (by decide +kernel)⟩

/-- A file after an update: the object 4 has been written at an offset, the object stream 3 of the first revision still lists it. -/
def updatedLayout : Layout where
  place n := if n = 5 then .packed 3 else .used none
  heads _ := []
  members s := if s = 3 then [4, 5] else []

/-- **C91** (counterexample): the object 4 is stored, and the old one is stored in its place when another object of the object
stream is asked for; here by one thread. -/
theorem C91_updated_counterexample : NoNesting updatedLayout ∧ ∃ sched t,
    (Threads.start [[.object 4, .object 5]]).run updatedLayout sched = some t ∧ AllReturned t ∧ t.sh.log.count 4 = 2 := by
  refine ⟨⟨fun n k h => ?_, fun n s h => ?_, fun s h hh => nomatch hh⟩, ?_⟩
  · simp only [updatedLayout] at h; split at h <;> cases h
  · simp only [updatedLayout] at h
    split at h
    · injection h with h; subst h; exact ⟨none, rfl⟩
    · cases h
  · have h : ((Threads.start [[.object 4, .object 5]]).run updatedLayout (List.replicate 32 0)).any
        (fun t => t.todo.all List.isEmpty && t.sh.log.count 4 == 2) = true := by decide +kernel
    cases ht : (Threads.start [[.object 4, .object 5]]).run updatedLayout (List.replicate 32 0) with
    | none => rw [ht] at h; cases h
    | some t =>
      rw [ht] at h
      simp only [Option.any_some, Bool.and_eq_true] at h
      refine ⟨_, t, ht, fun l hl => ?_, by simpa using h.2⟩
      simpa using List.all_eq_true.mp h.1 l hl

/-- **C92** (counterexample): two threads ask for the same object.  One is about to store it, with its locks taken; the other one
looks at the flag without a lock.  The flag is a plain `bool`: a data race, in any file, with two calls. -/
theorem C92_flag_counterexample : NoNesting packedLayout ∧ OnePlace packedLayout 1 ∧ ∃ sched t,
    (Threads.start [[.object 1], [.object 1]]).run packedLayout sched = some t ∧ FlagRace t 1 := by
  refine ⟨packedLayout_noNesting, fun s => by simp only [packedLayout]; split <;> simp, [0, 0, 0, 0], ?_⟩
  have h : ((Threads.start [[.object 1], [.object 1]]).run packedLayout [0, 0, 0, 0]).any (fun t => t.todo ==
      [[.mark 1, .release .input, .release (.entry 1)], [.load 1]]) = true := by decide +kernel
  cases ht : (Threads.start [[.object 1], [.object 1]]).run packedLayout [0, 0, 0, 0] with
  | none => rw [ht] at h; cases h
  | some t =>
    rw [ht] at h
    have hd : t.todo = [[.mark 1, .release .input, .release (.entry 1)], [.load 1]] := by simpa using h
    exact ⟨t, rfl, 0, 1, .load 1, _, _, by decide, by rw [hd]; rfl, by rw [hd]; rfl, Or.inr (Or.inl rfl)⟩

end VPdf
