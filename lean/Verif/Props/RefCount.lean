/-
  C51: reference counting under every schedule.  C72: weak references.
-/
import Verif.Lemmas.RefCount

namespace VPdf

namespace Spec

/-- The references that all threads together hold. -/
def references (s : RState) : Nat := (s.threads.map fun th => th.strong).sum

/-- No thread is inside a call. -/
def quiet (s : RState) : Prop := ∀ th ∈ s.threads, th.pc = .idle

/-- What users of a reference counted object rely on: nobody touches the object after its destruction, it is not
destroyed while a reference is held, it is destroyed and freed at most once, and when no reference is left it is
gone or the one thread that released the last reference is about to destroy it. -/
structure SafelyCounted (s : RState) : Prop where
  no_ub : s.ub = false
  alive : 0 < references s → s.destructions = 0 ∧ s.frees = 0
  once : s.destructions ≤ 1 ∧ s.frees ≤ s.destructions
  last : references s = 0 → s.destructions = 0 → (s.threads.filter fun th => th.pc = .deleting).length = 1
  gone : references s = 0 → quiet s → s.destructions = 1 ∧ s.frees = 1

/-- A schedule in which every call runs to its end before another thread continues, as under a lock or with only
one thread. -/
def serial (calls : List (Nat × RAction)) : List (Nat × RAction) :=
  calls.flatMap fun c => [c, (c.1, .advance), (c.1, .advance)]

end Spec

theorem count_pc (p : RPc) : ∀ l : List RThread,
    (l.map fun th => if th.pc = p then 1 else 0).sum = (l.filter fun th => th.pc = p).length := by
  intro l
  induction l with
  | nil => rfl
  | cons x xs ih =>
    by_cases h : x.pc = p
    · simp [h] at ih ⊢
      omega
    · simp [h] at ih ⊢
      omega

theorem RInv.counted {s : RState} (h : RInv s) : Spec.SafelyCounted s := by
  have hd := h.destroy
  have hf := h.free
  have hle : (if s.held = 0 then 1 else 0) ≤ 1 := by split <;> omega
  refine ⟨h.ub, ?_, by omega, ?_, ?_⟩
  · intro hp
    have hp : 0 < s.held := hp
    rw [if_neg (by omega)] at hd
    omega
  · intro hp h0
    have hp : s.held = 0 := hp
    rw [if_pos hp] at hd
    rw [← count_pc]
    change s.at .deleting = 1
    omega
  · intro hp hq
    have hp : s.held = 0 := hp
    rw [if_pos hp] at hd
    have hz : ∀ p, p ≠ .idle → s.at p = 0 := by
      intro p hne
      have : s.at p = (s.threads.filter fun th => th.pc = p).length := count_pc p s.threads
      rw [this, List.length_eq_zero_iff, List.filter_eq_nil_iff]
      intro th hth hx
      rw [hq th hth] at hx
      exact hne (of_decide_eq_true hx).symm
    have h1 := hz .deleting (by simp)
    have h2 := hz .freeing (by simp)
    omega

/-- **C51** (as long as there are less than 2^32 references, see `C51_counterexample`). Any number of threads copy,
release and pass on references they hold, in any order of their atomic steps: the object is destroyed exactly
once, by the thread that released the last reference, and is never touched after that. -/
theorem C51_schedules_partial (others : Nat) (schedule : List (Nat × RAction))
    (hstrong : ∀ x ∈ schedule, x.2 ≠ .upgrade)
    (hmany : ∀ k, Spec.references ((RState.start others).run (schedule.take k)) < 2 ^ 32) :
    Spec.SafelyCounted ((RState.start others).run schedule) := by
  obtain ⟨h1, h2, h3⟩ := RInv.start others
  exact (RInv.run schedule _ h1 (h3 _ (by simp)) hstrong hmany).1.counted

/-- Three threads; the second one destroys the object, interleaved with a release of the third. -/
def sampleSchedule : List (Nat × RAction) :=
  [(0, .copy), (0, .pass 1), (0, .copy), (0, .pass 2), (0, .release), (0, .advance), (2, .release), (1, .release),
    (2, .advance), (1, .advance), (1, .advance)]

example : (∀ x ∈ sampleSchedule, x.2 ≠ .upgrade) ∧
    (∀ k < 12, Spec.references ((RState.start 2).run (sampleSchedule.take k)) < 2 ^ 32) ∧
    ((RState.start 2).run (sampleSchedule.take 8)).destructions = 0 ∧
    ((RState.start 2).run sampleSchedule).destructions = 1 ∧
    ((RState.start 2).run sampleSchedule).frees = 1 := by decide +kernel

/-- **C51**: releasing the last reference destroys the object before the call returns. -/
theorem C51_last_release (others : Nat) (schedule : List (Nat × RAction))
    (hstrong : ∀ x ∈ schedule, x.2 ≠ .upgrade)
    (hmany : ∀ k, Spec.references ((RState.start others).run (schedule.take k)) < 2 ^ 32)
    (hone : Spec.references ((RState.start others).run schedule) = 1)
    (hquiet : Spec.quiet ((RState.start others).run schedule))
    (t : Nat) (th : RThread) (ht : ((RState.start others).run schedule).threads[t]? = some th)
    (hholds : th.strong = 1) :
    let s := ((RState.start others).run schedule).run [(t, .release), (t, .advance), (t, .advance)]
    s.ub = false ∧ Spec.references s = 0 ∧ s.destructions = 1 ∧ s.frees = 1 := by
  obtain ⟨h1, h2, h3⟩ := RInv.start others
  have h := (RInv.run schedule _ h1 (h3 _ (by simp)) hstrong hmany).1
  generalize (RState.start others).run schedule = s0 at *
  have hz : ∀ p, p ≠ .idle → s0.at p = 0 := by
    intro p hne
    have : s0.at p = (s0.threads.filter fun th => th.pc = p).length := count_pc p s0.threads
    rw [this, List.length_eq_zero_iff, List.filter_eq_nil_iff]
    intro th hth hx
    rw [hquiet th hth] at hx
    exact hne (of_decide_eq_true hx).symm
  have hq : RQuiet s0 := ⟨hz _ (by simp), hz _ (by simp), hz _ (by simp)⟩
  have hpc := hq.idle ht
  have hheld : s0.held = 1 := hone
  -- the number of references after the call
  have hc : s0.counter - 1 = 0 := by
    have := h.counter
    rw [hheld] at this
    have : s0.counter = 1 := by
      rw [← UInt32.toNat_inj]
      exact this
    rw [this]
    rfl
  have hd := h.alive (by omega)
  have hf : s0.frees = 0 := by have := h.free; omega
  have hub := h.ub
  have hg := put_get (s := { s0 with counter := s0.counter - 1 }) (t := t) (th := th) ht
    { strong := th.strong - 1, pc := .deleting }
  have e1 : s0.step (t, .release) = { s0 with counter := s0.counter - 1 }.put t
      { strong := th.strong - 1, pc := .deleting } := by
    rw [RState.step, if_neg (by rw [hub]; simp)]
    dsimp only
    rw [ht]
    dsimp only
    rw [hpc]
    dsimp only
    rw [if_neg (by omega), RState.decrement, if_neg (by omega)]
    dsimp only
    rw [if_pos hc]
  have hsum := held_put (s := { s0 with counter := s0.counter - 1 }) (t := t) (th := th) ht
    { strong := th.strong - 1, pc := .deleting }
  have hsum' : RState.held { s0 with counter := s0.counter - 1 } = s0.held := rfl
  dsimp only at hsum
  have h0 : ({ s0 with counter := s0.counter - 1 }.put t { strong := th.strong - 1, pc := .deleting } : RState).held = 0 := by
    omega
  have hend : (s0.run [(t, .release), (t, .advance), (t, .advance)]).held = 0 := by
    have : s0.run [(t, .release), (t, .advance), (t, .advance)] =
      ((s0.step (t, .release)).step (t, .advance)).step (t, .advance) := rfl
    rw [this, e1]
    have hi := (h.decrement ht (by omega) hpc).1
    have e1' : s0.decrement t th = { s0 with counter := s0.counter - 1 }.put t
        { strong := th.strong - 1, pc := .deleting } := by
      rw [RState.decrement, if_neg (by omega)]
      dsimp only
      rw [if_pos hc]
    rw [e1'] at hi
    generalize ({ s0 with counter := s0.counter - 1 }.put t { strong := th.strong - 1, pc := .deleting } : RState) = s1 at *
    have hs1 : s1.step (t, .advance) = s1.destruct t { strong := th.strong - 1, pc := .deleting } := by
      rw [RState.step, if_neg (by rw [hi.ub]; simp)]
      dsimp only
      rw [hg]
    obtain ⟨hi2, hh2, h02⟩ := hi.destruct hg rfl
    have hg2 : (s1.destruct t { strong := th.strong - 1, pc := .deleting }).threads[t]? =
        some { strong := th.strong - 1, pc := .freeing } := by
      rw [RState.destruct, if_neg (by omega)]
      exact put_get (s := { s1 with destructions := s1.destructions + 1, active := false }) hg _
    rw [hs1]
    generalize s1.destruct t { strong := th.strong - 1, pc := .deleting } = s2 at *
    have hs2 : s2.step (t, .advance) = s2.free t { strong := th.strong - 1, pc := .freeing } := by
      rw [RState.step, if_neg (by rw [hi2.ub]; simp)]
      dsimp only
      rw [hg2]
    rw [hs2, (hi2.free_step hg2 rfl).2, hh2, h0]
  obtain ⟨hcall, hcallq⟩ := h.call hq t .release (by rw [hend]; decide)
  have hcounted := hcall.counted
  obtain ⟨hx, hy⟩ := hcounted.gone hend (by
    intro th hth
    obtain ⟨i, hi⟩ := List.mem_iff_getElem?.mp hth
    exact hcallq.idle hi)
  exact ⟨hcall.ub, hend, hx, hy⟩

example : let schedule : List (Nat × RAction) := [(0, .copy), (0, .pass 1), (0, .release)]
    Spec.references ((RState.start 1).run schedule) = 1 ∧
    (∀ th ∈ ((RState.start 1).run schedule).threads, th.pc = .idle) ∧
    ((RState.start 1).run schedule).threads[1]? = some { strong := 1, pc := .idle } := by decide +kernel

/-- Copies by the first thread when there is nobody else. -/
theorem run_copies : ∀ (n : Nat) (c : UInt32) (k : Nat),
    (RState.mk c true 0 0 false [{ strong := k + 1, pc := .idle }]).run (List.replicate n (0, .copy)) =
      RState.mk (c + UInt32.ofNat n) true 0 0 false [{ strong := k + n + 1, pc := .idle }] := by
  intro n
  induction n with
  | zero =>
    intro c k
    have : c + UInt32.ofNat 0 = c := by simp
    rw [this]
    rfl
  | succ n ih =>
    intro c k
    have h1 : (RState.mk c true 0 0 false [{ strong := k + 1, pc := .idle }]).run
        (List.replicate (n + 1) (0, .copy)) =
      ((RState.mk c true 0 0 false [{ strong := k + 1, pc := .idle }]).step (0, .copy)).run
        (List.replicate n (0, .copy)) := rfl
    have h2 : (RState.mk c true 0 0 false [{ strong := k + 1, pc := .idle }]).step (0, .copy) =
        RState.mk (c + 1) true 0 0 false [{ strong := k + 1 + 1, pc := .idle }] := rfl
    rw [h1, h2, ih]
    have h3 : c + 1 + UInt32.ofNat n = c + UInt32.ofNat (n + 1) := by
      rw [UInt32.ofNat_add, UInt32.add_assoc, UInt32.add_comm 1]
      rfl
    rw [h3]
    congr 3
    omega

/-- The claim **C51** is false for more than 2^32 references: the 32-bit counter wraps around, and after 2^32
copies the first release destroys the object although 2^32 references are still held. -/
theorem C51_counterexample :
    ∃ schedule : List (Nat × RAction), (∀ x ∈ schedule, x.2 ≠ .upgrade) ∧
      let s := (RState.start 0).run schedule
      s.destructions = 1 ∧ s.frees = 1 ∧ Spec.references s = 2 ^ 32 := by
  refine ⟨List.replicate (2 ^ 32) (0, .copy) ++ [(0, .release), (0, .advance), (0, .advance)], ?_, ?_⟩
  · intro x hx
    rw [List.mem_append, List.mem_replicate] at hx
    rcases hx with ⟨-, rfl⟩ | hx
    · simp
    · simp at hx
      rcases hx with rfl | rfl <;> simp
  · have hstart : RState.start 0 = RState.mk 1 true 0 0 false [{ strong := 0 + 1, pc := .idle }] := rfl
    rw [RState.run_append, hstart, run_copies]
    decide +kernel

theorem RInv.serial : ∀ (calls : List (Nat × RAction)) (s : RState), RInv s → RQuiet s →
    (∀ k, Spec.references (s.run (Spec.serial (calls.take k))) < 2 ^ 32) →
    RInv (s.run (Spec.serial calls)) ∧ RQuiet (s.run (Spec.serial calls)) := by
  intro calls
  induction calls with
  | nil => intro s h hq _; exact ⟨h, hq⟩
  | cons c cs ih =>
    intro s h hq hm
    obtain ⟨t, a⟩ := c
    obtain ⟨hi, hq'⟩ := h.call hq t a (hm 1)
    have he : ∀ cs, s.run (Spec.serial ((t, a) :: cs)) =
        (s.run [(t, a), (t, .advance), (t, .advance)]).run (Spec.serial cs) := by
      intro cs
      rw [Spec.serial, List.flatMap_cons, RState.run_append]
      rfl
    rw [he]
    refine ih _ hi hq' (fun k => ?_)
    rw [← he]
    exact hm (k + 1)

/-- **C72** (for calls that are not interrupted, see the counterexamples). Threads copy, release, pass on references
and turn weak references into references; if each of these calls runs to its end before another one starts,
the object is counted correctly.  With a single thread this is always so. -/
theorem C72_serial_partial (others : Nat) (calls : List (Nat × RAction))
    (hmany : ∀ k, Spec.references ((RState.start others).run (Spec.serial (calls.take k))) < 2 ^ 32) :
    Spec.SafelyCounted ((RState.start others).run (Spec.serial calls)) := by
  obtain ⟨h1, h2, h3⟩ := RInv.start others
  exact (RInv.serial calls _ h1 ⟨h3 _ (by simp), h3 _ (by simp), h3 _ (by simp)⟩ hmany).1.counted

/-- A weak reference is used while the object exists, and again when it is gone. -/
def sampleCalls : List (Nat × RAction) :=
  [(1, .upgrade), (0, .release), (2, .upgrade), (1, .release), (2, .release), (1, .upgrade)]

example : (∀ k < 7, Spec.references ((RState.start 2).run (Spec.serial (sampleCalls.take k))) < 2 ^ 32) ∧
    Spec.references ((RState.start 2).run (Spec.serial (sampleCalls.take 3))) = 2 ∧
    ((RState.start 2).run (Spec.serial (sampleCalls.take 5))).destructions = 1 ∧
    Spec.references ((RState.start 2).run (Spec.serial sampleCalls)) = 0 := by decide +kernel

/-- **C72**: under the same condition, a weak reference gives a new reference exactly while the object exists. -/
theorem C72_upgrade_partial (others : Nat) (calls : List (Nat × RAction))
    (hmany : ∀ k, Spec.references ((RState.start others).run (Spec.serial (calls.take k))) < 2 ^ 32)
    (t : Nat) (th : RThread) (ht : ((RState.start others).run (Spec.serial calls)).threads[t]? = some th) :
    let s := (RState.start others).run (Spec.serial calls)
    (s.run (Spec.serial [(t, .upgrade)])).threads[t]? =
        some { strong := if s.destructions = 0 then th.strong + 1 else th.strong, pc := .idle } ∧
      (s.destructions = 0 ↔ 0 < Spec.references s) := by
  obtain ⟨h1, h2, h3⟩ := RInv.start others
  obtain ⟨h, hq⟩ := RInv.serial calls _ h1 ⟨h3 _ (by simp), h3 _ (by simp), h3 _ (by simp)⟩ hmany
  generalize (RState.start others).run (Spec.serial calls) = s at *
  dsimp only
  have hpc := hq.idle ht
  have hrun : s.run (Spec.serial [(t, .upgrade)]) =
    ((s.step (t, .upgrade)).step (t, .advance)).step (t, .advance) := rfl
  refine ⟨?_, ?_⟩
  · rw [hrun]
    have hstep : s.step (t, .upgrade) = if s.active then s.put t { th with pc := .upgrading } else s := by
      rw [RState.step, if_neg (by rw [h.ub]; simp)]
      dsimp only
      rw [ht]
      dsimp only
      rw [hpc]
    by_cases hd : s.destructions = 0
    · have hact : s.active = true := by rw [h.active]; simp [hd]
      rw [hstep, if_pos hact, if_pos hd]
      have hg := put_get ht { th with pc := .upgrading }
      have hub : (s.put t { th with pc := .upgrading }).ub = false := h.ub
      have hd1 : (s.put t { th with pc := .upgrading }).destructions = 0 := hd
      generalize s.put t { th with pc := .upgrading } = s1 at *
      have hs1 : s1.step (t, .advance) = s1.addRef t { th with pc := .upgrading } := by
        rw [RState.step, if_neg (by rw [hub]; simp)]
        dsimp only
        rw [hg]
      have hg2 : (s1.addRef t { th with pc := .upgrading }).threads[t]? =
          some { strong := th.strong + 1, pc := .idle } := by
        rw [RState.addRef, if_neg (by omega)]
        exact put_get (s := { s1 with counter := s1.counter + 1 }) hg _
      rw [hs1, step_advance_idle hg2 rfl, hg2]
    · have hact : ¬ s.active = true := by rw [h.active]; simp [hd]
      rw [hstep, if_neg hact, step_advance_idle ht hpc, step_advance_idle ht hpc, if_neg hd, ht, ← hpc]
  · have hd := h.destroy
    rw [hq.deleting] at hd
    change _ ↔ 0 < s.held
    by_cases hz : s.held = 0
    · rw [if_pos hz] at hd
      omega
    · rw [if_neg hz] at hd
      omega

example : ((RState.start 1).run (Spec.serial [(1, .upgrade)])).threads[1]? = some { strong := 1, pc := .idle } := by
  decide +kernel

/-- The claim **C72** is false for threads that run at the same time: between the test of a weak reference and the
increment another thread can destroy the object, which is then used after its destruction. -/
theorem C72_counterexample :
    ((RState.start 1).run [(1, .upgrade), (0, .release), (0, .advance), (0, .advance), (1, .advance)]).ub = true := by
  decide +kernel

/-- The claim **C72** is false even if a weak reference is used in one step: after the last reference has been
released and before the destructor has run, the test still succeeds, and the object is destroyed although the
new reference is held. -/
theorem C72_resurrect_counterexample :
    let s := (RState.start 1).run [(0, .release), (1, .upgrade), (1, .advance), (0, .advance), (0, .advance)]
    s.ub = false ∧ s.destructions = 1 ∧ s.frees = 1 ∧ Spec.references s = 1 := by decide +kernel

end VPdf
