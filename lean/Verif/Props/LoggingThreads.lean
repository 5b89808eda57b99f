import Verif.Model.LoggingThreads
/-
  C124 with several threads: a callback is run by one thread at a time, and what happens to messages that are under way when the
  logging is replaced or shut down.
-/
namespace VPdf

theorem put_phase (s : LogThreads) (t u : Nat) (p : LogPhase) : (s.put t p).phase u = if u = t then p else s.phase u := rfl

/-- A thread that is inside a logger holds its mutex. -/
def LogThreads.Exclusive (s : LogThreads) : Prop := ∀ t l, s.phase t = .inside l → s.holder l = some t

theorem exclusive_step {keeps : Bool} {s : LogThreads} (h : s.Exclusive) (c : LogStep) : (s.step keeps c).Exclusive := by
  have other : ∀ t p, (∀ l, p ≠ .inside l) → (s.put t p).Exclusive := by
    intro t p hp u l hu
    rw [put_phase] at hu
    split at hu
    · exact absurd hu (hp l)
    · exact h u l hu
  cases c with
  | fetch t =>
    simp only [LogThreads.step]
    cases s.phase t with
    | idle =>
      cases s.default_ with
      | none => exact h
      | some l => exact other t _ (by simp)
    | _ => exact h
  | test t severe =>
    simp only [LogThreads.step]
    cases s.phase t with
    | fetched l =>
      simp only [LogThreads.use]
      split
      · cases severe <;> exact other t _ (by simp)
      · exact h
    | _ => exact h
  | enter t =>
    simp only [LogThreads.step]
    cases s.phase t with
    | passed l =>
      simp only [LogThreads.use]
      split
      · cases hh : s.holder l with
        | some u => exact h
        | none =>
          intro u k hu
          simp only [LogThreads.put] at hu ⊢
          by_cases hut : u = t
          · simp only [hut, if_true, LogPhase.inside.injEq] at hu
            simp [hut, hu]
          · simp only [hut, if_false] at hu
            have := h u k hu
            by_cases hk : k = l
            · rw [hk, hh] at this; cases this
            · simp [hk, this]
      · exact h
    | _ => exact h
  | leave t =>
    simp only [LogThreads.step]
    cases hp : s.phase t with
    | inside l =>
      simp only [LogThreads.use]
      split
      · intro u k hu
        simp only [LogThreads.put] at hu ⊢
        by_cases hut : u = t
        · simp [hut] at hu
        · simp only [hut, if_false] at hu
          have h1 := h u k hu
          by_cases hk : k = l
          · have h2 := h t l hp
            rw [hk, h2] at h1
            exact absurd (Option.some.inj h1).symm hut
          · simp [hk, h1]
      · exact h
    | _ => exact h
  | replace => exact h
  | shutdown => exact h

theorem exclusive_run {keeps : Bool} (steps : List LogStep) : ∀ {s : LogThreads}, s.Exclusive → (s.run keeps steps).Exclusive := by
  induction steps with
  | nil => intro s h; exact h
  | cons c cs ih => intro s h; exact ih (exclusive_step h c)

/-- **C124 (one thread at a time).** Whatever the threads do and in whatever order their steps are taken, no two threads are inside
the callback of one logger at the same time. -/
theorem C124_one_thread (keeps : Bool) (steps : List LogStep) (t u l : Nat)
    (ht : (LogThreads.start.run keeps steps).phase t = .inside l) (hu : (LogThreads.start.run keeps steps).phase u = .inside l) :
    t = u := by
  have h : LogThreads.start.Exclusive := by intro t l h; cases h
  have h1 := exclusive_run (keeps := keeps) steps h t l ht
  have h2 := exclusive_run (keeps := keeps) steps h u l hu
  rw [h1] at h2
  exact Option.some.inj h2

/-- Each logger that a thread uses, and the default one, exists; nothing undefined has happened. -/
structure LogThreads.Sound (s : LogThreads) : Prop where
  good : s.bad = false
  present : ∃ l, s.default_ = some l ∧ l ∈ s.alive
  used : ∀ t l, s.phase t = .fetched l ∨ s.phase t = .passed l ∨ s.phase t = .inside l → l ∈ s.alive

theorem sound_put {s : LogThreads} (h : s.Sound) (t : Nat) (p : LogPhase)
    (hp : ∀ l, p = .fetched l ∨ p = .passed l ∨ p = .inside l → l ∈ s.alive) : (s.put t p).Sound :=
  ⟨h.good, h.present, by
    intro u l hu
    rw [put_phase] at hu
    split at hu
    · exact hp l hu
    · exact h.used u l hu⟩

theorem sound_step {keeps : Bool} {s : LogThreads} (h : s.Sound) (c : LogStep) (h1 : c ≠ .shutdown)
    (h2 : keeps = true ∨ c ≠ .replace) : (s.step keeps c).Sound := by
  have used : ∀ l k, l ∈ s.alive → (k s).Sound → (s.use l k).Sound := by
    intro l k hl hk
    simp only [LogThreads.use, hl, if_true]
    exact hk
  cases c with
  | fetch t =>
    simp only [LogThreads.step]
    cases s.phase t with
    | idle =>
      obtain ⟨l, e, hl⟩ := h.present
      simp only [e]
      exact sound_put h t _ (by simp_all)
    | _ => exact h
  | test t severe =>
    simp only [LogThreads.step]
    cases hp : s.phase t with
    | fetched l =>
      have hl := h.used t l (.inl hp)
      exact used l _ hl (sound_put h t _ (by cases severe <;> simp_all))
    | _ => exact h
  | enter t =>
    simp only [LogThreads.step]
    cases hp : s.phase t with
    | passed l =>
      have hl := h.used t l (.inr (.inl hp))
      refine used l _ hl ?_
      cases s.holder l with
      | some u => exact h
      | none =>
        have := sound_put h t (.inside l) (by simp_all)
        exact ⟨this.good, this.present, this.used⟩
    | _ => exact h
  | leave t =>
    simp only [LogThreads.step]
    cases hp : s.phase t with
    | inside l =>
      refine used l _ (h.used t l (.inr (.inr hp))) ?_
      have := sound_put h t .idle (by simp)
      exact ⟨this.good, this.present, this.used⟩
    | _ => exact h
  | replace =>
    rcases h2 with rfl | h2
    · exact ⟨h.good, ⟨s.next, rfl, by simp [LogThreads.step]⟩, fun t l hl => by
        simp only [LogThreads.step, if_true]; exact List.mem_cons_of_mem _ (h.used t l hl)⟩
    · exact absurd rfl h2
  | shutdown => exact absurd rfl h1

/-- **C124 (threads).** As long as the logging is not shut down, and not replaced unless the registry keeps replaced loggers, no
interleaving of the messages of any number of threads does anything undefined. -/
theorem C124_threads_partial (keeps : Bool) (steps : List LogStep)
    (h : ∀ c ∈ steps, c ≠ .shutdown ∧ (keeps = true ∨ c ≠ .replace)) : (LogThreads.start.run keeps steps).bad = false := by
  have gen : ∀ (steps : List LogStep) (s : LogThreads), s.Sound → (∀ c ∈ steps, c ≠ .shutdown ∧ (keeps = true ∨ c ≠ .replace)) →
      (s.run keeps steps).Sound := by
    intro steps
    induction steps with
    | nil => intro s hs _; exact hs
    | cons c cs ih =>
      intro s hs hc
      exact ih _ (sound_step hs c (hc c (by simp)).1 (hc c (by simp)).2) fun c' h' => hc c' (by simp [h'])
  exact (gen steps LogThreads.start ⟨rfl, ⟨0, rfl, by simp [LogThreads.start]⟩, by
    intro t l h; simp [LogThreads.start] at h⟩ h).good

/-- The next step of a thread that is writing a message. -/
def LogPhase.next (t : Nat) : LogPhase → LogStep
  | .idle => .fetch t
  | .fetched _ => .test t true
  | .passed _ => .enter t
  | .inside _ => .leave t

/-- **C124 (shutting down while a message is written).** If a thread is writing a message, at whatever point, when another thread
shuts the logging down, its next step is undefined behaviour: the logger, its sink or the mutex it holds do not exist any more. After
any interleaving. -/
theorem C124_race_counterexample (keeps : Bool) (steps : List LogStep) (t l : Nat)
    (h : (LogThreads.start.run keeps steps).phase t = .fetched l ∨ (LogThreads.start.run keeps steps).phase t = .passed l ∨
      (LogThreads.start.run keeps steps).phase t = .inside l) :
    (LogThreads.start.run keeps (steps ++ [.shutdown, ((LogThreads.start.run keeps steps).phase t).next t])).bad = true := by
  simp only [LogThreads.run, List.foldl_append, List.foldl_cons, List.foldl_nil] at *
  generalize List.foldl (LogThreads.step keeps) LogThreads.start steps = s at *
  rcases h with h | h | h <;> simp [h, LogPhase.next, LogThreads.step, LogThreads.use]

/-- **C124 (a message after the end).** A thread that is doing nothing when another thread shuts the logging down, and then has a
message, uses a logger that does not exist. After any interleaving. -/
theorem C124_late_counterexample (keeps : Bool) (steps : List LogStep) (t : Nat)
    (h : (LogThreads.start.run keeps steps).phase t = .idle) :
    (LogThreads.start.run keeps (steps ++ [.shutdown, .fetch t])).bad = true := by
  simp only [LogThreads.run, List.foldl_append, List.foldl_cons, List.foldl_nil] at *
  generalize List.foldl (LogThreads.step keeps) LogThreads.start steps = s at *
  simp [h, LogThreads.step]

example : (LogThreads.start.run true [.fetch 1, .test 1 true, .enter 1, .leave 1]).phase 1 = .idle := by decide

/-- **C124 (replacing while a message is written).** With a registry that drops the replaced logger the same happens to a thread
that is writing a message to the default logger when another thread sets a callback or a file. -/
theorem C124_replace_race_counterexample (steps : List LogStep) (t l : Nat)
    (hd : (LogThreads.start.run false steps).default_ = some l)
    (h : (LogThreads.start.run false steps).phase t = .fetched l ∨ (LogThreads.start.run false steps).phase t = .passed l ∨
      (LogThreads.start.run false steps).phase t = .inside l) :
    (LogThreads.start.run false (steps ++ [.replace, ((LogThreads.start.run false steps).phase t).next t])).bad = true := by
  have fresh : ∀ (steps : List LogStep) (s : LogThreads), (∀ l, s.default_ = some l → l < s.next) →
      ∀ l, (s.run false steps).default_ = some l → l < (s.run false steps).next := by
    intro steps
    induction steps with
    | nil => intro s hs; exact hs
    | cons c cs ih =>
      intro s hs
      refine ih _ ?_
      intro l
      have same : ∀ s' : LogThreads, s'.default_ = s.default_ → s'.next = s.next → s'.default_ = some l → l < s'.next := by
        intro s' h1 h2 h3; rw [h2]; exact hs l (h1 ▸ h3)
      cases c with
      | fetch t =>
        simp only [LogThreads.step]
        cases s.phase t <;> try exact same _ rfl rfl
        cases hd : s.default_ <;> exact same _ (by simp [LogThreads.put, hd]) rfl
      | test t b =>
        simp only [LogThreads.step]
        cases s.phase t <;> try exact same _ rfl rfl
        simp only [LogThreads.use]; split <;> exact same _ rfl rfl
      | enter t =>
        simp only [LogThreads.step]
        cases s.phase t <;> try exact same _ rfl rfl
        simp only [LogThreads.use]
        split
        · split <;> exact same _ rfl rfl
        · exact same _ rfl rfl
      | leave t =>
        simp only [LogThreads.step]
        cases s.phase t <;> try exact same _ rfl rfl
        simp only [LogThreads.use]; split <;> exact same _ rfl rfl
      | replace => intro h; cases h; exact Nat.lt_succ_self _
      | shutdown => intro h; cases h
  have hl := fresh steps LogThreads.start (by intro l h; cases h; decide) l hd
  simp only [LogThreads.run, List.foldl_append, List.foldl_cons, List.foldl_nil] at *
  generalize List.foldl (LogThreads.step false) LogThreads.start steps = s at *
  have hne : l ≠ s.next := Nat.ne_of_lt hl
  rcases h with h | h | h <;> simp [h, LogPhase.next, LogThreads.step, LogThreads.use, hd, hne]

example : (LogThreads.start.run true [.fetch 1, .test 1 true, .fetch 2, .enter 1, .test 2 true, .enter 2]).phase 1 = .inside 0 ∧
    (LogThreads.start.run true [.fetch 1, .test 1 true, .fetch 2, .enter 1, .test 2 true, .enter 2]).phase 2 = .passed 0 := by
  decide +kernel
example : (LogThreads.start.run true [.fetch 1, .shutdown, .test 1 false]).bad = true := by decide +kernel

end VPdf
