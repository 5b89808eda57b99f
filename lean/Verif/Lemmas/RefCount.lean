/-
  The invariant of the reference counter.
-/
import Verif.Model.RefCount

namespace VPdf

theorem sum_map_set {α : Type} (f : α → Nat) (b : α) :
    ∀ (l : List α) (i : Nat) (a : α), l[i]? = some a →
      ((l.set i b).map f).sum + f a = (l.map f).sum + f b := by
  intro l
  induction l with
  | nil => intro i a h; simp at h
  | cons x xs ih =>
    intro i a h
    cases i with
    | zero =>
      simp at h
      subst h
      simp
      omega
    | succ i =>
      have h' : xs[i]? = some a := by simpa using h
      have := ih i a h'
      rw [List.set_cons_succ, List.map_cons, List.map_cons, List.sum_cons, List.sum_cons]
      omega

theorem le_sum_map {α : Type} (f : α → Nat) :
    ∀ (l : List α) (i : Nat) (a : α), l[i]? = some a → f a ≤ (l.map f).sum := by
  intro l
  induction l with
  | nil => intro i a h; simp at h
  | cons x xs ih =>
    intro i a h
    cases i with
    | zero =>
      simp at h
      subst h
      simp
    | succ i =>
      have h' : xs[i]? = some a := by simpa using h
      have := ih i a h'
      simp
      omega

/-- Number of references held by all threads. -/
def RState.held (s : RState) : Nat := (s.threads.map RThread.strong).sum

/-- Number of threads at a position. -/
def RState.at (s : RState) (p : RPc) : Nat := (s.threads.map fun th => if th.pc = p then 1 else 0).sum

theorem held_put {s : RState} {t : Nat} {th : RThread} (h : s.threads[t]? = some th) (th' : RThread) :
    (s.put t th').held + th.strong = s.held + th'.strong :=
  sum_map_set RThread.strong th' s.threads t th h

theorem at_put {s : RState} {t : Nat} {th : RThread} (h : s.threads[t]? = some th) (th' : RThread) (p : RPc) :
    (s.put t th').at p + (if th.pc = p then 1 else 0) = s.at p + (if th'.pc = p then 1 else 0) :=
  sum_map_set (fun th : RThread => if th.pc = p then 1 else 0) th' s.threads t th h

theorem strong_le_held {s : RState} {t : Nat} {th : RThread} (h : s.threads[t]? = some th) : th.strong ≤ s.held :=
  le_sum_map RThread.strong s.threads t th h

theorem at_pos {s : RState} {t : Nat} {th : RThread} (h : s.threads[t]? = some th) : 0 < s.at th.pc := by
  have := le_sum_map (fun o : RThread => if o.pc = th.pc then 1 else 0) s.threads t th h
  rw [if_pos rfl] at this
  exact this

/-- The invariant: the counter is the number of references, and exactly one thread is on its way to destroy the
object, or has done it, when there are none. -/
structure RInv (s : RState) : Prop where
  ub : s.ub = false
  counter : s.counter.toNat = s.held
  destroy : s.at .deleting + s.destructions = if s.held = 0 then 1 else 0
  free : s.at .freeing + s.frees = s.destructions
  active : s.active = decide (s.destructions = 0)

theorem RInv.held_lt {s : RState} (h : RInv s) : s.held < 2 ^ 32 := by
  rw [← h.counter]
  exact s.counter.toNat_lt

theorem RInv.alive {s : RState} (h : RInv s) (hp : 0 < s.held) : s.destructions = 0 := by
  have := h.destroy
  rw [if_neg (by omega)] at this
  omega

theorem RInv.addRef {s : RState} (h : RInv s) {t : Nat} {th : RThread} (ht : s.threads[t]? = some th)
    (hp : 0 < s.held) (hl : s.held + 1 < 2 ^ 32) (hpc : th.pc = .idle ∨ th.pc = .upgrading) :
    RInv (s.addRef t th) ∧ (s.addRef t th).held = s.held + 1 := by
  have ha := h.alive hp
  have h1 := held_put (s := { s with counter := s.counter + 1 }) (t := t) (th := th) ht
    { strong := th.strong + 1, pc := .idle }
  have hd := at_put (s := { s with counter := s.counter + 1 }) (t := t) (th := th) ht
    { strong := th.strong + 1, pc := .idle } .deleting
  have hf := at_put (s := { s with counter := s.counter + 1 }) (t := t) (th := th) ht
    { strong := th.strong + 1, pc := .idle } .freeing
  have hh : RState.held { s with counter := s.counter + 1 } = s.held := rfl
  have hda : RState.at { s with counter := s.counter + 1 } .deleting = s.at .deleting := rfl
  have hfa : RState.at { s with counter := s.counter + 1 } .freeing = s.at .freeing := rfl
  have hn1 : th.pc ≠ .deleting := by rcases hpc with h | h <;> simp [h]
  have hn2 : th.pc ≠ .freeing := by rcases hpc with h | h <;> simp [h]
  simp only [hn1, hn2, if_false, reduceCtorEq] at hd hf
  dsimp only at h1
  rw [hh] at h1
  rw [hda] at hd
  rw [hfa] at hf
  rw [RState.addRef, if_neg (by omega)]
  have hheld : ({ s with counter := s.counter + 1 }.put t { strong := th.strong + 1, pc := .idle } : RState).held
      = s.held + 1 := by omega
  refine ⟨⟨h.ub, ?_, ?_, ?_, h.active⟩, hheld⟩
  · rw [hheld]
    change (s.counter + 1).toNat = _
    rw [UInt32.toNat_add, h.counter]
    exact Nat.mod_eq_of_lt hl
  · rw [hheld, if_neg (by omega)]
    have := h.destroy
    rw [if_neg (by omega)] at this
    change _ + s.destructions = 0
    omega
  · have := h.free
    change _ + s.frees = s.destructions
    omega

theorem RInv.decrement {s : RState} (h : RInv s) {t : Nat} {th : RThread} (ht : s.threads[t]? = some th)
    (hp : 0 < th.strong) (hpc : th.pc = .idle) :
    RInv (s.decrement t th) ∧ (s.decrement t th).held + 1 = s.held := by
  have hle := strong_le_held ht
  have ha := h.alive (by omega)
  have hlt := h.held_lt
  have hc : (s.counter - 1).toNat = s.held - 1 := by
    rw [UInt32.toNat_sub_of_le, h.counter]
    · rfl
    · rw [UInt32.le_iff_toNat_le, h.counter]
      change 1 ≤ _
      omega
  have hz : (s.counter - 1 = 0) ↔ s.held = 1 := by
    rw [← UInt32.toNat_inj, hc]
    change s.held - 1 = 0 ↔ _
    omega
  have hpc' : ∃ p, (if s.counter - 1 = 0 then RPc.deleting else RPc.idle) = p ∧
      ((s.held = 1 ∧ p = .deleting) ∨ (s.held ≠ 1 ∧ p = .idle)) := by
    refine ⟨_, rfl, ?_⟩
    by_cases h1 : s.held = 1
    · exact Or.inl ⟨h1, if_pos (hz.mpr h1)⟩
    · exact Or.inr ⟨h1, if_neg (fun hx => h1 (hz.mp hx))⟩
  obtain ⟨p, hp1, hp2⟩ := hpc'
  rw [RState.decrement, if_neg (by omega)]
  dsimp only
  rw [hp1]
  have h1 := held_put (s := { s with counter := s.counter - 1 }) (t := t) (th := th) ht
    { strong := th.strong - 1, pc := p }
  have hd := at_put (s := { s with counter := s.counter - 1 }) (t := t) (th := th) ht
    { strong := th.strong - 1, pc := p } .deleting
  have hf := at_put (s := { s with counter := s.counter - 1 }) (t := t) (th := th) ht
    { strong := th.strong - 1, pc := p } .freeing
  have hh : RState.held { s with counter := s.counter - 1 } = s.held := rfl
  have hda : RState.at { s with counter := s.counter - 1 } .deleting = s.at .deleting := rfl
  have hfa : RState.at { s with counter := s.counter - 1 } .freeing = s.at .freeing := rfl
  rw [hh] at h1
  rw [hda, hpc] at hd
  rw [hfa, hpc] at hf
  dsimp only at h1 hd hf
  have hheld : ({ s with counter := s.counter - 1 }.put t { strong := th.strong - 1, pc := p } : RState).held
      = s.held - 1 := by omega
  have hdes := h.destroy
  rw [if_neg (by omega)] at hdes
  have hfre := h.free
  refine ⟨⟨h.ub, ?_, ?_, ?_, h.active⟩, by omega⟩
  · rw [hheld]
    exact hc
  · rw [hheld]
    change _ + s.destructions = _
    rcases hp2 with ⟨h1', rfl⟩ | ⟨h1', rfl⟩
    · rw [if_pos (by omega)]
      simp only [if_true, reduceCtorEq, if_false] at hd
      omega
    · rw [if_neg (by omega)]
      simp only [reduceCtorEq, if_false] at hd
      omega
  · change _ + s.frees = s.destructions
    rcases hp2 with ⟨h1', rfl⟩ | ⟨h1', rfl⟩
    · simp only [reduceCtorEq, if_false] at hf
      omega
    · simp only [reduceCtorEq, if_false] at hf
      omega

theorem RInv.destruct {s : RState} (h : RInv s) {t : Nat} {th : RThread} (ht : s.threads[t]? = some th)
    (hpc : th.pc = .deleting) : RInv (s.destruct t th) ∧ (s.destruct t th).held = s.held ∧ s.destructions = 0 := by
  have hpos := at_pos ht
  rw [hpc] at hpos
  have hdes := h.destroy
  have hle : s.at .deleting + s.destructions ≤ 1 := by rw [hdes]; split <;> omega
  have h0 : s.held = 0 := by
    by_cases hne : s.held = 0
    · exact hne
    · rw [if_neg hne] at hdes
      omega
  rw [if_pos h0] at hdes
  have h1 := held_put (s := { s with destructions := s.destructions + 1, active := false }) (t := t) (th := th) ht
    { th with pc := .freeing }
  have hd := at_put (s := { s with destructions := s.destructions + 1, active := false }) (t := t) (th := th) ht
    { th with pc := .freeing } .deleting
  have hf := at_put (s := { s with destructions := s.destructions + 1, active := false }) (t := t) (th := th) ht
    { th with pc := .freeing } .freeing
  have hh : RState.held { s with destructions := s.destructions + 1, active := false } = s.held := rfl
  have hda : RState.at { s with destructions := s.destructions + 1, active := false } .deleting = s.at .deleting := rfl
  have hfa : RState.at { s with destructions := s.destructions + 1, active := false } .freeing = s.at .freeing := rfl
  rw [hh] at h1
  rw [hda] at hd
  rw [hfa] at hf
  rw [hpc] at hd hf
  simp at hd hf h1
  have hfre := h.free
  rw [RState.destruct, if_neg (by omega)]
  refine ⟨⟨h.ub, ?_, ?_, ?_, ?_⟩, by omega, by omega⟩
  · rw [h1]
    exact h.counter
  · rw [h1, if_pos h0]
    change _ + (s.destructions + 1) = 1
    omega
  · change _ + s.frees = s.destructions + 1
    omega
  · rfl

theorem RInv.free_step {s : RState} (h : RInv s) {t : Nat} {th : RThread} (ht : s.threads[t]? = some th)
    (hpc : th.pc = .freeing) : RInv (s.free t th) ∧ (s.free t th).held = s.held := by
  have hpos := at_pos ht
  rw [hpc] at hpos
  have hdes := h.destroy
  have hle : s.at .deleting + s.destructions ≤ 1 := by rw [hdes]; split <;> omega
  have hfre := h.free
  have h1 := held_put (s := { s with frees := s.frees + 1 }) (t := t) (th := th) ht { th with pc := .idle }
  have hd := at_put (s := { s with frees := s.frees + 1 }) (t := t) (th := th) ht { th with pc := .idle } .deleting
  have hf := at_put (s := { s with frees := s.frees + 1 }) (t := t) (th := th) ht { th with pc := .idle } .freeing
  have hh : RState.held { s with frees := s.frees + 1 } = s.held := rfl
  have hda : RState.at { s with frees := s.frees + 1 } .deleting = s.at .deleting := rfl
  have hfa : RState.at { s with frees := s.frees + 1 } .freeing = s.at .freeing := rfl
  rw [hh] at h1
  rw [hda] at hd
  rw [hfa] at hf
  rw [hpc] at hd hf
  simp at hd hf h1
  rw [RState.free, if_neg (by omega)]
  refine ⟨⟨h.ub, ?_, ?_, ?_, h.active⟩, by omega⟩
  · rw [h1]
    exact h.counter
  · rw [h1]
    change _ + s.destructions = _
    rw [← hdes]
    omega
  · change _ + (s.frees + 1) = s.destructions
    omega

theorem RInv.mark {s : RState} (h : RInv s) {t : Nat} {th : RThread} (ht : s.threads[t]? = some th)
    (hpc : th.pc = .idle) :
    RInv (s.put t { th with pc := .upgrading }) ∧ (s.put t { th with pc := .upgrading }).held = s.held := by
  have h1 := held_put ht { th with pc := .upgrading }
  have hd := at_put ht { th with pc := .upgrading } .deleting
  have hf := at_put ht { th with pc := .upgrading } .freeing
  rw [hpc] at hd hf
  simp at hd hf h1
  refine ⟨⟨h.ub, ?_, ?_, ?_, h.active⟩, h1⟩
  · rw [h1]
    exact h.counter
  · rw [h1, hd]
    exact h.destroy
  · rw [hf]
    exact h.free

theorem RInv.handOver {s : RState} (h : RInv s) {t : Nat} {th : RThread} (ht : s.threads[t]? = some th)
    (hp : 0 < th.strong) (to : Nat) :
    RInv (s.handOver t th to) ∧ (s.handOver t th to).held = s.held ∧
      ∀ p, (s.handOver t th to).at p = s.at p := by
  rw [RState.handOver]
  cases hto : s.threads[to]? with
  | none => exact ⟨h, rfl, fun _ => rfl⟩
  | some o0 =>
    dsimp only
    have h1 := held_put ht { th with strong := th.strong - 1 }
    have ha := at_put ht { th with strong := th.strong - 1 }
    have hto' : ∃ o, (s.put t { th with strong := th.strong - 1 }).threads[to]? = some o := by
      have hlt : to < s.threads.length := by
        rcases List.getElem?_eq_some_iff.mp hto with ⟨hx, -⟩
        exact hx
      refine ⟨_, List.getElem?_eq_getElem ?_⟩
      simpa [RState.put] using hlt
    obtain ⟨o, ho⟩ := hto'
    rw [ho]
    dsimp only
    have h2 := held_put ho { o with strong := o.strong + 1 }
    have hb := at_put ho { o with strong := o.strong + 1 }
    dsimp only at h1 h2
    have hheld : ((s.put t { th with strong := th.strong - 1 }).put to { o with strong := o.strong + 1 }).held
        = s.held := by omega
    have hat : ∀ p, ((s.put t { th with strong := th.strong - 1 }).put to { o with strong := o.strong + 1 }).at p
        = s.at p := by
      intro p
      have h1 := ha p
      have h2 := hb p
      dsimp only at h1 h2
      omega
    refine ⟨⟨h.ub, ?_, ?_, ?_, h.active⟩, hheld, hat⟩
    · rw [hheld]
      exact h.counter
    · rw [hheld, hat]
      exact h.destroy
    · rw [hat]
      exact h.free

theorem handOver_at {s : RState} {t : Nat} {th : RThread} (ht : s.threads[t]? = some th) (to : Nat) (p : RPc) :
    (s.handOver t th to).at p = s.at p := by
  rw [RState.handOver]
  cases hto : s.threads[to]? with
  | none => rfl
  | some o0 =>
    dsimp only
    have ha := at_put ht { th with strong := th.strong - 1 } p
    cases ho : (s.put t { th with strong := th.strong - 1 }).threads[to]? with
    | none => dsimp only at ha ⊢; omega
    | some o =>
      have hb := at_put ho { o with strong := o.strong + 1 } p
      dsimp only at ha hb ⊢
      omega

theorem addRef_held {s : RState} (h0 : s.destructions = 0) {t : Nat} {th : RThread}
    (ht : s.threads[t]? = some th) : (s.addRef t th).held = s.held + 1 := by
  have h1 := held_put (s := { s with counter := s.counter + 1 }) (t := t) (th := th) ht
    { strong := th.strong + 1, pc := .idle }
  have hh : RState.held { s with counter := s.counter + 1 } = s.held := rfl
  rw [RState.addRef, if_neg (by omega)]
  rw [hh] at h1
  dsimp only at h1
  omega

/-- A step other than the start of an upgrade keeps the invariant, and only a copy adds a reference. -/
theorem RInv.step {s : RState} (h : RInv s) (hu : s.at .upgrading = 0) {ta : Nat × RAction}
    (hna : ta.2 ≠ .upgrade) (hl : (s.step ta).held < 2 ^ 32) :
    RInv (s.step ta) ∧ (s.step ta).at .upgrading = 0 ∧
      (s.step ta).held ≤ s.held + (if ta.2 = .copy then 1 else 0) := by
  rw [RState.step, if_neg (by rw [h.ub]; simp)] at hl ⊢
  cases ht : s.threads[ta.1]? with
  | none => exact ⟨h, hu, Nat.le_add_right _ _⟩
  | some th =>
    rw [ht] at hl
    dsimp only at hl ⊢
    have hpos := at_pos ht
    cases hpc : th.pc with
    | idle =>
      cases hact : ta.2 with
      | copy =>
        rw [hpc, hact] at hl
        dsimp only at hl ⊢
        by_cases hs : th.strong = 0
        · rw [if_pos hs]
          exact ⟨h, hu, Nat.le_add_right _ _⟩
        · have hle := strong_le_held ht
          rw [if_neg hs, addRef_held (h.alive (by omega)) ht] at hl
          rw [if_neg hs]
          obtain ⟨hi, hh⟩ := h.addRef ht (by omega) hl (Or.inl hpc)
          refine ⟨hi, ?_, by simp; omega⟩
          have := at_put (s := { s with counter := s.counter + 1 }) (t := ta.1) (th := th) ht
            { strong := th.strong + 1, pc := .idle } .upgrading
          rw [hpc] at this
          simp at this
          rw [RState.addRef, if_neg (by rw [h.alive (by omega)]; omega), this]
          exact hu
      | release =>
        dsimp only
        split
        · exact ⟨h, hu, Nat.le_add_right _ _⟩
        · rename_i hs
          have hle := strong_le_held ht
          obtain ⟨hi, hh⟩ := h.decrement ht (by omega) hpc
          refine ⟨hi, ?_, by omega⟩
          have := at_put (s := { s with counter := s.counter - 1 }) (t := ta.1) (th := th) ht
            { strong := th.strong - 1, pc := if s.counter - 1 = 0 then .deleting else .idle } .upgrading
          rw [hpc] at this
          rw [RState.decrement, if_neg (by rw [h.alive (by omega)]; omega)]
          dsimp only
          have hx : (if (if s.counter - 1 = 0 then RPc.deleting else RPc.idle) = RPc.upgrading then 1 else 0) = 0 := by
            split <;> simp
          rw [hx] at this
          simp at this
          rw [this]
          exact hu
      | pass to =>
        dsimp only
        split
        · exact ⟨h, hu, Nat.le_add_right _ _⟩
        · rename_i hs
          obtain ⟨hi, hh, hat⟩ := h.handOver ht (by omega) to
          exact ⟨hi, by rw [hat]; exact hu, by omega⟩
      | upgrade => exact absurd hact hna
      | advance => exact ⟨h, hu, by simp⟩
    | deleting =>
      cases hact : ta.2 with
      | advance =>
        dsimp only
        obtain ⟨hi, hh, h0⟩ := h.destruct ht hpc
        refine ⟨hi, ?_, by omega⟩
        have := at_put (s := { s with destructions := s.destructions + 1, active := false }) (t := ta.1) (th := th) ht
          { th with pc := .freeing } .upgrading
        rw [hpc] at this
        simp at this
        rw [RState.destruct, if_neg (by omega), this]
        exact hu
      | copy => exact ⟨h, hu, Nat.le_add_right _ _⟩
      | release => exact ⟨h, hu, Nat.le_add_right _ _⟩
      | pass to => exact ⟨h, hu, Nat.le_add_right _ _⟩
      | upgrade => exact ⟨h, hu, Nat.le_add_right _ _⟩
    | freeing =>
      cases hact : ta.2 with
      | advance =>
        dsimp only
        obtain ⟨hi, hh⟩ := h.free_step ht hpc
        refine ⟨hi, ?_, by omega⟩
        have := at_put (s := { s with frees := s.frees + 1 }) (t := ta.1) (th := th) ht
          { th with pc := .idle } .upgrading
        rw [hpc] at this
        simp at this
        have h1 : s.frees = 0 := by
          have hd := h.destroy
          have hf := h.free
          rw [hpc] at hpos
          have hle : s.at .deleting + s.destructions ≤ 1 := by rw [hd]; split <;> omega
          omega
        rw [RState.free, if_neg (by omega), this]
        exact hu
      | copy => exact ⟨h, hu, Nat.le_add_right _ _⟩
      | release => exact ⟨h, hu, Nat.le_add_right _ _⟩
      | pass to => exact ⟨h, hu, Nat.le_add_right _ _⟩
      | upgrade => exact ⟨h, hu, Nat.le_add_right _ _⟩
    | upgrading =>
      rw [hpc] at hpos
      omega

theorem RInv.start (others : Nat) : RInv (RState.start others) ∧ (RState.start others).held = 1 ∧
    ∀ p, p ≠ .idle → (RState.start others).at p = 0 := by
  have hh : (RState.start others).held = 1 := by
    simp [RState.held, RState.start]
  have hat : ∀ p, p ≠ .idle → (RState.start others).at p = 0 := by
    intro p hp
    have hp' : ¬ RPc.idle = p := fun h => hp h.symm
    simp [RState.at, RState.start, hp']
  refine ⟨⟨rfl, ?_, ?_, ?_, rfl⟩, hh, hat⟩
  · rw [hh]; rfl
  · rw [hh, hat _ (by simp)]; rfl
  · rw [hat _ (by simp)]; rfl

theorem RState.run_append (s : RState) (xs ys : List (Nat × RAction)) :
    s.run (xs ++ ys) = (s.run xs).run ys := List.foldl_append

/-- The invariant along a schedule without upgrades. -/
theorem RInv.run (schedule : List (Nat × RAction)) :
    ∀ s : RState, RInv s → s.at .upgrading = 0 → (∀ x ∈ schedule, x.2 ≠ .upgrade) →
      (∀ k, (s.run (schedule.take k)).held < 2 ^ 32) →
      RInv (s.run schedule) ∧ (s.run schedule).at .upgrading = 0 := by
  induction schedule with
  | nil => intro s h hu _ _; exact ⟨h, hu⟩
  | cons x xs ih =>
    intro s h hu hn hl
    obtain ⟨h1, h2, h3⟩ := h.step hu (hn x (by simp)) (hl 1)
    exact ih _ h1 h2 (fun y hy => hn y (by simp [hy])) (fun k => hl (k + 1))

theorem put_get {s : RState} {t : Nat} {th : RThread} (h : s.threads[t]? = some th) (th' : RThread) :
    (s.put t th').threads[t]? = some th' := by
  rcases List.getElem?_eq_some_iff.mp h with ⟨hx, -⟩
  simp [RState.put, hx]

/-- No thread is inside a call. -/
structure RQuiet (s : RState) : Prop where
  deleting : s.at .deleting = 0
  freeing : s.at .freeing = 0
  upgrading : s.at .upgrading = 0

theorem step_advance_idle {s : RState} {t : Nat} {th : RThread} (ht : s.threads[t]? = some th)
    (hpc : th.pc = .idle) : s.step (t, .advance) = s := by
  rw [RState.step]
  split
  · rfl
  · rw [ht]
    dsimp only
    rw [hpc]

theorem step_advance_none {s : RState} {t : Nat} (ht : s.threads[t]? = none) (a : RAction) :
    s.step (t, a) = s := by
  rw [RState.step]
  split
  · rfl
  · rw [ht]

theorem RQuiet.idle {s : RState} (hq : RQuiet s) {t : Nat} {th : RThread} (ht : s.threads[t]? = some th) :
    th.pc = .idle := by
  have hpos := at_pos ht
  have := hq.deleting
  have := hq.freeing
  have := hq.upgrading
  cases hpc : th.pc with
  | idle => rfl
  | deleting => rw [hpc] at hpos; omega
  | freeing => rw [hpc] at hpos; omega
  | upgrading => rw [hpc] at hpos; omega

/-- A call that runs to its end without being interrupted. -/
theorem RInv.call {s : RState} (h : RInv s) (hq : RQuiet s) (t : Nat) (a : RAction)
    (hl : (s.run [(t, a), (t, .advance), (t, .advance)]).held < 2 ^ 32) :
    RInv (s.run [(t, a), (t, .advance), (t, .advance)]) ∧ RQuiet (s.run [(t, a), (t, .advance), (t, .advance)]) := by
  have hrun : s.run [(t, a), (t, .advance), (t, .advance)] =
    ((s.step (t, a)).step (t, .advance)).step (t, .advance) := rfl
  rw [hrun] at hl ⊢
  cases ht : s.threads[t]? with
  | none =>
    rw [step_advance_none ht, step_advance_none ht, step_advance_none ht]
    exact ⟨h, hq⟩
  | some th =>
    have hpc := hq.idle ht
    have hsame : ∀ a, s.step (t, a) = s →
        ((s.step (t, a)).step (t, .advance)).step (t, .advance) = s := by
      intro a ha
      rw [ha, step_advance_idle ht hpc, step_advance_idle ht hpc]
    have hstep : ∀ a, s.step (t, a) = match th.pc, a with
        | .idle, .copy => if th.strong = 0 then s else s.addRef t th
        | .idle, .release => if th.strong = 0 then s else s.decrement t th
        | .idle, .pass to => if th.strong = 0 then s else s.handOver t th to
        | .idle, .upgrade => if s.active then s.put t { th with pc := .upgrading } else s
        | .deleting, .advance => s.destruct t th
        | .freeing, .advance => s.free t th
        | .upgrading, .advance => s.addRef t th
        | _, _ => s := by
      intro a
      rw [RState.step, if_neg (by rw [h.ub]; simp)]
      dsimp only
      rw [ht]
      dsimp only
      cases th.pc <;> cases a <;> rfl
    have hle := strong_le_held ht
    rw [hpc] at hstep
    cases a with
    | copy =>
      by_cases hs : th.strong = 0
      · rw [hsame _ (by rw [hstep]; exact if_pos hs)]
        exact ⟨h, hq⟩
      · have e : s.step (t, .copy) = s.addRef t th := by rw [hstep]; exact if_neg hs
        have ha := h.alive (by omega)
        have e2 : s.addRef t th = { s with counter := s.counter + 1 }.put t { strong := th.strong + 1, pc := .idle } := by
          rw [RState.addRef, if_neg (by omega)]
        have hg : (s.addRef t th).threads[t]? = some { strong := th.strong + 1, pc := .idle } := by
          rw [e2]
          exact put_get (s := { s with counter := s.counter + 1 }) ht _
        rw [e, step_advance_idle hg rfl, step_advance_idle hg rfl] at hl ⊢
        have hb := addRef_held ha ht
        obtain ⟨hi, -⟩ := h.addRef ht (by omega) (by omega) (Or.inl hpc)
        have hall : ∀ p, (s.addRef t th).at p = s.at p := by
          intro p
          have := at_put (s := { s with counter := s.counter + 1 }) (t := t) (th := th) ht
            { strong := th.strong + 1, pc := .idle } p
          rw [hpc] at this
          rw [e2]
          have h2 : RState.at { s with counter := s.counter + 1 } p = s.at p := rfl
          dsimp only at this
          omega
        exact ⟨hi, by rw [hall]; exact hq.deleting, by rw [hall]; exact hq.freeing, by rw [hall]; exact hq.upgrading⟩
    | release =>
      by_cases hs : th.strong = 0
      · rw [hsame _ (by rw [hstep]; exact if_pos hs)]
        exact ⟨h, hq⟩
      · have e : s.step (t, .release) = s.decrement t th := by rw [hstep]; exact if_neg hs
        have ha := h.alive (by omega)
        obtain ⟨hi, hh⟩ := h.decrement ht (by omega) hpc
        have e2 : s.decrement t th = { s with counter := s.counter - 1 }.put t
            { strong := th.strong - 1, pc := if s.counter - 1 = 0 then .deleting else .idle } := by
          rw [RState.decrement, if_neg (by omega)]
        by_cases hc : s.counter - 1 = 0
        · rw [if_pos hc] at e2
          have hg : (s.decrement t th).threads[t]? = some { strong := th.strong - 1, pc := .deleting } := by
            rw [e2]
            exact put_get (s := { s with counter := s.counter - 1 }) ht _
          have hall : ∀ p, p ≠ .idle → p ≠ .deleting → (s.decrement t th).at p = s.at p := by
            intro p hp hp2
            have := at_put (s := { s with counter := s.counter - 1 }) (t := t) (th := th) ht
              { strong := th.strong - 1, pc := .deleting } p
            rw [hpc] at this
            rw [e2]
            have h2 : RState.at { s with counter := s.counter - 1 } p = s.at p := rfl
            dsimp only at this
            rw [if_neg (fun h => hp h.symm), if_neg (fun h => hp2 h.symm)] at this
            omega
          generalize s.decrement t th = s1 at *
          have hs1 : s1.step (t, .advance) = s1.destruct t { strong := th.strong - 1, pc := .deleting } := by
            rw [RState.step, if_neg (by rw [hi.ub]; simp)]
            dsimp only
            rw [hg]
          obtain ⟨hi2, hh2, h02⟩ := hi.destruct hg rfl
          have e3 : s1.destruct t { strong := th.strong - 1, pc := .deleting } =
              { s1 with destructions := s1.destructions + 1, active := false }.put t
                { strong := th.strong - 1, pc := .freeing } := by
            rw [RState.destruct, if_neg (by omega)]
          have hg2 : (s1.destruct t { strong := th.strong - 1, pc := .deleting }).threads[t]? =
              some { strong := th.strong - 1, pc := .freeing } := by
            rw [e3]
            exact put_get (s := { s1 with destructions := s1.destructions + 1, active := false }) hg _
          have hd2 : (s1.destruct t { strong := th.strong - 1, pc := .deleting }).destructions = 1 := by
            rw [e3]
            change s1.destructions + 1 = 1
            omega
          have hup : (s1.destruct t { strong := th.strong - 1, pc := .deleting }).at .upgrading = s1.at .upgrading := by
            have := at_put (s := { s1 with destructions := s1.destructions + 1, active := false }) hg
              { strong := th.strong - 1, pc := .freeing } .upgrading
            rw [e3]
            simp only [reduceCtorEq, if_false] at this
            exact this
          rw [e, hs1]
          generalize s1.destruct t { strong := th.strong - 1, pc := .deleting } = s2 at *
          have hs2 : s2.step (t, .advance) = s2.free t { strong := th.strong - 1, pc := .freeing } := by
            rw [RState.step, if_neg (by rw [hi2.ub]; simp)]
            dsimp only
            rw [hg2]
          obtain ⟨hi3, hh3⟩ := hi2.free_step hg2 rfl
          have hf2 : s2.frees = 0 := by
            have := hi2.free
            have hp := at_pos hg2
            dsimp only at hp
            omega
          have e4 : s2.free t { strong := th.strong - 1, pc := .freeing } =
              { s2 with frees := s2.frees + 1 }.put t { strong := th.strong - 1, pc := .idle } := by
            rw [RState.free, if_neg (by omega)]
          have hup3 : (s2.free t { strong := th.strong - 1, pc := .freeing }).at .upgrading = s2.at .upgrading := by
            have := at_put (s := { s2 with frees := s2.frees + 1 }) hg2
              { strong := th.strong - 1, pc := .idle } .upgrading
            rw [e4]
            simp only [reduceCtorEq, if_false] at this
            exact this
          have hd3 : (s2.free t { strong := th.strong - 1, pc := .freeing }).destructions = 1 ∧
              (s2.free t { strong := th.strong - 1, pc := .freeing }).frees = 1 := by
            rw [e4]
            refine ⟨hd2, ?_⟩
            change s2.frees + 1 = 1
            omega
          rw [hs2]
          have hx := hi3.destroy
          have hy := hi3.free
          have hz : (if (s2.free t { strong := th.strong - 1, pc := .freeing }).held = 0 then 1 else 0) ≤ 1 := by
            split <;> omega
          refine ⟨hi3, ?_, ?_, ?_⟩
          · omega
          · omega
          · rw [hup3, hup, hall _ (by simp) (by simp)]
            exact hq.upgrading
        · rw [if_neg hc] at e2
          have hg : (s.decrement t th).threads[t]? = some { strong := th.strong - 1, pc := .idle } := by
            rw [e2]
            exact put_get (s := { s with counter := s.counter - 1 }) ht _
          rw [e, step_advance_idle hg rfl, step_advance_idle hg rfl]
          have hall : ∀ p, (s.decrement t th).at p = s.at p := by
            intro p
            have := at_put (s := { s with counter := s.counter - 1 }) (t := t) (th := th) ht
              { strong := th.strong - 1, pc := .idle } p
            rw [hpc] at this
            rw [e2]
            have h2 : RState.at { s with counter := s.counter - 1 } p = s.at p := rfl
            dsimp only at this
            omega
          exact ⟨hi, by rw [hall]; exact hq.deleting, by rw [hall]; exact hq.freeing, by rw [hall]; exact hq.upgrading⟩
    | pass to =>
      by_cases hs : th.strong = 0
      · rw [hsame _ (by rw [hstep]; exact if_pos hs)]
        exact ⟨h, hq⟩
      · have e : s.step (t, .pass to) = s.handOver t th to := by rw [hstep]; exact if_neg hs
        obtain ⟨hi, hh, hall⟩ := h.handOver ht (by omega) to
        have hq' : RQuiet (s.handOver t th to) :=
          ⟨by rw [hall]; exact hq.deleting, by rw [hall]; exact hq.freeing, by rw [hall]; exact hq.upgrading⟩
        rw [e]
        have hadv : (s.handOver t th to).step (t, .advance) = s.handOver t th to := by
          cases hg : (s.handOver t th to).threads[t]? with
          | none => exact step_advance_none hg _
          | some o => exact step_advance_idle hg (hq'.idle hg)
        rw [hadv, hadv]
        exact ⟨hi, hq'⟩
    | upgrade =>
      by_cases hact : s.active = true
      · have e : s.step (t, .upgrade) = s.put t { th with pc := .upgrading } := by rw [hstep]; exact if_pos hact
        obtain ⟨hi, hh⟩ := h.mark ht hpc
        have hg := put_get ht { th with pc := .upgrading }
        have hd0 : s.destructions = 0 := by
          have := h.active
          rw [hact] at this
          exact of_decide_eq_true this.symm
        have hheld : 0 < s.held := by
          have := h.destroy
          rw [hq.deleting, hd0] at this
          by_cases hz : s.held = 0
          · rw [if_pos hz] at this
            omega
          · omega
        have hall1 : ∀ p, p ≠ .idle → p ≠ .upgrading → (s.put t { th with pc := .upgrading }).at p = s.at p := by
          intro p hp hp2
          have := at_put ht { th with pc := .upgrading } p
          rw [hpc] at this
          dsimp only at this
          rw [if_neg (fun h => hp h.symm), if_neg (fun h => hp2 h.symm)] at this
          omega
        have hup1 : (s.put t { th with pc := .upgrading }).at .upgrading = 1 := by
          have := at_put ht { th with pc := .upgrading } .upgrading
          rw [hpc] at this
          simp only [reduceCtorEq, if_false, if_true] at this
          have := hq.upgrading
          omega
        have hd1 : (s.put t { th with pc := .upgrading }).destructions = 0 := hd0
        rw [e] at hl ⊢
        generalize s.put t { th with pc := .upgrading } = s1 at *
        have hs1 : s1.step (t, .advance) = s1.addRef t { th with pc := .upgrading } := by
          rw [RState.step, if_neg (by rw [hi.ub]; simp)]
          dsimp only
          rw [hg]
        have e2 : s1.addRef t { th with pc := .upgrading } =
            { s1 with counter := s1.counter + 1 }.put t { strong := th.strong + 1, pc := .idle } := by
          rw [RState.addRef, if_neg (by omega)]
        have hg2 : (s1.addRef t { th with pc := .upgrading }).threads[t]? =
            some { strong := th.strong + 1, pc := .idle } := by
          rw [e2]
          exact put_get (s := { s1 with counter := s1.counter + 1 }) hg _
        rw [hs1, step_advance_idle hg2 rfl] at hl ⊢
        have hb := addRef_held hd1 hg
        obtain ⟨hi2, -⟩ := hi.addRef hg (by omega) (by omega) (Or.inr rfl)
        have hall2 : ∀ p, (s1.addRef t { th with pc := .upgrading }).at p + (if RPc.upgrading = p then 1 else 0)
            = s1.at p + (if RPc.idle = p then 1 else 0) := by
          intro p
          rw [e2]
          exact at_put (s := { s1 with counter := s1.counter + 1 }) hg { strong := th.strong + 1, pc := .idle } p
        have p1 := hall2 .deleting
        have p2 := hall2 .freeing
        have p3 := hall2 .upgrading
        simp only [reduceCtorEq, if_false, if_true] at p1 p2 p3
        refine ⟨hi2, ?_, ?_, ?_⟩
        · rw [Nat.add_zero, Nat.add_zero] at p1
          rw [p1, hall1 _ (by simp) (by simp)]
          exact hq.deleting
        · rw [Nat.add_zero, Nat.add_zero] at p2
          rw [p2, hall1 _ (by simp) (by simp)]
          exact hq.freeing
        · omega
      · rw [hsame _ (by rw [hstep]; exact if_neg hact)]
        exact ⟨h, hq⟩
    | advance =>
      rw [hsame _ (by rw [hstep])]
      exact ⟨h, hq⟩

end VPdf
