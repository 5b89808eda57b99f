import Verif.Spec.Observers
import Verif.Lemmas.ParseTerm
/-
  Lemmas about saves with observers.
-/
namespace VPdf
open Spec

/-- The first failure among the steps. -/
def firstFail : List SaveStep → Option Fault
  | [] => none
  | .fail f :: _ => some f
  | _ :: l => firstFail l

/-- What the steps tell, from a position on. -/
def stepsTold : Nat → List SaveStep → List (SaveEvent × Nat)
  | _, [] => []
  | p, .put b :: l => stepsTold (p + b.length) l
  | p, .tell ev :: l => (ev, p) :: stepsTold p l
  | p, _ :: l => stepsTold p l

theorem firstFail_append (a b : List SaveStep) : firstFail (a ++ b) = (firstFail a).or (firstFail b) := by
  induction a with
  | nil => simp [firstFail]
  | cons x a ih => cases x <;> simp [firstFail, ih]

theorem stepsBytes_append (a b : List SaveStep) : stepsBytes (a ++ b) = stepsBytes a ++ stepsBytes b := by
  induction a with
  | nil => simp [stepsBytes]
  | cons x a ih => cases x <;> simp [stepsBytes, ih]

theorem stepsTold_append (a : List SaveStep) : ∀ (p : Nat) (b : List SaveStep),
    stepsTold p (a ++ b) = stepsTold p a ++ stepsTold (p + (stepsBytes a).length) b := by
  induction a with
  | nil => intro p b; simp [stepsTold, stepsBytes]
  | cons x a ih => intro p b; cases x <;> simp [stepsTold, stepsBytes, ih, Nat.add_assoc]

theorem runSteps_append (act : Callbacks) (a : List SaveStep) : ∀ (b : List SaveStep) (s : SaveRun),
    runSteps act (a ++ b) s = match runSteps act a s with | (.ok _, s) => runSteps act b s | (.error f, s) => (.error f, s) := by
  induction a with
  | nil => intro b s; simp [runSteps]
  | cons x a ih =>
    intro b s
    cases x with
    | put c => simp only [List.cons_append, runSteps, ih]
    | flush => simp only [List.cons_append, runSteps, ih]
    | fail f => simp only [List.cons_append, runSteps]
    | tell ev =>
      simp only [List.cons_append, runSteps]
      rcases notifyAll act ev s with ⟨r, s1⟩
      cases r with
      | ok u => simp only [ih]
      | error f => rfl

/-! ### The steps write the file -/

theorem objectSteps_facts (p n g : Nat) (o : SObj) :
    stepsBytes (objectSteps p n g o) = writeObject n g o ∧ firstFail (objectSteps p n g o) = none := by
  simp [objectSteps, stepsBytes, firstFail]

theorem entriesSteps_bytes (own : Option (Nat × Nat)) (es : List WEntry) : ∀ out : Bytes,
    (writeObjects own out es).1 = out ++ stepsBytes (entriesSteps own out.length es) ∧
      firstFail (entriesSteps own out.length es) = none := by
  induction es with
  | nil => intro out; simp [writeObjects, entriesSteps, stepsBytes, firstFail]
  | cons e es ih =>
    intro out
    rw [writeObjects, entriesSteps]
    by_cases ho : own = some (e.num, e.gen)
    · rw [if_pos ho, if_pos ho]
      exact ih out
    · rw [if_neg ho, if_neg ho]
      have step : ∀ obj, (writeObjects own (out ++ writeObject e.num e.gen obj) es).1
            = out ++ (writeObject e.num e.gen obj ++ stepsBytes (entriesSteps own (out.length + (writeObject e.num e.gen obj).length) es)) ∧
          firstFail (entriesSteps own (out.length + (writeObject e.num e.gen obj).length) es) = none := by
        intro obj
        have h := ih (out ++ writeObject e.num e.gen obj)
        rw [List.length_append, List.append_assoc] at h
        exact h
      cases hk : e.kind with
      | free n => exact ih out
      | used off o =>
        cases o with
        | none => exact ih out
        | some obj =>
          refine ⟨(step obj).1.trans ?_, ?_⟩
          · simp only [List.cons_append, List.nil_append, stepsBytes]
            rw [stepsBytes_append, (objectSteps_facts _ _ _ _).1]
          · simp only [List.cons_append, List.nil_append, firstFail]
            rw [firstFail_append, (objectSteps_facts _ _ _ _).2, (step obj).2]
            rfl
      | compressed a i obj =>
        refine ⟨(step obj).1.trans ?_, ?_⟩
        · simp only []
          rw [stepsBytes_append, (objectSteps_facts _ _ _ _).1]
        · simp only []
          rw [firstFail_append, (objectSteps_facts _ _ _ _).2, (step obj).2]
          rfl

theorem xrefSteps_bytes (c : Codec) (resolve : Nat → Nat → Res Int) (out : Bytes) (s : WSection) :
    writeXref c resolve out s = match firstFail (xrefSteps c resolve out s).1 with
      | some f => .error f
      | none => .ok (out ++ stepsBytes (xrefSteps c resolve out s).1, (xrefSteps c resolve out s).2) := by
  rw [writeXref, xrefSteps]
  cases s.own with
  | none => simp [firstFail, stepsBytes]
  | some x =>
    obtain ⟨n, g⟩ := x
    simp only []
    cases h1 : recalculateContent (recalculateWidths (s.entries.map WEntry.plain)) (s.entries.map WEntry.plain) with
    | error f => simp [bind, Except.bind, firstFail]
    | ok data =>
      simp only [bind, Except.bind, pure, Except.pure]
      cases h2 : c.encode (streamHeader data s.trailer) data.body with
      | error f => simp [firstFail]
      | ok body =>
        simp only []
        cases h3 : recalcLength resolve body.length (streamHeader data s.trailer) with
        | error f => simp [firstFail]
        | ok d => simp [firstFail_append, stepsBytes_append, (objectSteps_facts _ _ _ _).1, (objectSteps_facts _ _ _ _).2, firstFail, stepsBytes]

theorem sectionSteps_bytes (c : Codec) (resolve : Nat → Nat → Res Int) (out : Bytes) (prev : Option Int) (s : WSection) :
    (∃ f, writeSection c resolve out prev s = .error f ∧ firstFail (sectionSteps c resolve out prev s).1 = some f) ∨
    (∃ s', writeSection c resolve out prev s
        = .ok (out ++ stepsBytes (sectionSteps c resolve out prev s).1, (sectionSteps c resolve out prev s).2, s') ∧
      firstFail (sectionSteps c resolve out prev s).1 = none) := by
  rw [writeSection, sectionSteps]
  cases h : recalcSection resolve prev s with
  | error f => exact Or.inl ⟨f, rfl, rfl⟩
  | ok s1 =>
    simp only [bind, Except.bind, pure, Except.pure]
    have he := entriesSteps_bytes s1.own s1.entries out
    have hx := xrefSteps_bytes c resolve (writeObjects s1.own out s1.entries).1
      { s1 with entries := (writeObjects s1.own out s1.entries).2 }
    rw [firstFail_append, he.2, Option.none_or]
    cases hf : firstFail (xrefSteps c resolve (writeObjects s1.own out s1.entries).1
      { s1 with entries := (writeObjects s1.own out s1.entries).2 }).1 with
    | some f =>
      rw [hf] at hx
      simp only [hx]
      exact Or.inl ⟨f, rfl, rfl⟩
    | none =>
      rw [hf] at hx
      simp only [hx]
      refine Or.inr ⟨{ s1 with entries := (writeObjects s1.own out s1.entries).2 }, ?_, trivial⟩
      rw [stepsBytes_append, ← List.append_assoc, ← he.1]

theorem chainSteps_bytes (c : Codec) (resolve : Nat → Nat → Res Int) (ss : List WSection) : ∀ (out : Bytes) (prev : Option Int),
    writeChain c resolve out prev ss = match firstFail (chainSteps c resolve out prev ss) with
      | some f => .error f
      | none => .ok (out ++ stepsBytes (chainSteps c resolve out prev ss)) := by
  induction ss with
  | nil => intro out prev; simp [writeChain, chainSteps, firstFail, stepsBytes]
  | cons s ss ih =>
    intro out prev
    rw [writeChain, chainSteps]
    rcases sectionSteps_bytes c resolve out prev s with ⟨f, h1, h2⟩ | ⟨s', h1, h2⟩
    · rw [h1]
      simp [bind, Except.bind, firstFail_append, h2]
    · rw [h1]
      simp only [bind, Except.bind]
      rw [ih, firstFail_append, h2, Option.none_or, stepsBytes_append, List.append_assoc]

theorem saveSteps_bytes (c : Codec) (v : PdfVersion) (sections : List WSection) :
    saveFile c v sections = match firstFail (saveSteps c v sections) with
      | some f => .error f
      | none => .ok (stepsBytes (saveSteps c v sections)) := by
  rw [saveFile, chainSteps_bytes, saveSteps]
  simp only [List.cons_append, List.nil_append, firstFail, stepsBytes, firstFail_append, stepsBytes_append]
  have : firstFail endSteps = none ∧ stepsBytes endSteps = [] := by simp [endSteps, firstFail, stepsBytes]
  rw [this.1, this.2, Option.or_none, List.append_nil]

theorem incrementalSteps_bytes (c : Codec) (src : Bytes) (secs : List ISection) :
    saveIncremental c src secs = match firstFail (incrementalSteps c src secs) with
      | some f => .error f
      | none => .ok (stepsBytes (incrementalSteps c src secs)) := by
  have he : firstFail endSteps = none ∧ stepsBytes endSteps = [] := by simp [endSteps, firstFail, stepsBytes]
  rw [saveIncremental, incrementalSteps]
  simp only [List.cons_append, List.nil_append, firstFail, stepsBytes, firstFail_append, stepsBytes_append, he.1, he.2,
    Option.or_none, List.append_nil]
  cases h : createIncremental secs with
  | error f => simp [bind, Except.bind, firstFail]
  | ok s =>
    simp only [bind, Except.bind, pure, Except.pure]
    rcases sectionSteps_bytes c (destResolve [cloneSection s]) (copyContent src [] ++ b! "\n") none (cloneSection s) with
      ⟨f, h1, h2⟩ | ⟨s', h1, h2⟩
    · rw [h1, h2]
    · rw [h1, h2]

/-! ### Any callbacks -/

theorem notifyFrom_out (act : Callbacks) (ev : SaveEvent) (l : List ObserverRef) : ∀ s : SaveRun,
    (notifyFrom act ev l s).2.out = s.out ∧ (notifyFrom act ev l s).2.flushed = s.flushed := by
  induction l with
  | nil => intro s; exact ⟨rfl, rfl⟩
  | cons r l ih =>
    intro s
    rw [notifyFrom]
    split
    · exact ih s
    · simp only []
      split
      · exact ⟨rfl, rfl⟩
      · split
        · exact ⟨rfl, rfl⟩
        · exact ih _

theorem runSteps_prefix (act : Callbacks) (l : List SaveStep) : ∀ s : SaveRun,
    (runSteps act l s).2.out <+: s.out ++ stepsBytes l := by
  induction l with
  | nil => intro s; simp [runSteps, stepsBytes]
  | cons x l ih =>
    intro s
    cases x with
    | put b => simpa [runSteps, stepsBytes] using ih { s with out := s.out ++ b }
    | flush => simpa [runSteps, stepsBytes] using ih { s with flushed := some s.out }
    | fail f => simp [runSteps]
    | tell ev =>
      rw [runSteps]
      have h := (notifyFrom_out act ev s.obs.subs s).1
      rw [← show notifyAll act ev s = notifyFrom act ev s.obs.subs s from rfl] at h
      rcases hn : notifyAll act ev s with ⟨r, s1⟩
      rw [hn] at h
      simp only [] at h
      cases r with
      | ok u =>
        simp only [stepsBytes]
        rw [← h]
        exact ih s1
      | error f => simp only [stepsBytes, h]; exact List.prefix_append _ _

theorem runSteps_ok (act : Callbacks) (l : List SaveStep) : ∀ (s s' : SaveRun), runSteps act l s = (.ok (), s') →
    firstFail l = none ∧ s'.out = s.out ++ stepsBytes l ∧ (.flush ∉ l → s'.flushed = s.flushed) := by
  induction l with
  | nil =>
    intro s s' h
    simp only [runSteps, Prod.mk.injEq, true_and] at h
    subst h
    simp [firstFail, stepsBytes]
  | cons x l ih =>
    intro s s' h
    cases x with
    | put b =>
      obtain ⟨h1, h2, h3⟩ := ih _ _ h
      exact ⟨h1, by simpa [stepsBytes] using h2, fun hf => h3 (fun hm => hf (by simp [hm]))⟩
    | flush =>
      obtain ⟨h1, h2, h3⟩ := ih _ _ h
      exact ⟨h1, h2, fun hf => by simp at hf⟩
    | fail f => simp [runSteps] at h
    | tell ev =>
      rw [runSteps] at h
      have ho := notifyFrom_out act ev s.obs.subs s
      rw [← show notifyAll act ev s = notifyFrom act ev s.obs.subs s from rfl] at ho
      rcases hn : notifyAll act ev s with ⟨r, s1⟩
      rw [hn] at h ho
      simp only [] at ho
      cases r with
      | ok u =>
        obtain ⟨h1, h2, h3⟩ := ih _ _ h
        exact ⟨h1, by rw [h2, ho.1]; rfl, fun hf => by rw [h3 (fun hm => hf (by simp [hm])), ho.2]⟩
      | error f => simp at h

theorem runSteps_flushed (act : Callbacks) (l : List SaveStep) (hf : .flush ∉ l) : ∀ (s : SaveRun),
    (runSteps act l s).2.flushed = s.flushed := by
  induction l with
  | nil => intro s; rfl
  | cons x l ih =>
    intro s
    have hl : .flush ∉ l := fun hm => hf (by simp [hm])
    cases x with
    | put b => exact ih hl _
    | flush => simp at hf
    | fail f => rfl
    | tell ev =>
      rw [runSteps]
      have ho := notifyFrom_out act ev s.obs.subs s
      rw [← show notifyAll act ev s = notifyFrom act ev s.obs.subs s from rfl] at ho
      rcases hn : notifyAll act ev s with ⟨r, s1⟩
      rw [hn] at ho
      simp only [] at ho
      cases r with
      | ok u => simp only []; rw [ih hl, ho.2]
      | error f => exact ho.2

theorem entriesSteps_flush (own : Option (Nat × Nat)) (es : List WEntry) : ∀ p, .flush ∉ entriesSteps own p es := by
  induction es with
  | nil => intro p; simp [entriesSteps]
  | cons e es ih =>
    intro p
    rw [entriesSteps]
    split
    · exact ih p
    · split <;> simp [objectSteps, ih]

theorem sectionSteps_flush (c : Codec) (resolve : Nat → Nat → Res Int) (out : Bytes) (prev : Option Int) (s : WSection) :
    .flush ∉ (sectionSteps c resolve out prev s).1 := by
  rw [sectionSteps]
  split
  · simp
  · simp only [List.mem_append, not_or]
    refine ⟨entriesSteps_flush _ _ _, ?_⟩
    rw [xrefSteps]
    split
    · simp
    · split <;> simp [objectSteps]

theorem chainSteps_flush (c : Codec) (resolve : Nat → Nat → Res Int) (ss : List WSection) : ∀ (out : Bytes) (prev : Option Int),
    .flush ∉ chainSteps c resolve out prev ss := by
  induction ss with
  | nil => intro out prev; simp [chainSteps]
  | cons s ss ih =>
    intro out prev
    rw [chainSteps]
    simp only [List.mem_append, not_or]
    exact ⟨sectionSteps_flush c resolve out prev s, ih _ _⟩

theorem runSteps_end (act : Callbacks) (a : List SaveStep) (hf : .flush ∉ a) (s : SaveRun) (h0 : s.flushed = none) :
    ((runSteps act (a ++ endSteps) s).2.flushed = none ∧ (runSteps act (a ++ endSteps) s).1 ≠ .ok ()) ∨
    (runSteps act (a ++ endSteps) s).2.flushed = some (s.out ++ stepsBytes a) := by
  rw [runSteps_append]
  have h1 := runSteps_flushed act a hf s
  rcases hr : runSteps act a s with ⟨r, s1⟩
  rw [hr, h0] at h1
  cases r with
  | error f => exact Or.inl ⟨h1, by simp⟩
  | ok u =>
    have ho := (runSteps_ok act a s s1 hr).2.1
    simp only [endSteps]
    rw [runSteps]
    have h2 := notifyFrom_out act .flushBefore s1.obs.subs s1
    rw [← show notifyAll act .flushBefore s1 = notifyFrom act .flushBefore s1.obs.subs s1 from rfl] at h2
    rcases hn : notifyAll act .flushBefore s1 with ⟨r, s2⟩
    rw [hn] at h2
    simp only [] at h2
    cases r with
    | error f => exact Or.inl ⟨by rw [h2.2, h1], by simp⟩
    | ok u =>
      right
      simp only [runSteps]
      have h3 := notifyFrom_out act .flushAfter s2.obs.subs { s2 with flushed := some s2.out }
      rw [← show notifyAll act .flushAfter { s2 with flushed := some s2.out } = notifyFrom act .flushAfter s2.obs.subs { s2 with flushed := some s2.out } from rfl] at h3
      rcases hn3 : notifyAll act .flushAfter { s2 with flushed := some s2.out } with ⟨r, s3⟩
      rw [hn3] at h3
      simp only [] at h3
      cases r with
      | error f => simp only [h3.2, h2.1, ho]
      | ok u =>
        simp only []
        have h4 := notifyFrom_out act .finalizing s3.obs.subs s3
        rw [← show notifyAll act .finalizing s3 = notifyFrom act .finalizing s3.obs.subs s3 from rfl] at h4
        rcases hn4 : notifyAll act .finalizing s3 with ⟨r, s4⟩
        rw [hn4] at h4
        simp only [] at h4
        cases r <;> simp only [h4.2, h3.2, h2.1, ho]

/-! ### Passive callbacks -/

/-- All new calls succeeded, judged by the calls before them. -/
def GoodAfter (act : Callbacks) (base new : List ObserverCall) : Prop :=
  ∀ pre c post, new = pre ++ c :: post → (act c.who c.event (base ++ pre)).2 = true

theorem goodAfter_nil (act : Callbacks) (base : List ObserverCall) : GoodAfter act base [] := by
  intro pre c post h
  simp at h

theorem goodAfter_append {act : Callbacks} {base a b : List ObserverCall} (ha : GoodAfter act base a)
    (hb : GoodAfter act (base ++ a) b) : GoodAfter act base (a ++ b) := by
  intro pre c post h
  rcases List.append_eq_append_iff.1 h with ⟨x, h1, h2⟩ | ⟨x, h1, h2⟩
  · have := hb x c post h2
    rw [h1, ← List.append_assoc]
    exact this
  · cases x with
    | nil =>
      simp only [List.append_nil, List.nil_append] at h1 h2
      have := hb [] c post h2.symm
      rw [List.append_nil] at this
      rw [← h1]
      exact this
    | cons y x =>
      simp only [List.cons_append, List.cons.injEq] at h2
      obtain ⟨rfl, -⟩ := h2
      exact ha pre c x h1

theorem notifyFrom_passive {act : Callbacks} (hp : Passive act) (ev : SaveEvent) (l : List ObserverRef) : ∀ s : SaveRun,
    ∃ new, (notifyFrom act ev l s).2 = { s with calls := s.calls ++ new } ∧
      (∀ c ∈ new, c.event = ev ∧ c.pos = s.out.length ∧ s.obs.live c.who = true) ∧
      (((notifyFrom act ev l s).1 = .ok () ∧ GoodAfter act s.calls new) ∨
        ((notifyFrom act ev l s).1 = .error .throw ∧ ∃ pre c, new = pre ++ [c] ∧ GoodAfter act s.calls pre ∧
          (act c.who c.event (s.calls ++ pre)).2 = false)) := by
  induction l with
  | nil => intro s; exact ⟨[], by simp [notifyFrom], by simp, Or.inl ⟨rfl, goodAfter_nil _ _⟩⟩
  | cons r l ih =>
    intro s
    rw [notifyFrom]
    split
    · exact ih s
    · rename_i hlive
      simp only [Bool.not_eq_true', Bool.not_eq_false, Bool.and_eq_true] at hlive
      rw [show act r ev s.calls = ([], (act r ev s.calls).2) from Prod.ext (hp r ev s.calls) rfl]
      simp only [Observers.applyAll, Bool.not_true, Bool.false_eq_true, if_false]
      cases ha : (act r ev s.calls).2 with
      | false =>
        refine ⟨[⟨r, ev, s.out.length⟩], by simp, by simp [hlive.2], Or.inr ⟨by simp, [], ⟨r, ev, s.out.length⟩, rfl, goodAfter_nil _ _, ?_⟩⟩
        simpa using ha
      | true =>
        simp only [Bool.not_true, Bool.false_eq_true, if_false]
        obtain ⟨new, h1, h2, h3⟩ := ih { s with calls := s.calls ++ [⟨r, ev, s.out.length⟩], obs := s.obs }
        have hg : GoodAfter act s.calls [⟨r, ev, s.out.length⟩] := by
          intro pre c post h
          cases pre with
          | nil =>
            simp only [List.nil_append, List.cons.injEq] at h
            rw [← h.1, List.append_nil]
            exact ha
          | cons y pre => simp at h
        refine ⟨⟨r, ev, s.out.length⟩ :: new, ?_, ?_, ?_⟩
        · rw [h1]
          simp
        · intro c hc
          rcases List.mem_cons.1 hc with rfl | hc
          · exact ⟨rfl, rfl, hlive.2⟩
          · exact h2 c hc
        · rcases h3 with ⟨h3, h4⟩ | ⟨h3, pre, c, h4, h5, h6⟩
          · exact Or.inl ⟨h3, goodAfter_append (a := [⟨r, ev, s.out.length⟩]) hg h4⟩
          · refine Or.inr ⟨h3, ⟨r, ev, s.out.length⟩ :: pre, c, by rw [h4]; rfl, goodAfter_append (a := [⟨r, ev, s.out.length⟩]) hg h5, ?_⟩
            simpa using h6

theorem runSteps_passive {act : Callbacks} (hp : Passive act) (l : List SaveStep) : ∀ s : SaveRun,
    (runSteps act l s).2.obs = s.obs ∧
    ∃ new, (runSteps act l s).2.calls = s.calls ++ new ∧
      (∀ c ∈ new, .tell c.event ∈ l ∧ s.obs.live c.who = true) ∧
      (((runSteps act l s).1 = (match firstFail l with | some f => .error f | none => .ok ()) ∧ GoodAfter act s.calls new) ∨
        ((runSteps act l s).1 = .error .throw ∧ ∃ pre c, new = pre ++ [c] ∧ GoodAfter act s.calls pre ∧
          (act c.who c.event (s.calls ++ pre)).2 = false ∧ (runSteps act l s).2.out.length = c.pos)) := by
  induction l with
  | nil => intro s; exact ⟨rfl, [], by simp [runSteps], by simp, Or.inl ⟨rfl, goodAfter_nil _ _⟩⟩
  | cons x l ih =>
    intro s
    cases x with
    | put b =>
      obtain ⟨h0, new, h1, h2, h3⟩ := ih { s with out := s.out ++ b }
      exact ⟨h0, new, h1, fun c hc => ⟨List.mem_cons_of_mem _ (h2 c hc).1, (h2 c hc).2⟩, h3⟩
    | flush =>
      obtain ⟨h0, new, h1, h2, h3⟩ := ih { s with flushed := some s.out }
      exact ⟨h0, new, h1, fun c hc => ⟨List.mem_cons_of_mem _ (h2 c hc).1, (h2 c hc).2⟩, h3⟩
    | fail f => exact ⟨rfl, [], by simp [runSteps], by simp, Or.inl ⟨rfl, goodAfter_nil _ _⟩⟩
    | tell ev =>
      obtain ⟨n1, h1, h2, h3⟩ := notifyFrom_passive hp ev s.obs.subs s
      rw [← show notifyAll act ev s = notifyFrom act ev s.obs.subs s from rfl] at h1 h3
      rw [runSteps]
      rcases hn : notifyAll act ev s with ⟨r, s1⟩
      rw [hn] at h1 h3
      simp only [] at h1 h3
      subst h1
      have hm : ∀ c ∈ n1, SaveStep.tell c.event ∈ SaveStep.tell ev :: l ∧ s.obs.live c.who = true := fun c hc => by
        rw [(h2 c hc).1]
        exact ⟨by simp, (h2 c hc).2.2⟩
      cases r with
      | error f =>
        refine ⟨rfl, n1, rfl, hm, ?_⟩
        rcases h3 with ⟨h3, -⟩ | ⟨h3, pre, c, h4, h5, h6⟩
        · simp at h3
        · refine Or.inr ⟨h3, pre, c, h4, h5, h6, ?_⟩
          exact ((h2 c (by rw [h4]; simp)).2.1).symm
      | ok u =>
        rcases h3 with ⟨-, hg⟩ | ⟨h3, -⟩
        · obtain ⟨k0, n2, k1, k2, k3⟩ := ih { s with calls := s.calls ++ n1 }
          refine ⟨k0, n1 ++ n2, by rw [k1]; simp, ?_, ?_⟩
          · intro c hc
            rcases List.mem_append.1 hc with hc | hc
            · exact hm c hc
            · exact ⟨List.mem_cons_of_mem _ (k2 c hc).1, (k2 c hc).2⟩
          · rcases k3 with ⟨k3, k4⟩ | ⟨k3, pre, c, k4, k5, k6, k7⟩
            · exact Or.inl ⟨k3, goodAfter_append hg k4⟩
            · exact Or.inr ⟨k3, n1 ++ pre, c, by rw [k4]; simp, goodAfter_append hg k5, by simpa using k6, k7⟩
        · simp at h3

/-! ### Passive callbacks that succeed -/

theorem notifyFrom_obliging {act : Callbacks} (hp : Passive act) (ho : Obliging act) (ev : SaveEvent) (l : List ObserverRef) :
    ∀ s : SaveRun, notifyFrom act ev l s = (.ok (), { s with calls := s.calls ++
      (l.filter (fun r => s.obs.subs.contains r && s.obs.live r)).map (fun r => ⟨r, ev, s.out.length⟩) }) := by
  induction l with
  | nil => intro s; simp [notifyFrom]
  | cons r l ih =>
    intro s
    rw [notifyFrom]
    cases hc : (s.obs.subs.contains r && s.obs.live r) with
    | false =>
      simp only [Bool.not_false, if_true]
      rw [ih s, List.filter_cons_of_neg (by simpa using hc)]
    | true =>
      rw [show act r ev s.calls = ([], true) from Prod.ext (hp r ev s.calls) (ho r ev s.calls)]
      simp only [Observers.applyAll, Bool.not_true, Bool.false_eq_true, if_false]
      rw [ih, List.filter_cons_of_pos (by simpa using hc)]
      simp

theorem runSteps_obliging {act : Callbacks} (hp : Passive act) (ho : Obliging act) (l : List SaveStep) (hf : firstFail l = none) :
    ∀ s : SaveRun, (runSteps act l s).1 = .ok () ∧ (runSteps act l s).2.calls = s.calls ++
      (stepsTold s.out.length l).flatMap (fun x => (s.obs.subs.filter s.obs.live).map (fun r => ⟨r, x.1, x.2⟩)) := by
  induction l with
  | nil => intro s; simp [runSteps, stepsTold]
  | cons x l ih =>
    intro s
    cases x with
    | put b => simpa [runSteps, stepsTold] using ih hf { s with out := s.out ++ b }
    | flush => simpa [runSteps, stepsTold] using ih hf { s with flushed := some s.out }
    | fail f => simp [firstFail] at hf
    | tell ev =>
      rw [runSteps, notifyAll, notifyFrom_obliging hp ho]
      have h := ih hf { s with calls := s.calls ++ (s.obs.subs.filter (fun r => s.obs.subs.contains r && s.obs.live r)).map (fun r => ⟨r, ev, s.out.length⟩) }
      refine ⟨h.1, ?_⟩
      rw [h.2]
      have hfil : s.obs.subs.filter (fun r => s.obs.subs.contains r && s.obs.live r) = s.obs.subs.filter s.obs.live := by
        apply List.filter_congr
        intro r hr
        simp [hr]
      simp only [stepsTold, List.flatMap_cons, hfil, List.append_assoc]

theorem toldTo_flatMap (r : ObserverRef) (subs : List ObserverRef) (hd : subs.Nodup) (evs : List (SaveEvent × Nat)) :
    toldTo r (evs.flatMap (fun x => subs.map (fun q => (⟨q, x.1, x.2⟩ : ObserverCall)))) = if r ∈ subs then evs else [] := by
  have one : ∀ (x : SaveEvent × Nat) (l : List ObserverRef), l.Nodup →
      toldTo r (l.map (fun q => (⟨q, x.1, x.2⟩ : ObserverCall))) = if r ∈ l then [x] else [] := by
    intro x l
    induction l with
    | nil => intro _; simp [toldTo]
    | cons q l ih =>
      intro hl
      have hq := List.nodup_cons.1 hl
      have hi := ih hq.2
      unfold toldTo at hi ⊢
      by_cases hqr : q = r
      · subst hqr
        rw [if_neg hq.1] at hi
        simp only [List.map_cons, List.filter_cons, beq_self_eq_true, if_true, List.map_cons, hi, List.mem_cons, true_or]
      · rw [List.map_cons, List.filter_cons_of_neg (by simpa using hqr), hi]
        have : (r ∈ q :: l) ↔ r ∈ l := by
          rw [List.mem_cons]
          exact ⟨fun h => h.elim (fun h => absurd h.symm hqr) id, Or.inr⟩
        simp only [this]
  induction evs with
  | nil => simp [toldTo]
  | cons x evs ih =>
    have h1 := one x subs hd
    unfold toldTo at h1 ih ⊢
    rw [List.flatMap_cons, List.filter_append, List.map_append, h1, ih]
    split <;> simp

/-! ### What is told of a file -/

/-- The objects that the entries of a section write. -/
def entriesObjects (own : Option (Nat × Nat)) : Nat → List WEntry → List SavedObject
  | _, [] => []
  | pos, e :: es =>
    if own = some (e.num, e.gen) then entriesObjects own pos es
    else
      match e.kind with
      | .used _ (some obj) =>
        ⟨e.num, e.gen, pos, writeObject e.num e.gen obj, true⟩ :: entriesObjects own (pos + (writeObject e.num e.gen obj).length) es
      | .compressed _ _ obj =>
        ⟨e.num, e.gen, pos, writeObject e.num e.gen obj, false⟩ :: entriesObjects own (pos + (writeObject e.num e.gen obj).length) es
      | _ => entriesObjects own pos es

/-- The objects stand one after another in the text, which begins at a position. -/
def StandIn (b : Bytes) (pos : Nat) (objs : List SavedObject) : Prop :=
  ∀ w ∈ objs, ∃ before body after, b = before ++ w.text ++ after ∧ pos + before.length = w.off ∧
    w.text = natDec w.num ++ b! " " ++ natDec w.gen ++ b! " obj\n" ++ body ++ b! "\nendobj\n"

theorem standIn_append {a b : Bytes} {p : Nat} {x y : List SavedObject} (ha : StandIn a p x) (hb : StandIn b (p + a.length) y) :
    StandIn (a ++ b) p (x ++ y) := by
  intro w hw
  rcases List.mem_append.1 hw with hw | hw
  · obtain ⟨before, body, after, h1, h2, h3⟩ := ha w hw
    exact ⟨before, body, after ++ b, by rw [h1]; simp, h2, h3⟩
  · obtain ⟨before, body, after, h1, h2, h3⟩ := hb w hw
    exact ⟨a ++ before, body, after, by rw [h1]; simp, by rw [List.length_append, ← Nat.add_assoc]; exact h2, h3⟩

theorem standIn_one (p n g : Nat) (o : SObj) (l : Bool) :
    StandIn (writeObject n g o) p [⟨n, g, p, writeObject n g o, l⟩] := by
  intro w hw
  simp only [List.mem_singleton] at hw
  subst hw
  exact ⟨[], writeBody o, [], by simp, rfl, by simp [writeObject]⟩

theorem objectSteps_told (p n g : Nat) (o : SObj) :
    stepsTold p (objectSteps p n g o) = SavedObject.told ⟨n, g, p, writeObject n g o, false⟩ := by
  simp [objectSteps, stepsTold, SavedObject.told]

theorem entriesSteps_told (own : Option (Nat × Nat)) (es : List WEntry) : ∀ p,
    stepsTold p (entriesSteps own p es) = (entriesObjects own p es).flatMap SavedObject.told ∧
      StandIn (stepsBytes (entriesSteps own p es)) p (entriesObjects own p es) ∧
      ∀ e ∈ es, e.inUse = true → own ≠ some (e.num, e.gen) → ∃ w ∈ entriesObjects own p es, w.num = e.num ∧ w.gen = e.gen := by
  induction es with
  | nil => intro p; simp [entriesSteps, entriesObjects, stepsTold, StandIn]
  | cons e es ih =>
    intro p
    rw [entriesSteps, entriesObjects]
    by_cases ho : own = some (e.num, e.gen)
    · rw [if_pos ho, if_pos ho]
      refine ⟨(ih p).1, (ih p).2.1, fun x hx hu hn => ?_⟩
      rcases List.mem_cons.1 hx with rfl | hx
      · exact absurd ho hn
      · exact (ih p).2.2 x hx hu hn
    · rw [if_neg ho, if_neg ho]
      have skip : e.inUse = false → stepsTold p (entriesSteps own p es) = (entriesObjects own p es).flatMap SavedObject.told ∧
          StandIn (stepsBytes (entriesSteps own p es)) p (entriesObjects own p es) ∧
          ∀ x ∈ e :: es, x.inUse = true → own ≠ some (x.num, x.gen) → ∃ w ∈ entriesObjects own p es, w.num = x.num ∧ w.gen = x.gen := by
        intro hnu
        refine ⟨(ih p).1, (ih p).2.1, fun x hx hu hn => ?_⟩
        rcases List.mem_cons.1 hx with rfl | hx
        · rw [hnu] at hu
          simp at hu
        · exact (ih p).2.2 x hx hu hn
      have put : ∀ obj l (pre : List SaveStep), stepsTold p pre ++ SavedObject.told ⟨e.num, e.gen, p, writeObject e.num e.gen obj, false⟩
            = SavedObject.told ⟨e.num, e.gen, p, writeObject e.num e.gen obj, l⟩ → stepsBytes pre = [] →
          let q := p + (writeObject e.num e.gen obj).length
          let objs := ⟨e.num, e.gen, p, writeObject e.num e.gen obj, l⟩ :: entriesObjects own q es
          let steps := pre ++ objectSteps p e.num e.gen obj ++ entriesSteps own q es
          stepsTold p steps = objs.flatMap SavedObject.told ∧ StandIn (stepsBytes steps) p objs ∧
          ∀ x ∈ e :: es, x.inUse = true → own ≠ some (x.num, x.gen) → ∃ w ∈ objs, w.num = x.num ∧ w.gen = x.gen := by
        intro obj l pre h0 hb0
        have h := ih (p + (writeObject e.num e.gen obj).length)
        have hb := (objectSteps_facts p e.num e.gen obj).1
        refine ⟨?_, ?_, fun x hx hu hn => ?_⟩
        · rw [stepsTold_append, stepsTold_append, stepsBytes_append, hb0, hb, List.nil_append, List.length_nil, Nat.add_zero,
            objectSteps_told, h0, h.1, List.flatMap_cons]
        · rw [stepsBytes_append, stepsBytes_append, hb0, hb, List.nil_append]
          exact standIn_append (standIn_one p _ _ _ l) h.2.1
        · rcases List.mem_cons.1 hx with rfl | hx
          · exact ⟨_, List.mem_cons_self, rfl, rfl⟩
          · obtain ⟨w, hw, h1⟩ := h.2.2 x hx hu hn
            exact ⟨w, List.mem_cons_of_mem _ hw, h1⟩
      cases hk : e.kind with
      | free n => exact skip (by simp [WEntry.inUse, hk])
      | used off o =>
        cases o with
        | none => exact skip (by simp [WEntry.inUse, hk])
        | some obj => exact put obj true [.tell (.entryBefore e.num e.gen), .tell (.entryAfter e.num e.gen p)] rfl rfl
      | compressed a i obj => exact put obj false [] rfl rfl

theorem standIn_nil (b : Bytes) (p : Nat) : StandIn b p [] := by
  intro w hw
  simp at hw

theorem xrefSteps_told (c : Codec) (resolve : Nat → Nat → Res Int) (out : Bytes) (s : WSection)
    (hf : firstFail (xrefSteps c resolve out s).1 = none) :
    ∃ objs, stepsTold out.length (xrefSteps c resolve out s).1 = objs.flatMap SavedObject.told ∧
      StandIn (stepsBytes (xrefSteps c resolve out s).1) out.length objs ∧
      ∀ n g, s.own = some (n, g) → ∃ w ∈ objs, w.num = n ∧ w.gen = g := by
  rw [xrefSteps] at hf ⊢
  cases ho : s.own with
  | none => exact ⟨[], by simp [stepsTold], standIn_nil _ _, by simp⟩
  | some x =>
    obtain ⟨n, g⟩ := x
    rw [ho] at hf
    simp only [] at hf ⊢
    split at hf
    · simp [firstFail] at hf
    · rename_i o hq
      simp only []
      refine ⟨[⟨n, g, out.length, writeObject n g o, false⟩], ?_, ?_, ?_⟩
      · rw [stepsTold_append, objectSteps_told]
        simp [stepsTold]
      · rw [stepsBytes_append, (objectSteps_facts _ _ _ _).1]
        have := standIn_append (standIn_one out.length n g o false) (standIn_nil (stepsBytes [SaveStep.put (writeXrefOffset out.length)]) (out.length + (writeObject n g o).length))
        simpa using this
      · intro n' g' h
        simp only [Option.some.injEq, Prod.mk.injEq] at h
        exact ⟨_, List.mem_cons_self, h.1, h.2⟩

theorem recalcEntry_same {resolve : Nat → Nat → Res Int} {own : Option (Nat × Nat)} {e e' : WEntry}
    (h : recalcEntry resolve own e = .ok e') : e'.num = e.num ∧ e'.gen = e.gen ∧ e'.inUse = e.inUse := by
  rw [recalcEntry] at h
  split at h
  · simp only [Except.ok.injEq] at h; subst h; exact ⟨rfl, rfl, rfl⟩
  · split at h
    · rename_i hk
      obtain ⟨d, -, h⟩ := bind_ok h
      simp only [pure, Except.pure, Except.ok.injEq] at h
      subst h
      refine ⟨rfl, rfl, ?_⟩
      simp [WEntry.inUse, hk]
    · simp at h
    · simp only [Except.ok.injEq] at h; subst h; exact ⟨rfl, rfl, rfl⟩

theorem recalcEntries_mem {resolve : Nat → Nat → Res Int} {own : Option (Nat × Nat)} (es : List WEntry) : ∀ {es' : List WEntry},
    recalcEntries resolve own es = .ok es' → ∀ e ∈ es, ∃ e' ∈ es', e'.num = e.num ∧ e'.gen = e.gen ∧ e'.inUse = e.inUse := by
  induction es with
  | nil => intro es' _ e he; simp at he
  | cons x es ih =>
    intro es' h e he
    rw [recalcEntries] at h
    obtain ⟨x', h1, h⟩ := bind_ok h
    obtain ⟨l', h2, h⟩ := bind_ok h
    simp only [pure, Except.pure, Except.ok.injEq] at h
    subst h
    rcases List.mem_cons.1 he with rfl | he
    · exact ⟨x', List.mem_cons_self, recalcEntry_same h1⟩
    · obtain ⟨e', m, r⟩ := ih h2 e he
      exact ⟨e', List.mem_cons_of_mem _ m, r⟩

theorem sectionSteps_told (c : Codec) (resolve : Nat → Nat → Res Int) (out : Bytes) (prev : Option Int) (s : WSection)
    (hf : firstFail (sectionSteps c resolve out prev s).1 = none) :
    ∃ objs, stepsTold out.length (sectionSteps c resolve out prev s).1 = objs.flatMap SavedObject.told ∧
      StandIn (stepsBytes (sectionSteps c resolve out prev s).1) out.length objs ∧
      ∀ n g, HasObject s n g → ∃ w ∈ objs, w.num = n ∧ w.gen = g := by
  rw [sectionSteps] at hf ⊢
  split at hf
  · simp [firstFail] at hf
  · rename_i s1 hs1
    simp only [] at hf ⊢
    have hfx := hf
    rw [firstFail_append, (entriesSteps_bytes s1.own s1.entries out).2, Option.none_or] at hfx
    obtain ⟨o2, x1, x2, x3⟩ := xrefSteps_told c resolve _ _ hfx
    obtain ⟨e1, e2, e3⟩ := entriesSteps_told s1.own s1.entries out.length
    have hb := (entriesSteps_bytes s1.own s1.entries out).1
    have hlen : out.length + (stepsBytes (entriesSteps s1.own out.length s1.entries)).length = (writeObjects s1.own out s1.entries).1.length := by
      rw [hb, List.length_append]
    refine ⟨entriesObjects s1.own out.length s1.entries ++ o2, ?_, ?_, ?_⟩
    · rw [stepsTold_append, e1, hlen, x1, List.flatMap_append]
    · rw [stepsBytes_append]
      refine standIn_append e2 ?_
      rw [hlen]
      exact x2
    · have hown : s1.own = s.own ∧ recalcEntries resolve s.own s.entries = .ok s1.entries := by
        rw [recalcSection.eq_def] at hs1
        obtain ⟨t, -, hs1⟩ := bind_ok hs1
        obtain ⟨es, h2, hs1⟩ := bind_ok hs1
        obtain ⟨t2, -, hs1⟩ := bind_ok hs1
        simp only [pure, Except.pure, Except.ok.injEq] at hs1
        subst hs1
        exact ⟨rfl, h2⟩
      intro n g hobj
      by_cases ho : s1.own = some (n, g)
      · obtain ⟨w, hw, r⟩ := x3 n g ho
        exact ⟨w, List.mem_append_right _ hw, r⟩
      · rcases hobj with ⟨e, he, hu, rfl, rfl⟩ | hobj
        · obtain ⟨e', he', r1, r2, r3⟩ := recalcEntries_mem _ hown.2 e he
          obtain ⟨w, hw, q1, q2⟩ := e3 e' he' (by rw [r3]; exact hu) (by rw [r1, r2]; exact ho)
          exact ⟨w, List.mem_append_left _ hw, by rw [q1, r1], by rw [q2, r2]⟩
        · exact absurd (by rw [hown.1]; exact hobj) ho

theorem chainSteps_told (c : Codec) (resolve : Nat → Nat → Res Int) (ss : List WSection) : ∀ (out : Bytes) (prev : Option Int),
    firstFail (chainSteps c resolve out prev ss) = none →
    ∃ objs, stepsTold out.length (chainSteps c resolve out prev ss) = objs.flatMap SavedObject.told ∧
      StandIn (stepsBytes (chainSteps c resolve out prev ss)) out.length objs ∧
      ∀ s ∈ ss, ∀ n g, HasObject s n g → ∃ w ∈ objs, w.num = n ∧ w.gen = g := by
  induction ss with
  | nil => intro out prev _; exact ⟨[], by simp [chainSteps, stepsTold], standIn_nil _ _, by simp⟩
  | cons s ss ih =>
    intro out prev hf
    rw [chainSteps] at hf ⊢
    rw [firstFail_append, Option.or_eq_none_iff] at hf
    obtain ⟨o1, a1, a2, a3⟩ := sectionSteps_told c resolve out prev s hf.1
    obtain ⟨o2, b1, b2, b3⟩ := ih _ _ hf.2
    rw [List.length_append] at b1 b2
    refine ⟨o1 ++ o2, ?_, ?_, ?_⟩
    · rw [stepsTold_append, a1, b1, List.flatMap_append]
    · rw [stepsBytes_append]
      exact standIn_append a2 b2
    · intro t ht n g ho
      rcases List.mem_cons.1 ht with rfl | ht
      · obtain ⟨w, hw, r⟩ := a3 n g ho
        exact ⟨w, List.mem_append_left _ hw, r⟩
      · obtain ⟨w, hw, r⟩ := b3 t ht n g ho
        exact ⟨w, List.mem_append_right _ hw, r⟩

end VPdf
