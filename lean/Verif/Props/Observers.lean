import Verif.Lemmas.Observers
import Verif.Lemmas.Incremental
import Verif.Props.Writer
/-
  C113: observers of a save.
-/
namespace VPdf
open Spec

/-! ### The file -/

theorem saveSteps_split (c : Codec) (v : PdfVersion) (sections : List WSection) :
    ∃ a, saveSteps c v sections = a ++ endSteps ∧ .flush ∉ a ∧ (∀ ev, .tell ev ∈ a → ev = .initializing ∨ ∃ n g off,
      ev = .entryBefore n g ∨ ev = .entryAfter n g off ∨ ev = .objectBefore n g ∨ ev = .objectAfter n g off ∨ ev = .writeBefore n g ∨
      ev = .writeAfter n g) := by
  refine ⟨_, rfl, ?_, ?_⟩
  · simp only [List.mem_append, not_or]
    exact ⟨by simp, chainSteps_flush _ _ _ _ _⟩
  · intro ev hev
    have obj : ∀ p n g o, SaveStep.tell ev ∈ objectSteps p n g o → ∃ n g off,
        ev = .entryBefore n g ∨ ev = .entryAfter n g off ∨ ev = .objectBefore n g ∨ ev = .objectAfter n g off ∨ ev = .writeBefore n g ∨
        ev = .writeAfter n g := by
      intro p n g o h
      simp only [objectSteps, List.mem_cons, SaveStep.tell.injEq, List.not_mem_nil, or_false, reduceCtorEq, false_or] at h
      exact ⟨n, g, p, by rcases h with h | h | h | h <;> simp [h]⟩
    have ents : ∀ own (es : List WEntry) p, SaveStep.tell ev ∈ entriesSteps own p es → ∃ n g off,
        ev = .entryBefore n g ∨ ev = .entryAfter n g off ∨ ev = .objectBefore n g ∨ ev = .objectAfter n g off ∨ ev = .writeBefore n g ∨
        ev = .writeAfter n g := by
      intro own es
      induction es with
      | nil => intro p h; simp [entriesSteps] at h
      | cons e es ih =>
        intro p h
        rw [entriesSteps] at h
        split at h
        · exact ih p h
        · split at h
          · simp only [List.mem_append, List.mem_cons, SaveStep.tell.injEq, List.not_mem_nil, or_false] at h
            rcases h with ((h | h) | h) | h
            · exact ⟨e.num, e.gen, p, by simp [h]⟩
            · exact ⟨e.num, e.gen, p, by simp [h]⟩
            · exact obj _ _ _ _ h
            · exact ih _ h
          · rcases List.mem_append.1 h with h | h
            · exact obj _ _ _ _ h
            · exact ih _ h
          · exact ih p h
    have sect : ∀ c resolve out prev s, SaveStep.tell ev ∈ (sectionSteps c resolve out prev s).1 → ∃ n g off,
        ev = .entryBefore n g ∨ ev = .entryAfter n g off ∨ ev = .objectBefore n g ∨ ev = .objectAfter n g off ∨ ev = .writeBefore n g ∨
        ev = .writeAfter n g := by
      intro c resolve out prev s h
      rw [sectionSteps] at h
      split at h
      · simp at h
      · rcases List.mem_append.1 h with h | h
        · exact ents _ _ _ h
        · rw [xrefSteps] at h
          split at h
          · simp at h
          · split at h
            · simp at h
            · rcases List.mem_append.1 h with h | h
              · exact obj _ _ _ _ h
              · simp at h
    have chain : ∀ c resolve (ss : List WSection) out prev, SaveStep.tell ev ∈ chainSteps c resolve out prev ss → ∃ n g off,
        ev = .entryBefore n g ∨ ev = .entryAfter n g off ∨ ev = .objectBefore n g ∨ ev = .objectAfter n g off ∨ ev = .writeBefore n g ∨
        ev = .writeAfter n g := by
      intro c resolve ss
      induction ss with
      | nil => intro out prev h; simp [chainSteps] at h
      | cons s ss ih =>
        intro out prev h
        rw [chainSteps] at h
        rcases List.mem_append.1 h with h | h
        · exact sect _ _ _ _ _ h
        · exact ih _ _ h
    rcases List.mem_append.1 hev with h | h
    · simp only [List.mem_cons, SaveStep.tell.injEq, List.not_mem_nil, or_false, reduceCtorEq] at h
      exact Or.inl h
    · exact Or.inr (chain _ _ _ _ _ h)

theorem stepsBytes_end (a : List SaveStep) : stepsBytes (a ++ endSteps) = stepsBytes a := by
  rw [stepsBytes_append, show stepsBytes endSteps = [] by simp [endSteps, stepsBytes], List.append_nil]

/-- **C113, the file.**  Whatever the callbacks do: a save that succeeds has written, and flushed, the file it writes without
observers, and one that fails has written a part of it from its beginning and has flushed nothing or all of it. -/
theorem C113_file (act : Callbacks) (obs : Observers) (c : Codec) (v : PdfVersion) (sections : List WSection) (s : SaveRun) :
    (observedSave act obs c v sections = (.ok (), s) → saveFile c v sections = .ok s.out ∧ s.flushed = some s.out) ∧
    (∀ f b, observedSave act obs c v sections = (.error f, s) → saveFile c v sections = .ok b →
      s.out <+: b ∧ (s.flushed = none ∨ s.flushed = some b)) := by
  obtain ⟨a, ha, hfl, -⟩ := saveSteps_split c v sections
  have hb := saveSteps_bytes c v sections
  have hend := runSteps_end act a hfl ⟨[], none, [], obs⟩ rfl
  refine ⟨fun h => ?_, fun f b h hs => ?_⟩
  · rw [observedSave] at h
    obtain ⟨h1, h2, -⟩ := runSteps_ok act _ _ _ h
    rw [ha] at h
    rw [h] at hend
    simp only [List.nil_append] at h2 hend
    rw [h1] at hb
    refine ⟨by rw [hb, h2], ?_⟩
    rcases hend with ⟨-, h3⟩ | h3
    · exact absurd rfl h3
    · rw [h3, h2, ha, stepsBytes_end]
  · rw [observedSave] at h
    have hp := runSteps_prefix act (saveSteps c v sections) ⟨[], none, [], obs⟩
    rw [h] at hp
    rw [ha] at h
    rw [h] at hend
    simp only [List.nil_append] at hp hend
    have hbb : b = stepsBytes (saveSteps c v sections) := by
      rw [hs] at hb
      split at hb
      · simp at hb
      · simpa using hb
    refine ⟨hbb ▸ hp, ?_⟩
    rcases hend with ⟨h3, -⟩ | h3
    · exact Or.inl h3
    · exact Or.inr (by rw [h3, hbb, ha, stepsBytes_end])

/-- The same for an incremental save. -/
theorem C113_incremental (act : Callbacks) (obs : Observers) (c : Codec) (src : Bytes) (secs : List ISection) (s : SaveRun) :
    (observedIncremental act obs c src secs = (.ok (), s) → saveIncremental c src secs = .ok s.out ∧ s.flushed = some s.out) ∧
    (∀ f b, observedIncremental act obs c src secs = (.error f, s) → saveIncremental c src secs = .ok b →
      s.out <+: b ∧ (s.flushed = none ∨ s.flushed = some b)) := by
  have hsplit : ∃ a, incrementalSteps c src secs = a ++ endSteps ∧ SaveStep.flush ∉ a := by
    refine ⟨_, rfl, ?_⟩
    simp only [List.mem_append, not_or]
    refine ⟨by simp, ?_⟩
    split
    · simp
    · exact sectionSteps_flush _ _ _ _ _
  obtain ⟨a, ha, hfl⟩ := hsplit
  have hb := incrementalSteps_bytes c src secs
  have hend := runSteps_end act a hfl ⟨[], none, [], obs⟩ rfl
  refine ⟨fun h => ?_, fun f b h hs => ?_⟩
  · rw [observedIncremental] at h
    obtain ⟨h1, h2, -⟩ := runSteps_ok act _ _ _ h
    rw [ha] at h
    rw [h] at hend
    simp only [List.nil_append] at h2 hend
    rw [h1] at hb
    refine ⟨by rw [hb, h2], ?_⟩
    rcases hend with ⟨-, h3⟩ | h3
    · exact absurd rfl h3
    · rw [h3, h2, ha, stepsBytes_end]
  · rw [observedIncremental] at h
    have hp := runSteps_prefix act (incrementalSteps c src secs) ⟨[], none, [], obs⟩
    rw [h] at hp
    rw [ha] at h
    rw [h] at hend
    simp only [List.nil_append] at hp hend
    have hbb : b = stepsBytes (incrementalSteps c src secs) := by
      rw [hs] at hb
      split at hb
      · simp at hb
      · simpa using hb
    refine ⟨hbb ▸ hp, ?_⟩
    rcases hend with ⟨h3, -⟩ | h3
    · exact Or.inl h3
    · exact Or.inr (by rw [h3, hbb, ha, stepsBytes_end])

/-! ### What observers are told -/

/-- **C113, notifications, partial: callbacks that leave the observers alone.**  If no callback fails, the save succeeds, and every
subscribed observer that exists is told of the whole save, in order: the beginning, for each object that stands in the file
the steps of writing it, with its offset, and the end.  No object of the document is left out; and nobody else is told
anything. -/
theorem C113_told_partial (act : Callbacks) (hp : Passive act) (ho : Obliging act) (obs : Observers) (hd : obs.subs.Nodup) (c : Codec)
    (v : PdfVersion) (sections : List WSection) (b : Bytes) (hb : saveFile c v sections = .ok b) :
    ∃ s objs, observedSave act obs c v sections = (.ok (), s) ∧ s.out = b ∧
      (∀ r, toldTo r s.calls = if r ∈ obs.subs ∧ obs.live r = true then sessionTold objs b.length else []) ∧
      (∀ w ∈ objs, w.In b) ∧
      ∀ sec ∈ sections, ∀ n g, HasObject sec n g → ∃ w ∈ objs, w.num = n ∧ w.gen = g := by
  have hsb := saveSteps_bytes c v sections
  rw [hb] at hsb
  have hff : firstFail (saveSteps c v sections) = none ∧ b = stepsBytes (saveSteps c v sections) := by
    split at hsb
    · simp at hsb
    · rename_i h
      exact ⟨h, by simpa using hsb⟩
  obtain ⟨r1, r2⟩ := runSteps_obliging hp ho _ hff.1 ⟨[], none, [], obs⟩
  rcases hr : runSteps act (saveSteps c v sections) ⟨[], none, [], obs⟩ with ⟨r, s⟩
  rw [hr] at r1 r2
  simp only [List.nil_append, List.length_nil] at r1 r2
  subst r1
  have hout := (runSteps_ok act _ _ _ hr).2.1
  simp only [List.nil_append] at hout
  have hfc : firstFail (chainSteps c (destResolve (sections.map cloneSection).reverse) (writeHeader v) none (sections.map cloneSection).reverse) = none := by
    have := hff.1
    rw [saveSteps] at this
    simp only [List.cons_append, List.nil_append, firstFail, firstFail_append, Option.or_eq_none_iff] at this
    exact this.1
  obtain ⟨objs, k1, k2, k3⟩ := chainSteps_told _ _ _ _ _ hfc
  have hbytes : stepsBytes (saveSteps c v sections) = writeHeader v ++
      stepsBytes (chainSteps c (destResolve (sections.map cloneSection).reverse) (writeHeader v) none (sections.map cloneSection).reverse) := by
    rw [saveSteps, stepsBytes_end]
    rfl
  have htold : stepsTold 0 (saveSteps c v sections) = sessionTold objs b.length := by
    rw [hff.2, hbytes, saveSteps, stepsTold_append, stepsTold_append]
    simp only [stepsTold, stepsBytes, Nat.zero_add, List.append_nil, endSteps, stepsBytes_append, List.length_append]
    rw [k1]
    rfl
  refine ⟨s, objs, hr, by rw [hout, ← hff.2], ?_, ?_, ?_⟩
  · intro r
    rw [r2, htold, toldTo_flatMap r _ (hd.filter _)]
    simp only [List.mem_filter]
  · intro w hw
    obtain ⟨before, body, after, h1, h2, h3⟩ := k2 w hw
    exact ⟨writeHeader v ++ before, body, after, by rw [hff.2, hbytes, h1]; simp, by rw [List.length_append]; exact h2, h3⟩
  · intro sec hsec n g hobj
    refine k3 (cloneSection sec) (by simp only [List.mem_reverse, List.mem_map]; exact ⟨sec, hsec, rfl⟩) n g ?_
    rcases hobj with ⟨e, he, hu, rfl, rfl⟩ | hobj
    · refine Or.inl ⟨cloneEntry e, List.mem_map.2 ⟨e, he, rfl⟩, ?_⟩
      rw [cloneEntry]
      split
      · rename_i hk; rw [WEntry.inUse, hk] at hu; simp at hu
      · exact ⟨rfl, rfl, rfl⟩
      · exact ⟨hu, rfl, rfl⟩
    · exact Or.inr hobj

/-- **C113, cancelling, partial: callbacks that leave the observers alone.**  The save succeeds if all calls do.  Otherwise it ends
with the first call that fails: it is the last call, and nothing is written after it. -/
theorem C113_cancel_partial (act : Callbacks) (hp : Passive act) (obs : Observers) (c : Codec) (v : PdfVersion)
    (sections : List WSection) (b : Bytes) (hb : saveFile c v sections = .ok b) (r : Res Unit) (s : SaveRun)
    (h : observedSave act obs c v sections = (r, s)) :
    (r = .ok () ∧ AllSucceed act s.calls) ∨
    (r = .error .throw ∧ ∃ pre last, s.calls = pre ++ [last] ∧ AllSucceed act pre ∧ (act last.who last.event pre).2 = false ∧
      s.out.length = last.pos) := by
  have hsb := saveSteps_bytes c v sections
  rw [hb] at hsb
  have hff : firstFail (saveSteps c v sections) = none := by
    split at hsb
    · simp at hsb
    · assumption
  obtain ⟨-, new, h1, -, h3⟩ := runSteps_passive hp (saveSteps c v sections) ⟨[], none, [], obs⟩
  rw [observedSave] at h
  rw [h, hff] at h3
  rw [h] at h1
  simp only [List.nil_append] at h1 h3
  rcases h3 with ⟨h3, h4⟩ | ⟨h3, pre, last, h4, h5, h6, h7⟩
  · exact Or.inl ⟨h3, fun pre c post he => h4 pre c post (h1 ▸ he)⟩
  · exact Or.inr ⟨h3, pre, last, by rw [h1, h4], fun p c post he => h5 p c post he, h6, h7⟩

/-- The same for an incremental save: the objects are those of the new section. -/
theorem C113_told_incremental_partial (act : Callbacks) (hp : Passive act) (ho : Obliging act) (obs : Observers) (hd : obs.subs.Nodup)
    (c : Codec) (src : Bytes) (secs : List ISection) (b : Bytes) (hb : saveIncremental c src secs = .ok b) :
    ∃ s objs, observedIncremental act obs c src secs = (.ok (), s) ∧ s.out = b ∧
      (∀ r, toldTo r s.calls = if r ∈ obs.subs ∧ obs.live r = true then sessionTold objs b.length else []) ∧
      (∀ w ∈ objs, w.In b ∧ src.length < w.off) ∧
      ∀ sec, createIncremental secs = .ok sec → ∀ n g, HasObject sec n g → ∃ w ∈ objs, w.num = n ∧ w.gen = g := by
  have hsb := incrementalSteps_bytes c src secs
  rw [hb] at hsb
  have hff : firstFail (incrementalSteps c src secs) = none ∧ b = stepsBytes (incrementalSteps c src secs) := by
    split at hsb
    · simp at hsb
    · rename_i h
      exact ⟨h, by simpa using hsb⟩
  obtain ⟨r1, r2⟩ := runSteps_obliging hp ho _ hff.1 ⟨[], none, [], obs⟩
  rcases hr : runSteps act (incrementalSteps c src secs) ⟨[], none, [], obs⟩ with ⟨r, s⟩
  rw [hr] at r1 r2
  simp only [List.nil_append, List.length_nil] at r1 r2
  subst r1
  have hout := (runSteps_ok act _ _ _ hr).2.1
  simp only [List.nil_append] at hout
  obtain ⟨sec, hsec⟩ : ∃ sec, createIncremental secs = .ok sec := by
    cases h : createIncremental secs with
    | ok sec => exact ⟨sec, rfl⟩
    | error f =>
      have := hff.1
      simp [incrementalSteps, h, firstFail] at this
  have hst : incrementalSteps c src secs = [.tell .initializing, .put (copyContent src [] ++ b! "\n")] ++
      (sectionSteps c (destResolve [cloneSection sec]) (copyContent src [] ++ b! "\n") none (cloneSection sec)).1 ++ endSteps := by
    simp only [incrementalSteps, hsec]
  have hfc : firstFail (sectionSteps c (destResolve [cloneSection sec]) (copyContent src [] ++ b! "\n") none (cloneSection sec)).1 = none := by
    have := hff.1
    rw [hst] at this
    simp only [List.cons_append, List.nil_append, firstFail, firstFail_append, Option.or_eq_none_iff] at this
    exact this.1
  obtain ⟨objs, k1, k2, k3⟩ := sectionSteps_told _ _ _ _ _ hfc
  generalize hout0 : copyContent src [] ++ b! "\n" = out0 at k1 k2 k3 hst hfc
  have hlen : out0.length = src.length + 1 := by
    rw [← hout0, copyContent_eq, List.length_append]
    rfl
  have hbytes : stepsBytes (incrementalSteps c src secs) = out0 ++
      stepsBytes (sectionSteps c (destResolve [cloneSection sec]) out0 none (cloneSection sec)).1 := by
    rw [hst, stepsBytes_end]
    rfl
  have htold : stepsTold 0 (incrementalSteps c src secs) = sessionTold objs b.length := by
    rw [hff.2, hbytes, hst, stepsTold_append, stepsTold_append]
    simp only [stepsTold, stepsBytes, Nat.zero_add, List.append_nil, endSteps, stepsBytes_append, List.length_append]
    rw [k1]
    rfl
  refine ⟨s, objs, hr, by rw [hout, ← hff.2], ?_, ?_, ?_⟩
  · intro r
    rw [r2, htold, toldTo_flatMap r _ (hd.filter _)]
    simp only [List.mem_filter]
  · intro w hw
    obtain ⟨before, body, after, h1, h2, h3⟩ := k2 w hw
    exact ⟨⟨out0 ++ before, body, after, by rw [hff.2, hbytes, h1]; simp, by rw [List.length_append]; exact h2, h3⟩, by omega⟩
  · intro sec' hsec' n g hobj
    rw [hsec] at hsec'
    simp only [Except.ok.injEq] at hsec'
    subst hsec'
    refine k3 n g ?_
    rcases hobj with ⟨e, he, hu, rfl, rfl⟩ | hobj
    · refine Or.inl ⟨cloneEntry e, List.mem_map.2 ⟨e, he, rfl⟩, ?_⟩
      rw [cloneEntry]
      split
      · rename_i hk; rw [WEntry.inUse, hk] at hu; simp at hu
      · exact ⟨rfl, rfl, rfl⟩
      · exact ⟨hu, rfl, rfl⟩
    · exact Or.inr hobj

/-! ### What goes wrong -/

/-- Calls are of the notification, and one that ends the loop is the last. -/
theorem notifyFrom_calls (act : Callbacks) (ev : SaveEvent) (l : List ObserverRef) : ∀ s : SaveRun,
    ∃ new, (notifyFrom act ev l s).2.calls = s.calls ++ new ∧ (∀ c ∈ new, c.event = ev) ∧
      ((∃ f, (notifyFrom act ev l s).1 = .error f) → new ≠ []) := by
  induction l with
  | nil => intro s; exact ⟨[], by simp [notifyFrom], by simp, by simp [notifyFrom]⟩
  | cons r l ih =>
    intro s
    rw [notifyFrom]
    split
    · exact ih s
    · simp only []
      split
      · exact ⟨[_], rfl, by simp, by simp⟩
      · split
        · exact ⟨[_], rfl, by simp, by simp⟩
        · obtain ⟨new, h1, h2, -⟩ := ih { s with calls := s.calls ++ [⟨r, ev, s.out.length⟩], obs := (Observers.applyAll r s.obs (act r ev s.calls).1).1 }
          refine ⟨⟨r, ev, s.out.length⟩ :: new, by rw [h1]; simp, ?_, by simp⟩
          intro c hc
          rcases List.mem_cons.1 hc with rfl | hc
          · rfl
          · exact h2 c hc

theorem runSteps_calls (act : Callbacks) (l : List SaveStep) : ∀ s : SaveRun,
    ∃ new, (runSteps act l s).2.calls = s.calls ++ new ∧ ∀ c ∈ new, .tell c.event ∈ l := by
  induction l with
  | nil => intro s; exact ⟨[], by simp [runSteps], by simp⟩
  | cons x l ih =>
    intro s
    cases x with
    | put b =>
      obtain ⟨new, h1, h2⟩ := ih { s with out := s.out ++ b }
      exact ⟨new, h1, fun c hc => List.mem_cons_of_mem _ (h2 c hc)⟩
    | flush =>
      obtain ⟨new, h1, h2⟩ := ih { s with flushed := some s.out }
      exact ⟨new, h1, fun c hc => List.mem_cons_of_mem _ (h2 c hc)⟩
    | fail f => exact ⟨[], by simp [runSteps], by simp⟩
    | tell ev =>
      obtain ⟨n1, h1, h2, -⟩ := notifyFrom_calls act ev s.obs.subs s
      rw [← show notifyAll act ev s = notifyFrom act ev s.obs.subs s from rfl] at h1
      rw [runSteps]
      rcases hn : notifyAll act ev s with ⟨r, s1⟩
      rw [hn] at h1
      cases r with
      | error f => exact ⟨n1, h1, fun c hc => by rw [h2 c hc]; exact List.mem_cons_self ..⟩
      | ok _ =>
        obtain ⟨n2, h3, h4⟩ := ih s1
        refine ⟨n1 ++ n2, by rw [h3, h1, List.append_assoc], ?_⟩
        intro c hc
        rcases List.mem_append.1 hc with hc | hc
        · rw [h2 c hc]; exact List.mem_cons_self ..
        · exact List.mem_cons_of_mem _ (h4 c hc)

/-- A save that ends early does not tell its end: unless it is `OnFinalizing` itself that fails, no observer is told it, although
those that were told of the beginning expect it. -/
theorem C113_finalizing_counterexample (act : Callbacks) (obs : Observers) (c : Codec) (v : PdfVersion)
    (sections : List WSection) (f : Fault) (s : SaveRun) (h : observedSave act obs c v sections = (.error f, s))
    (hl : ∀ x, s.calls.getLast? = some x → x.event ≠ .finalizing) : ∀ x ∈ s.calls, x.event ≠ .finalizing := by
  obtain ⟨a, ha, -, hev⟩ := saveSteps_split c v sections
  rw [observedSave, ha, show a ++ endSteps = (a ++ [.tell .flushBefore, .flush, .tell .flushAfter]) ++ [.tell .finalizing] by
    simp [endSteps], runSteps_append] at h
  obtain ⟨new, h1, h2⟩ := runSteps_calls act (a ++ [.tell .flushBefore, .flush, .tell .flushAfter]) ⟨[], none, [], obs⟩
  rcases hr : runSteps act (a ++ [.tell .flushBefore, .flush, .tell .flushAfter]) ⟨[], none, [], obs⟩ with ⟨r, s1⟩
  rw [hr] at h h1
  simp only [List.nil_append] at h1
  have hne : ∀ x ∈ new, x.event ≠ .finalizing := by
    intro x hx he
    have := h2 x hx
    rw [he] at this
    rcases List.mem_append.1 this with h | h
    · rcases hev _ h with h | ⟨n, g, off, h⟩
      · simp at h
      · simp at h
    · simp at h
  cases r with
  | error f' =>
    simp only [Prod.mk.injEq] at h
    rw [← h.2, h1]
    exact hne
  | ok _ =>
    simp only [runSteps] at h
    obtain ⟨n2, k1, k2, k3⟩ := notifyFrom_calls act .finalizing s1.obs.subs s1
    rw [← show notifyAll act .finalizing s1 = notifyFrom act .finalizing s1.obs.subs s1 from rfl] at k1 k3
    rcases hn : notifyAll act .finalizing s1 with ⟨r, s2⟩
    rw [hn] at h k1 k3
    cases r with
    | ok _ => simp at h
    | error f' =>
      simp only [Prod.mk.injEq] at h
      obtain ⟨-, rfl⟩ := h
      have hn2 := k3 ⟨f', rfl⟩
      exfalso
      refine hl (n2.getLast hn2) ?_ (k2 _ (List.getLast_mem hn2))
      rw [k1, List.getLast?_append, List.getLast?_eq_some_getLast hn2]
      rfl

theorem notifyFrom_subs {act : Callbacks} (hp : Passive act) (ev : SaveEvent) (l : List ObserverRef) : ∀ s : SaveRun,
    (notifyFrom act ev l s).2.obs = s.obs ∧
      ∃ new, (notifyFrom act ev l s).2.calls = s.calls ++ new ∧ ∀ c ∈ new, c.who ∈ s.obs.subs := by
  induction l with
  | nil => intro s; exact ⟨rfl, [], by simp [notifyFrom], by simp⟩
  | cons r l ih =>
    intro s
    rw [notifyFrom]
    split
    · exact ih s
    · rename_i hlive
      simp only [Bool.not_eq_true', Bool.not_eq_false, Bool.and_eq_true, List.contains_iff_mem] at hlive
      rw [show act r ev s.calls = ([], (act r ev s.calls).2) from Prod.ext (hp r ev s.calls) rfl]
      simp only [Observers.applyAll, Bool.not_true, Bool.false_eq_true, if_false]
      split
      · exact ⟨rfl, [_], rfl, by simpa using hlive.1⟩
      · obtain ⟨h0, new, h1, h2⟩ := ih { s with calls := s.calls ++ [⟨r, ev, s.out.length⟩] }
        refine ⟨h0, ⟨r, ev, s.out.length⟩ :: new, by rw [h1]; simp, ?_⟩
        intro c hc
        rcases List.mem_cons.1 hc with rfl | hc
        · exact hlive.1
        · exact h2 c hc

theorem runSteps_subs {act : Callbacks} (hp : Passive act) (l : List SaveStep) : ∀ s : SaveRun,
    ∃ new, (runSteps act l s).2.calls = s.calls ++ new ∧ ∀ c ∈ new, c.who ∈ s.obs.subs := by
  induction l with
  | nil => intro s; exact ⟨[], by simp [runSteps], by simp⟩
  | cons x l ih =>
    intro s
    cases x with
    | put b => exact ih { s with out := s.out ++ b }
    | flush => exact ih { s with flushed := some s.out }
    | fail f => exact ⟨[], by simp [runSteps], by simp⟩
    | tell ev =>
      obtain ⟨h0, n1, h1, h2⟩ := notifyFrom_subs hp ev s.obs.subs s
      rw [← show notifyAll act ev s = notifyFrom act ev s.obs.subs s from rfl] at h0 h1
      rw [runSteps]
      rcases hn : notifyAll act ev s with ⟨r, s1⟩
      rw [hn] at h0 h1
      cases r with
      | error f => exact ⟨n1, h1, h2⟩
      | ok _ =>
        obtain ⟨n2, h3, h4⟩ := ih s1
        refine ⟨n1 ++ n2, by rw [h3, h1, List.append_assoc], ?_⟩
        intro c hc
        rcases List.mem_append.1 hc with hc | hc
        · exact h2 c hc
        · exact h0 ▸ h4 c hc

/-- The writer does not keep its observers: one that is subscribed and released is never called. -/
theorem C113_released_counterexample (act : Callbacks) (hp : Passive act) (obs : Observers) (r : ObserverRef) (c : Codec)
    (v : PdfVersion) (sections : List WSection) :
    toldTo r (observedSave act (Observers.apply (Observers.apply obs (.subscribe r)) (.release r)) c v sections).2.calls = [] := by
  obtain ⟨-, new, h1, h2, -⟩ := runSteps_passive hp (saveSteps c v sections)
    ⟨[], none, [], Observers.apply (Observers.apply obs (.subscribe r)) (.release r)⟩
  rw [observedSave, h1, toldTo, List.nil_append, List.map_eq_nil_iff, List.filter_eq_nil_iff]
  intro x hx he
  have := (h2 x hx).2
  rw [show x.who = r by simpa using he] at this
  simp [Observers.apply] at this

/-- A released observer stays in the set, and references are compared by address.  An observer created at the address of a
released one is therefore not added when it is subscribed, and is never called. -/
theorem C113_reuse_counterexample (act : Callbacks) (hp : Passive act) (obs : Observers) (old new : ObserverRef) (ho : old ∈ obs.subs)
    (ha : new.addr = old.addr) (hn : new ∉ obs.subs) (c : Codec) (v : PdfVersion) (sections : List WSection) :
    let o := Observers.apply (Observers.apply (Observers.apply obs (.release old)) (.create new)) (.subscribe new)
    o.live new = true ∧ toldTo new (observedSave act o c v sections).2.calls = [] := by
  intro o
  have hany : obs.subs.any (fun x => x.addr == new.addr) = true := by
    rw [List.any_eq_true]
    exact ⟨old, ho, by simp [ha]⟩
  have hos : o.subs = obs.subs := by
    simp only [o, Observers.apply, hany, if_true]
  refine ⟨by simp only [o, Observers.apply, hany, if_true], ?_⟩
  obtain ⟨nw, h1, h2⟩ := runSteps_subs hp (saveSteps c v sections) ⟨[], none, [], o⟩
  rw [observedSave, h1, toldTo, List.nil_append, List.map_eq_nil_iff, List.filter_eq_nil_iff]
  intro x hx he
  have := h2 x hx
  rw [show x.who = new by simpa using he, hos] at this
  exact hn this

/-- A callback that unsubscribes its own observer removes the element the loop is at: undefined behaviour, in the first
notification already. -/
theorem C113_self_counterexample (act : Callbacks) (r : ObserverRef) (rest : List ObserverRef) (live : ObserverRef → Bool)
    (hl : live r = true) (ha : act r .initializing [] = ([.unsubscribe r], true)) (c : Codec) (v : PdfVersion)
    (sections : List WSection) : (observedSave act ⟨r :: rest, live⟩ c v sections).1 = .error .ub := by
  simp [observedSave, saveSteps, runSteps, notifyAll, notifyFrom, hl, ha, Observers.applyAll, Observers.invalidates]

/-! ### Examples -/

/-- Two observers of a save, a third that exists but is not subscribed, and a fourth that does not exist any more. -/
def sampleObservers : Observers := ⟨[⟨1, 0⟩, ⟨2, 0⟩, ⟨4, 0⟩], fun r => r != ⟨4, 0⟩⟩

/-- Callbacks that do nothing. -/
def idleCallbacks : Callbacks := fun _ _ _ => ([], true)

/-- The second observer cancels the save when the first object has been written. -/
def sampleCancel : Callbacks := fun r ev _ => ([], !(r == ⟨2, 0⟩ && ev == .writeAfter 1 0))

example : Passive idleCallbacks ∧ Obliging idleCallbacks ∧ Passive sampleCancel ∧ sampleObservers.subs.Nodup :=
  ⟨fun _ _ _ => rfl, fun _ _ _ => rfl, fun _ _ _ => rfl, by decide⟩

example : (saveFile plainCodec .v17 [sampleNew, sampleOld]).toBool = true := by decide +kernel

/-- Each of the two observers is told the same, the last thing with the whole file written. -/
example : let s := (observedSave idleCallbacks sampleObservers plainCodec .v17 [sampleNew, sampleOld]).2
    s.flushed = some s.out ∧ (toldTo ⟨1, 0⟩ s.calls).length > 20 ∧ toldTo ⟨1, 0⟩ s.calls = toldTo ⟨2, 0⟩ s.calls ∧
    toldTo ⟨3, 0⟩ s.calls = [] ∧ toldTo ⟨4, 0⟩ s.calls = [] ∧
    (toldTo ⟨1, 0⟩ s.calls).getLast? = some (.finalizing, s.out.length) := by decide +kernel

/-- The cancelled save. -/
example : let s := observedSave sampleCancel sampleObservers plainCodec .v17 [sampleNew, sampleOld]
    s.1 = .error .throw ∧ s.2.flushed = none ∧ s.2.calls.getLast?.map (·.event) = some (.writeAfter 1 0) ∧ 40 < s.2.out.length := by
  decide +kernel

/-- A document with a changed object. -/
def sampleChange : List ISection := [⟨none, [⟨⟨5, 0, .used 0 (some (.direct (.int 7)))⟩, true⟩], [(b! "Root", .ref 1 0)], 0⟩]

/-- An incremental save. -/
example : let s := observedIncremental idleCallbacks sampleObservers plainCodec (b! "%PDF-1.7\n") sampleChange
    s.1 = .ok () ∧ s.2.flushed = some s.2.out ∧ (.entryAfter 5 0 10, 10) ∈ toldTo ⟨1, 0⟩ s.2.calls := by
  decide +kernel

/-- The observer at the address of a released one. -/
example : (⟨1, 0⟩ : ObserverRef) ∈ sampleObservers.subs ∧ (⟨1, 1⟩ : ObserverRef) ∉ sampleObservers.subs ∧
    (⟨1, 1⟩ : ObserverRef).addr = (⟨1, 0⟩ : ObserverRef).addr := by decide

/-- An observer that removes itself when the save begins. -/
example : (observedSave (fun r ev _ => (if r == ⟨1, 0⟩ && ev == .initializing then [.unsubscribe r] else [], true)) sampleObservers
    plainCodec .v17 [sampleNew, sampleOld]).1 = .error .ub :=
  C113_self_counterexample _ _ _ _ rfl rfl _ _ _

end VPdf
