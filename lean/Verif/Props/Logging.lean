import Verif.Spec.Logging
/-
  C124: a program gets the messages of the severities it asked for.
-/
namespace VPdf
open Spec

/-- The registry is as the settings of the program say. -/
structure LogState.Follows (s : LogState) (w : LogWish) : Prop where
  levels : ∀ l ∈ s.loggers, l.level = s.global
  severity : w.severity = severityNumber s.global
  present : ∀ n, s.default_ = some n → ∃ l, s.loggers.find? (fun l => l.name == n) = some l ∧ w.sink = some l.sink
  absent : s.default_ = none → w.sink = none

theorem follows_start : LogState.start.Follows .first :=
  ⟨by simp [LogState.start], rfl, by intro n hn; cases hn; exact ⟨_, rfl, rfl⟩, by intro h; cases h⟩

theorem severity_rank (a b : LogLevel) : a.rank ≤ b.rank ↔ severityNumber a ≤ severityNumber b := by
  cases a <;> cases b <;> decide

theorem sinkSeverity_number (a : LogLevel) : sinkSeverity a = severityNumber a := by cases a <;> rfl

theorem requestedLevel_number (n : Int) (l : LogLevel) (h : requestedLevel n = some l) : n.toNat = severityNumber l := by
  unfold requestedLevel at h
  repeat (split at h; · cases h; subst_vars; rfl)
  cases h

theorem create_follows {keeps : Bool} {s s' : LogState} {w : LogWish} (name : Bytes) (sink : LogSink) (f : s.Follows w)
    (h : s.create name sink = .ok s') : (s'.setDefault keeps name).Follows { w with sink := some sink } := by
  unfold LogState.create at h
  split at h
  · cases h
  · rename_i hn
    cases h
    have hn' : ∀ l ∈ s.loggers, (l.name == name) = false := by
      intro l hl
      cases hx : l.name == name with
      | false => rfl
      | true => exact absurd (List.any_eq_true.2 ⟨l, hl, hx⟩) hn
    refine ⟨?_, f.severity, ?_, by intro h; simp [LogState.setDefault] at h⟩
    · intro l hl
      have : l ∈ s.loggers ++ [⟨name, sink, s.global⟩] := by
        simp only [LogState.setDefault] at hl
        cases keeps with
        | true => exact hl
        | false => exact (List.mem_filter.1 hl).1
      rcases List.mem_append.1 this with h | h
      · exact f.levels l h
      · simp only [List.mem_singleton] at h; subst h; rfl
    · intro n hnm
      simp only [LogState.setDefault, Option.some.injEq] at hnm
      subst hnm
      refine ⟨⟨name, sink, s.global⟩, ?_, rfl⟩
      have none1 : s.loggers.find? (fun l => l.name == name) = none :=
        List.find?_eq_none.2 fun l hl => by simp [hn' l hl]
      cases keeps with
      | true => simp [LogState.setDefault, List.find?_append, none1]
      | false =>
        have : (s.loggers.filter fun l => l.name == name || s.default_ != some l.name).find? (fun l => l.name == name) = none :=
          List.find?_eq_none.2 fun l hl => by simp [hn' l (List.mem_filter.1 hl).1]
        simp [LogState.setDefault, List.filter_append, List.find?_append, this]

theorem follows_current {s : LogState} {w : LogWish} (f : s.Follows w) {l : Logger} (h : s.current = some l) :
    l.level = s.global ∧ w.sink = some l.sink := by
  unfold LogState.current at h
  cases hd : s.default_ with
  | none => simp [hd] at h
  | some n =>
    obtain ⟨l', h1, h2⟩ := f.present n hd
    simp only [hd, Option.bind_some] at h
    rw [h1] at h; cases h
    exact ⟨f.levels _ (List.mem_of_find?_eq_some h1), h2⟩

/-- One call keeps the registry as the settings say, and gives the sinks what it should. -/
theorem follows_step {keeps : Bool} {s : LogState} {w : LogWish} (f : s.Follows w) (c : LogCall)
    (d : (s.step keeps c).2.1 ≠ .error .ub) :
    (s.step keeps c).1.Follows (w.after c (s.step keeps c).2.1) ∧ (s.step keeps c).2.2 = w.shown c := by
  cases c with
  | setCallback user =>
    simp only [LogState.step]
    cases h : s.create (b! "callback_logger") (.callback user) with
    | error e => exact ⟨f, rfl⟩
    | ok s' => exact ⟨create_follows _ _ f h, rfl⟩
  | setFile path opens =>
    simp only [LogState.step]
    cases opens with
    | false => exact ⟨f, rfl⟩
    | true =>
      simp only [if_true]
      cases h : s.create (b! "file_logger") (.file path) with
      | error e => exact ⟨f, rfl⟩
      | ok s' => exact ⟨create_follows _ _ f h, rfl⟩
  | setSeverity n =>
    simp only [LogState.step]
    cases h : requestedLevel n with
    | none => exact ⟨f, rfl⟩
    | some l =>
      refine ⟨⟨?_, requestedLevel_number n l h, ?_, ?_⟩, rfl⟩
      · intro x hx
        obtain ⟨y, -, rfl⟩ := List.mem_map.1 hx
        rfl
      · intro m hm
        obtain ⟨x, h1, h2⟩ := f.present m hm
        refine ⟨{ x with level := l }, ?_, h2⟩
        rw [List.find?_map]
        have : ((fun l : Logger => l.name == m) ∘ fun x : Logger => { x with level := l }) = fun x => x.name == m := rfl
        rw [this, h1]; rfl
      · exact f.absent
  | getSeverity =>
    simp only [LogState.step]
    cases s.current <;> exact ⟨f, rfl⟩
  | shutdown => exact ⟨⟨by simp [LogState.step], f.severity, by intro n h; simp [LogState.step] at h, fun _ => rfl⟩, rfl⟩
  | message level text nested =>
    have keep : ∀ r, w.after (.message level text nested) r = w := fun r => by cases r <;> rfl
    rw [keep]
    simp only [LogState.step] at d ⊢
    cases h : s.current with
    | none => simp [h] at d
    | some l =>
      obtain ⟨h1, h2⟩ := follows_current f h
      have hr := severity_rank l.level level
      rw [h1] at hr
      simp only [h, LogWish.shown, h2, f.severity] at d ⊢
      by_cases hl : l.level.rank ≤ level.rank
      · have hl' : severityNumber s.global ≤ severityNumber level := hr.1 (h1 ▸ hl)
        simp only [hl, hl', if_true] at d ⊢
        cases hs : l.sink <;> cases nested <;> simp only [hs] at d ⊢ <;>
          first
          | exact ⟨f, by rw [sinkSeverity_number]⟩
          | (split at d <;> rename_i hx
             · exact absurd rfl d
             · simp only [hx, if_false]; exact ⟨f, by rw [sinkSeverity_number]⟩)
      · have hl' : ¬ severityNumber s.global ≤ severityNumber level := fun h => hl (h1 ▸ hr.2 h)
        simp only [hl, hl', if_false]
        exact ⟨f, trivial⟩

theorem follows_run {keeps : Bool} (calls : List LogCall) : ∀ {s : LogState} {w : LogWish}, s.Follows w →
    Defined (s.run keeps calls).2.1 →
    (s.run keeps calls).1.Follows (w.final (s.run keeps calls).2.1) ∧
      (s.run keeps calls).2.2 = w.expected (s.run keeps calls).2.1 := by
  induction calls with
  | nil => intro s w f _; exact ⟨f, rfl⟩
  | cons c cs ih =>
    intro s w f d
    have d1 := d (c, (s.step keeps c).2.1) (by simp [LogState.run])
    obtain ⟨f1, e1⟩ := follows_step f c d1
    obtain ⟨f2, e2⟩ := ih f1 fun x hx => d x (by simp only [LogState.run]; exact List.mem_cons_of_mem _ hx)
    exact ⟨f2, by simp only [LogState.run, LogWish.expected]; rw [e1, e2]⟩

/-- **C124 (messages).** In every history of calls and messages of which no call is undefined, the sinks are given exactly the
messages they should be: each message that is at least as severe as the severity that was last set, in order, with its severity and
its text, to the callback (with its user data) or the file that was last set with success, and nothing else. -/
theorem C124_messages_partial (keeps : Bool) (calls : List LogCall) (d : Defined (LogState.start.run keeps calls).2.1) :
    (LogState.start.run keeps calls).2.2 = LogWish.first.expected (LogState.start.run keeps calls).2.1 :=
  (follows_run calls follows_start d).2

/-- **C124 (severity).** After every such history, if a severity is reported it is the one last set with success, and at first that
of the documentation. -/
theorem C124_severity_partial (keeps : Bool) (calls : List LogCall) (n : Nat) (d : Defined (LogState.start.run keeps calls).2.1)
    (h : (((LogState.start.run keeps calls).1).step keeps .getSeverity).2.1 = .ok (.severity n)) :
    n = (LogWish.first.final (LogState.start.run keeps calls).2.1).severity := by
  obtain ⟨f, -⟩ := follows_run calls follows_start d
  generalize (LogState.start.run keeps calls).1 = s at *
  simp only [LogState.step] at h
  cases hc : s.current with
  | none => simp [hc] at h
  | some l =>
    simp only [hc, Except.ok.injEq, LogAnswer.severity.injEq] at h
    rw [f.severity, ← h, (follows_current f hc).1]
    cases s.global <;> rfl

/-- **C124 (which severities).** A severity is accepted exactly if it is one of the seven of the documentation, in every state. -/
theorem C124_accepted (keeps : Bool) (s : LogState) (n : Int) :
    ((s.step keeps (.setSeverity n)).2.1 = .ok .done) ↔ ∃ l, n = severityNumber l := by
  simp only [LogState.step]
  constructor
  · intro h
    cases hl : requestedLevel n with
    | none => simp [hl] at h
    | some l =>
      refine ⟨l, ?_⟩
      unfold requestedLevel at hl
      repeat (split at hl; · cases hl; subst_vars; rfl)
      cases hl
  · rintro ⟨l, rfl⟩
    cases l <;> rfl

/-- **C124 (the first callback).** A callback can be set in every state in which none is registered: at first, and after a shutdown,
whatever was done before; also a file that can be opened. -/
theorem C124_first_partial (keeps : Bool) (calls : List LogCall) (user : Nat) (path : Bytes) :
    (LogState.start.step keeps (.setCallback user)).2.1 = .ok .done ∧
    ((LogState.start.run keeps (calls ++ [.shutdown])).1.step keeps (.setCallback user)).2.1 = .ok .done ∧
    ((LogState.start.run keeps (calls ++ [.shutdown])).1.step keeps (.setFile path true)).2.1 = .ok .done := by
  have h : ∀ (calls : List LogCall) (s : LogState), (s.run keeps (calls ++ [.shutdown])).1.loggers = [] := by
    intro calls
    induction calls with
    | nil => intro s; rfl
    | cons c cs ih => intro s; exact ih _
  refine ⟨rfl, ?_, ?_⟩ <;>
    simp [LogState.step, LogState.create, h calls LogState.start]

/-- A callback is registered. -/
def LogState.HasCallback (s : LogState) : Prop := ∃ l ∈ s.loggers, l.name = b! "callback_logger"

theorem hasCallback_refuses {keeps : Bool} {s : LogState} (h : s.HasCallback) (user : Nat) :
    s.step keeps (.setCallback user) = (s, .error .throw, []) := by
  obtain ⟨l, hl, e⟩ := h
  have : (s.loggers.any fun l => l.name == b! "callback_logger") = true := List.any_eq_true.2 ⟨l, hl, by simp [e]⟩
  simp [LogState.step, LogState.create, this]

theorem hasCallback_step {keeps : Bool} {s : LogState} (h : s.HasCallback) (c : LogCall) (h1 : c ≠ .shutdown)
    (h2 : keeps = true ∨ ∀ p, c ≠ .setFile p true) : (s.step keeps c).1.HasCallback := by
  cases c with
  | setCallback user => rw [hasCallback_refuses h]; exact h
  | setFile path opens =>
    cases opens with
    | false => exact h
    | true =>
      rcases h2 with rfl | h2
      · simp only [LogState.step, if_true, LogState.create]
        obtain ⟨l, hl, e⟩ := h
        split
        · exact ⟨l, hl, e⟩
        · rename_i s' hs
          split at hs
          · cases hs
          · cases hs
            exact ⟨l, by simp [LogState.setDefault, hl], e⟩
      · exact absurd rfl (h2 path)
  | setSeverity n =>
    simp only [LogState.step]
    cases requestedLevel n with
    | none => exact h
    | some v =>
      obtain ⟨l, hl, e⟩ := h
      exact ⟨{ l with level := v }, List.mem_map.2 ⟨l, hl, rfl⟩, e⟩
  | getSeverity =>
    simp only [LogState.step]
    cases s.current <;> exact h
  | shutdown => exact absurd rfl h1
  | message level text nested =>
    have : (s.step keeps (.message level text nested)).1 = s := by
      simp only [LogState.step]
      repeat' (first | rfl | split)
    rw [this]; exact h

theorem hasCallback_run {keeps : Bool} (calls : List LogCall) : ∀ {s : LogState}, s.HasCallback →
    (∀ c ∈ calls, c ≠ .shutdown ∧ (keeps = true ∨ ∀ p, c ≠ .setFile p true)) → (s.run keeps calls).1.HasCallback := by
  induction calls with
  | nil => intro s h _; exact h
  | cons c cs ih =>
    intro s h hc
    exact ih (hasCallback_step h c (hc c (by simp)).1 (hc c (by simp)).2) fun c' h' => hc c' (by simp [h'])

theorem logRun_append {keeps : Bool} (a b : List LogCall) : ∀ s : LogState,
    (s.run keeps (a ++ b)).1 = ((s.run keeps a).1.run keeps b).1 := by
  induction a with
  | nil => intro s; rfl
  | cons c cs ih => intro s; exact ih _

/-- **C124 (another callback).** Once a callback was set, with success or without, it cannot be replaced: each further attempt
fails and leaves the first callback and its user data in place, until the logging is shut down (or, with some versions of spdlog, a
log file is set). After any calls, and any others in between. -/
theorem C124_replace_counterexample (keeps : Bool) (calls mid : List LogCall) (first second : Nat)
    (hm : ∀ c ∈ mid, c ≠ .shutdown ∧ (keeps = true ∨ ∀ p, c ≠ .setFile p true)) :
    let s := (LogState.start.run keeps (calls ++ .setCallback first :: mid)).1
    s.step keeps (.setCallback second) = (s, .error .throw, []) := by
  intro s
  apply hasCallback_refuses
  simp only [s]
  rw [logRun_append]
  generalize (LogState.start.run keeps calls).1 = s0
  refine hasCallback_run mid (s := (s0.step keeps (.setCallback first)).1) ?_ hm
  simp only [LogState.step, LogState.create]
  split
  · rename_i e h
    split at h
    · rename_i hx
      obtain ⟨l, hl, e⟩ := List.any_eq_true.1 hx
      exact ⟨l, hl, by simpa using e⟩
    · cases h
  · rename_i s' h
    split at h
    · cases h
    · cases h
      refine ⟨⟨b! "callback_logger", .callback first, s0.global⟩, ?_, rfl⟩
      cases keeps <;> simp [LogState.setDefault]

/-- **C124 (after a shutdown).** Once the logging is shut down, and until a callback or a file is set, every message of the library,
whatever its severity and the severity that is set, and asking for the severity are undefined behaviour. After any calls. -/
theorem C124_shutdown_counterexample (keeps : Bool) (calls mid : List LogCall) (level : LogLevel) (text : Bytes)
    (nested : Option LogLevel) (hm : ∀ c ∈ mid, (∀ u, c ≠ .setCallback u) ∧ ∀ p o, c ≠ .setFile p o) :
    let s := (LogState.start.run keeps (calls ++ .shutdown :: mid)).1
    (s.step keeps (.message level text nested)).2.1 = .error .ub ∧ (s.step keeps .getSeverity).2.1 = .error .ub := by
  have none_run : ∀ (mid : List LogCall) (s : LogState), s.default_ = none →
      (∀ c ∈ mid, (∀ u, c ≠ .setCallback u) ∧ ∀ p o, c ≠ .setFile p o) → (s.run keeps mid).1.default_ = none := by
    intro mid
    induction mid with
    | nil => intro s h _; exact h
    | cons c cs ih =>
      intro s h hc
      refine ih (s.step keeps c).1 ?_ fun c' h' => hc c' (by simp [h'])
      have h0 := hc c (by simp)
      cases c with
      | setCallback u => exact absurd rfl (h0.1 u)
      | setFile p o => exact absurd rfl (h0.2 p o)
      | setSeverity n => simp only [LogState.step]; cases requestedLevel n <;> exact h
      | getSeverity => simp only [LogState.step]; cases s.current <;> exact h
      | shutdown => rfl
      | message l t n => simp [LogState.step, LogState.current, h]
  intro s
  have : s.default_ = none := by
    simp only [s]; rw [logRun_append]
    exact none_run mid _ rfl hm
  simp [LogState.step, LogState.current, this]

/-- **C124 (messages of a callback).** A callback that calls the library in such a way that it writes a message which is severe
enough locks a mutex its thread holds: undefined behaviour, for every callback that gets a message. -/
theorem C124_nested_counterexample (keeps : Bool) (calls : List LogCall) (user : Nat) (level inner : LogLevel) (text : Bytes)
    (d : Defined (LogState.start.run keeps calls).2.1)
    (hs : (LogWish.first.final (LogState.start.run keeps calls).2.1).sink = some (.callback user))
    (h1 : (LogWish.first.final (LogState.start.run keeps calls).2.1).severity ≤ severityNumber level)
    (h2 : (LogWish.first.final (LogState.start.run keeps calls).2.1).severity ≤ severityNumber inner) :
    ((LogState.start.run keeps calls).1.step keeps (.message level text (some inner))).2.1 = .error .ub := by
  obtain ⟨f, -⟩ := follows_run calls follows_start d
  generalize (LogState.start.run keeps calls).1 = s at *
  generalize LogWish.first.final (LogState.start.run keeps calls).2.1 = w at *
  cases hd : s.default_ with
  | none => rw [f.absent hd] at hs; cases hs
  | some n =>
    obtain ⟨l, e1, e2⟩ := f.present n hd
    have hc : s.current = some l := by simp [LogState.current, hd, e1]
    have hl : l.sink = .callback user := by rw [hs] at e2; exact (Option.some.inj e2).symm
    have hv := (follows_current f hc).1
    rw [f.severity, ← hv] at h1 h2
    have r1 := (severity_rank _ _).2 h1
    have r2 := (severity_rank _ _).2 h2
    simp [LogState.step, hc, r1, r2, hl]

/-- A history: a callback with user data 7, a warning, only errors, a warning, an error. -/
def logHistory : List LogCall :=
  [.message .err (b! "early") none, .setCallback 7, .message .warn (b! "a") none, .setSeverity 5, .message .warn (b! "b") none,
    .message .err (b! "c") (some .warn), .setCallback 8, .message .critical (b! "d") none]

example : (LogState.start.run false logHistory).2.2 =
    [⟨.console, 5, b! "early"⟩, ⟨.callback 7, 4, b! "a"⟩, ⟨.callback 7, 5, b! "c"⟩, ⟨.callback 7, 6, b! "d"⟩] := by decide +kernel
example : Defined (LogState.start.run false logHistory).2.1 := by
  simp only [Defined, List.forall_mem_iff_forall_getElem]
  decide +kernel
example : (((LogState.start.run true logHistory).1).step true .getSeverity).2.1 = .ok (.severity 5) := by decide +kernel
example : (((LogState.start.run true [.setCallback 1, .shutdown]).1).step true (.message .trace [] none)).2.1 = .error .ub := by
  decide +kernel

end VPdf
