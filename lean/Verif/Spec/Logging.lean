import Verif.Model.Logging
/-
  What a program may rely on when it has messages logged (C124), by the documentation in c_logging.h.
-/
namespace VPdf.Spec

/-- The numbers of the severities, c_logging.h:36-76. -/
def severityNumber : LogLevel → Nat
  | .trace => 1 | .debug => 2 | .info => 3 | .warn => 4 | .err => 5 | .critical => 6 | .off => 7

/-- The settings of a program: where messages go (nowhere after a shutdown), and from which severity on. -/
structure LogWish where
  sink : Option LogSink
  severity : Nat

/-- Settings change by the calls that were reported to have succeeded, and by no others. -/
def LogWish.after (w : LogWish) : LogCall → Res LogAnswer → LogWish
  | .setCallback user, .ok _ => { w with sink := some (.callback user) }
  | .setFile path _, .ok _ => { w with sink := some (.file path) }
  | .setSeverity n, .ok _ => { w with severity := n.toNat }
  | .shutdown, .ok _ => { w with sink := none }
  | _, _ => w

/-- A message is given to the sink of the settings if it is severe enough. -/
def LogWish.shown (w : LogWish) : LogCall → List LogEvent
  | .message level text _ =>
    match w.sink with
    | some s => if w.severity ≤ severityNumber level then [⟨s, severityNumber level, text⟩] else []
    | none => []
  | _ => []

/-- The messages that the sinks should get in a history of calls and answers. -/
def LogWish.expected : LogWish → List (LogCall × Res LogAnswer) → List LogEvent
  | _, [] => []
  | w, (c, r) :: rest => w.shown c ++ (w.after c r).expected rest

/-- The settings after a history. -/
def LogWish.final : LogWish → List (LogCall × Res LogAnswer) → LogWish
  | w, [] => w
  | w, (c, r) :: rest => (w.after c r).final rest

/-- The settings at first: the console, severity info (c_logging.h:29). -/
def LogWish.first : LogWish := ⟨some .console, 3⟩

/-- No call of a history was undefined. -/
def Defined (t : List (LogCall × Res LogAnswer)) : Prop := ∀ x ∈ t, x.2 ≠ .error .ub

end VPdf.Spec
