import Verif.Model.Basic
/-
  Messages of several threads: what a message does with the default logger and the mutex of its sink
  (src/vanillapdf/implementation/utils/c_logging.cpp:13-63 over spdlog: `default_logger_raw`, `logger::log`, `base_sink::log`), while
  other threads replace or shut down the logging.  The steps of the threads are interleaved in any order.

  Simplified: each logger has one sink and counts as one object with it; the texts are those of Model/Logging.lean.
-/
namespace VPdf

/-- What a thread does with its message: nothing, it has the address of the default logger, it found the message to be severe
enough, or it runs the callback and holds the mutex of the sink. spdlog.h, logger-inl.h and base_sink-inl.h, for
c_logging.cpp:23-50. -/
inductive LogPhase where
  | idle
  | fetched (l : Nat)
  | passed (l : Nat)
  | inside (l : Nat)
  deriving DecidableEq, Repr

/-- The loggers that exist, the default one, the number of the next one, the threads, who holds the mutex of a sink, and whether
something undefined has happened. c_logging.cpp:63, 68-96, 169-176. -/
structure LogThreads where
  alive : List Nat
  default_ : Option Nat
  next : Nat
  phase : Nat → LogPhase
  holder : Nat → Option Nat
  bad : Bool

/-- The steps of threads.  `replace`: `Logging_SetCallbackLogger` or `Logging_SetRotatingFileLogger` with success
(c_logging.cpp:68-96).  `shutdown`: c_logging.cpp:169-176. -/
inductive LogStep where
  | fetch (t : Nat)
  | test (t : Nat) (severe : Bool)
  | enter (t : Nat)
  | leave (t : Nat)
  | replace
  | shutdown

/-- A thread in another phase. For c_logging.cpp:23-50. -/
def LogThreads.put (s : LogThreads) (t : Nat) (p : LogPhase) : LogThreads :=
  { s with phase := fun u => if u = t then p else s.phase u }

/-- The use of a logger that does not exist any more. For c_logging.cpp:23-50. -/
def LogThreads.use (s : LogThreads) (l : Nat) (k : LogThreads → LogThreads) : LogThreads :=
  if l ∈ s.alive then k s else { s with bad := true }

/-- One step, for c_logging.cpp:23-50, 68-96, 169-176.  A thread whose step does not fit its phase, or that waits for a mutex, stays
as it is. A replaced logger is destroyed unless the registry keeps it. -/
def LogThreads.step (keeps : Bool) (s : LogThreads) : LogStep → LogThreads
  | .fetch t =>
    match s.phase t with
    | .idle => match s.default_ with
      | none => { s with bad := true }
      | some l => s.put t (.fetched l)
    | _ => s
  | .test t severe =>
    match s.phase t with
    | .fetched l => s.use l fun s => s.put t (if severe then .passed l else .idle)
    | _ => s
  | .enter t =>
    match s.phase t with
    | .passed l => s.use l fun s =>
      match s.holder l with
      | none => { s.put t (.inside l) with holder := fun k => if k = l then some t else s.holder k }
      | some _ => s
    | _ => s
  | .leave t =>
    match s.phase t with
    | .inside l => s.use l fun s => { s.put t .idle with holder := fun k => if k = l then none else s.holder k }
    | _ => s
  | .replace =>
    { s with
      alive := s.next :: (if keeps then s.alive else s.alive.filter fun l => s.default_ != some l)
      default_ := some s.next
      next := s.next + 1 }
  | .shutdown => { s with alive := [], default_ := none }

/-- An interleaving of the steps of threads, for c_logging.cpp. -/
def LogThreads.run (keeps : Bool) (s : LogThreads) (steps : List LogStep) : LogThreads := steps.foldl (LogThreads.step keeps) s

/-- Before the first message: the logger of the console (c_logging.h:29), all threads idle. -/
def LogThreads.start : LogThreads := ⟨[0], some 0, 1, fun _ => .idle, fun _ => none, false⟩

end VPdf
