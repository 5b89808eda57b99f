import Verif.Model.Basic
/-
  Logging: src/vanillapdf/implementation/utils/c_logging.cpp over the registry of the library spdlog, which is not part of the
  repository and stands here as its documentation and headers (registry-inl.h, logger-inl.h, spdlog.h) describe it:
  * a logger with a name that is registered cannot be created;
  * a new logger gets the global level; setting the level sets that of all registered loggers and the global one;
  * messages go to the default logger, which is asked for its level without testing that there is one;
  * `shutdown` drops all loggers, the default one too.
  Versions differ in whether the logger that was the default stays registered when it is replaced; this is the parameter `keeps`.

  Not modelled: patterns, the contents of log files, several threads.
-/
namespace VPdf

/-- The levels of spdlog, used in c_logging.cpp:30-43. -/
inductive LogLevel where
  | trace | debug | info | warn | err | critical | off
  deriving DecidableEq, Repr

/-- The order of the levels (spdlog::level::level_enum), used by c_logging.cpp:145-163. -/
def LogLevel.rank : LogLevel → Nat
  | .trace => 0 | .debug => 1 | .info => 2 | .warn => 3 | .err => 4 | .critical => 5 | .off => 6

/-- The severity handed to a callback, c_logging.cpp:28-45, as the number in c_logging.h. -/
def sinkSeverity : LogLevel → Nat
  | .trace => 1 | .debug => 2 | .info => 3 | .warn => 4 | .err => 5 | .critical => 6 | .off => 7

/-- The severity that `Logging_GetSeverity` reports, c_logging.cpp:116-136. -/
def reportedSeverity : LogLevel → Nat
  | .trace => 1 | .debug => 2 | .info => 3 | .warn => 4 | .err => 5 | .critical => 6 | .off => 7

/-- The level that `Logging_SetSeverity` sets, c_logging.cpp:145-163; `none` for every other number. -/
def requestedLevel (severity : Int) : Option LogLevel :=
  if severity = 1 then some .trace
  else if severity = 2 then some .debug
  else if severity = 3 then some .info
  else if severity = 4 then some .warn
  else if severity = 5 then some .err
  else if severity = 6 then some .critical
  else if severity = 7 then some .off
  else none

/-- Where messages go: the console (before the first call), the callback of a program with its user data, or a file.
c_logging.cpp:13-63, 91. -/
inductive LogSink where
  | console
  | callback (user : Nat)
  | file (path : Bytes)
  deriving DecidableEq, Repr

/-- A logger: its name, its sink and its level. `spdlog::create` and `spdlog::rotating_logger_mt`, c_logging.cpp:78, 91. -/
structure Logger where
  name : Bytes
  sink : LogSink
  level : LogLevel

/-- The registry of spdlog that c_logging.cpp works with: the loggers, the name of the default one, the global level. -/
structure LogState where
  loggers : List Logger
  default_ : Option Bytes
  global : LogLevel

/-- What a sink was given: the severity and the text. `sink_it_`, c_logging.cpp:23-50. -/
structure LogEvent where
  sink : LogSink
  severity : Nat
  text : Bytes
  deriving DecidableEq, Repr

/-- Before the first call of c_logging.cpp: a logger without name that writes to the console, level info (c_logging.h:29). -/
def LogState.start : LogState := ⟨[⟨[], .console, .info⟩], some [], .info⟩

/-- The default logger. `spdlog::default_logger_raw`, used by c_logging.cpp:116 and each message. -/
def LogState.current (s : LogState) : Option Logger := s.default_.bind fun n => s.loggers.find? fun l => l.name == n

/-- `spdlog::create` and `rotating_logger_mt`: a registered name is refused, the new logger has the global level.
c_logging.cpp:78, 91. -/
def LogState.create (s : LogState) (name : Bytes) (sink : LogSink) : Res LogState :=
  if s.loggers.any fun l => l.name == name then .error .throw
  else .ok { s with loggers := s.loggers ++ [⟨name, sink, s.global⟩] }

/-- `spdlog::set_default_logger`, c_logging.cpp:79, 92, for a logger that is registered: the previous default logger is removed
or not. -/
def LogState.setDefault (keeps : Bool) (s : LogState) (name : Bytes) : LogState :=
  { s with
    loggers := if keeps then s.loggers else s.loggers.filter fun l => l.name == name || s.default_ != some l.name
    default_ := some name }

/-- The calls of c_logging.cpp:68-176 and the messages of the library (`spdlog::error` and the like, utils/log.h:8-10, and in all
modules).  `opens`: whether the log file can be opened with these sizes.  `nested`: the level of a message that the library writes
because the callback of the program calls it. -/
inductive LogCall where
  | setCallback (user : Nat)
  | setFile (path : Bytes) (opens : Bool)
  | setSeverity (severity : Int)
  | getSeverity
  | shutdown
  | message (level : LogLevel) (text : Bytes) (nested : Option LogLevel)

/-- What the calls of c_logging.cpp answer. -/
inductive LogAnswer where
  | done
  | severity (n : Nat)
  deriving DecidableEq, Repr

/-- The calls, c_logging.cpp:68-176.  Without a default logger a message and `Logging_GetSeverity` use a null pointer.  A sink with
a mutex keeps it while the callback runs (`custom_callback_sink_mt`, 63), and a second message of the same thread locks it again. -/
def LogState.step (keeps : Bool) (s : LogState) : LogCall → LogState × Res LogAnswer × List LogEvent
  | .setCallback user =>
    match s.create (b! "callback_logger") (.callback user) with
    | .error e => (s, .error e, [])
    | .ok s' => (s'.setDefault keeps (b! "callback_logger"), .ok .done, [])
  | .setFile path opens =>
    if opens then
      match s.create (b! "file_logger") (.file path) with
      | .error e => (s, .error e, [])
      | .ok s' => (s'.setDefault keeps (b! "file_logger"), .ok .done, [])
    else (s, .error .throw, [])
  | .setSeverity severity =>
    match requestedLevel severity with
    | none => (s, .error .throw, [])
    | some l => ({ s with loggers := s.loggers.map fun x => { x with level := l }, global := l }, .ok .done, [])
  | .getSeverity =>
    match s.current with
    | none => (s, .error .ub, [])
    | some l => (s, .ok (.severity (reportedSeverity l.level)), [])
  | .shutdown => ({ s with loggers := [], default_ := none }, .ok .done, [])
  | .message level text nested =>
    match s.current with
    | none => (s, .error .ub, [])
    | some l =>
      if l.level.rank ≤ level.rank then
        match l.sink, nested with
        | .callback _, some n => if l.level.rank ≤ n.rank then (s, .error .ub, []) else (s, .ok .done, [⟨l.sink, sinkSeverity level, text⟩])
        | _, _ => (s, .ok .done, [⟨l.sink, sinkSeverity level, text⟩])
      else (s, .ok .done, [])

/-- A history of calls of c_logging.cpp and of messages: the calls with their answers, and what the sinks were given, in order. -/
def LogState.run (keeps : Bool) : LogState → List LogCall → LogState × List (LogCall × Res LogAnswer) × List LogEvent
  | s, [] => (s, [], [])
  | s, c :: cs =>
    let r := s.step keeps c
    let rest := LogState.run keeps r.1 cs
    (rest.1, (c, r.2.1) :: rest.2.1, r.2.2 ++ rest.2.2)

end VPdf
