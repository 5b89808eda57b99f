import Verif.Model.Numbers
import Verif.Model.Chars
/-
  Dates: src/vanillapdf/semantics/objects/date.cpp, over the part of `std::regex` (ECMAScript grammar) that its expression uses.

  Not modelled: the limits of `std::regex` on the stack for long texts (the expression has no loops, so that a match takes a bounded
  number of steps).
-/
namespace VPdf

/-- The regular expressions used in date.cpp:28-44: a character of a class, `$`, sequence, alternative, `?` (greedy), and a
capturing group. -/
inductive Re where
  | eps
  | cls (p : Byte → Bool)
  | eol
  | seq (a b : Re)
  | alt (a b : Re)
  | opt (a : Re)
  | cap (a : Re)

/-- All matches of a beginning of the text in the order in which the backtracking matcher of ECMAScript tries them: the texts of the
groups and the rest (behind date.cpp:47).  `$` holds at the end of the text only.  A matcher that lets it hold before a line end as
well finds no further matches of a whole text: no part of the expression of date.cpp:28-44 consumes a line end. -/
def Re.run : Re → Bytes → List (List Bytes × Bytes)
  | .eps, s => [([], s)]
  | .cls p, s => match s with
    | [] => []
    | c :: r => if p c then [([], r)] else []
  | .eol, s => if s.isEmpty then [([], s)] else []
  | .seq a b, s => (a.run s).flatMap fun x => (b.run x.2).map fun y => (x.1 ++ y.1, y.2)
  | .alt a b, s => a.run s ++ b.run s
  | .opt a, s => a.run s ++ [([], s)]
  | .cap a, s => (a.run s).map fun x => (s.take (s.length - x.2.length) :: x.1, x.2)

/-- `std::regex_match`: the groups of the first match of the whole text, date.cpp:47. -/
def Re.matchWhole (re : Re) (s : Bytes) : Option (List Bytes) := ((re.run s).find? (·.2.isEmpty)).map (·.1)

/-- A sequence of expressions, as they are written one after the other in date.cpp:28-44. -/
def Re.seqs : List Re → Re
  | [] => .eps
  | a :: l => .seq a (Re.seqs l)

/-- A given character, as in date.cpp:29. -/
def Re.chr (c : Byte) : Re := .cls (· == c)

/-- `\d`, date.cpp:30. -/
def Re.digit : Re := .cls isNumeric

/-- `(\d$|\d{2}|$)`, date.cpp:31-35. -/
def dateField : Re := .cap (.alt (.seq .digit .eol) (.alt (.seq .digit .digit) .eol))

/-- `(\d{2}|$)`, date.cpp:39, 41. -/
def dateOffset : Re := .cap (.alt (.seq .digit .digit) .eol)

/-- The part of the expression behind the fields, date.cpp:37-43. -/
def dateZone : Re :=
  .seqs [.cap (.alt (.cls fun c => c == 0x5A || c == 0x2B || c == 0x2D) .eol), dateOffset, .opt (.chr 0x27), dateOffset,
    .opt (.chr 0x27), .eol]

/-- The regular expression of date.cpp:28-44 without the `^` at the start, which always holds there. -/
def dateRegex : Re :=
  .seq (.opt (.seq (.chr 0x44) (.chr 0x3A))) (.seq (.cap (.seqs (List.replicate 4 .digit)))
    (.seq (.seqs (List.replicate 5 dateField)) dateZone))

/-- `Timezone`, utils/time_utils.h:10-15.  `Undefined` is never assigned. -/
inductive Timezone where
  | utc
  | later
  | earlier
  deriving DecidableEq, Repr

/-- The fields of a date, semantics/objects/date.h:45-53. -/
structure DateFields where
  year : Int := 1900
  month : Int := 1
  day : Int := 1
  hour : Int := 0
  minute : Int := 0
  second : Int := 0
  zone : Timezone := .utc
  hourOffset : Int := 0
  minuteOffset : Int := 0
  deriving DecidableEq, Repr

/-- The value of a group that is not empty, or the default, date.cpp:53-60. -/
def dateNumber (group : Bytes) (default : Int) : Res Int :=
  if group.length > 0 then stoi 10 group else .ok default

/-- The time zone of group 7, date.cpp:62-73. -/
def dateTimezone (group : Bytes) : Res Timezone :=
  if group = b! "Z" ∨ group = [] then .ok .utc
  else if group = b! "+" then .ok .later
  else if group = b! "-" then .ok .earlier
  else .error .throw

/-- The checks of date.cpp:75-81. -/
def checkDate (d : DateFields) : Res DateFields :=
  if d.month < 1 ∨ d.month > 12 then .error .throw
  else if d.day < 1 ∨ d.day > 31 then .error .throw
  else if d.hour < 0 ∨ d.hour > 23 then .error .throw
  else if d.minute < 0 ∨ d.minute > 59 then .error .throw
  else if d.second < 0 ∨ d.second > 59 then .error .throw
  else if d.hourOffset < 0 ∨ d.hourOffset > 23 then .error .throw
  else if d.minuteOffset < 0 ∨ d.minuteOffset > 59 then .error .throw
  else .ok d

/-- The removal of the UTF-8 byte order mark, date.cpp:17-25. -/
def dropBom (s : Bytes) : Bytes :=
  match s with
  | 0xEF :: 0xBB :: 0xBF :: r => r
  | _ => s

/-- `Date::Date(StringObjectPtr)`, date.cpp:14-82, on the value of the string. -/
def parseDate (s : Bytes) : Res DateFields :=
  match dateRegex.matchWhole (dropBom s) with
  | some [g1, g2, g3, g4, g5, g6, g7, g8, g9] => do
    let year ← dateNumber g1 1900
    let month ← dateNumber g2 1
    let day ← dateNumber g3 1
    let hour ← dateNumber g4 0
    let minute ← dateNumber g5 0
    let second ← dateNumber g6 0
    let hourOffset ← dateNumber g8 0
    let minuteOffset ← dateNumber g9 0
    let zone ← dateTimezone g7
    checkDate ⟨year, month, day, hour, minute, second, zone, hourOffset, minuteOffset⟩
  | _ => .error .throw

/-- `std::setw(w) << std::setfill('0')` of a number, date.cpp:89-94, 109-111: zeros in front of the sign. -/
def padZero (w : Nat) (v : Int) : Bytes := List.replicate (w - (intDec v).length) 0x30 ++ intDec v

/-- The text made by `Date::GetCurrentDate`, date.cpp:84-118, for a time given by its fields. -/
def dateText (d : DateFields) : Bytes :=
  b! "D:" ++ padZero 4 d.year ++ padZero 2 d.month ++ padZero 2 d.day ++ padZero 2 d.hour ++ padZero 2 d.minute ++
    padZero 2 d.second ++
    match d.zone with
    | .utc => b! "Z"
    | .earlier => b! "-" ++ padZero 2 d.hourOffset ++ b! "'" ++ padZero 2 d.minuteOffset ++ b! "'"
    | .later => b! "+" ++ padZero 2 d.hourOffset ++ b! "'" ++ padZero 2 d.minuteOffset ++ b! "'"

example : parseDate (b! "D:20240229235959+05'30'") = .ok ⟨2024, 2, 29, 23, 59, 59, .later, 5, 30⟩ := by decide +kernel
example : parseDate (b! "2024022") = .ok ⟨2024, 2, 2, 0, 0, 0, .utc, 0, 0⟩ := by decide +kernel
example : parseDate (b! "D:2024Z") = .error .throw := by decide +kernel
example : parseDate (b! "D:20240229235959Z00'") = .ok ⟨2024, 2, 29, 23, 59, 59, .utc, 0, 0⟩ := by decide +kernel

end VPdf
