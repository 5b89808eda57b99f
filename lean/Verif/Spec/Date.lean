import Verif.Spec.Grammar
import Verif.Model.Date
/-
  Specification of date texts.  From the model only the type of the fields is used.
-/
namespace VPdf.Spec

/-- `n` decimal digits. -/
def Digits (n : Nat) (t : Bytes) : Prop := t.length = n ∧ ∀ c ∈ t, IsDigit c

/-- The sign of a time zone. -/
def ZoneSign (c : Byte) (z : Timezone) : Prop :=
  (c = 90 ∧ z = .utc) ∨ (c = 43 ∧ z = .later) ∨ (c = 45 ∧ z = .earlier)

/-- `Z`, `+hh'mm'`, `-hh'mm'`: the minutes, or hours and minutes, and the apostrophes may be left out. -/
inductive ZoneText : Bytes → Timezone → Int → Int → Prop where
  | sign {c z} : ZoneSign c z → ZoneText [c] z 0 0
  | hours {c z h q} : ZoneSign c z → Digits 2 h → (q = [] ∨ q = [39]) → ZoneText (c :: (h ++ q)) z (digitsVal h) 0
  | minutes {c z h q m q'} : ZoneSign c z → Digits 2 h → (q = [] ∨ q = [39]) → Digits 2 m → (q' = [] ∨ q' = [39]) →
      ZoneText (c :: (h ++ q ++ m ++ q')) z (digitsVal h) (digitsVal m)

/-- Every field is in its range.  (The day need not exist in the month.) -/
def DateInRange (d : DateFields) : Prop :=
  0 ≤ d.year ∧ d.year ≤ 9999 ∧ 1 ≤ d.month ∧ d.month ≤ 12 ∧ 1 ≤ d.day ∧ d.day ≤ 31 ∧ 0 ≤ d.hour ∧ d.hour ≤ 23 ∧
  0 ≤ d.minute ∧ d.minute ≤ 59 ∧ 0 ≤ d.second ∧ d.second ≤ 59 ∧ 0 ≤ d.hourOffset ∧ d.hourOffset ≤ 23 ∧
  0 ≤ d.minuteOffset ∧ d.minuteOffset ≤ 59

/-- The value of a part of a date text, if it is there. -/
def partValue (parts : List Bytes) (i : Nat) (default : Int) : Int :=
  match parts[i]? with
  | some p => digitsVal p
  | none => default

/-- The texts that are dates, with their meaning: a byte order mark or not, `D:` or not, four digits for the year, and up to five
parts of two digits each (month, day, hour, minute, second).  If the text ends behind a part, one digit is enough for it.  A time
zone may follow the fifth part. -/
def DateText (s : Bytes) (d : DateFields) : Prop :=
  ∃ (bom mark year : Bytes) (parts : List Bytes) (zone : Bytes),
    (bom = [] ∨ bom = [0xEF, 0xBB, 0xBF]) ∧ (mark = [] ∨ mark = b! "D:") ∧ Digits 4 year ∧
    s = bom ++ mark ++ year ++ parts.flatten ++ zone ∧
    parts.length ≤ 5 ∧ (∀ p ∈ parts.dropLast, Digits 2 p) ∧ (∀ p ∈ parts.getLast?, Digits 2 p ∨ (zone = [] ∧ Digits 1 p)) ∧
    d.year = digitsVal year ∧ d.month = partValue parts 0 1 ∧ d.day = partValue parts 1 1 ∧ d.hour = partValue parts 2 0 ∧
    d.minute = partValue parts 3 0 ∧ d.second = partValue parts 4 0 ∧
    ((zone = [] ∧ d.zone = .utc ∧ d.hourOffset = 0 ∧ d.minuteOffset = 0) ∨
      (parts.length = 5 ∧ ZoneText zone d.zone d.hourOffset d.minuteOffset)) ∧
    DateInRange d

end VPdf.Spec
