import Verif.Model.Data
/-
spdx/datetime_conversions.py, with the parts of Python's `datetime` it uses.
-/
namespace Spdx

/-! ### The calendar of Python's `datetime` (Lib/datetime.py; external, proleptic Gregorian) -/

def isLeap (y : Nat) : Bool := y % 4 = 0 && (y % 100 ≠ 0 || y % 400 = 0)

/-- Days of a month. -/
def daysInMonth (leap : Bool) : Nat → Nat
  | 1 => 31 | 2 => if leap then 29 else 28 | 3 => 31 | 4 => 30 | 5 => 31 | 6 => 30
  | 7 => 31 | 8 => 31 | 9 => 30 | 10 => 31 | 11 => 30 | 12 => 31
  | _ => 0

/-- Days of the year before the first of the month. -/
def daysBeforeMonth (leap : Bool) : Nat → Nat
  | 0 => 0
  | 1 => 0
  | m + 1 => daysBeforeMonth leap m + daysInMonth leap m

/-- Days before January 1st of the year. -/
def daysBeforeYear (y : Nat) : Nat := (y - 1) * 365 + (y - 1) / 4 - (y - 1) / 100 + (y - 1) / 400

/-- `datetime.toordinal` -/
def ymdToOrd (y m d : Nat) : Nat := daysBeforeYear y + daysBeforeMonth (isLeap y) m + d

/-- Month and day of the (zero-based) day of a year: the estimate `(n + 50) >> 5`, corrected by one when too large. -/
def monthDay (leap : Bool) (n : Nat) : Nat × Nat :=
  let m := (n + 50) / 32
  if daysBeforeMonth leap m > n then (m - 1, n - daysBeforeMonth leap (m - 1) + 1)
  else (m, n - daysBeforeMonth leap m + 1)

/-- `datetime.fromordinal` (`_ord2ymd`) -/
def ordToYmd (n : Nat) : Nat × Nat × Nat :=
  let n := n - 1
  let n400 := n / 146097
  let n := n % 146097
  let n100 := n / 36524
  let n := n % 36524
  let n4 := n / 1461
  let n := n % 1461
  let n1 := n / 365
  let n := n % 365
  let year := n400 * 400 + 1 + n100 * 100 + n4 * 4 + n1
  if n1 = 4 ∨ n100 = 4 then (year - 1, 12, 31)
  else
    let leap := n1 = 3 && (n4 ≠ 24 || n100 = 3)
    let md := monthDay leap n
    (year, md.1, md.2)

/-- The values a `datetime` object can hold (checked by its constructor). -/
def DateTime.Valid (d : DateTime) : Prop :=
  1 ≤ d.year ∧ d.year ≤ 9999 ∧ 1 ≤ d.month ∧ d.month ≤ 12 ∧ 1 ≤ d.day ∧ d.day ≤ daysInMonth (isLeap d.year) d.month
    ∧ d.hour < 24 ∧ d.minute < 60 ∧ d.second < 60 ∧ d.micro < 1000000

instance (d : DateTime) : Decidable d.Valid := inferInstanceAs (Decidable (_ ∧ _))

/-- Seconds since 0001-01-01 minus one day, of the calendar fields, ignoring offset and microseconds. -/
def DateTime.localSeconds (d : DateTime) : Int :=
  (ymdToOrd d.year d.month d.day : Int) * 86400 + d.hour * 3600 + d.minute * 60 + d.second

/-- The naive datetime with given seconds; `none` models `OverflowError` (outside years 1–9999).
    3652059 is the ordinal of 9999-12-31. -/
def DateTime.ofSeconds (t : Int) (micro : Nat) : Option DateTime :=
  let day := t / 86400
  let s := (t % 86400).toNat
  if 1 ≤ day ∧ day ≤ 3652059 then
    let ymd := ordToYmd day.toNat
    some { year := ymd.1, month := ymd.2.1, day := ymd.2.2, hour := s / 3600, minute := s % 3600 / 60, second := s % 60,
           micro := micro }
  else none

/-! ### spdx/datetime_conversions.py -/

/-- `"%02d"` for numbers below 100 -/
def fmt2 (n : Nat) : Str := [digitChar (n / 10), digitChar (n % 10)]
/-- `"%04d"` for numbers below 10000 -/
def fmt4 (n : Nat) : Str := [digitChar (n / 1000), digitChar (n / 100 % 10), digitChar (n / 10 % 10), digitChar (n % 10)]

/-- `date.isoformat()` of a naive datetime without microseconds -/
def isoformat (d : DateTime) : Str :=
  fmt4 d.year ++ ['-'] ++ fmt2 d.month ++ ['-'] ++ fmt2 d.day ++ ['T'] ++ fmt2 d.hour ++ [':'] ++ fmt2 d.minute ++ [':']
    ++ fmt2 d.second

/-- L19-21: aware datetimes are converted to UTC and made naive. `none` models `OverflowError`. -/
def toNaiveUtc (d : DateTime) : Option DateTime :=
  match d.tz with
  | none => some d
  | some off => DateTime.ofSeconds (d.localSeconds - off) d.micro

/-- spdx/datetime_conversions.py L15-26 `datetime_to_iso_string` -/
def datetimeToIso (d : DateTime) : Option Str :=
  (toNaiveUtc d).map fun d => isoformat { d with micro := 0 } ++ ['Z']

/-- One field of the `strptime` pattern followed by its separator.  The pattern's alternatives are all one or two
    characters long, the separator is no digit, so at most one length fits and backtracking cannot change the result. -/
def dtField (two : Char → Char → Bool) (one : Char → Bool) (sep : Char → Bool) : Str → Option (Nat × Str)
  | a :: b :: c :: rest =>
    if two a b && sep c then (digitsVal? [if a = ' ' then '0' else a, b]).map (·, rest)
    else if one a && sep b then (digitsVal? [a]).map (·, c :: rest)
    else none
  | [a, b] => if one a && sep b then (digitsVal? [a]).map (·, []) else none
  | _ => none

def isDig (lo hi : Char) (c : Char) : Bool := lo.toNat ≤ c.toNat && c.toNat ≤ hi.toNat

/-- `%m` is `1[0-2]|0[1-9]|[1-9]` -/
def monthField := dtField (fun a b => (a = '1' && isDig '0' '2' b) || (a = '0' && isDig '1' '9' b)) (isDig '1' '9') (· = '-')
/-- `%d` is `3[0-1]|[1-2]\d|0[1-9]|[1-9]| [1-9]`; `T` is matched ignoring case -/
def dayField := dtField (fun a b => (a = '3' && isDig '0' '1' b) || (isDig '1' '2' a && isPyDigit b)
    || (a = '0' && isDig '1' '9' b) || (a = ' ' && isDig '1' '9' b)) (isDig '1' '9') (fun c => c = 'T' || c = 't')
/-- `%H` is `2[0-3]|[0-1]\d|\d` -/
def hourField := dtField (fun a b => (a = '2' && isDig '0' '3' b) || (isDig '0' '1' a && isPyDigit b)) isPyDigit (· = ':')
/-- `%M` is `[0-5]\d|\d` -/
def minuteField := dtField (fun a b => isDig '0' '5' a && isPyDigit b) isPyDigit (· = ':')
/-- `%S` is `6[0-1]|[0-5]\d|\d`; `Z` is matched ignoring case -/
def secondField := dtField (fun a b => (a = '6' && isDig '0' '1' b) || (isDig '0' '5' a && isPyDigit b)) isPyDigit
    (fun c => c = 'Z' || c = 'z')

/-- spdx/datetime_conversions.py L7-12 `datetime_from_str`: `strptime(date_str, "%Y-%m-%dT%H:%M:%SZ")` on a text; the
    pattern must match the whole text and the fields must form a valid datetime. `none` models `ValueError`.
    (The `TypeError` for non-texts is handled where values are untyped.) -/
def datetimeFromStr : Str → Option DateTime
  | y1 :: y2 :: y3 :: y4 :: '-' :: r => do
    let year ← digitsVal? [y1, y2, y3, y4]
    let (month, r) ← monthField r
    let (day, r) ← dayField r
    let (hour, r) ← hourField r
    let (minute, r) ← minuteField r
    let (second, r) ← secondField r
    let d : DateTime := { year, month, day, hour, minute, second }
    if r = [] ∧ d.Valid then some d else none
  | _ => none

end Spdx
