import Verif.Model.DateTime
/-
The Gregorian calendar, for C03.
-/
namespace Spdx.Spec

/-- Every fourth year, but of the centuries only every fourth. -/
def LeapYear (y : Nat) : Prop := if y % 100 = 0 then y % 400 = 0 else y % 4 = 0

instance (y : Nat) : Decidable (LeapYear y) := by unfold LeapYear; infer_instance

/-- April, June, September and November have thirty days. -/
def monthLength (y m : Nat) : Nat :=
  if m = 2 then (if LeapYear y then 29 else 28) else if m = 4 ∨ m = 6 ∨ m = 9 ∨ m = 11 then 30 else 31

/-- A day of the years 1 to 9999, and a time without leap seconds. -/
structure OnCalendar (d : DateTime) : Prop where
  year : 1 ≤ d.year ∧ d.year ≤ 9999
  month : 1 ≤ d.month ∧ d.month ≤ 12
  day : 1 ≤ d.day ∧ d.day ≤ monthLength d.year d.month
  time : d.hour < 24 ∧ d.minute < 60 ∧ d.second < 60 ∧ d.micro < 1000000

end Spdx.Spec
