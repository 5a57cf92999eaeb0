import Verif.Model.Times

/-!
# What times mean: the Gregorian calendar
-/
namespace Verif.Rsr.Spec

/-- Gregorian leap years. -/
def isLeap (y : Int) : Prop := y % 4 = 0 ∧ (y % 100 ≠ 0 ∨ y % 400 = 0)

instance (y : Int) : Decidable (isLeap y) := inferInstanceAs (Decidable (_ ∧ _))

/-- Days of a year. -/
def yearLen (y : Int) : Int := if isLeap y then 366 else 365

/-- Days from 1 January of the year 1 to 1 January of `y`. -/
def daysBefore (y : Int) : Int := 365 * (y - 1) + (y - 1) / 4 - (y - 1) / 100 + (y - 1) / 400

/-- Start of day `doy` of a year, in seconds (leap seconds not counted). -/
def midnight (y doy : Int) : ℚ := (daysBefore y + (doy - 1)) * 86400

/-- The moment that the fields denote. -/
def instant (u : Utc) : ℚ := midnight u.year u.doy + u.hour * 3600 + u.minute * 60 + u.second

/-- The fields are in the ranges of the calendar and the clock. -/
def ValidUtc (u : Utc) : Prop :=
  1 ≤ u.doy ∧ u.doy ≤ yearLen u.year ∧ 0 ≤ u.hour ∧ u.hour < 24 ∧ 0 ≤ u.minute ∧ u.minute < 60 ∧
  0 ≤ u.second ∧ u.second < 60

end Verif.Rsr.Spec
