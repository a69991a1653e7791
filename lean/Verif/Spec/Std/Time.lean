import Verif.Model.Std.Time

/-! # Specification of times -/

namespace Tuf.Spec
open Tuf Tuf.Std

/-- A date and time of the calendar that RFC 3339 can write. -/
structure ValidCivil (c : Civil) : Prop where
  year : c.year ≤ 9999
  month : 1 ≤ c.month ∧ c.month ≤ 12
  day : 1 ≤ c.day ∧ c.day ≤ daysIn c.month c.year
  hour : c.hour ≤ 23
  minute : c.minute ≤ 59
  second : c.second ≤ 59
  nano : c.nano ≤ 999999999
  offset : -1440 < c.offset ∧ c.offset < 1440

/-- Earlier on the calendar and the clock. -/
def EarlierDate (a b : Civil) : Prop := a.year < b.year ∨ (a.year = b.year ∧ (a.month < b.month ∨ (a.month = b.month ∧ a.day < b.day)))
def EarlierClock (a b : Civil) : Prop :=
  a.hour < b.hour ∨ (a.hour = b.hour ∧ (a.minute < b.minute ∨ (a.minute = b.minute ∧ (a.second < b.second ∨ (a.second = b.second ∧ a.nano < b.nano)))))
def SameDate (a b : Civil) : Prop := a.year = b.year ∧ a.month = b.month ∧ a.day = b.day
def Earlier (a b : Civil) : Prop := EarlierDate a b ∨ (SameDate a b ∧ EarlierClock a b)

/-- The day after. -/
def NextDay (a b : Civil) : Prop :=
  (b.year = a.year ∧ b.month = a.month ∧ b.day = a.day + 1) ∨
  (b.year = a.year ∧ b.month = a.month + 1 ∧ a.day = daysIn a.month a.year ∧ b.day = 1) ∨
  (b.year = a.year + 1 ∧ a.month = 12 ∧ b.month = 1 ∧ a.day = 31 ∧ b.day = 1)

end Tuf.Spec
