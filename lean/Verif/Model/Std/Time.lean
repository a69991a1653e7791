import Verif.Model.Types
import Verif.Model.Std.JsonText

/-!
# Times

A model of `Time.UnmarshalJSON` and `Time.MarshalJSON` of Go 1.21's `time` (not in `/repo`): the parameter `Env.parseTime` of the rest of the model, used for the field
`expires` (`types.go:59, 71, 81, 92`).

`UnmarshalJSON` tries `parseRFC3339` and, if that fails, `Parse(RFC3339, s)`. Where the first succeeds the second gives the same result, so only the second is
modelled. It is more liberal than RFC 3339: one-digit hours, a comma before the fraction, offsets of up to 24 hours and 60 minutes.

Simplifications: an offset of 24 hours or more is an error here. Go reads it, but `MarshalJSON` then fails, and with it `ToBytes` and every verification of a signature.
`UnmarshalJSON` does not unescape the string: Go rejects a time that is written with escape sequences (such as `\u002d`), the model accepts it.
-/

namespace Tuf.Std
open Tuf

/-- Wall clock and offset from UTC in minutes. -/
structure Civil where
  year : Nat
  month : Nat
  day : Nat
  hour : Nat
  minute : Nat
  second : Nat
  nano : Nat
  offset : Int
  deriving Repr, DecidableEq

/-- `isLeap`. -/
def isLeap (y : Nat) : Bool := y % 4 = 0 && (y % 100 != 0 || y % 400 = 0)

/-- `daysIn`. -/
def daysIn (m y : Nat) : Nat :=
  if m = 2 then (if isLeap y then 29 else 28)
  else if m = 4 ∨ m = 6 ∨ m = 9 ∨ m = 11 then 30
  else 31

/-- `daysBefore`: days of a common year before the month. -/
def daysBefore (m : Nat) : Nat := [0, 31, 59, 90, 120, 151, 181, 212, 243, 273, 304, 334].getD (m - 1) 0

/-- Days from January 1 of year 1 to the date (`Date`, `daysSinceEpoch`). -/
def dayNumber (y m d : Nat) : Int :=
  let c : Int := (y : Int) - 1
  146097 * (c / 400) + 36524 * (c % 400 / 100) + 1461 * (c % 100 / 4) + 365 * (c % 4)
    + daysBefore m + (if isLeap y && 3 ≤ m then 1 else 0) + d - 1

/-- Nanoseconds since the Unix epoch. 719162 is the day number of January 1, 1970. -/
def instantOf (c : Civil) : Int :=
  (((dayNumber c.year c.month c.day - 719162) * 24 + c.hour) * 60 + c.minute - c.offset) * 60000000000 + c.second * 1000000000 + c.nano

/-! ## Printing -/

/-- `appendInt(b, n, w)` for `n < 10^w`: `w` digits. -/
def pad : (width n : Nat) → Str
  | 0, _ => []
  | w + 1, n => pad w (n / 10) ++ [UInt8.ofNat (48 + n % 10)]

/-- Without the zeros at the end. -/
def trimZeros (s : Str) : Str := (s.reverse.dropWhile (fun c => c = 48)).reverse

/-- `appendNano` with `.999999999`. -/
def fractionText (nano : Nat) : Str := if nano = 0 then [] else 46 :: trimZeros (pad 9 nano)

/-- The offset. -/
def offsetText (o : Int) : Str :=
  if o = 0 then [90]
  else (if o < 0 then 45 else 43) :: pad 2 (o.natAbs / 60) ++ 58 :: pad 2 (o.natAbs % 60)

/-- `appendFormatRFC3339(b, true)`. -/
def formatTime (c : Civil) : Str :=
  pad 4 c.year ++ 45 :: (pad 2 c.month ++ 45 :: (pad 2 c.day ++ 84 :: (pad 2 c.hour ++ 58 :: (pad 2 c.minute ++ 58 :: (pad 2 c.second ++ (fractionText c.nano ++ offsetText c.offset))))))

/-! ## Parsing -/

/-- `skip(value, prefix)` for one byte. -/
def lit (c : UInt8) : Bytes → Option Bytes
  | a :: r => if a = c then some r else none
  | [] => none

/-- Two digits (`getnum(s, true)`). -/
def two : Bytes → Option (Nat × Bytes)
  | a :: b :: r => if isDigit a && isDigit b then some ((a.toNat - 48) * 10 + (b.toNat - 48), r) else none
  | _ => none

/-- Two digits or one (`getnum(s, false)`). -/
def oneOrTwo (s : Bytes) : Option (Nat × Bytes) :=
  match two s with
  | some x => some x
  | none => match s with
    | a :: r => if isDigit a then some (a.toNat - 48, r) else none
    | [] => none

/-- Four digits. -/
def four : Bytes → Option (Nat × Bytes)
  | a :: b :: c :: d :: r =>
    if isDigit a && isDigit b && isDigit c && isDigit d then some (digitsVal [a, b, c, d], r) else none
  | _ => none

/-- A number below a bound. -/
def below (n : Nat) (x : Option (Nat × Bytes)) : Option (Nat × Bytes) := x.bind (fun p => if p.1 < n then some p else none)

/-- The fraction of a second: `.` or `,` and digits, of which nine count (`parseNanoseconds`). -/
def nanos : Bytes → Nat × Bytes
  | [] => (0, [])
  | c :: r =>
    if c = 46 ∨ c = 44 then
      match takeDigits r with
      | ([], _) => (0, c :: r)
      | (ds, r') => (digitsVal (ds.take 9) * 10 ^ (9 - (ds.take 9).length), r')
    else (0, c :: r)

/-- The offset in minutes and nothing after it. -/
def offset : Bytes → Option Int
  | [] => none
  | c :: r =>
    if c = 90 then (if r = [] then some 0 else none)
    else if c = 43 ∨ c = 45 then
      match two r with
      | none => none
      | some (hr, r1) => match lit 58 r1 with
        | none => none
        | some r2 => match two r2 with
          | some (mm, []) =>
            if hr ≤ 24 ∧ mm ≤ 60 ∧ hr * 60 + mm < 1440 then some (if c = 45 then -((hr * 60 + mm : Nat) : Int) else ((hr * 60 + mm : Nat) : Int))
            else none
          | _ => none
    else none

/-- The date: year, month, day (the day is checked at the end in Go). -/
def date (s : Bytes) : Option ((Nat × Nat × Nat) × Bytes) :=
  match four s with
  | none => none
  | some (y, s) => match lit 45 s with
    | none => none
    | some s => match below 13 (two s) with
      | none => none
      | some (m, s) => match lit 45 s with
        | none => none
        | some s => match two s with
          | none => none
          | some (d, s) => if 1 ≤ m ∧ 1 ≤ d ∧ d ≤ daysIn m y then some ((y, m, d), s) else none

/-- The clock: hour, minute, second. -/
def clock (s : Bytes) : Option ((Nat × Nat × Nat) × Bytes) :=
  match below 24 (oneOrTwo s) with
  | none => none
  | some (h, s) => match lit 58 s with
    | none => none
    | some s => match below 60 (two s) with
      | none => none
      | some (m, s) => match lit 58 s with
        | none => none
        | some s => match below 60 (two s) with
          | none => none
          | some (x, s) => some ((h, m, x), s)

/-- `Parse(RFC3339, s)`. -/
def parseCivil (s : Bytes) : Option Civil :=
  match date s with
  | none => none
  | some ((y, mo, d), s) => match lit 84 s with
    | none => none
    | some s => match clock s with
      | none => none
      | some ((h, mi, x), s) => match offset (nanos s).2 with
        | none => none
        | some o => some ⟨y, mo, d, h, mi, x, (nanos s).1, o⟩

/-- The instant and the text that is printed. -/
def timeOf (c : Civil) : Time := { instant := instantOf c, text := formatTime c }

/-- `Env.parseTime`. -/
def parseRFC3339 (s : Str) : Option Time := (parseCivil s).map timeOf

end Tuf.Std
