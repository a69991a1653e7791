import Verif.Spec.Std.Time
import Verif.Spec.Std.JsonGrammar

/-! # The texts of times

RFC 3339, section 5.6, as `time.Time` reads it: also with one digit for the hour, with a comma before the fraction, and with 60 minutes in the offset. -/

namespace Tuf.Spec
open Tuf Tuf.Std

/-- A number of so many digits. -/
inductive NumberText (width : Nat) : Bytes → Nat → Prop
  | mk {ds : Bytes} : ds.length = width → (∀ c ∈ ds, isDigit c = true) → NumberText width ds (digitsNumber ds)

inductive HourText : Bytes → Nat → Prop
  | two {s : Bytes} {n : Nat} : NumberText 2 s n → HourText s n
  | one {s : Bytes} {n : Nat} : NumberText 1 s n → HourText s n

/-- A fraction of a second in nanoseconds: of the digits, filled up with zeros, the first nine count. -/
inductive NanoText : Bytes → Nat → Prop
  | none : NanoText [] 0
  | some {c : UInt8} {ds : Bytes} : c = 46 ∨ c = 44 → Digits ds → NanoText (c :: ds) (digitsNumber ((ds ++ List.replicate 9 48).take 9))

/-- An offset from UTC in minutes, of less than a day. -/
inductive ZoneText : Bytes → Int → Prop
  | utc : ZoneText b!"Z" 0
  | east {hs ms : Bytes} {h m : Nat} : NumberText 2 hs h → NumberText 2 ms m → m ≤ 60 → 60 * h + m < 1440 → ZoneText (43 :: (hs ++ 58 :: ms)) (60 * h + m : Nat)
  | west {hs ms : Bytes} {h m : Nat} : NumberText 2 hs h → NumberText 2 ms m → m ≤ 60 → 60 * h + m < 1440 → ZoneText (45 :: (hs ++ 58 :: ms)) (-(60 * h + m : Nat))

/-- A text and the time it stands for. -/
inductive TimeText : Bytes → Civil → Prop
  | mk {c : Civil} {y mo d h mi s f z : Bytes} : ValidCivil c → NumberText 4 y c.year → NumberText 2 mo c.month → NumberText 2 d c.day → HourText h c.hour → NumberText 2 mi c.minute →
      NumberText 2 s c.second → NanoText f c.nano → ZoneText z c.offset →
      TimeText (y ++ 45 :: (mo ++ 45 :: (d ++ 84 :: (h ++ 58 :: (mi ++ 58 :: (s ++ (f ++ z))))))) c

end Tuf.Spec
