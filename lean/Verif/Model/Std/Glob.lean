import Verif.Model.Std.JsonText

/-!
# `filepath.Match`

A model of `path/filepath.Match` of Go 1.21 on Unix (not in `/repo`): the parameter `Env.glob` of the rest of the model, used at `metadata.go:542` (delegation paths) and
`multirepo.go:217` (map files). The functions are those of `path/filepath/match.go`: `Match`, `scanChunk`, `matchChunk`, `getEsc`.
-/

namespace Tuf.Std
open Tuf

/-- The value of an encoded character. -/
def runeVal : Bytes → Nat
  | [a] => a.toNat
  | [a, b] => (a.toNat - 0xC0) * 64 + (b.toNat - 0x80)
  | [a, b, c] => (a.toNat - 0xE0) * 4096 + (b.toNat - 0x80) * 64 + (c.toNat - 0x80)
  | [a, b, c, d] => (a.toNat - 0xF0) * 262144 + (b.toNat - 0x80) * 4096 + (c.toNat - 0x80) * 64 + (d.toNat - 0x80)
  | _ => 0xFFFD

/-- `utf8.DecodeRuneInString` of a non-empty string: the value and the number of bytes; U+FFFD and 1 for what is not UTF-8. -/
def decodeRune (s : Bytes) : Nat × Nat := if charLen s = 0 then (0xFFFD, 1) else (runeVal (s.take (charLen s)), charLen s)

/-- `getEsc`: a possibly escaped character of a class; something must follow. -/
def getEsc (s : Bytes) : Option (Nat × Bytes) :=
  let after := fun (t : Bytes) =>
    if t = [] then none
    else if decodeRune t = (0xFFFD, 1) then none
    else if t.drop (decodeRune t).2 = [] then none
    else some ((decodeRune t).1, t.drop (decodeRune t).2)
  match s with
  | [] => none
  | c :: t => if c = 45 ∨ c = 93 then none else if c = 92 then after t else after (c :: t)

/-- The loop of `matchChunk` over the ranges of a class, from inside the brackets on: is `r` in one of them, and what follows the class. `any` says that a range was
read. The fuel is the length. -/
def ranges : (fuel : Nat) → (r : Nat) → (any hit : Bool) → Bytes → Option (Bool × Bytes)
  | 0, _, _, _, _ => none
  | n + 1, r, any, hit, s =>
    if any = true ∧ s.head? = some 93 then some (hit, s.drop 1)
    else match getEsc s with
      | none => none
      | some (lo, t) =>
        if t.head? = some 45 then
          match getEsc (t.drop 1) with
          | none => none
          | some (hi, u) => ranges n r true (hit || (lo ≤ r && r ≤ hi)) u
        else ranges n r true (hit || (lo ≤ r && r ≤ lo)) t

/-- A class, from behind the opening bracket on. -/
def inClass (r : Nat) (s : Bytes) : Option (Bool × Bytes) :=
  if s.head? = some 94 then (ranges (s.length + 1) r false false (s.drop 1)).map (fun x => (!x.1, x.2))
  else ranges (s.length + 1) r false false s

/-! The cases of the switch in `matchChunk`: what is left of the name. `none`: the match has failed, and only the syntax is checked. -/

/-- An empty name fails. -/
def live (s : Option Bytes) : Option Bytes := if s = some [] then none else s

/-- A byte. -/
def eatByte (c : UInt8) : Option Bytes → Option Bytes
  | some s => if s.head? = some c then some (s.drop 1) else none
  | none => none

/-- A question mark: any character but the slash. -/
def eatAny : Option Bytes → Option Bytes
  | some s => if s.head? = some 47 then none else some (s.drop (decodeRune s).2)
  | none => none

/-- A class: one character, if it is in the class. -/
def eatClass (hit : Bool) : Option Bytes → Option Bytes
  | some s => if hit then some (s.drop (decodeRune s).2) else none
  | none => none

/-- The character that a class is compared with. -/
def classRune : Option Bytes → Nat
  | some s => (decodeRune s).1
  | none => 0

/-- The loop of `matchChunk`. The result: `none` is `ErrBadPattern`, `some none` is no match, `some (some t)` is a match with the rest `t`. The fuel is the length of the
chunk. -/
def chunkLoop : (fuel : Nat) → (chunk : Bytes) → Option Bytes → Option (Option Bytes)
  | _, [], s => some s
  | 0, _ :: _, _ => none
  | n + 1, c :: chunk, s =>
    if c = 91 then
      match inClass (classRune (live s)) chunk with
      | none => none
      | some (hit, rest) => chunkLoop n rest (eatClass hit (live s))
    else if c = 63 then chunkLoop n chunk (eatAny (live s))
    else if c = 92 then
      match chunk with
      | [] => none
      | d :: rest => chunkLoop n rest (eatByte d (live s))
    else chunkLoop n chunk (eatByte c (live s))

/-- `matchChunk`. -/
def matchChunk (chunk s : Bytes) : Option (Option Bytes) := chunkLoop chunk.length chunk (some s)

/-- The loop of `scanChunk`: up to the first star that is not in a class. -/
def scanBody : (inrange : Bool) → Bytes → Bytes × Bytes
  | _, [] => ([], [])
  | b, [c] => if c = 42 ∧ b = false then ([], [c]) else ([c], [])
  | b, c :: d :: r =>
    if c = 92 then (c :: d :: (scanBody b r).1, (scanBody b r).2)
    else if c = 42 ∧ b = false then ([], c :: d :: r)
    else
      let b' := if c = 91 then true else if c = 93 then false else b
      (c :: (scanBody b' (d :: r)).1, (scanBody b' (d :: r)).2)

/-- Without the stars at the beginning. -/
def dropStars : Bytes → Bytes
  | [] => []
  | c :: r => if c = 42 then dropStars r else c :: r

/-- `scanChunk`: is there a star, the chunk, the rest. -/
def scanChunk (p : Bytes) : Bool × Bytes × Bytes := (p.head? = some 42, scanBody false (dropStars p))

/-- The search for a match after a star: skipping one byte at a time, but no slash. `last`: the chunk is the last one and must match the end. -/
def starLoop (chunk : Bytes) (last : Bool) : Bytes → Option (Option Bytes)
  | [] => some none
  | c :: name =>
    if c = 47 then some none
    else match matchChunk chunk name with
      | none => none
      | some (some t) => if last = true ∧ t ≠ [] then starLoop chunk last name else some (some t)
      | some none => starLoop chunk last name

/-- The check of the remaining pattern before false is returned. -/
def checkRest : (fuel : Nat) → Bytes → Option Bool
  | _, [] => some false
  | 0, _ :: _ => none
  | n + 1, p => match matchChunk (scanChunk p).2.1 [] with
    | none => none
    | some _ => checkRest n (scanChunk p).2.2

/-- `Match`; the fuel is the length of the pattern. -/
def globLoop : (fuel : Nat) → (pattern name : Bytes) → Option Bool
  | _, [], name => some (name = [])
  | 0, _ :: _, _ => none
  | n + 1, p, name =>
    let star := (scanChunk p).1
    let chunk := (scanChunk p).2.1
    let rest := (scanChunk p).2.2
    if star = true ∧ chunk = [] then some (!name.contains 47)
    else
      let search := if star then
          match starLoop chunk (rest = []) name with
          | none => none
          | some none => checkRest n rest
          | some (some t) => globLoop n rest t
        else checkRest n rest
      match matchChunk chunk name with
      | some (some t) => if t = [] ∨ rest ≠ [] then globLoop n rest t else search
      | some none => search
      | none => none

/-- `Env.glob`. -/
def globMatch (pattern name : Str) : Option Bool := globLoop pattern.length pattern name

end Tuf.Std
