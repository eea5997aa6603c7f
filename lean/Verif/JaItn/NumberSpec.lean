import Verif.JaTn.NumberSpec

/-
How the Japanese inverse normalizer is to write a number: in digits, or in digits with the units 億 and 万. Nothing
here depends on the model.
-/

namespace Verif.JaItn.Spec

/-- The digits of a number before a unit; zero is left out. -/
def part (unit : List Char) (n : Nat) : List Char := if n = 0 then [] else Nat.toDigits 10 n ++ unit

/-- A number as it is written: in digits below a million (below a hundred million if `million`), and from there on
with the units 億 and 万. -/
def digitsWith (million : Bool) (n : Nat) : List Char :=
  if n < 10 ^ 6 ∨ million = true ∧ n < 10 ^ 8 then Nat.toDigits 10 n
  else part ['億'] (n / 10 ^ 8) ++ part ['万'] (n / 10 ^ 4 % 10 ^ 4) ++ part [] (n % 10 ^ 4)

example : digitsWith false 3400005 = "340万5".toList := by decide +kernel
example : digitsWith true 3400005 = "3400005".toList := by decide +kernel
example : digitsWith true 100050000 = "1億5万".toList := by decide +kernel

/-- The reading of such a number from left to right: `acc` is the value of the parts before a unit and `cur` that of
the digits since the last unit. -/
def meansFrom (acc cur : Nat) : List Char → Option Nat
  | [] => some (acc + cur)
  | c :: x =>
    if c = '億' then meansFrom (acc + cur * 10 ^ 8) 0 x
    else if c = '万' then meansFrom (acc + cur * 10 ^ 4) 0 x
    else match JaTn.Spec.digitVal c with
      | some d => meansFrom acc (10 * cur + d) x
      | none => none

/-- The number that digits with units mean. -/
def means (x : List Char) : Option Nat := meansFrom 0 0 x

example : means "340万5".toList = some 3400005 := by decide +kernel
example : means "五".toList = none := by decide +kernel

end Verif.JaItn.Spec
