import Verif.EnItn.Spec

/-
What the rule for Roman numerals should say, without the grammars. The names of numbers are those of EnItn/Spec.lean.
-/

namespace Verif.EnTn.Spec

open Verif.Wfst
open Verif.EnItn.Spec (english ordinalName)

/-- A decimal digit in Roman letters for one, five and ten. -/
def romanDigit (one five ten : Char) (d : Nat) : Str :=
  if d = 9 then [one, ten]
  else if d = 4 then [one, five]
  else (if 5 ≤ d then [five] else []) ++ List.replicate (d % 5) one

/-- The Roman numeral of a number below 4000. -/
def roman (n : Nat) : Str :=
  List.replicate (n / 1000) 'M' ++ romanDigit 'C' 'D' 'M' (n / 100 % 10) ++ romanDigit 'X' 'L' 'C' (n / 10 % 10) ++
    romanDigit 'I' 'V' 'X' (n % 10)

/-- The value of a Roman letter. -/
def romanLetter (c : Char) : Nat :=
  if c = 'I' then 1 else if c = 'V' then 5 else if c = 'X' then 10 else if c = 'L' then 50 else if c = 'C' then 100
  else if c = 'D' then 500 else if c = 'M' then 1000 else 0

/-- The value of a Roman numeral: a letter before one of greater value is taken off. -/
def romanValue : Str → Int
  | [] => 0
  | [c] => romanLetter c
  | c :: d :: s => (if romanLetter c < romanLetter d then -(romanLetter c : Int) else romanLetter c) + romanValue (d :: s)

/-- The name of a number, with a comma before hundreds after thousands. -/
def spoken (n : Nat) : Str :=
  if 1000 ≤ n ∧ 100 ≤ n % 1000 then english false (n / 1000 * 1000) ++ ',' :: ' ' :: english false (n % 1000)
  else english false n

/-- What may be said: after a name the ordinal number, with or without "the", for up to 19; after a key word the
number; a numeral by itself (other than I; if deterministic, of two letters at least and below L); a numeral up to XIX
with "th". If deterministic, I is no ordinal. -/
inductive SaysRoman (deterministic : Bool) (names keys : List Str) : Str → Str → Prop
  | name {a n} : a ∈ names → (if deterministic then 2 else 1) ≤ n → n ≤ 19 →
      SaysRoman deterministic names keys (a ++ ' ' :: roman n) (a ++ ' ' :: ordinalName false n)
  | nameThe {a n} : a ∈ names → (if deterministic then 2 else 1) ≤ n → n ≤ 19 →
      SaysRoman deterministic names keys (a ++ ' ' :: roman n) (a ++ t!" the " ++ ordinalName false n)
  | key {k n} : k ∈ keys → 1 ≤ n → n ≤ 2000 → SaysRoman deterministic names keys (k ++ ' ' :: roman n) (k ++ ' ' :: spoken n)
  | alone {n} : 2 ≤ n → n ≤ 2000 → (deterministic = true → n ≤ 49 ∧ 2 ≤ (roman n).length) →
      SaysRoman deterministic names keys (roman n) (spoken n)
  | th {n} : (if deterministic then 2 else 1) ≤ n → n ≤ 19 →
      SaysRoman deterministic names keys (roman n ++ t!"th") (ordinalName false n)

example : roman 1994 = t!"MCMXCIV" ∧ spoken 1994 = t!"one thousand, nine hundred ninety four" ∧ spoken 1066 = t!"one thousand sixty six" := by
  decide +kernel

end Verif.EnTn.Spec
