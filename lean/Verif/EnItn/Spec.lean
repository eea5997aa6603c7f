import Verif.Wfst.Processor

/-
What English number words mean, stated without the grammars: a reader that goes through the words of a
phrase from left to right and adds up the number, and the English name of a number.
-/

namespace Verif.EnItn.Spec

open Verif.Wfst

/-- The words of a text, with `cur` the part of the first word already seen. -/
def wordsFrom (cur : Str) : Str → List Str
  | [] => [cur]
  | c :: x => if c = ' ' then cur :: wordsFrom [] x else wordsFrom (cur ++ [c]) x

/-- The pieces of a text between spaces. -/
def words (x : Str) : List Str := wordsFrom [] x

/-- The number a word has in a list of words, counted from `n`. -/
def lookup (n step : Nat) (w : Str) : List Str → Option Nat
  | [] => none
  | v :: vs => if w = v then some n else lookup (n + step) step w vs

/-- The words for 1, 2, …, 9. -/
def unitNames : List Str := [t!"one", t!"two", t!"three", t!"four", t!"five", t!"six", t!"seven", t!"eight", t!"nine"]
/-- The words for 10, 11, …, 19. -/
def teenNames : List Str :=
  [t!"ten", t!"eleven", t!"twelve", t!"thirteen", t!"fourteen", t!"fifteen", t!"sixteen", t!"seventeen", t!"eighteen",
   t!"nineteen"]
/-- The words for 20, 30, …, 90. -/
def tyNames : List Str := [t!"twenty", t!"thirty", t!"forty", t!"fifty", t!"sixty", t!"seventy", t!"eighty", t!"ninety"]
/-- The words for 1000, 1000², … 1000⁷. -/
def scaleNames : List Str :=
  [t!"thousand", t!"million", t!"billion", t!"trillion", t!"quadrillion", t!"quintillion", t!"sextillion"]

/-- 1 to 9. -/
def unit (w : Str) : Option Nat := lookup 1 1 w unitNames
/-- 10 to 19, 20, 30, …, 90 (also in the spelling "fourty"). -/
def tens (w : Str) : Option Nat :=
  if w = t!"fourty" then some 40 else (lookup 10 1 w teenNames).or (lookup 20 10 w tyNames)
/-- The scale words: the position among `scaleNames`, from 1. -/
def scale (w : Str) : Option Nat := (lookup 1 1 w scaleNames).map (1000 ^ ·)

/-- What has been read: complete groups (a multiple of the last scale) and the group under construction. -/
structure St where
  total : Nat
  cur : Nat
  deriving DecidableEq

/-- One more word. A unit needs a free units place, a teen or ty word two free places, "hundred" a number
of hundreds below 100 in front, and a scale word a group below 1000 in front and only larger scales
before that. -/
def step (s : St) (w : Str) : Option St :=
  match unit w with
  | some d => if s.cur % 10 = 0 ∧ s.cur % 100 ≠ 10 then some ⟨s.total, s.cur + d⟩ else none
  | none =>
    match tens w with
    | some d => if s.cur % 100 = 0 then some ⟨s.total, s.cur + d⟩ else none
    | none =>
      if w = t!"hundred" then (if 0 < s.cur ∧ s.cur < 100 then some ⟨s.total, s.cur * 100⟩ else none)
      else
        match scale w with
        | some m => if 0 < s.cur ∧ s.cur < 1000 ∧ s.total % (1000 * m) = 0 then some ⟨s.total + s.cur * m, 0⟩ else none
        | none => none

/-- All words in turn. -/
def run (s : St) : List Str → Option St
  | [] => some s
  | w :: ws => match step s w with
    | some s' => run s' ws
    | none => none

/-- The number a phrase names: "and" is not heard, "zero" stands alone. -/
def value (x : Str) : Option Nat :=
  let ws := (words x).filter (· ≠ t!"and")
  if ws = [t!"zero"] then some 0
  else (run ⟨0, 0⟩ ws).map fun s => s.total + s.cur

/-! ### The English name of a number -/

/-- The name of `n`, `0 < n < 100`. -/
def below100 (n : Nat) : List Str :=
  if n < 10 then [unitNames.getD (n - 1) []]
  else if n < 20 then [teenNames.getD (n - 10) []]
  else tyNames.getD (n / 10 - 2) [] :: (if n % 10 = 0 then [] else [unitNames.getD (n % 10 - 1) []])

/-- The name of `n`, `0 < n < 1000`; with `british`, "and" after "hundred". -/
def below1000 (british : Bool) (n : Nat) : List Str :=
  if n < 100 then below100 n
  else [unitNames.getD (n / 100 - 1) [], t!"hundred"] ++
    (if n % 100 = 0 then [] else (if british then [t!"and"] else []) ++ below100 (n % 100))

/-- The words of a number below 1000 to the power one more than the number of scale words (largest
scale first), none for zero. -/
def groups (british : Bool) : List Str → Nat → List Str
  | [], n => if n = 0 then [] else below1000 british n
  | s :: ss, n =>
    (if n / 1000 ^ (ss.length + 1) = 0 then [] else below1000 british (n / 1000 ^ (ss.length + 1)) ++ [s]) ++
      groups british ss (n % 1000 ^ (ss.length + 1))

/-- Words joined by spaces. -/
def join : List Str → Str
  | [] => []
  | [w] => w
  | w :: v :: ws => w ++ ' ' :: join (v :: ws)

/-- The words of a number below 10²⁴. -/
def numberWords (british : Bool) (n : Nat) : List Str :=
  if n = 0 then [t!"zero"] else groups british scaleNames.reverse n

/-- The name of a number below 10²⁴. -/
def english (british : Bool) (n : Nat) : Str := join (numberWords british n)

/-- The ordinal word that belongs to a number word. -/
def ordinalWord (w : Str) : Str :=
  if w = t!"one" then t!"first"
  else if w = t!"two" then t!"second"
  else if w = t!"three" then t!"third"
  else if w = t!"five" then t!"fifth"
  else if w = t!"eight" then t!"eighth"
  else if w = t!"nine" then t!"ninth"
  else if w = t!"twelve" then t!"twelfth"
  else if w.getLast? = some 'y' then w.dropLast ++ t!"ieth"
  else w ++ t!"th"

/-- The last word as an ordinal word. -/
def ordinalWords : List Str → List Str
  | [] => []
  | [w] => [ordinalWord w]
  | w :: v :: ws => w :: ordinalWords (v :: ws)

/-- The ordinal of a number below 10²⁴ in words. -/
def ordinalName (british : Bool) (n : Nat) : Str := join (ordinalWords (numberWords british n))

/-- What follows the digits of an ordinal number. -/
def ordinalEnding (n : Nat) : Str :=
  if n % 100 = 11 ∨ n % 100 = 12 ∨ n % 100 = 13 then t!"th"
  else if n % 10 = 1 then t!"st"
  else if n % 10 = 2 then t!"nd"
  else if n % 10 = 3 then t!"rd"
  else t!"th"

example : ordinalName true 2340 = t!"two thousand three hundred and fortieth" := by decide +kernel
example : ordinalEnding 21 = t!"st" ∧ ordinalEnding 111 = t!"th" ∧ ordinalEnding 103 = t!"rd" := by decide +kernel
example : english true 2000345 = t!"two million three hundred and forty five" := by decide +kernel
example : value t!"two million three hundred and forty five" = some 2000345 := by decide +kernel
example : value t!"twenty one hundred fifteen" = some 2115 := by decide +kernel
example : value t!"twenty twelve" = none := by decide +kernel
example : value t!"one thousand two million" = none := by decide +kernel

end Verif.EnItn.Spec
