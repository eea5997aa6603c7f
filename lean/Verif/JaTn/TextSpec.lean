import Verif.JaTn.Data
import Verif.JaTn.CharData
import Verif.JaTn.NumberSpec

/-
Japanese text with numbers in it: when a number stands by itself. Only the data tables are used here, nothing of
the grammars.
-/

namespace Verif.JaTn.Spec

/-- The characters as the rules see them: full-width ones are made half-width if the switch says so. -/
def see (fullWidth : Bool) (x : List Char) : List Char :=
  if fullWidth then x.map fun c => (fullToHalf.lookup c).getD c else x

/-- The names of currencies and teams. -/
def names : List (List Char) :=
  moneyCode.map Prod.fst ++ moneySymbol.map Prod.fst ++ country.map Prod.fst ++ club.map Prod.fst

/-- The words that are read together with a number after them: signs, words for numbers, currencies and teams,
which may be followed by a space, and the beginnings of the words with digits in the whitelist. -/
def openers : List (List Char) :=
  ["+".toList, "±".toList, "-".toList, "No.".toList, "番号".toList, "番号は".toList, "B".toList, "O".toList, "P".toList,
   "BY".toList, "By".toList, "R-".toList, "r-".toList, "M-".toList, "M".toList, "Ｍ-".toList, "Ｍ".toList,
   "FOREVER".toList] ++ names ++ names.map (· ++ " ".toList)

/-- The characters that can be read together with a number before them: marks and operators, the first characters
of units, of から and 号室 and of words for noon, and letters of the whitelist. -/
def closers : List Char :=
  ",.%- /:：~×+=<>≥≤÷か号aApPBO".toList ++ (unitsEn ++ unitsJa).filterMap fun e => e.1.head?

/-- Four digits, a point and 01 to 09 are a year and a month. -/
def Dated (ds es : List Nat) : Prop := ds.length = 4 ∧ ∃ d, d ≠ 0 ∧ es = [0, d]

/-- A number without a sign as it is written and said, that is no date and no long row of digits. -/
inductive Stands : List Char → List Char → Prop
  | whole {x : List Char} {ds : List Nat} : Writes x ds → Readable ds → ds.length ≤ 8 ∨ ',' ∈ x →
      Stands x (japanese (valOf ds))
  | point {x z : List Char} {ds es : List Nat} : Writes x ds → Readable ds → es ≠ [] → z.map digitVal = es.map some →
      ¬ Dated ds es → Stands (x ++ '.' :: z) (japanese (valOf ds) ++ '点' :: es.map digitName)

/-- The text is empty or begins, as the rules see it, with something other than a digit, that nothing reads together
with a number before it. -/
def Parted (fullWidth : Bool) (r : List Char) : Prop :=
  ∀ c ∈ (see fullWidth r).head?, digitVal c = none ∧ c ∉ closers

/-- A text with numbers, and what is said for it if every character `c` is made `f c` in the end. Between the numbers
are texts in which `Plain` holds; none of them ends with a word that is read together with a number after it. -/
inductive Text (fullWidth : Bool) (Plain : List Char → Prop) (f : Char → List Char) : List Char → List Char → Prop
  | plain {s : List Char} : Plain s → Text fullWidth Plain f s (s.flatMap f)
  | number {s x y r z : List Char} : Plain s → (∀ w ∈ openers, ¬ w <:+ see fullWidth s) → Stands (see fullWidth x) y →
      Parted fullWidth r → Text fullWidth Plain f r z → Text fullWidth Plain f (s ++ x ++ r) (s.flatMap f ++ y.flatMap f ++ z)

end Verif.JaTn.Spec
