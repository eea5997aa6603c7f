import Verif.JaItn.Data
import Verif.JaItn.NumberSpec

/-
Japanese text with names of numbers in it: when a name stands by itself, and how it is to be written. Only the data
tables are used here, nothing of the grammars.
-/

namespace Verif.JaItn.Spec

open Verif.JaTn.Spec (japanese digitName)

/-- The characters as the rules see them: full-width ones are made half-width if the switch says so. -/
def see (fullWidth : Bool) (x : List Char) : List Char :=
  if fullWidth then x.map fun c => (fullToHalf.lookup c).getD c else x

/-- The characters of names of numbers. -/
def numberChars : List Char := "〇零一二三四五六七八九两十百千万億兆".toList

/-- The words that are read together with a number after them: signs, roots, the word for ordinals, and the words for
a year before the letter of an era. -/
def openers : List (List Char) :=
  ["プラス".toList, "マイナス".toList, "负の".toList, "第".toList, "√".toList, "ルート".toList] ++
    ["今年は", "来年は", "再来年は", "去年は", "おととしは"].flatMap fun y => "RHSTM".toList.map fun e => y.toList ++ [e]

/-- The characters that can be read together with a number before them: the point, the first characters of operators,
units, currencies, of words for roots, ordinals, dates and times, and characters of the whitelist. -/
def closers : List Char :=
  "点√ル 分か年月日昨番時秒プマ负".toList ++ "湖舟首度円面国箇つ枚本人".toList ++
    (operator ++ unitEn ++ unitJa ++ moneySymbol).filterMap fun e => e.1.head?

/-- A name of a number without a sign and what is to be written for it. `standalone` says whether integers are written
in digits, `zeroToNine` whether those below ten are, and `million` which numbers are written without 万. -/
inductive Stands (standalone zeroToNine million : Bool) : List Char → List Char → Prop
  /-- The name of an integer. -/
  | whole {n : Nat} : standalone = true → zeroToNine = true ∨ 10 ≤ n → n < 10 ^ 12 →
      Stands standalone zeroToNine million (japanese n) (digitsWith million n)
  /-- A single digit that is left as it is. -/
  | small {n : Nat} : standalone = false ∨ zeroToNine = false → n < 10 →
      Stands standalone zeroToNine million (japanese n) (japanese n)
  /-- Digits one after the other. -/
  | row {es : List Nat} : (∀ d ∈ es, d < 10) → 3 ≤ es.length ∨ es.length = 2 ∧ standalone = true ∧ zeroToNine = false →
      Stands standalone zeroToNine million (es.map digitName) (es.map Nat.digitChar)
  /-- The name of an integer, a point and digits. -/
  | point {n : Nat} {es : List Nat} : n < 10 ^ 8 → es ≠ [] → (∀ d ∈ es, d < 10) →
      Stands standalone zeroToNine million (japanese n ++ '点' :: es.map digitName)
        (digitsWith million n ++ '.' :: es.map Nat.digitChar)
  /-- Digits with any number of points between them. -/
  | dotted {ds : List Nat} {ess : List (List Nat)} : ds ≠ [] → (∀ d ∈ ds, d ≠ 0 ∧ d < 10) → ess ≠ [] →
      (∀ es ∈ ess, es ≠ [] ∧ ∀ d ∈ es, d < 10) →
      Stands standalone zeroToNine million (ds.map digitName ++ ess.flatMap fun es => '点' :: es.map digitName)
        (ds.map Nat.digitChar ++ ess.flatMap fun es => '.' :: es.map Nat.digitChar)

/-- The text is empty or begins, as the rules see it, with a character that nothing reads together with a number
before it. -/
def Parted (fullWidth : Bool) (r : List Char) : Prop :=
  ∀ c ∈ (see fullWidth r).head?, c ∉ numberChars ∧ c ∉ closers

/-- A text with names of numbers, and what is to be written for it. Between the names are texts in which `Plain` holds;
none of them ends with a word that is read together with a number after it. -/
inductive Text (fullWidth standalone zeroToNine million : Bool) (Plain : List Char → Prop) : List Char → List Char → Prop
  | plain {s : List Char} : Plain s → Text fullWidth standalone zeroToNine million Plain s (see fullWidth s)
  | number {s x y r z : List Char} : Plain s → (∀ w ∈ openers, ¬ w <:+ see fullWidth s) →
      Stands standalone zeroToNine million x y → Parted fullWidth r →
      Text fullWidth standalone zeroToNine million Plain r z →
      Text fullWidth standalone zeroToNine million Plain (s ++ x ++ r) (see fullWidth s ++ y ++ z)

end Verif.JaItn.Spec
