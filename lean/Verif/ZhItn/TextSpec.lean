import Verif.ZhItn.Data
import Verif.ZhTn.NameSpec

/-
Chinese text with names of numbers in it: when a name stands by itself, and how it is to be written. Only the data
tables are used here, nothing of the grammars.
-/

namespace Verif.ZhItn.Spec

open Verif.ZhTn.Spec (chinese)

/-- The characters of names of numbers. -/
def numberChars : List Char := "零洞一幺壹二两贰三叁四肆五伍六陆七柒拐八捌九玖十百千万亿兆".toList

/-- The name of a number without a sign and what is to be written for it. `standalone` says whether integers are written
in digits, `zeroToNine` whether those below ten are, and `million` whether those from 10^6 on are written without 万. -/
inductive Stands (standalone zeroToNine million : Bool) : List Char → List Char → Prop
  /-- A name that is written in digits. -/
  | whole {n : Nat} : standalone = true → zeroToNine = true ∨ 10 ≤ n → n < 10 ^ 6 ∨ million = true ∧ n < 10 ^ 8 →
      Stands standalone zeroToNine million (chinese n) (Nat.toDigits 10 n)
  /-- A name that is left as it is. -/
  | kept {n : Nat} : standalone = false ∨ zeroToNine = false ∧ n < 10 → n < 10 ^ 6 ∨ million = true ∧ n < 10 ^ 8 →
      Stands standalone zeroToNine million (chinese n) (chinese n)

/-- What stands in a word before its first character for a number from zero to ten. -/
def before (w : List Char) : List Char :=
  w.takeWhile fun c => !"零洞一幺壹二两贰三叁四肆五伍六陆七柒拐八捌九玖十".toList.contains c

/-- The words that are read together with a number after them: signs, the word for percent, the words before hours,
the letters of trains, and what words of the whitelist begin with. -/
def openers : List (List Char) :=
  ["正".toList, "负".toList, "负的".toList, "百分".toList, "百分之".toList] ++
    ((noon ++ trainPrefix).map fun e => e.1) ++ ((whitelist.map fun e => before e.1).filter (· ≠ []))

/-- The words for one of a unit, as in 每千米, that are read together with an amount after them. -/
def each : List (List Char) :=
  ["".toList, "万".toList, "亿".toList, "兆".toList].flatMap fun p =>
    ("度".toList :: (unitsEn ++ unitsZh).map fun e => e.1).map fun u => '每' :: p ++ before u

/-- The characters of a word that come right after a character of a name of a number. -/
def following : List Char → List Char
  | a :: b :: w => if numberChars.contains a && !numberChars.contains b then b :: following (b :: w) else following (b :: w)
  | _ => []

/-- The characters that can be read together with a number before them: the point, signs, those of repeated digits, of
identity cards, percentages, dates, times and amounts of money, the first characters of operators, units and
currencies, and characters of the whitelist. -/
def closers : List Char :=
  "点點个Xx正负分到百块毛角年月周天位次顿日号秒度".toList ++ (operator.filterMap fun e => e.1.head?) ++
    ((unitsEn ++ unitsZh ++ moneySymbol ++ moneyCode).flatMap fun e => following ('零' :: e.1)) ++
    whitelist.flatMap fun e => following e.1

/-- The text is empty or begins with a character that nothing reads together with a number before it. -/
def Parted (r : List Char) : Prop := ∀ c ∈ r.head?, c ∉ numberChars ∧ c ∉ closers

/-- The text does not end with the beginning of a licence plate: a province and letters. -/
def NoPlate (s : List Char) : Prop :=
  ∀ c ls, c ∈ "京津沪渝冀豫云辽黑湘皖鲁新苏浙赣鄂桂甘晋蒙陕吉闽贵粤青藏川宁琼".toList → ls ≠ [] →
    (∀ l ∈ ls, 'a' ≤ l ∧ l ≤ 'z' ∨ 'A' ≤ l ∧ l ≤ 'Z') → ¬ c :: ls <:+ s

/-- A text without its interjections, if the switch says so. -/
def kept (interjections : Bool) (s : List Char) : List Char :=
  if interjections then s.filter fun c => c != '呃' && c != '啊' else s

/-- A text with names of numbers, and what is to be written for it. Between the names are texts in which `Plain` holds;
none of them ends with words that are read together with a number after it. -/
inductive Text (interjections standalone zeroToNine million : Bool) (Plain : List Char → Prop) : List Char → List Char → Prop
  | plain {s : List Char} : Plain s → Text interjections standalone zeroToNine million Plain s (kept interjections s)
  | number {s x y r z : List Char} : Plain s → (∀ w ∈ openers ++ each, ¬ w <:+ s) → NoPlate s →
      Stands standalone zeroToNine million x y → Parted r → Text interjections standalone zeroToNine million Plain r z →
      Text interjections standalone zeroToNine million Plain (s ++ x ++ r) (kept interjections s ++ y ++ z)

end Verif.ZhItn.Spec
