import Verif.ZhTn.Spec

/-
How numbers are named in Chinese. Nothing here depends on the model.
-/

namespace Verif.ZhTn.Spec

/-- The syllable of a digit. -/
def digitName (d : Nat) : Char :=
  ['零', '一', '二', '三', '四', '五', '六', '七', '八', '九'].getD d '零'

/-- What is said for `m` after the unit worth `u`: nothing for zero, and 零 first if the next place is empty. -/
def rest (say : Nat → List Char) (u m : Nat) : List Char :=
  if m = 0 then [] else if m < u / 10 then '零' :: say m else say m

/-- A number with the unit worth `u`: how many of it there are, the unit, and the rest. -/
def withUnit (head say : Nat → List Char) (unit : Char) (u n : Nat) : List Char :=
  if n < u then say n else head (n / u) ++ unit :: rest say u (n % u)

/-- Numbers below 10. -/
def ones (n : Nat) : List Char := [digitName n]
/-- Numbers below 10^2. -/
def tens : Nat → List Char := withUnit ones ones '十' 10
/-- Numbers below 10^3. -/
def hundreds : Nat → List Char := withUnit ones tens '百' 100
/-- Numbers below 10^4. -/
def thousands : Nat → List Char := withUnit ones hundreds '千' 1000
/-- Numbers below 10^8. -/
def wan : Nat → List Char := withUnit thousands thousands '万' (10 ^ 4)
/-- Numbers below 10^12. -/
def yi : Nat → List Char := withUnit thousands wan '亿' (10 ^ 8)

/-- 一十 at the beginning is said 十. -/
def shi : List Char → List Char
  | '一' :: '十' :: y => '十' :: y
  | y => y

/-- 二 before a unit above 十 is said 两 at the beginning. -/
def liang : List Char → List Char
  | '二' :: c :: y => (if c ∈ ['百', '千', '万', '亿'] then '两' else '二') :: c :: y
  | y => y

/-- The name of a number below 10^12. -/
def name (n : Nat) : List Char := shi (yi n)

/-- The name of a number below 10^12 as it is said at the beginning. -/
def chinese (n : Nat) : List Char := liang (name n)

/-- The number that a sequence of digits writes. -/
def numOf (ds : List Nat) : Nat := ds.foldl (fun n d => 10 * n + d) 0

/-- `x` writes the digits `ds`. -/
def Wrote (x : List Char) (ds : List Nat) : Prop := x.map digitVal = ds.map some

instance (x : List Char) (ds : List Nat) : Decidable (Wrote x ds) := by unfold Wrote; infer_instance

/-- The sequences of digits that are read as numbers: one to twelve digits, the first not zero unless it is the
only one. -/
def Readable (ds : List Nat) : Prop := 1 ≤ ds.length ∧ ds.length ≤ 12 ∧ (ds.length = 1 ∨ ds.headD 0 ≠ 0)

instance (ds : List Nat) : Decidable (Readable ds) := by unfold Readable; infer_instance

/-- The point and the digits after it, as they are written and said; there may be none. -/
inductive Places : List Char → List Char → Prop
  | none : Places [] []
  | some {z : List Char} {es : List Nat} : es ≠ [] → Wrote z es → Places ('.' :: z) ('点' :: es.map digitName)

/-- A signed decimal as it is written and said. -/
inductive Decimal : List Char → List Char → Prop
  | bare {x f g : List Char} {ds : List Nat} : Wrote x ds → Readable ds → Places f g →
      Decimal (x ++ f) (chinese (numOf ds) ++ g)
  | signed {s : Sign} {x f g : List Char} {ds : List Nat} : s ≠ .none → Wrote x ds → Readable ds → Places f g →
      Decimal (s.written ++ x ++ f) (s.spoken ++ name (numOf ds) ++ g)

example : chinese 0 = "零".toList ∧ chinese 10 = "十".toList ∧ chinese 200 = "两百".toList ∧
    chinese 110 = "一百一十".toList ∧ chinese 1002 = "一千零二".toList ∧ chinese 120034 = "十二万零三十四".toList ∧
    chinese 200002000 = "两亿零二千".toList ∧ chinese 100100001 = "一亿零一十万零一".toList := by decide +kernel

end Verif.ZhTn.Spec
