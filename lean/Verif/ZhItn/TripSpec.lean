import Verif.ZhTn.CharData
import Verif.ZhTn.TextSpec
import Verif.ZhItn.TextSpec

/-
Chinese text with numbers in digits that comes back as it was when it is said and written again. Only the data tables
are used here, nothing of the grammars.
-/

namespace Verif.ZhItn.Spec

/-- Integers in digits, without needless zeros. `standalone`, `zeroToNine` and `million` are the switches of the inverse
normalizer: whether integers are written in digits, whether those below ten are, and whether from a million on they are
written without 万. Rows of service numbers like 110 and 10086 are said digit by digit and are left out. -/
inductive Number (standalone zeroToNine million : Bool) : List Char → Prop
  | mk {n : Nat} : standalone = true → zeroToNine = true ∨ 10 ≤ n → n < 10 ^ 6 ∨ million = true ∧ n < 10 ^ 8 →
      ¬ ZhTn.Spec.Row (Nat.toDigits 10 n) → Number standalone zeroToNine million (Nat.toDigits 10 n)

/-- The text has no character that the switches change: a traditional one, a full-width one, an interjection. -/
def Steady (simple half interjections : Bool) (s : List Char) : Prop :=
  ∀ c ∈ s, (simple = true → (ZhTn.traditionalToSimple.lookup c).getD c = c) ∧
    (half = true → (ZhTn.fullToHalf.lookup c).getD c = c) ∧ (interjections = true → c ≠ '呃' ∧ c ≠ '啊')

/-- The text is empty or begins with a character that is read together with a number before it neither in digits nor
in words. -/
def Apart (r : List Char) : Prop := ZhTn.Spec.Parted r ∧ Parted r

/-- Texts with numbers in which `Num` holds. Between the numbers are texts in which `Plain` holds; none of them ends
with words that are read together with a number after them, in digits or in words. -/
inductive Trip (Num Plain : List Char → Prop) : List Char → Prop
  | plain {s : List Char} : Plain s → Trip Num Plain s
  | number {s x r : List Char} : Plain s → (∀ w ∈ ZhTn.Spec.openers ++ openers ++ each, ¬ w <:+ s) → NoPlate s → Num x →
      Apart r → Trip Num Plain r → Trip Num Plain (s ++ x ++ r)

end Verif.ZhItn.Spec
