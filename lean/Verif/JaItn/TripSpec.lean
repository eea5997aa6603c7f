import Verif.JaTn.TextSpec
import Verif.JaItn.TextSpec

/-
Japanese text with numbers in digits that comes back as it was when it is said and written again. Only the data tables
are used here, nothing of the grammars.
-/

namespace Verif.JaItn.Spec

/-- Numbers in digits, without commas and needless zeros. `standalone`, `zeroToNine` and `million` are the switches of
the inverse normalizer: whether integers are written in digits, whether those below ten are, and whether from a million
on they are written without 万. A number of four digits, a point and 01 to 09 is said as a date and is left out. -/
inductive Number (standalone zeroToNine million : Bool) : List Char → Prop
  | whole {n : Nat} : standalone = true → zeroToNine = true ∨ 10 ≤ n → n < 10 ^ 6 ∨ million = true ∧ n < 10 ^ 8 →
      Number standalone zeroToNine million (Nat.toDigits 10 n)
  | point {n : Nat} {es : List Nat} : n < 10 ^ 6 ∨ million = true ∧ n < 10 ^ 8 → es ≠ [] → (∀ d ∈ es, d < 10) →
      ¬ (1000 ≤ n ∧ n < 10000 ∧ ∃ d, d ≠ 0 ∧ es = [0, d]) →
      Number standalone zeroToNine million (Nat.toDigits 10 n ++ '.' :: es.map Nat.digitChar)

/-- The text has no full-width characters. -/
def Half (s : List Char) : Prop := ∀ c ∈ s, JaTn.fullToHalf.lookup c = none ∧ fullToHalf.lookup c = none

/-- The text is empty or begins with a character that is read together with a number before it neither in digits nor
in words. -/
def Apart (r : List Char) : Prop :=
  ∀ c ∈ r.head?, JaTn.Spec.digitVal c = none ∧ c ∉ JaTn.Spec.closers ∧ c ∉ numberChars ∧ c ∉ closers

/-- Texts with numbers in which `Number` holds. Between the numbers are half-width texts in which `Plain` holds; none
of them ends with a word that is read together with a number after it, in digits or in words. -/
inductive Trip (Num Plain : List Char → Prop) : List Char → Prop
  | plain {s : List Char} : Plain s → Half s → Trip Num Plain s
  | number {s x r : List Char} : Plain s → Half s → (∀ w ∈ JaTn.Spec.openers ++ openers, ¬ w <:+ s) → Num x → Apart r →
      Trip Num Plain r → Trip Num Plain (s ++ x ++ r)

end Verif.JaItn.Spec
