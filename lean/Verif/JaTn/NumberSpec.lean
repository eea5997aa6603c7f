import Mathlib.Data.List.Basic

/-
How numbers are written and said in Japanese. Nothing here depends on the model.
-/

namespace Verif.JaTn.Spec

/-- The half-width and full-width digits with their values. -/
def digitTable : List (Char × Nat) :=
  [('0', 0), ('1', 1), ('2', 2), ('3', 3), ('4', 4), ('5', 5), ('6', 6), ('7', 7), ('8', 8), ('9', 9),
   ('０', 0), ('１', 1), ('２', 2), ('３', 3), ('４', 4), ('５', 5), ('６', 6), ('７', 7), ('８', 8), ('９', 9)]

/-- The value of a written digit. -/
def digitVal (c : Char) : Option Nat := digitTable.lookup c

/-- The number that a sequence of digits writes. -/
def valOf (ds : List Nat) : Nat := ds.foldl (fun n d => 10 * n + d) 0

/-- Digits, with a comma allowed before a digit when the number of digits from there on is one of `marks`. -/
inductive Puts (marks : List Nat) : List Char → List Nat → Prop
  | nil : Puts marks [] []
  | digit {c : Char} {d : Nat} {x : List Char} {ds : List Nat} : digitVal c = some d → Puts marks x ds →
      Puts marks (c :: x) (d :: ds)
  | comma {c : Char} {d : Nat} {x : List Char} {ds : List Nat} : ds.length + 1 ∈ marks → digitVal c = some d →
      Puts marks x ds → Puts marks (',' :: c :: x) (d :: ds)

/-- `x` writes the digits `ds`: it begins with a digit, and commas may stand before the last three, six and
ten digits. -/
def Writes (x : List Char) (ds : List Nat) : Prop := Puts [3, 6, 10] x ds ∧ x.head? ≠ some ','

/-- The sequences of digits that are read as numbers: one to twelve digits, the first not zero unless it is
the only one, and with more than eight digits zeros at the places of 万. -/
def Readable (ds : List Nat) : Prop :=
  1 ≤ ds.length ∧ ds.length ≤ 12 ∧ (ds.length = 1 ∨ ds.headD 0 ≠ 0) ∧
    (ds.length ≤ 8 ∨ valOf ds / 10 ^ 4 % 10 ^ 4 = 0)

instance (ds : List Nat) : Decidable (Readable ds) := by unfold Readable; infer_instance

/-! ### Names -/

/-- The character of a digit; only zero by itself is said. -/
def digitName (d : Nat) : Char :=
  ['〇', '一', '二', '三', '四', '五', '六', '七', '八', '九'].getD d '〇'

/-- A digit at the place of ten, hundred or thousand: 一 is not said before the unit. -/
def place (unit : Char) (d : Nat) : List Char :=
  if d = 0 then [] else if d = 1 then [unit] else [digitName d, unit]

/-- A digit at the place of one, or one that is said with its unit even if it is 一. -/
def full (unit : List Char) (d : Nat) : List Char := if d = 0 then [] else digitName d :: unit

/-- A number below 10^4; `one` is whether a thousand is said 一千 or 千. -/
def below (one : Bool) (n : Nat) : List Char :=
  (if one then full ['千'] (n / 1000) else place '千' (n / 1000)) ++ place '百' (n / 100 % 10) ++
    place '十' (n / 10 % 10) ++ full [] (n % 10)

/-- A section with its unit; a section that is zero is left out. -/
def big (unit : Char) (n : Nat) : List Char := if n = 0 then [] else below true n ++ [unit]

/-- The Japanese name of a number below 10^12. -/
def japanese (n : Nat) : List Char :=
  if n = 0 then ['〇'] else big '億' (n / 10 ^ 8) ++ big '万' (n / 10 ^ 4 % 10 ^ 4) ++ below false (n % 10 ^ 4)

/-! ### The number that a name means -/

/-- The digit that a character stands for in a name. -/
def nameVal (c : Char) : Option Nat :=
  [('一', 1), ('二', 2), ('三', 3), ('四', 4), ('五', 5), ('六', 6), ('七', 7), ('八', 8), ('九', 9)].lookup c

/-- The value of a unit inside a section. -/
def smallUnit (c : Char) : Option Nat := [('十', 10), ('百', 100), ('千', 1000)].lookup c

/-- The value of a unit that closes a section. -/
def bigUnit (c : Char) : Option Nat := [('万', 10 ^ 4), ('億', 10 ^ 8)].lookup c

/-- The reading of a name from left to right: `acc` is the value of the closed sections, `sec` that of the
open one so far and `pend` a digit whose unit may still come. A unit without a digit counts once. -/
def meaning (acc sec : Nat) (pend : Option Nat) : List Char → Option Nat
  | [] => some (acc + sec + pend.getD 0)
  | c :: y =>
    match nameVal c, smallUnit c, bigUnit c with
    | some d, _, _ => if pend = none then meaning acc sec (some d) y else none
    | _, some u, _ => meaning acc (sec + pend.getD 1 * u) none y
    | _, _, some u => meaning (acc + (sec + pend.getD 0) * u) 0 none y
    | none, none, none => none

/-- The number that a name means. -/
def value (y : List Char) : Option Nat := if y = ['〇'] then some 0 else meaning 0 0 none y

/-! ### Signed decimals -/

/-- The signs as they are written and said. -/
def signs : List (List Char × List Char) :=
  [([], []), (['+'], ['プ', 'ラ', 'ス']), (['-'], ['マ', 'イ', 'ナ', 'ス']),
   (['±'], ['プ', 'ラ', 'ス', 'マ', 'イ', 'ナ', 'ス'])]

/-- A signed decimal as it is written and said: a sign, an integer, and optionally a point with digits, which
are said one by one. -/
inductive Decimal : List Char → List Char → Prop
  | whole {s t x : List Char} {ds : List Nat} : (s, t) ∈ signs → Writes x ds → Readable ds →
      Decimal (s ++ x) (t ++ japanese (valOf ds))
  | point {s t x z : List Char} {ds es : List Nat} : (s, t) ∈ signs → Writes x ds → Readable ds →
      es ≠ [] → z.map digitVal = es.map some →
      Decimal (s ++ x ++ '.' :: z) (t ++ japanese (valOf ds) ++ '点' :: es.map digitName)

/-! ### Numbers as they are usually written -/

/-- The digits of a number, in groups of three with a comma before every group but the first. -/
def Grouped (x : List Char) (n : Nat) : Prop :=
  ∃ (g : List Char) (gs : List (List Char)), g ≠ [] ∧ g.length ≤ 3 ∧ (∀ h ∈ gs, h.length = 3) ∧
    x = g ++ gs.flatMap (',' :: ·) ∧ g ++ gs.flatten = Nat.toDigits 10 n

/-- The digits of a number, plain or in groups. -/
def Numeral (x : List Char) (n : Nat) : Prop := x = Nat.toDigits 10 n ∨ Grouped x n

end Verif.JaTn.Spec
