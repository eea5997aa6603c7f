import Mathlib.Data.List.Basic

/-
What the numbers of the Chinese grammar mean: the value of written digits and the value of a spoken
numeral. Nothing here depends on the model.
-/

namespace Verif.ZhTn.Spec

/-- The half-width and full-width digits with their values. -/
def digitTable : List (Char × Nat) :=
  [('0', 0), ('1', 1), ('2', 2), ('3', 3), ('4', 4), ('5', 5), ('6', 6), ('7', 7), ('8', 8), ('9', 9),
   ('０', 0), ('１', 1), ('２', 2), ('３', 3), ('４', 4), ('５', 5), ('６', 6), ('７', 7), ('８', 8), ('９', 9)]

/-- The value of a written digit. -/
def digitVal (c : Char) : Option Nat := digitTable.lookup c

/-- Texts of digits. -/
def Digits (x : List Char) : Prop := ∀ c ∈ x, (digitVal c).isSome

instance (x : List Char) : Decidable (Digits x) := by unfold Digits; infer_instance

/-- The number a text of digits denotes. -/
def natOf (x : List Char) : Nat := x.foldl (fun n c => 10 * n + (digitVal c).getD 0) 0

/-- The spoken digits other than zero; 两 is the form of 二 used before units. -/
def spokenTable : List (Char × Nat) :=
  [('一', 1), ('二', 2), ('两', 2), ('三', 3), ('四', 4), ('五', 5), ('六', 6), ('七', 7), ('八', 8), ('九', 9)]

/-- The value of a spoken digit. -/
def spokenVal (c : Char) : Option Nat := spokenTable.lookup c

/-- A numeral is read from left to right. It is a sequence of sections closed by 亿, 万 or the end of the
text, each worth a number below 10^4. -/
structure St where
  /-- The value of the closed sections. -/
  acc : Nat := 0
  /-- What closed the last section: 2 for 亿, 1 for 万; 3 if none is closed. -/
  big : Nat := 3
  /-- The value of the open section so far. -/
  sec : Nat := 0
  /-- The place of the last digit of the open section: 3 for 千, 2 for 百, 1 for 十; 4 if there is none. -/
  unit : Nat := 4
  /-- A digit whose unit is still to come. -/
  pend : Option Nat := none
  /-- 零 was the last character before the pending digit. -/
  zero : Bool := false
  /-- The place of the first digit of the open section and whether 零 stands before it. -/
  lead : Option (Nat × Bool) := none
  deriving DecidableEq, Repr

/-- A digit `d` takes the place `e` of the open section. Places go down, and between two digits of a
section there is a 零 exactly where places are left out. -/
def St.place (s : St) (d e : Nat) : Option St :=
  if e < s.unit ∧ (s.unit = 4 ∨ s.zero = decide (e + 1 < s.unit)) then
    some { s with
      sec := s.sec + d * 10 ^ e, unit := e, pend := none, zero := false,
      lead := s.lead <|> some (e, s.zero) }
  else none

/-- The open section is closed, its value counting 10^(4b). The first section does not begin with 零; a
later one begins with 零 exactly if its first places are zero or a whole section was left out. -/
def St.close (s : St) (b : Nat) : Option St := do
  let s ← match s.pend with
    | some d => s.place d 0
    | none => if s.zero then none else some s
  let (p, z) ← s.lead
  if b < s.big ∧ z = (s.big != 3 && (p < 3 || b + 1 < s.big)) then
    some { acc := s.acc + s.sec * 10 ^ (4 * b), big := b }
  else none

/-- One character of a numeral. 十 without a digit stands for ten at the beginning. -/
def St.step (s : St) (c : Char) : Option St :=
  if c = '零' then (if s.pend = none ∧ ¬s.zero then some { s with zero := true } else none)
  else if c = '十' then
    match s.pend with
    | some d => s.place d 1
    | none => if s.big = 3 ∧ s.lead = none ∧ ¬s.zero then s.place 1 1 else none
  else if c = '百' then s.pend.bind fun d => s.place d 2
  else if c = '千' then s.pend.bind fun d => s.place d 3
  else if c = '万' then s.close 1
  else if c = '亿' then s.close 2
  else (spokenVal c).bind fun d => if s.pend = none then some { s with pend := some d } else none

/-- The end of the text: an empty last section is left out. -/
def St.finish (s : St) : Option Nat :=
  if s.big ≠ 3 ∧ s.pend = none ∧ s.lead = none ∧ ¬s.zero then some s.acc
  else (s.close 0).map St.acc

/-- Several characters. -/
def St.run (s : St) : List Char → Option St
  | [] => some s
  | c :: cs => (s.step c).bind fun s => s.run cs

/-- The number a spoken numeral denotes, if it is a well-formed numeral. -/
def value (y : List Char) : Option Nat :=
  if y = ['零'] then some 0 else (St.run {} y).bind St.finish

/-! ### Signed decimals -/

/-- Signs. -/
inductive Sign | none | plus | minus | plusMinus
  deriving DecidableEq

/-- How a sign is written. -/
def Sign.written : Sign → List Char
  | .none => [] | .plus => ['+'] | .minus => ['-'] | .plusMinus => ['±']

/-- How a sign is spoken. -/
def Sign.spoken : Sign → List Char
  | .none => [] | .plus => ['正'] | .minus => ['负'] | .plusMinus => ['正', '负']

/-- The syllables used when digits are read one by one. -/
def syllableTable : List (Char × Nat) :=
  [('零', 0), ('一', 1), ('二', 2), ('三', 3), ('四', 4), ('五', 5), ('六', 6), ('七', 7), ('八', 8), ('九', 9)]

/-- The digit a syllable stands for. -/
def syllableVal (c : Char) : Option Nat := syllableTable.lookup c

/-- A decimal number: sign, integer part, digits after the point. -/
structure Dec where
  sign : Sign := .none
  int : Nat
  frac : List Nat := []
  deriving DecidableEq

/-- `x` writes the number `n`: sign, digits, and if there is a fractional part a point and its digits. -/
def Writes (x : List Char) (n : Dec) : Prop :=
  ∃ i z, i ≠ [] ∧ Digits i ∧ natOf i = n.int ∧ z.map digitVal = n.frac.map some ∧
    x = n.sign.written ++ (i ++ if n.frac = [] then [] else '.' :: z)

/-- `y` is a spoken form of the number `n`: sign, numeral, and if there is a fractional part 点 and its
digits one by one. -/
def Says (y : List Char) (n : Dec) : Prop :=
  ∃ r z, value r = some n.int ∧ z.map syllableVal = n.frac.map some ∧
    y = n.sign.spoken ++ (r ++ if n.frac = [] then [] else '点' :: z)

/-! ### Digit by digit -/

/-- The syllables of telephone numbers. -/
def phoneTable : List (Char × Nat) :=
  [('零', 0), ('幺', 1), ('二', 2), ('三', 3), ('四', 4), ('五', 5), ('六', 6), ('七', 7), ('八', 8), ('九', 9)]

/-- The digit a syllable of a telephone number stands for. -/
def phoneVal (c : Char) : Option Nat := phoneTable.lookup c

/-- `y` spells `x`: every digit by its syllable, every other character as listed in `other`. -/
inductive Spells (v : Char → Option Nat) (other : List (Char × List Char)) : List Char → List Char → Prop
  | nil : Spells v other [] []
  | digit {c s : Char} {d : Nat} {x y : List Char} : digitVal c = some d → v s = some d →
      Spells v other x y → Spells v other (c :: x) (s :: y)
  | other {c : Char} {o x y : List Char} : (c, o) ∈ other → Spells v other x y → Spells v other (c :: x) (o ++ y)

/-- The point is spoken, the hyphen is not. -/
def separators : List (Char × List Char) := [('.', ['点']), ('-', [])]

/-- The words before the last digits of a telephone number. -/
def tailWords : List (Char × List Char) := [('尾', ['尾']), ('号', ['号']), ('是', ['是']), ('为', ['为'])]

/-- One or more digits. -/
def Digits1 (x : List Char) : Prop := x ≠ [] ∧ Digits x

/-- Four groups of digits with points. -/
def Ip (x : List Char) : Prop :=
  ∃ a b c d, Digits1 a ∧ Digits1 b ∧ Digits1 c ∧ Digits1 d ∧ x = a ++ '.' :: b ++ '.' :: c ++ '.' :: d

/-- Three groups of digits with hyphens. -/
def Dashed (x : List Char) : Prop :=
  ∃ a b c, Digits1 a ∧ Digits1 b ∧ Digits1 c ∧ x = a ++ '-' :: b ++ '-' :: c

/-- Three digits, a hyphen and eight digits. -/
def Landline (x : List Char) : Prop :=
  ∃ a b, Digits a ∧ Digits b ∧ a.length = 3 ∧ b.length = 8 ∧ x = a ++ '-' :: b

/-- Eleven digits. -/
def Mobile (x : List Char) : Prop := Digits x ∧ x.length = 11

/-- 尾号, 尾号是 or 尾号为 and four digits. -/
def Tail (x : List Char) : Prop :=
  ∃ p d, p ∈ [['尾', '号'], ['尾', '号', '是'], ['尾', '号', '为']] ∧ Digits d ∧ d.length = 4 ∧ x = p ++ d

/-- The service numbers. -/
def serviceNumbers : List Nat :=
  [110, 111, 112, 114, 119, 120, 122, 10086, 10010, 12306, 12315, 12345, 12110, 12320, 12366, 12333, 12328, 95110,
   95120, 95188, 95500, 95511, 95533, 95555, 95566, 95588, 95598, 95599]

/-- A service number in half-width digits. -/
def Service (x : List Char) : Prop := ∃ n ∈ serviceNumbers, x = Nat.toDigits 10 n

/-! ### Dates and times -/

/-- One or two half-width digits. -/
def Short (x : List Char) : Prop := (x.length = 1 ∨ x.length = 2) ∧ ∀ c ∈ x, c.isDigit = true

instance (x : List Char) : Decidable (Short x) := by unfold Short; infer_instance

end Verif.ZhTn.Spec
