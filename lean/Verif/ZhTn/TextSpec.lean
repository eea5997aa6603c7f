import Verif.ZhTn.Data
import Verif.ZhTn.NameSpec

/-
Chinese text with numbers in it: when a number stands by itself, and how it is said. Only the data tables are used
here, nothing of the grammars.
-/

namespace Verif.ZhTn.Spec

/-! ### Numbers, telephone numbers, dates and times -/

/-- An unsigned integer or decimal as it is written and said. -/
inductive Amount : List Char → List Char → Prop
  | mk {x f g : List Char} {ds : List Nat} : Wrote x ds → Readable ds → Places f g →
      Amount (x ++ f) (chinese (numOf ds) ++ g)

/-- A digit of a telephone number. -/
def phoneName (c : Char) : Char :=
  match digitVal c with
  | some 1 => '幺'
  | some d => digitName d
  | none => c

/-- A digit of a year. -/
def yearName (c : Char) : Char := digitName ((digitVal c).getD 0)

/-- Four digits, the first not zero. -/
def Year (x : List Char) : Prop := Digits x ∧ x.length = 4 ∧ digitVal (x.headD '0') ≠ some 0
/-- 1 to 12, in one or two half-width digits. -/
def Month (x : List Char) : Prop := Short x ∧ 1 ≤ natOf x ∧ natOf x ≤ 12
/-- 1 to 31, in one or two half-width digits. -/
def Day (x : List Char) : Prop := Short x ∧ 1 ≤ natOf x ∧ natOf x ≤ 31

instance (x : List Char) : Decidable (Year x) := by unfold Year; infer_instance
instance (x : List Char) : Decidable (Month x) := by unfold Month; infer_instance
instance (x : List Char) : Decidable (Day x) := by unfold Day; infer_instance

def yearSaid (x : List Char) : List Char := x.map yearName ++ ['年']
def monthSaid (x : List Char) : List Char := name (natOf x) ++ ['月']
def daySaid (x : List Char) : List Char := name (natOf x) ++ ['日']

/-- The marks between the parts of a date. -/
def Mark (c : Char) : Prop := c ∈ ['/', '-', '.']

instance (c : Char) : Decidable (Mark c) := by unfold Mark; infer_instance

/-- A date as it is written and said. Without a day or a year, the month has two digits. -/
inductive Date : List Char → List Char → Prop
  | ymd {y m d : List Char} {s t : Char} : Year y → Month m → Day d → Mark s → Mark t →
      Date (y ++ s :: m ++ t :: d) (yearSaid y ++ monthSaid m ++ daySaid d)
  | dmy {y m d : List Char} {s t : Char} : Year y → Month m → Day d → Mark s → Mark t →
      Date (d ++ s :: m ++ t :: y) (yearSaid y ++ monthSaid m ++ daySaid d)
  | ym {y m : List Char} {s : Char} : Year y → Month m → m.length = 2 → Mark s → Date (y ++ s :: m) (yearSaid y ++ monthSaid m)
  | my {y m : List Char} {s : Char} : Year y → Month m → m.length = 2 → Mark s → Date (m ++ s :: y) (yearSaid y ++ monthSaid m)
  | md {m d : List Char} {s : Char} : Month m → m.length = 2 → Day d → Mark s → Date (m ++ s :: d) (monthSaid m ++ daySaid d)

/-- 0 to 24, in one or two half-width digits, zero in two. -/
def Hour (x : List Char) : Prop := Short x ∧ natOf x ≤ 24 ∧ x ≠ ['0']
/-- 00 to 59. -/
def Sixty (x : List Char) : Prop := Short x ∧ x.length = 2 ∧ natOf x ≤ 59

instance (x : List Char) : Decidable (Hour x) := by unfold Hour; infer_instance
instance (x : List Char) : Decidable (Sixty x) := by unfold Sixty; infer_instance

def hourSaid (x : List Char) : List Char := (if natOf x = 2 then ['两'] else name (natOf x)) ++ ['点']
/-- Zero minutes are not said; before one to nine there is 零. -/
def minuteSaid (x : List Char) : List Char :=
  if natOf x = 0 then [] else (if natOf x < 10 then ['零'] else []) ++ name (natOf x) ++ ['分']
/-- Zero seconds are not said. -/
def secondSaid (x : List Char) : List Char := if natOf x = 0 then [] else name (natOf x) ++ ['秒']

/-- The marks between the parts of a time. -/
def Colon (c : Char) : Prop := c ∈ [':', '：']

instance (c : Char) : Decidable (Colon c) := by unfold Colon; infer_instance

/-- A time as it is written and said. -/
inductive Time : List Char → List Char → Prop
  | hm {h m : List Char} {c : Char} : Hour h → Sixty m → Colon c → Time (h ++ c :: m) (hourSaid h ++ minuteSaid m)
  | hms {h m s : List Char} {c d : Char} : Hour h → Sixty m → Sixty s → Colon c → Colon d →
      Time (h ++ c :: m ++ d :: s) (hourSaid h ++ minuteSaid m ++ secondSaid s)

/-- Service numbers, rows of eleven digits and dates. -/
def Word (x : List Char) : Prop := Service x ∨ Mobile x ∨ ∃ y, Date x y

/-- Words in a row. -/
inductive Row : List Char → Prop
  | nil : Row []
  | cons {u v : List Char} : Word u → Row v → Row (u ++ v)

/-- What stands by itself in a text, as it is written and said: numbers that are no row of telephone numbers and
dates, percentages, telephone numbers, dates, times, and fractions that are no dates. -/
inductive Stands : List Char → List Char → Prop
  | number {x y : List Char} : Amount x y → ¬ Row x → Stands x y
  | percent {x y : List Char} : Amount x y → Stands (x ++ ['%']) ("百分之".toList ++ y)
  | phone {x : List Char} : Service x ∨ Mobile x → Stands x (x.map phoneName)
  | date {x y : List Char} : Date x y → Stands x y
  | time {x y : List Char} : Time x y → Stands x y
  | fraction {a b y z : List Char} : Amount a y → Amount b z → (∀ u, ¬ Date (a ++ '/' :: b) u) →
      Stands (a ++ '/' :: b) (z ++ "分之".toList ++ y)

/-! ### The text around -/

/-- The names of currencies and teams. -/
def names : List (List Char) :=
  moneyCode.map Prod.fst ++ moneySymbol.map Prod.fst ++ country.map Prod.fst ++ club.map Prod.fst

/-- The words that are read together with a number after them: signs, words before numbers, currencies and teams,
which may be followed by a space, and the beginnings of the words and names with digits. -/
def openers : List (List Char) :=
  ["+".toList, "±".toList, "-".toList, "约".toList, "人均".toList, "尾号".toList, "尾号是".toList, "尾号为".toList,
   "B".toList, "O".toList, "P".toList, "BY".toList, "By".toList, "十月".toList, "卡拉奥华大学".toList, "图库姆斯".toList,
   "大师".toList, "曼彻斯特".toList, "沙尔克".toList, "浩罕".toList, "米达利兹".toList, "菲律宾U-".toList,
   "香港U".toList] ++ names ++ names.map (· ++ " ".toList)

/-- The characters that can be read together with a number before them: marks and operators, the first characters
of units, of 年 and 赛季 and of words for noon, and characters of words and names with digits. -/
def closers : List Char :=
  ",，.%- /:：~×+=<>≥≤÷±到kw年赛aApPBO后中学拖托F约人".toList ++ (unitsEn ++ unitsZh).filterMap fun e => e.1.head?

/-- The text is empty or begins with something other than a digit, that nothing reads together with a number before it. -/
def Parted (r : List Char) : Prop := ∀ c ∈ r.head?, digitVal c = none ∧ c ∉ closers

/-- A text with numbers, and what is said for it if every other character `c` is made `f c` in the end. Between the
numbers are texts in which `Plain` holds; none of them ends with a word that is read together with a number after it. -/
inductive Text (Plain : List Char → Prop) (f : Char → List Char) : List Char → List Char → Prop
  | plain {s : List Char} : Plain s → Text Plain f s (s.flatMap f)
  | number {s x y r z : List Char} : Plain s → (∀ w ∈ openers, ¬ w <:+ s) → Stands x y → Parted r →
      Text Plain f r z → Text Plain f (s ++ x ++ r) (s.flatMap f ++ y.flatMap f ++ z)

end Verif.ZhTn.Spec
