import Verif.Wfst.Spec

/-
What it means for a tagging of the English normalizer to quote the text, written without the
grammars.
-/

namespace Verif.EnTn.Spec

open Verif.Token.Spec (Str Tok)

/-- White space of the grammar. -/
def White (c : Char) : Prop := c = ' ' ∨ (9 ≤ c.toNat ∧ c.toNat ≤ 13) ∨ c = '\u00a0'

instance (c : Char) : Decidable (White c) := by unfold White; infer_instance

/-- Characters that may be left out between the quoted pieces: white space, and the marks between the
parts of dates, times, decimals, fractions, telephone numbers and e-mail addresses. -/
def Between (c : Char) : Prop := White c ∨ c = '-' ∨ c = '/' ∨ c = '.' ∨ c = ':' ∨ c = '@'

instance (c : Char) : Decidable (Between c) := by unfold Between; infer_instance

/-- Fields that say what kind of measure was found. -/
def markers : List (Str × Str) :=
  [("integer".toList, "-".toList), ("units".toList, "address".toList), ("units".toList, "math".toList)]

/-- The values of the fields, in order; a marker may be left out, and a year may lose a space in front. -/
inductive QuotesOf : List (Str × Str) → List Str → Prop
  | nil : QuotesOf [] []
  | take {k v fs vs} : QuotesOf fs vs → QuotesOf ((k, v) :: fs) (v :: vs)
  | year {v fs vs} : QuotesOf fs vs → QuotesOf (("year".toList, ' ' :: v) :: fs) (v :: vs)
  | skip {f fs vs} : f ∈ markers → QuotesOf fs vs → QuotesOf (f :: fs) vs

/-- No quotation mark and no backslash stands between `<` and `>` with nothing but other characters
around it that are neither white space nor one of the two. -/
def Clear (x : Str) : Prop :=
  ¬ ∃ u v w, x = u ++ ('<' :: (v ++ ('>' :: w))) ∧ (∀ c ∈ v, ¬ White c ∧ c ≠ '<' ∧ c ≠ '>') ∧
    ∃ c ∈ v, c = '"' ∨ c = '\\'

/-- Symbols that are read by their names. -/
def symbols : Str := "&#@§™®©_%*+/=^|~$£€₩¥°º".toList

/-- A digit. -/
def Digit (c : Char) : Prop := 48 ≤ c.toNat ∧ c.toNat ≤ 57

instance (c : Char) : Decidable (Digit c) := by unfold Digit; infer_instance

/-- Punctuation: the two characters that are escaped, and the characters of a Unicode punctuation
category (`isP`) and some of ASCII other than brackets and symbols. -/
def Mark (isP : Char → Bool) (c : Char) : Prop :=
  c = '"' ∨ c = '\\' ∨
    ((isP c = true ∨ c ∈ "!'(),-.:;<>?`{}".toList) ∧ c ≠ '[' ∧ c ≠ ']' ∧ c ∉ symbols)

/-- A character of a word. -/
def Wordy (isP : Char → Bool) (c : Char) : Prop :=
  c ≠ '\x00' ∧ ¬ White c ∧ ¬ Mark isP c ∧ ¬ Digit c ∧ c ∉ "$€₩£¥#%".toList

/-- A word, a number, or a symbol. -/
inductive Core (isP : Char → Bool) : Str → Prop
  | word {x} : x ≠ [] → (∀ c ∈ x, Wordy isP c) → Core isP x
  | digits {x} : x ≠ [] → (∀ c ∈ x, Digit c) → Core isP x
  | symbol {c} : c ∈ symbols → Core isP [c]

/-- Spaces and punctuation marks; spaces only beside marks. -/
def Marks (isP : Char → Bool) (s : Str) : Prop :=
  (∀ c ∈ s, c = ' ' ∨ Mark isP c) ∧ (s = [] ∨ ∃ c ∈ s, Mark isP c)

/-- Words, numbers and symbols with one white space or some marks between them. -/
inductive Chain (isP : Char → Bool) : Str → Prop
  | one {x} : Core isP x → Chain isP x
  | space {x c y} : Core isP x → White c → Chain isP y → Chain isP (x ++ ([c] ++ y))
  | marks {x s y} : Core isP x → Marks isP s → s ≠ [] → Chain isP y → Chain isP (x ++ (s ++ y))

/-- A chain with marks and white space around it. -/
def Readable (isP : Char → Bool) (x : Str) : Prop :=
  ∃ a m y m' b, x = a ++ (m ++ (y ++ m') ++ b) ∧ (∀ c ∈ a, White c) ∧ (∀ c ∈ b, White c) ∧
    Marks isP m ∧ Marks isP m' ∧ Chain isP y

/-- Marks only, with spaces around them. -/
def Bare (isP : Char → Bool) (x : Str) : Prop :=
  ∃ a m b, x = a ++ (m ++ b) ∧ (∀ c ∈ a, c = ' ') ∧ (∀ c ∈ b, c = ' ') ∧ m ≠ [] ∧ ∀ c ∈ m, Mark isP c

end Verif.EnTn.Spec
