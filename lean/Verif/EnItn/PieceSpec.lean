/-
The texts that the English inverse normalizer can read, written without its grammars.
-/

namespace Verif.EnItn.Spec

/-- White space: the space, the control characters from tab to carriage return, the no-break space. -/
def White (c : Char) : Prop := c ∈ [' ', '\t', '\n', '\x0b', '\x0c', '\r', '\u00a0']

instance (c : Char) : Decidable (White c) := by unfold White; infer_instance

/-- ASCII punctuation except the quote, the backslash and square brackets. -/
def Mark (c : Char) : Prop := c ∈ "!#$%&'()*+,-./:;<=>?@^_`{|}~".toList

instance (c : Char) : Decidable (Mark c) := by unfold Mark; infer_instance

/-- Characters of a word. -/
def Wordy (c : Char) : Prop := c ≠ '\x00' ∧ ¬ White c ∧ c ≠ '"' ∧ c ≠ '\\'

instance (c : Char) : Decidable (Wordy c) := by unfold Wordy; infer_instance

/-- A piece of text: a word, or any single character with punctuation marks directly before and
after it. -/
inductive Piece : List Char → Prop
  | word {s} : s ≠ [] → (∀ c ∈ s, Wordy c) → Piece s
  | char {a c b} : (∀ d ∈ a, Mark d) → c ≠ '\x00' → (∀ d ∈ b, Mark d) → Piece (a ++ c :: b)

/-- Pieces separated by white space. -/
inductive Pieces : List Char → Prop
  | one {p} : Piece p → Pieces p
  | more {p s x} : Piece p → s ≠ [] → (∀ c ∈ s, White c) → Pieces x → Pieces (p ++ (s ++ x))

/-- Pieces with spaces before and after them. -/
def Readable (x : List Char) : Prop :=
  ∃ a y b, x = a ++ (y ++ b) ∧ (∀ c ∈ a, c = ' ') ∧ (∀ c ∈ b, c = ' ') ∧ Pieces y

end Verif.EnItn.Spec
