import Verif.EnTn.Model
import Verif.EnTn.RomanData

/-
The rule for Roman numerals of English TN, tn/english/rules/roman.py, which no normalizer uses by itself.
-/

namespace Verif.EnTn

open Verif.Wfst

/-- The labels of male.tsv and female.tsv and their upper-case forms, roman.py:131-141. They are a parameter: of 7944
names it only matters that they are not empty and have no quotation mark, backslash or NUL. -/
structure PersonNames where
  /-- The labels. -/
  list : List Str
  /-- They are names. -/
  plain : ∀ a ∈ list, a ≠ [] ∧ ∀ c ∈ a, vchar c = true ∧ c ≠ '"' ∧ c ≠ '\\'

/-- `default_graph`, roman.py:49-51. -/
def romanDefault : G := Wfst.insert t!"integer: \"" + .tab romanToSpoken + Wfst.insert t!"\""
/-- `graph_teens`, roman.py:52-60. -/
def romanTeens (deterministic : Bool) : G :=
  oneOf (((romanToSpoken.take 19).drop (if deterministic then 1 else 0)).map Prod.fst)
/-- `graph`, roman.py:63-65. -/
def romanNamed (d : Bool) (names : PersonNames) : G :=
  Wfst.insert t!"key_the_ordinal: \"" + oneOf names.list + Wfst.insert t!"\"" + .lit t!" " + .comp (romanTeens d) romanDefault
/-- `k_word[0][0].upper() + k_word[0][1:]`, roman.py:71. -/
def firstUpper : Str → Str
  | [] => []
  | c :: s => c.toUpper :: s
/-- `key_words`, roman.py:68-74. -/
def romanKeys : List Str := romanKeyWord.flatMap fun k => [k.1, firstUpper k.1, k.1.map Char.toUpper]
/-- The second graph, roman.py:75-76. -/
def romanKeyed : G :=
  Wfst.insert t!"key_cardinal: \"" + oneOf romanKeys + Wfst.insert t!"\"" + .lit t!" " + romanDefault
/-- `roman_to_cardinal`, roman.py:78-93. -/
def romanAlone : Bool → G
  | true => .comp (atLeast 2 ALPHA)
      (Wfst.insert t!"default_cardinal: \"default\" " + .comp (oneOf ((romanToSpoken.take 50).map Prod.fst)) romanDefault)
  | false => .comp (.diff VSIGMA (.lit t!"I"))
      (Wfst.insert t!"default_cardinal: \"default\" integer: \"" + .tab romanToSpoken + Wfst.insert t!"\"")
/-- `roman_to_ordinal`, roman.py:96-99. -/
def romanTh (d : Bool) : G :=
  .comp (atLeast 3 ALPHA)
    (Wfst.insert t!"default_ordinal: \"default\" " + .comp (romanTeens d) romanDefault + del t!"th")
/-- `self.structured_graph`, roman.py:101-102. -/
def romanStructured (d : Bool) (names : PersonNames) : G := romanNamed d names ||| romanKeyed ||| romanAlone d ||| romanTh d

/-- `ordinal`, roman.py:110-113; `Ordinal(...).suffix` does not depend on its argument. -/
def romanOrdinal : G := .comp notQuotes ordSuffix
/-- `self.NOT_QUOTE.plus`. -/
def someNotQuotes : G := G.plus (.cls fun c => vchar c && c != '"')
/-- `graph`, roman.py:115-123. -/
def romanSpoken : G :=
  (del t!"key_cardinal: \"" + someNotQuotes + del t!"\"" + .lit t!" " + del t!"integer: \"" + notQuotes + del t!"\"") |||
  (del t!"default_cardinal: \"default\" integer: \"" + notQuotes + del t!"\"") |||
  (del t!"default_ordinal: \"default\" integer: \"" + romanOrdinal + del t!"\"") |||
  (del t!"key_the_ordinal: \"" + someNotQuotes + del t!"\"" + .lit t!" " + del t!"integer: \"" + (Wfst.insert t!"the ").ques +
    romanOrdinal + del t!"\"")
/-- `class Roman`, roman.py:24-128. -/
def romanRule (d : Bool) (names : PersonNames) : Rule where
  tagger := addTokens t!"roman" (tagField t!"value" (romanStructured d names))
  verbalizer := deleteTokens t!"roman" (del t!"value: \"" + .comp (romanStructured d names) romanSpoken + del t!"\"")

end Verif.EnTn
