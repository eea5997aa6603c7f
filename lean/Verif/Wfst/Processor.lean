import Verif.Wfst.Basic
import Lean.Elab.Term

/-
Model of the grammar-building methods of `class Processor`, /repo/tn/processor.py:119-219.
-/

namespace Verif.Wfst

open Lean in
/-- `t!"..."` is the list of the characters of a string literal. -/
macro:max "t!" s:str : term => do
  let cs := s.getString.toList.map fun c => Syntax.mkCharLit c
  `([$(cs.toArray),*])

/-- `union("\\", '"')` taken away from `VCHAR`: the local `CHAR`, processor.py:131. -/
def plainChar (c : Char) : Bool := vchar c && c != '\\' && c != '"'

/-- `self.VSIGMA`, processor.py:127. -/
def VSIGMA : G := .star (.cls vchar)

/-- `self.CHAR`, processor.py:132. pynini reads `\\` in a literal as an escaped backslash and a
backslash before anything but `[`, `]` and `\` as itself, so the Python literal `"\\\\\\"` (three
backslashes) denotes two, and `'\\"'` denotes a backslash and a quote. -/
def CHAR : G := .cls plainChar ||| crossS ['\\'] ['\\', '\\'] ||| crossS ['"'] ['\\', '"']

/-- `self.SIGMA`, processor.py:133. -/
def SIGMA : G :=
  .star (.cls plainChar ||| crossS ['\\', '\\'] ['\\'] ||| crossS ['\\', '"'] ['"'])

/-- `byte.DIGIT`. -/
def isDigit (c : Char) : Bool := '0' ≤ c && c ≤ '9'

/-- `byte.LOWER`. -/
def isLower (c : Char) : Bool := 'a' ≤ c && c ≤ 'z'

/-- `byte.UPPER`. -/
def isUpper (c : Char) : Bool := 'A' ≤ c && c ≤ 'Z'

/-- `byte.ALPHA`. -/
def isAlpha (c : Char) : Bool := isLower c || isUpper c

/-- `byte.PUNCT`: the C locale's `ispunct`. -/
def isPunct (c : Char) : Bool :=
  ('!' ≤ c && c ≤ '/') || (':' ≤ c && c ≤ '@') || ('[' ≤ c && c ≤ '`') || ('{' ≤ c && c ≤ '~')

/-- `self.SPACE = byte.SPACE | "\u00A0"`, processor.py:125. -/
def isSpace (c : Char) : Bool :=
  c = ' ' || ('\t' ≤ c && c ≤ '\r') || c = '\u00a0'

/-- `build_rule(fst, l, r)`, processor.py:173-175. -/
def buildRule (fst : G) (l : Ctx := .any) (r : Ctx := .any) : G := .rw fst l r

/-- `build_rule("")`: rewrites the empty string to itself everywhere, i.e. copies its input. -/
def identityRule : G := VSIGMA

/-- `add_tokens`, processor.py:177-179. -/
def addTokens (name : Str) (tagger : G) : G :=
  insert (name ++ t!" { ") + tagger + insert t!" } "

/-- `delete_tokens`, processor.py:181-183. -/
def deleteTokens (name : Str) (verbalizer : G) : G :=
  del name + del t!" { " + verbalizer + del t!" }" + (del t!" ").ques

/-- `input_projection`, processor.py:185-195. -/
def inputProjection (graph : G) : G := .proj graph

/-- `tag_field`, processor.py:197-201. -/
def tagField (name : Str) (graph : G) : G :=
  insert (name ++ t!": \"") + .comp (inputProjection graph) (.star CHAR) + insert t!"\""

/-- The graph a quoted field is decoded by, processor.py:206. -/
def decoded : Option G → G
  | none => SIGMA
  | some graph => .comp SIGMA graph

/-- `verbalize_field`, processor.py:203-208. -/
def verbalizeField (name : Str) (graph : Option G := none) (leadingSpace : Bool := false) : G :=
  del ((if leadingSpace then t!" " else []) ++ name ++ t!": \"") + decoded graph + del t!"\""

/-- `apply_input_processor`, processor.py:210-216. -/
def applyInputProcessor (graph : G) : Option G → G
  | none => graph
  | some p => .comp p graph

/-- `build_verbalizer`, processor.py:218-219. -/
def defaultVerbalizer (name : Str) : G := deleteTokens name (verbalizeField t!"value")

/-- A two-column table of single characters. -/
def charTable (t : List (Char × Char)) : G := .tab (t.map fun e => ([e.1], [e.2]))

/-- `processor @= rule` under a condition. -/
def whenDo (c : Bool) (processor rule : G) : G := if c then .comp processor rule else processor

/-- The two graphs of a built rule. -/
structure Rule where
  tagger : G
  verbalizer : G

/-- `class RuleSpec`, processor.py:37-43. -/
structure RuleSpec where
  rule : Rule
  taggerWeight : Option W := none
  verbalize : Bool := true

/-- `union(*graphs)` or, for an empty list, the `ValueError` of processor.py:155-156 and 164-165
(`none`). -/
def unionOrFail : List G → Option G
  | [] => none
  | g :: gs => some (unionOf g gs)

/-- `tagger_union`, processor.py:150-157. -/
def taggerUnion (specs : List RuleSpec) : Option G :=
  unionOrFail (specs.filterMap fun spec => spec.taggerWeight.map fun w => .wt spec.rule.tagger w)

/-- `verbalizer_union`, processor.py:159-166. -/
def verbalizerUnion (specs : List RuleSpec) : Option G :=
  unionOrFail ((specs.filter fun spec => spec.verbalize).map fun spec => spec.rule.verbalizer)

end Verif.Wfst
