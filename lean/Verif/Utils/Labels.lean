/-
Model of `load_labels`, tn/utils.py:34-45, with the parts of Python it uses: text files with universal newlines and
`csv.reader` with a tab as the delimiter.
-/

namespace Verif.Utils

/-- Text. -/
abbrev Str := List Char

/-- Universal newlines: what `open(abs_path, encoding="utf-8")` reads, tn/utils.py:43. -/
def universal : Str → Str
  | [] => []
  | '\r' :: '\n' :: s => '\n' :: universal s
  | '\r' :: s => '\n' :: universal s
  | c :: s => c :: universal s

/-- The lines of the file with their line ends, over which tn/utils.py:44 iterates. -/
def linesOf : Str → List Str
  | [] => []
  | c :: s =>
    if c = '\n' then ['\n'] :: linesOf s
    else match linesOf s with
      | [] => [[c]]
      | l :: ls => (c :: l) :: ls

/-- States of `csv.reader`. -/
inductive St
  | startRecord | startField | inField | inQuoted | quoteInQuoted | eatCrnl
  deriving DecidableEq, Repr

/-- The reader: its state, the field being read, and the fields of the record. -/
structure Rd where
  st : St
  field : Str
  fields : List Str
  deriving DecidableEq, Repr

/-- Before a record. -/
def Rd.init : Rd := ⟨.startRecord, [], []⟩
/-- The field is complete. -/
def Rd.save (r : Rd) (st : St) : Rd := ⟨st, [], r.fields ++ [r.field]⟩
/-- One more character of the field. -/
def Rd.add (r : Rd) (st : St) (c : Char) : Rd := ⟨st, r.field ++ [c], r.fields⟩

/-- Carriage return or line feed. -/
def isNl (c : Char) : Bool := c == '\n' || c == '\r'

/-- One character at the start of a field. -/
def startStep (r : Rd) (c : Char) : Rd :=
  if isNl c then r.save .eatCrnl
  else if c = '"' then { r with st := .inQuoted }
  else if c = '\t' then r.save .startField
  else r.add .inField c

/-- One character; `none` is `csv.Error`. The dialect is `excel` with the delimiter of tn/utils.py:44. The limit of
131072 characters in a field and, before Python 3.11, the error for NUL are left out. -/
def step (r : Rd) (c : Char) : Option Rd :=
  match r.st with
  | .startRecord => some (if isNl c then { r with st := .eatCrnl } else startStep r c)
  | .startField => some (startStep r c)
  | .inField => some (if isNl c then r.save .eatCrnl else if c = '\t' then r.save .startField else r.add .inField c)
  | .inQuoted => some (if c = '"' then { r with st := .quoteInQuoted } else r.add .inQuoted c)
  | .quoteInQuoted =>
    some (if c = '"' then r.add .inQuoted c
      else if c = '\t' then r.save .startField
      else if isNl c then r.save .eatCrnl
      else r.add .inField c)
  | .eatCrnl => if isNl c then some r else none

/-- The end of a line. -/
def endLine (r : Rd) : Rd :=
  match r.st with
  | .startRecord | .inQuoted => r
  | .startField | .inField | .quoteInQuoted => r.save .startRecord
  | .eatCrnl => { r with st := .startRecord }

/-- The characters of a line. -/
def steps (r : Rd) : Str → Option Rd
  | [] => some r
  | c :: l => (step r c).bind fun r' => steps r' l

/-- All records, with the record being read. -/
def rows (r : Rd) : List Str → Option (List (List Str))
  | [] => some (if r.field ≠ [] ∨ r.st = .inQuoted then [(r.save .startRecord).fields] else [])
  | l :: ls => (steps r l).bind fun r' =>
    if (endLine r').st = .startRecord then (rows .init ls).map ((endLine r').fields :: ·) else rows (endLine r') ls

/-- `load_labels`, tn/utils.py:34-45, on the content of the file. -/
def loadLabels (text : Str) : Option (List (List Str)) := rows .init (linesOf (universal text))

end Verif.Utils
