/-
What a file of labels means, written without the reader.
-/

namespace Verif.Utils.Spec

/-- Text. -/
abbrev Str := List Char

/-- Every quotation mark twice. -/
def doubled : Str → Str
  | [] => []
  | c :: s => if c = '"' then '"' :: '"' :: doubled s else c :: doubled s

/-- `Field w v`: the written `w` stands for the label `v`. -/
inductive Field : Str → Str → Prop
  /-- Written as it is: no tab, no line feed, no quotation mark in front. -/
  | plain {v} : (∀ c ∈ v, c ≠ '\t' ∧ c ≠ '\n') → v.head? ≠ some '"' → Field v v
  /-- Anything between quotation marks. -/
  | quoted {v} : Field ('"' :: (doubled v ++ ['"'])) v

/-- Labels of a line, separated by tabs. -/
inductive Line : Str → List Str → Prop
  | one {w v} : Field w v → Line w [v]
  | more {w v l vs} : Field w v → Line l vs → Line (w ++ '\t' :: l) (v :: vs)

/-- The lines of a file; an empty line has no labels; the last line need not end with a line feed. -/
inductive Table : Str → List (List Str) → Prop
  | nil : Table [] []
  | last {l vs} : l ≠ [] → Line l vs → Table l [vs]
  | empty {s t} : Table s t → Table ('\n' :: s) ([] :: t)
  | line {l vs s t} : l ≠ [] → Line l vs → Table s t → Table (l ++ '\n' :: s) (vs :: t)

end Verif.Utils.Spec
