import Verif.Token.Spec

/-
What it means for a tagging to quote its input, written without the grammars.
-/

namespace Verif.Wfst.Spec

open Verif.Token.Spec (Str Tok)

/-- `x` consists of the texts `vs`, in this order, with separators before, between and after them. -/
inductive Quoted (sep : Str → Prop) : List Str → Str → Prop
  | done {s} : sep s → Quoted sep [] s
  | next {s v vs x} : sep s → Quoted sep vs x → Quoted sep (v :: vs) (s ++ (v ++ x))

/-- The values a token quotes: all but those of the listed markers. -/
def quotes (markers : List (Str × Str)) (t : Tok) : List Str :=
  (t.fields.filter fun f => !decide (f ∈ markers)).map Prod.snd

/-- The marker `preserve_order: "true"`. -/
def orderMarker : List (Str × Str) := [("preserve_order".toList, "true".toList)]

/-- The values a token quotes: all but those of the marker `preserve_order: "true"`. -/
abbrev values (t : Tok) : List Str := quotes orderMarker t

end Verif.Wfst.Spec
