import Verif.EnTn.RomanRunProps
import Verif.EnTn.RomanNamesData

/-
The names of persons of roman.py and property C95 for them.
-/

namespace Verif.EnTn

open Verif.Wfst
open Spec
open Verif.NBest (Pipeline normalize)

/-- `get_names`, roman.py:131-141: the labels of both files and their upper-case forms; all letters in them are ASCII. -/
def namesList : List Str :=
  (maleNames ++ maleNames.map fun a => a.map Char.toUpper) ++ (femaleNames ++ femaleNames.map fun a => a.map Char.toUpper)

theorem names_plain : (namesList.all fun a => !a.isEmpty && a.all fun c => vchar c && c != '"' && c != '\\') = true := by
  decide +kernel

/-- The names of the repository. -/
def repoNames : PersonNames where
  list := namesList
  plain := by
    intro a ha
    have h := List.all_eq_true.1 names_plain a ha
    simp only [Bool.and_eq_true, Bool.not_eq_true', List.isEmpty_eq_false_iff, List.all_eq_true, bne_iff_ne] at h
    exact ⟨h.1, fun c hc => ⟨(h.2 c hc).1.1, (h.2 c hc).1.2, (h.2 c hc).2⟩⟩

/-- **C95.** `normalize` of the rule with the names of the repository. -/
theorem C95_names (d : Bool) {p : Pipeline W} {orders : Verif.Token.Orders}
    (hr : Runs p orders (romanRule d repoNames).tagger (romanRule d repoNames).verbalizer) (hrep : Verif.Token.RepeatFree orders)
    {x : Str} (hx : x ≠ []) :
    (∀ n : Int, 1 ≤ n → ((∃ fuel out, normalize p fuel x (.int n) = some (.ok out)) ↔ ∃ z, SaysRoman d namesList romanKeys x z)) ∧
    ∀ (n : Int) fuel out, normalize p fuel x (.int n) = some (.ok out) →
      (∀ z ∈ out.toList, SaysRoman d namesList romanKeys x z) ∧
      ((out.toList.length : Int) < n → ∀ z, SaysRoman d namesList romanKeys x z → z ∈ out.toList) :=
  C95_normalize d repoNames hr hrep hx

example : SaysRoman false namesList romanKeys t!"Aaron II" t!"Aaron the second" :=
  SaysRoman.nameThe (n := 2) (a := t!"Aaron") (by decide +kernel) (by decide) (by decide)

end Verif.EnTn
