import Verif.Wfst.Chars
import Verif.Wfst.CharsSpec
import Verif.JaTn.Utter

/-
Property C94 for the Japanese text normalizer.
-/

namespace Verif.JaTn

open Verif.Wfst
open Verif.NBest (Pipeline normalize)

/-! A check of each grammar, whatever the switches: what it writes and has not read is printed. -/

theorem adds_tagger (c : Config) : adds (fun c => decide (Printed c)) (stream (taggerU c)) = true := by
  obtain ⟨b0, b1, b2, b3, b4⟩ := c
  revert b0 b1 b2 b3 b4
  decide +kernel

theorem adds_verbalizer (c : Config) :
    adds (fun c => decide (Printed c)) (.star (.comp (verbalizerU c) (postprocessor c))) = true := by
  obtain ⟨b0, b1, b2, b3, b4⟩ := c
  revert b0 b1 b2 b3 b4
  decide +kernel

/-- **C94.** Every character of every result is a character of the text or a printed one of the basic plane. -/
theorem C94_ja_tn (c : Config) (tg vg : G) (ht : tagger c = some tg) (hv : verbalizer c = some vg) (p : Pipeline W)
    (hr : Runs p tokenOrders tg vg) (x : Str) (hne : x ≠ []) (n : Int) (fuel : Nat) (out)
    (h : normalize p fuel x (.int n) = some (.ok out)) : ∀ z ∈ out.toList, ∀ c ∈ z, c ∈ x ∨ Printed c := by
  rw [tagger_eq] at ht
  rw [verbalizer_eq] at hv
  cases ht; cases hv
  intro z hz d hd
  exact (result_chars hr repeatFree (adds_tagger c) (adds_verbalizer c) (by decide) hne h z hz d hd).imp id of_decide_eq_true

/-- A result with characters that the text has not, and with one that only the text may give. -/
example : ((tagger {}).map fun g => ((g.outputs t!"5𠮷").map Prod.fst).contains
      t!"cardinal { value: \"5\" } char { value: \"𠮷\" }") = some true ∧
    ((verbalizer {}).map fun g => ((g.outputs t!"cardinal { value: \"5\" } char { value: \"𠮷\" }").map
      Prod.fst).contains t!"五𠮷") = some true ∧
    (∀ c ∈ t!"五", c ∉ t!"5𠮷" ∧ Printed c) ∧ ¬ Printed '𠮷' := by
  decide +kernel

end Verif.JaTn
