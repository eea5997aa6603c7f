import Verif.Wfst.Chars
import Verif.Wfst.CharsSpec
import Verif.ZhItn.Utter

/-
Property C94 for the Chinese inverse normalizer.
-/

namespace Verif.ZhItn

open Verif.Wfst
open Verif.NBest (Pipeline normalize)

/-! A check of each grammar, whatever the switches: what it writes and has not read is printed. -/

theorem adds_tagger (c : Config) : adds (fun c => decide (Printed c)) (stream (taggerU c)) = true := by
  obtain ⟨b0, b1, b2, b3⟩ := c
  revert b0 b1 b2 b3
  decide +kernel

theorem adds_verbalizer (c : Config) :
    adds (fun c => decide (Printed c)) (.star (.comp (verbalizerU c) (postprocessor c.removeInterjections))) = true := by
  obtain ⟨b0, b1, b2, b3⟩ := c
  revert b0 b1 b2 b3
  decide +kernel

/-- **C94.** Every character of every result is a character of the text or a printed one of the basic plane. -/
theorem C94_zh_itn (c : Config) (tg vg : G) (ht : tagger c = some tg) (hv : verbalizer c = some vg) (p : Pipeline W)
    (hr : Runs p tokenOrders tg vg) (x : Str) (hne : x ≠ []) (n : Int) (fuel : Nat) (out)
    (h : normalize p fuel x (.int n) = some (.ok out)) : ∀ z ∈ out.toList, ∀ c ∈ z, c ∈ x ∨ Printed c := by
  rw [tagger_eq] at ht
  rw [verbalizer_eq] at hv
  cases ht; cases hv
  intro z hz d hd
  exact (result_chars hr repeatFree (adds_tagger c) (adds_verbalizer c) (by decide) hne h z hz d hd).imp id of_decide_eq_true

/-- A result with characters that the text has not, and with one that only the text may give. -/
example : ((tagger {}).map fun g => ((g.outputs t!"百分之五𠮷").map Prod.fst).contains
      t!"measure { value: \"百分之五\" } char { value: \"𠮷\" }") = some true ∧
    ((verbalizer {}).map fun g => ((g.outputs t!"measure { value: \"百分之五\" } char { value: \"𠮷\" }").map
      Prod.fst).contains t!"5%𠮷") = some true ∧
    (∀ c ∈ t!"5%", c ∉ t!"百分之五𠮷" ∧ Printed c) ∧ ¬ Printed '𠮷' := by
  decide +kernel

end Verif.ZhItn
