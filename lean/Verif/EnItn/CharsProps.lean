import Verif.Wfst.Chars
import Verif.Wfst.CharsSpec
import Verif.EnItn.Tokens

/-
Property C94 for the English inverse normalizer.
-/

namespace Verif.EnItn

open Verif.Wfst
open Verif.NBest (Pipeline normalize)

/-! A check of each grammar, whatever the switches: what it writes and has not read is printed. -/

theorem repeatFree : Verif.Token.RepeatFree tokenOrders := Verif.Token.builtin_repeatFree _ (by decide)

theorem adds_tagger : adds (fun c => decide (Printed c)) (taggerOf classify) = true := by decide +kernel

theorem adds_verbalizer : adds (fun c => decide (Printed c)) (verbalizerOf verbalizerU) = true := by decide +kernel

/-- **C94.** Every character of every result is a character of the text or a printed one of the basic plane. -/
theorem C94_en_itn (tg vg : G) (ht : tagger = some tg) (hv : verbalizer = some vg) (p : Pipeline W)
    (hr : Runs p tokenOrders tg vg) (x : Str) (hne : x ≠ []) (n : Int) (fuel : Nat) (out)
    (h : normalize p fuel x (.int n) = some (.ok out)) : ∀ z ∈ out.toList, ∀ c ∈ z, c ∈ x ∨ Printed c := by
  rw [tagger_eq] at ht
  rw [verbalizer_eq] at hv
  cases ht; cases hv
  intro z hz d hd
  exact (result_chars hr repeatFree (adds_tagger) (adds_verbalizer) (by decide) hne h z hz d hd).imp id of_decide_eq_true

/-- A result with characters that the text has not, and with one that only the text may give. -/
example : (tagger.map fun g => ((g.outputs t!"twenty one 𠮷").map Prod.fst).contains
      t!"cardinal { integer: \"twenty one\" }  word { value: \"𠮷\" } ") = some true ∧
    (verbalizer.map fun g => ((g.outputs t!"cardinal { integer: \"twenty one\" } word { value: \"𠮷\" }").map
      Prod.fst).contains t!"21 𠮷") = some true ∧
    (∀ c ∈ t!"21", c ∉ t!"twenty one 𠮷" ∧ Printed c) ∧ ¬ Printed '𠮷' := by
  decide +kernel

end Verif.EnItn
