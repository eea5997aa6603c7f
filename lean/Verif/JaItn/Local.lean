import Verif.Wfst.Clause
import Verif.JaItn.PlainProps
import Verif.JaItn.Utter

/-
The verbalizer of the Japanese inverse normalizer reads one token at a time, so that the lemmas on independent parts
of a text apply.
-/

namespace Verif.JaItn

open Verif.Wfst
open Verif.NBest (Pipeline normalize)

theorem oneTok (k : Config) : OneTok (verbalizerU k) := by
  refine oneTok_union (verbalizerUnion_eq k) ?_
  intro s hs _
  simp only [rules, List.mem_cons, List.not_mem_nil, or_false] at hs
  rcases hs with rfl | rfl | rfl | rfl | rfl | rfl | rfl | rfl | rfl | rfl
  all_goals
    refine oneTok_delete (by decide) ?_
    keeps

theorem piped {k : Config} {p : Pipeline W} {tg vg : G} (ht : tagger k = some tg) (hv : verbalizer k = some vg)
    (hr : Runs p tokenOrders tg vg) : Piped p tokenOrders (taggerU k) (verbalizerU k) := by
  rw [tagger_eq] at ht
  rw [verbalizer_eq] at hv
  cases ht; cases hv
  exact ⟨hr, tagger_ok k, verbalizer_ok k, ⟨_, _, loose_tagger k⟩, repeatFree, oneTok k⟩

end Verif.JaItn
