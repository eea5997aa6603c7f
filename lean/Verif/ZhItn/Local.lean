import Verif.Wfst.Clause
import Verif.ZhItn.Utter
import Verif.ZhItn.PlainProps

/-
The verbalizer of the Chinese inverse normalizer reads one token at a time, so that the lemmas on independent parts
of a text apply.
-/

namespace Verif.ZhItn

open Verif.Wfst
open Verif.NBest (Pipeline normalize)

theorem oneTok (k : Config) : OneTok (.comp (verbalizerU k) (postprocessor k.removeInterjections)) := by
  refine oneTok_comp (oneTok_union (verbalizerUnion_eq k) ?_)
  intro s hs _
  simp only [rules, List.mem_cons, List.not_mem_nil, or_false] at hs
  rcases hs with rfl | rfl | rfl | rfl | rfl | rfl | rfl | rfl | rfl | rfl | rfl
  case inr.inr.inr.inl => refine oneTok_or (oneTok_delete (by decide) ?_) (oneTok_delete (by decide) ?_) <;> keeps
  all_goals
    refine oneTok_delete (by decide) ?_
    keeps

theorem piped {k : Config} {p : Pipeline W} {tg vg : G} (ht : tagger k = some tg) (hv : verbalizer k = some vg)
    (hr : Runs p tokenOrders tg vg) :
    Piped p tokenOrders (taggerU k) (.comp (verbalizerU k) (postprocessor k.removeInterjections)) := by
  rw [tagger_eq] at ht
  rw [verbalizer_eq] at hv
  cases ht; cases hv
  exact ⟨hr, tagger_ok _, verbalizer_ok k, ⟨_, _, (tokens_tagger k).loose⟩, repeatFree, oneTok k⟩

end Verif.ZhItn
