import Verif.Wfst.Clause
import Verif.ZhTn.Utter
import Verif.ZhTn.PlainProps

/-
The verbalizer of the Chinese normalizer reads one token at a time, so that the lemmas on independent parts of a
text apply.
-/

namespace Verif.ZhTn

open Verif.Wfst
open Verif.NBest (Pipeline normalize)

theorem oneTok (k : Config) : OneTok (.comp (verbalizerU k.removeErhua) (postprocessor k)) := by
  refine oneTok_comp (oneTok_union (verbalizerUnion_eq k) ?_)
  intro s hs _
  simp only [rules, List.mem_cons, List.not_mem_nil, or_false] at hs
  rcases hs with rfl | rfl | rfl | rfl | rfl | rfl | rfl | rfl | rfl | rfl | rfl
  · refine oneTok_delete (by decide) ?_
    keeps
    exacts [bare_year, bare_month, bare_day]
  · refine oneTok_or (oneTok_delete (by decide) ?_) ?_
    · keeps
      exact bare_of (by decide +kernel)
    · split
      · refine oneTok_delete (by decide) ?_
        keeps
      · refine oneTok_delete (by decide) ?_
        keeps
        exact bare_of (by decide +kernel)
  · refine oneTok_delete (by decide) ?_
    keeps
    · exact bare_of (by decide +kernel)
    · exact bare_of (by decide +kernel)
  · refine oneTok_delete (by decide) ?_
    keeps
    all_goals exact bare_number
  · refine oneTok_or (oneTok_delete (by decide) ?_) (oneTok_delete (by decide) ?_)
    · keeps
      exact bare_of (by decide +kernel)
    · keeps
      all_goals exact bare_of (by decide +kernel)
  · refine oneTok_delete (by decide) ?_
    keeps
    · exact bare_number
    · exact bare_of (by decide +kernel)
  · refine oneTok_delete (by decide) ?_
    keeps
    exacts [bare_noon, bare_hour, bare_minute, bare_second]
  · refine oneTok_delete (by decide) ?_
    keeps
    exact bare_of (by decide +kernel)
  · refine oneTok_delete (by decide) ?_
    keeps
    exact bare_of (by decide +kernel)
  · refine oneTok_delete (by decide) ?_
    keeps
  · refine oneTok_delete (by decide) ?_
    keeps
    exact bare_of (by decide +kernel)

theorem piped {k : Config} {p : Pipeline W} {tg vg : G} (ht : tagger k = some tg) (hv : verbalizer k = some vg)
    (hr : Runs p tokenOrders tg vg) :
    Piped p tokenOrders (taggerU k.removeErhua) (.comp (verbalizerU k.removeErhua) (postprocessor k)) := by
  rw [tagger_eq] at ht
  rw [verbalizer_eq] at hv
  cases ht; cases hv
  exact ⟨hr, tagger_ok _, verbalizer_ok k, ⟨_, _, (tokens_tagger k).loose⟩, repeatFree, oneTok k⟩

end Verif.ZhTn
