import Verif.Wfst.Clause
import Verif.JaTn.Utter
import Verif.JaTn.PlainProps

/-
The verbalizer of the Japanese normalizer reads one token at a time, so that the lemmas on independent parts of a
text apply.
-/

namespace Verif.JaTn

open Verif.Wfst
open Verif.NBest (Pipeline normalize)
open Verif.Token.Spec (IsName)

theorem oneTok_value {n : Str} {g : G} (hn : IsName n) (hg : Bare g) : OneTok (valueRule n g).verbalizer :=
  oneTok_delete hn (keeps_raw rfl hg rfl)

theorem oneTok (k : Config) : OneTok (.comp (verbalizerU k) (postprocessor k)) := by
  refine oneTok_comp (oneTok_union (verbalizerUnion_eq k) ?_)
  intro s hs _
  have bare : ∀ {g : Bool → G}, (∀ h, (avoids '"' (g h) && avoids '\\' (g h)) = true) → Bare (g k.fullToHalf) :=
    fun h => bare_of (h _)
  rcases mem_rules hs with hs | rfl
  · simp only [rules, List.mem_append, List.mem_cons, List.not_mem_nil, or_false, Bool.false_eq_true,
      if_false] at hs
    rcases hs with rfl | rfl | rfl | rfl | rfl | rfl | rfl | rfl | rfl | rfl | rfl
    · exact oneTok_value (by decide) (bare (by decide +kernel))
    · refine oneTok_delete (by decide) ?_
      keeps
    · refine oneTok_delete (by decide) ?_
      keeps
      exacts [bare_year _, bare_month _, bare_day _]
    · refine oneTok_delete (by decide) ?_
      keeps
      all_goals exact bare_number _
    · exact oneTok_value (by decide) (bare (by decide +kernel))
    · exact oneTok_value (by decide) (bare (by decide +kernel))
    · refine oneTok_delete (by decide) ?_
      keeps
      · exact bare_number _
      · exact bare (by decide +kernel)
    · refine oneTok_delete (by decide) ?_
      keeps
      exacts [bare_team _, bare_score _]
    · refine oneTok_delete (by decide) ?_
      keeps
      exacts [bare_noon _, bare_hour _, bare_minute _, bare_second _, bare_noon _, bare_hour _]
    · exact oneTok_value (by decide) (bare (g := fun h => pre h (.tab whitelist)) (by decide +kernel))
    · exact oneTok_value (by decide) (bare (g := fun h => pre h toG) (by decide +kernel))
  · exact oneTok_value (by decide) (bare (g := fun h => pre h (.tab transliterationTable)) (by decide +kernel))

theorem piped {k : Config} {p : Pipeline W} {tg vg : G} (ht : tagger k = some tg) (hv : verbalizer k = some vg)
    (hr : Runs p tokenOrders tg vg) : Piped p tokenOrders (taggerU k) (.comp (verbalizerU k) (postprocessor k)) := by
  rw [tagger_eq] at ht
  rw [verbalizer_eq] at hv
  cases ht; cases hv
  exact ⟨hr, tagger_ok k, verbalizer_ok k, ⟨_, _, (tokens_tagger k).loose⟩, repeatFree, oneTok k⟩

end Verif.JaTn
