import Verif.Wfst.Pipeline
import Verif.ZhTn.Post

/-
The taggers of the Chinese normalizer write tokens that quote the input, and its grammars read every
text character by character.
-/

namespace Verif.ZhTn

open Verif.Wfst
open Verif.Token.Spec (write writeAll Tok Writable)

/-- The characters that are left out between the fields of a token. -/
def sepChar (c : Char) : Bool := c ∈ t!" /-.:："

theorem tokens_cardinal : Tokens sepChar cardinalRule.tagger :=
  Flat.tokens (by unfold cardinalRule; flat) (by decide +kernel)

theorem tokens_char : Tokens sepChar charRule.tagger :=
  Flat.tokens (by unfold charRule; flat) (by decide +kernel)

theorem tokens_range : Tokens sepChar rangeRule.tagger :=
  Flat.tokens (by unfold rangeRule; flat) (by decide +kernel)

theorem tokens_date : Tokens sepChar dateRule.tagger := by
  have h : Tokens sepChar (addTokens t!"date" dateBody) :=
    Flat.tokens (by unfold dateBody dateSign; flat) (by decide +kernel)
  exact TokensBut.add_ques h (TokensBut.add tokens_range h)

theorem tokens_fraction : Tokens sepChar fractionRule.tagger :=
  Flat.tokens (by unfold fractionRule rmspace; flat) (by decide +kernel)

theorem tokens_math : Tokens sepChar mathRule.tagger :=
  Flat.tokens (by unfold mathRule; flat) (by decide +kernel)

theorem tokens_measure : Tokens sepChar measureRule.tagger :=
  Flat.tokens (by unfold measureRule rmspace; flat) (by decide +kernel)

theorem tokens_money : Tokens sepChar moneyRule.tagger :=
  Flat.tokens (by unfold moneyRule; flat) (by decide +kernel)

theorem tokens_sport : Tokens sepChar sportRule.tagger :=
  Flat.tokens (by unfold sportRule; flat) (by decide +kernel)

theorem tokens_time : Tokens sepChar timeRule.tagger := by
  have h : Tokens sepChar (addTokens t!"time" timeBody) :=
    Flat.tokens (by unfold timeBody colon; flat) (by decide +kernel)
  exact TokensBut.add_ques h (TokensBut.add tokens_range h)

theorem tokens_whitelist (b : Bool) : Tokens sepChar (whitelistRule b).tagger :=
  Flat.tokens (by unfold whitelistRule; flat) (by decide +kernel)

/-- The union of the taggers. -/
def taggerU (b : Bool) : G := (taggerUnion (rules { removeErhua := b })).getD (.lit [])
/-- The union of the verbalizers. -/
def verbalizerU (b : Bool) : G := (verbalizerUnion (rules { removeErhua := b })).getD (.lit [])

theorem taggerUnion_eq (c : Config) : taggerUnion (rules c) = some (taggerU c.removeErhua) := rfl
theorem verbalizerUnion_eq (c : Config) : verbalizerUnion (rules c) = some (verbalizerU c.removeErhua) := rfl

theorem tagger_eq (c : Config) : tagger c = some (stream (taggerU c.removeErhua)) := rfl
theorem verbalizer_eq (c : Config) :
    verbalizer c = some (.star (.comp (verbalizerU c.removeErhua) (postprocessor c))) := rfl

theorem tokens_tagger (c : Config) : Tokens sepChar (taggerU c.removeErhua) := by
  refine tokens_union (taggerUnion_eq c) ?_
  intro s hs hk
  simp only [rules, List.mem_cons, List.not_mem_nil, or_false] at hs
  rcases hs with rfl | rfl | rfl | rfl | rfl | rfl | rfl | rfl | rfl | rfl | rfl
  · exact tokens_date
  · exact tokens_whitelist _
  · exact tokens_sport
  · exact tokens_fraction
  · exact tokens_measure
  · exact tokens_money
  · exact tokens_time
  · exact tokens_cardinal
  · exact tokens_math
  · exact tokens_char
  · cases hk

theorem tagger_ok : ∀ b, (stream (taggerU b)).ok = true := by decide +kernel

theorem verbalizerU_ok : ∀ b, (verbalizerU b).ok = true ∧ (verbalizerU b).nullable = false := by
  decide +kernel

theorem postprocessor_ok (c : Config) : (postprocessor c).ok = true := by
  unfold postprocessor
  exact ok_whenDo (ok_whenDo (ok_whenDo (ok_whenDo (ok_whenDo rfl rfl) rfl) rfl) rfl) rfl

theorem verbalizer_ok (c : Config) :
    (G.star (.comp (verbalizerU c.removeErhua) (postprocessor c))).ok = true := by
  obtain ⟨h1, h2⟩ := verbalizerU_ok c.removeErhua
  simp only [G.ok, G.nullable, h1, h2, postprocessor_ok, Bool.false_and]; rfl

theorem fallback (c : Config) : Fallback tokenOrders (taggerU c.removeErhua)
    (.comp (verbalizerU c.removeErhua) (postprocessor c)) where
  noOrder := by decide +kernel
  tag d hd := ⟨_, tag_union (taggerUnion_eq c) (s := ⟨charRule, some 10000000, true⟩)
    (by simp [rules]) rfl (char_tagger hd)⟩
  verb d sp hd hsp := by
    refine ⟨_, _, [d], 0, 0, verb_union (verbalizerUnion_eq c) (s := ⟨charRule, some 10000000, true⟩)
      (by simp [rules]) rfl (char_verbalizer hd hsp), (maps_postprocessor c [d] _ _).2 ⟨?_, rfl, rfl⟩, rfl⟩
    intro e he
    rw [List.mem_singleton.1 he]; exact hd

end Verif.ZhTn
