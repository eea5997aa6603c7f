import Verif.Wfst.Pipeline
import Verif.Wfst.Maps
import Verif.ZhItn.Model

/-
The taggers of the Chinese inverse normalizer write tokens that quote the input without gaps, and its
grammars read every text character by character.
-/

namespace Verif.ZhItn

open Verif.Wfst
open Verif.Token.Spec (write writeAll Tok Writable)

/-- No characters are left out between the fields of a token. -/
def sepChar (_ : Char) : Bool := false

theorem tokens_cardinal (c : Config) : Tokens sepChar (cardinalRule c).tagger :=
  Flat.tokens (by unfold cardinalRule valueRule; flat) (by decide +kernel)

theorem tokens_math (b : Bool) : Tokens sepChar (mathRule b).tagger :=
  Flat.tokens (by unfold mathRule valueRule; flat) (by decide +kernel)

theorem tokens_plate : Tokens sepChar plateRule.tagger :=
  Flat.tokens (by unfold plateRule valueRule; flat) (by decide +kernel)

theorem tokens_train : Tokens sepChar trainRule.tagger :=
  Flat.tokens (by unfold trainRule valueRule; flat) (by decide +kernel)

theorem tokens_whitelist : Tokens sepChar whitelistRule.tagger :=
  Flat.tokens (by unfold whitelistRule valueRule; flat) (by decide +kernel)

theorem tokens_char : Tokens sepChar charRule.tagger :=
  Flat.tokens (by unfold charRule; flat) (by decide +kernel)

theorem tokens_date : Tokens sepChar dateRule.tagger :=
  Flat.tokens (by unfold dateRule; flat) (by decide +kernel)

theorem tokens_fraction (b : Bool) : Tokens sepChar (fractionRule b).tagger :=
  Flat.tokens (by unfold fractionRule; flat) (by decide +kernel)

theorem tokens_measure (c : Config) : Tokens sepChar (measureRule c).tagger :=
  Flat.tokens (by unfold measureRule; flat) (by decide +kernel)

theorem tokens_money (c : Config) : Tokens sepChar (moneyRule c).tagger :=
  Flat.tokens (by unfold moneyRule; flat) (by decide +kernel)

theorem tokens_time : Tokens sepChar timeRule.tagger :=
  Flat.tokens (by unfold timeRule; flat) (by decide +kernel)

/-- The union of the taggers. -/
def taggerU (c : Config) : G := (taggerUnion (rules c)).getD (.lit [])
/-- The union of the verbalizers. -/
def verbalizerU (c : Config) : G := (verbalizerUnion (rules c)).getD (.lit [])

theorem taggerUnion_eq (c : Config) : taggerUnion (rules c) = some (taggerU c) := rfl
theorem verbalizerUnion_eq (c : Config) : verbalizerUnion (rules c) = some (verbalizerU c) := rfl

theorem tagger_eq (c : Config) : tagger c = some (stream (taggerU c)) := rfl
theorem verbalizer_eq (c : Config) :
    verbalizer c = some (.star (.comp (verbalizerU c) (postprocessor c.removeInterjections))) := rfl

theorem tokens_tagger (c : Config) : Tokens sepChar (taggerU c) := by
  refine tokens_union (taggerUnion_eq c) ?_
  intro s hs hk
  simp only [rules, List.mem_cons, List.not_mem_nil, or_false] at hs
  rcases hs with rfl | rfl | rfl | rfl | rfl | rfl | rfl | rfl | rfl | rfl | rfl
  · exact tokens_date
  · exact tokens_whitelist
  · exact tokens_fraction _
  · exact tokens_measure _
  · exact tokens_money _
  · exact tokens_time
  · exact tokens_cardinal _
  · exact tokens_math _
  · exact tokens_plate
  · exact tokens_train
  · exact tokens_char

theorem tagger_ok (c : Config) : (stream (taggerU c)).ok = true := by
  obtain ⟨b0, b1, b2, b3⟩ := c
  revert b0 b1 b2 b3
  decide +kernel

theorem verbalizerU_ok (c : Config) : (verbalizerU c).ok = true ∧ (verbalizerU c).nullable = false := by
  obtain ⟨b0, b1, b2, b3⟩ := c
  revert b0 b1 b2 b3
  decide +kernel

theorem postprocessor_ok (b : Bool) : (postprocessor b).ok = true := by cases b <;> rfl

theorem verbalizer_ok (c : Config) :
    (G.star (.comp (verbalizerU c) (postprocessor c.removeInterjections))).ok = true := by
  obtain ⟨h1, h2⟩ := verbalizerU_ok c
  simp only [G.ok, G.nullable, h1, h2, postprocessor_ok, Bool.false_and]; rfl

/-- The interjections. -/
def isInterjection (c : Char) : Bool := c == '呃' || c == '啊'

theorem den_interjection (u v w) : (delete (.tab blacklist)).den u v w ↔
    ∃ c, isInterjection c = true ∧ u = [c] ∧ v = [] ∧ w = 0 := by
  rw [den_delete, den_tab]
  constructor
  · rintro ⟨rfl, h, rfl⟩
    simp only [blacklist, List.mem_cons, Prod.mk.injEq, List.not_mem_nil, or_false] at h
    rcases h with ⟨rfl, _⟩ | ⟨rfl, _⟩
    · exact ⟨_, by decide, rfl, rfl, rfl⟩
    · exact ⟨_, by decide, rfl, rfl, rfl⟩
  · rintro ⟨c, hc, rfl, rfl, rfl⟩
    simp only [isInterjection, Bool.or_eq_true, beq_iff_eq] at hc
    rcases hc with rfl | rfl <;> exact ⟨rfl, by decide, rfl⟩

theorem maps_postprocessor (b : Bool) :
    Maps (postprocessor b) (fun c => if b && isInterjection c then [] else [c]) := by
  cases b
  · simpa [postprocessor, identityRule] using maps_id
  · have := maps_id.comp (maps_delete den_interjection) vtext_single
    simpa [postprocessor, identityRule] using this

theorem fallback (c : Config) : Fallback tokenOrders (taggerU c)
    (.comp (verbalizerU c) (postprocessor c.removeInterjections)) where
  noOrder := by decide +kernel
  tag d hd := ⟨_, tag_union (taggerUnion_eq c) (s := ⟨charRule, some 10000000, true⟩)
    (by simp [rules]) rfl (char_tagger hd)⟩
  verb d sp hd hsp := by
    refine ⟨_, _, [d], 0, 0, verb_union (verbalizerUnion_eq c) (s := ⟨charRule, some 10000000, true⟩)
      (by simp [rules]) rfl (char_verbalizer hd hsp), (maps_postprocessor _ [d] _ _).2 ⟨?_, rfl, rfl⟩, rfl⟩
    intro e he
    rw [List.mem_singleton.1 he]; exact hd

end Verif.ZhItn
