import Verif.Wfst.Deploy
import Verif.Token.Props
import Verif.ZhItn.Tokens

/-
Every token the taggers of the Chinese inverse normalizer write is read by its verbalizer.
-/

namespace Verif.ZhItn

open Verif.Wfst
open Verif.Token.Spec (esc write writeAll Tok Writable)

/-- The verbalizer of the union reads what a rule's verbalizer reads. -/
theorem takes_rule (c : Config) {s : RuleSpec} (hs : s ∈ rules c) (hv : s.verbalize = true) (x : Str)
    (h : Takes s.rule.verbalizer x) : Takes (verbalizerU c) x :=
  takes_union (verbalizerUnion_eq c) hs hv x h

theorem utters_cardinal (c : Config) : Utters tokenOrders (verbalizerU c) (cardinalRule c).tagger :=
  utters_value (by decide) (by decide +kernel)
    (takes_rule c (s := ⟨cardinalRule c, some 106000, true⟩) (by simp [rules]) rfl)

theorem utters_math (c : Config) : Utters tokenOrders (verbalizerU c) (mathRule c.million).tagger :=
  utters_value (by decide) (by decide +kernel)
    (takes_rule c (s := ⟨mathRule c.million, some 110000, true⟩) (by simp [rules]) rfl)

theorem utters_plate (c : Config) : Utters tokenOrders (verbalizerU c) plateRule.tagger :=
  utters_value (by decide) (by decide +kernel)
    (takes_rule c (s := ⟨plateRule, some 100000, true⟩) (by simp [rules]) rfl)

theorem utters_train (c : Config) : Utters tokenOrders (verbalizerU c) trainRule.tagger :=
  utters_value (by decide) (by decide +kernel)
    (takes_rule c (s := ⟨trainRule, some 100000, true⟩) (by simp [rules]) rfl)

theorem utters_whitelist (c : Config) : Utters tokenOrders (verbalizerU c) whitelistRule.tagger :=
  utters_value (by decide) (by decide +kernel)
    (takes_rule c (s := ⟨whitelistRule, some 101000, true⟩) (by simp [rules]) rfl)

theorem utters_charRule (c : Config) : Utters tokenOrders (verbalizerU c) charRule.tagger :=
  utters_char (by decide +kernel)
    (takes_rule c (s := ⟨charRule, some 10000000, true⟩) (by simp [rules]) rfl)

theorem utters_fraction (c : Config) : Utters tokenOrders (verbalizerU c) (fractionRule c.million).tagger := by
  refine (utters_token (v := (fractionRule c.million).verbalizer) ?_).mono
    (takes_rule c (s := ⟨fractionRule c.million, some 105000, true⟩) (by simp [rules]) rfl)
  intro m hm
  fields_of hm
  · rename_i s hs ts n hn tn d hd td
    refine ⟨(t!"sign", s), [(t!"denominator", d), (t!"numerator", n)], by simp [fieldT], ?_⟩
    sorted_by [t!"sign", t!"numerator", t!"denominator"], [t!"sign", t!"denominator", t!"numerator"],
      (t!"sign", s), [(t!"numerator", n), (t!"denominator", d)]
    simpa using takes_add (takes_add (takes_add (takes_field hs (takes_some ts)) (takes_spaceField hn tn))
      (takes_insert (s := t!"/"))) (takes_spaceField hd td)
  · rename_i s hs ts n hn tn d hd td
    refine ⟨(t!"sign", s), [(t!"denominator", d), (t!"numerator", n)], by simp [fieldT], ?_⟩
    sorted_by [t!"sign", t!"numerator", t!"denominator"], [t!"sign", t!"denominator", t!"numerator"],
      (t!"sign", s), [(t!"numerator", n), (t!"denominator", d)]
    simpa using takes_add (takes_add (takes_add (takes_field hs ts) (takes_spaceField hn tn))
      (takes_insert (s := t!"/"))) (takes_spaceField hd td)

theorem utters_date (c : Config) : Utters tokenOrders (verbalizerU c) dateRule.tagger := by
  refine (utters_token (v := dateRule.verbalizer) ?_).mono
    (takes_rule c (s := ⟨dateRule, some 102000, true⟩) (by simp [rules]) rfl)
  intro m hm
  fields_of hm
  · rename_i m d y hm tm hd td hy ty
    refine ⟨(t!"year", y), [(t!"month", m), (t!"day", d)], by simp [fieldT], ?_⟩
    sorted_by [t!"year", t!"month", t!"day", t!"preserve_order"], [t!"year", t!"month", t!"day"],
      (t!"year", y), [(t!"month", m), (t!"day", d)]
    refine takes_left ?_
    simpa using takes_add (takes_add (takes_some (takes_add (takes_add (takes_field hy ty)
      (takes_del (s := t!" "))) (takes_insert (s := t!"/")))) (takes_field hm tm))
      (takes_some (takes_add (takes_insert (s := t!"/")) (takes_spaceField hd td)))
  · rename_i m y hm tm hy ty
    refine ⟨(t!"year", y), [(t!"month", m)], by simp [fieldT], ?_⟩
    sorted_by [t!"year", t!"month", t!"day", t!"preserve_order"], [t!"year", t!"month"],
      (t!"year", y), [(t!"month", m)]
    refine takes_left ?_
    simpa using takes_add (takes_add (takes_some (takes_add (takes_add (takes_field hy ty)
      (takes_del (s := t!" "))) (takes_insert (s := t!"/")))) (takes_field hm tm))
      (takes_none (a := Wfst.insert t!"/" + verbalizeField t!"day" (some (.tab dateDD)) true))
  · rename_i m hm tm d hd td
    refine ⟨(t!"month", m), [(t!"day", d)], by simp [fieldT], ?_⟩
    sorted_by [t!"year", t!"month", t!"day", t!"preserve_order"], [t!"month", t!"day"],
      (t!"month", m), [(t!"day", d)]
    refine takes_left ?_
    simpa using takes_add (takes_add (takes_none (a := verbalizeField t!"year" (some year) + del t!" " +
      insert t!"/")) (takes_field hm tm))
      (takes_some (takes_add (takes_insert (s := t!"/")) (takes_spaceField hd td)))
  · rename_i y hy ty
    refine ⟨(t!"year", y), [(t!"preserve_order", t!"true")], by simp [fieldT, esc], ?_⟩
    refine good_marked (writable_of [t!"year", t!"preserve_order"] rfl (by decide))
      (by simp [*]; decide) (by simp) ?_
    refine takes_right ?_
    have := takes_add (takes_field (n := t!"year") hy ty) (takes_del (s := t!" preserve_order: \"true\""))
    simpa [fieldT, esc] using this

theorem utters_measure (c : Config) : Utters tokenOrders (verbalizerU c) (measureRule c).tagger := by
  refine (utters_token (v := (measureRule c).verbalizer) ?_).mono
    (takes_rule c (s := ⟨measureRule c, some 105000, true⟩) (by simp [rules]) rfl)
  intro m hm
  fields_of hm
  · rename_i u hu tu
    refine ⟨(t!"value", u), [], by simp, Good.mono (v := deleteTokens t!"measure"
      (verbalizeField t!"value" (some (measureValue c)))) ?_ fun _ => takes_left⟩
    sorted_by [t!"numerator", t!"denominator", t!"value", t!"units"], [t!"value"], (t!"value", u), []
    simpa using takes_field hu tu
  · rename_i n d hn tn hd td
    refine ⟨(t!"denominator", d), [(t!"numerator", n)], by simp [fieldT],
      Good.mono (v := deleteTokens t!"measure" (verbalizeField t!"numerator" (some (measure c)) +
        Wfst.insert t!"/" + verbalizeField t!"denominator" (some measureDenominator) true)) ?_
      fun _ => takes_right⟩
    sorted_by [t!"numerator", t!"denominator", t!"value", t!"units"], [t!"denominator", t!"numerator"],
      (t!"numerator", n), [(t!"denominator", d)]
    simpa using takes_add (takes_add (takes_field hn tn) (takes_insert (s := t!"/"))) (takes_spaceField hd td)

theorem utters_money (c : Config) : Utters tokenOrders (verbalizerU c) (moneyRule c).tagger := by
  refine (utters_token (v := (moneyRule c).verbalizer) ?_).mono
    (takes_rule c (s := ⟨moneyRule c, some 104000, true⟩) (by simp [rules]) rfl)
  intro m hm
  fields_of hm
  rename_i d hd td k u hk tk hu tu
  refine ⟨(t!"value", u), [(t!"currency", k), (t!"decimal", d)], by simp [fieldT], ?_⟩
  sorted_by [t!"currency", t!"value", t!"decimal", t!"quantity"], [t!"value", t!"currency", t!"decimal"],
    (t!"currency", k), [(t!"value", u), (t!"decimal", d)]
  simpa using takes_add (takes_add (takes_field hk tk) (takes_spaceField hu tu)) (takes_spaceField hd td)

theorem utters_time (c : Config) : Utters tokenOrders (verbalizerU c) timeRule.tagger := by
  refine (utters_token (v := timeRule.verbalizer) ?_).mono
    (takes_rule c (s := ⟨timeRule, some 105000, true⟩) (by simp [rules]) rfl)
  intro m hm
  fields_of hm
  · rename_i h m hh th hm tm
    refine ⟨(t!"hour", h), [(t!"minute", m)], by simp [fieldT], ?_⟩
    sorted_by [t!"hour", t!"minute", t!"second", t!"noon", t!"zone"], [t!"hour", t!"minute"],
      (t!"hour", h), [(t!"minute", m)]
    simpa using takes_add (takes_add (takes_add (takes_add (takes_field hh th) (takes_insert (s := t!":")))
      (takes_spaceField (g := minuteG) hm (takes_left tm)))
      (takes_none (a := Wfst.insert t!":" + verbalizeField t!"second" (some (.tab second)) true)))
      (takes_none (a := verbalizeField t!"noon" (some (.tab noon)) true))
  · rename_i h m hh th n hm tm hn tn
    refine ⟨(t!"noon", n), [(t!"hour", h), (t!"minute", m)], by simp [fieldT], ?_⟩
    sorted_by [t!"hour", t!"minute", t!"second", t!"noon", t!"zone"], [t!"noon", t!"hour", t!"minute"],
      (t!"hour", h), [(t!"minute", m), (t!"noon", n)]
    simpa using takes_add (takes_add (takes_add (takes_add (takes_field hh th) (takes_insert (s := t!":")))
      (takes_spaceField (g := minuteG) hm (takes_left tm)))
      (takes_none (a := Wfst.insert t!":" + verbalizeField t!"second" (some (.tab second)) true)))
      (takes_some (takes_spaceField hn tn))
  · rename_i s h m hs ts hh th hm tm
    refine ⟨(t!"hour", h), [(t!"minute", m), (t!"second", s)], by simp [fieldT], ?_⟩
    sorted_by [t!"hour", t!"minute", t!"second", t!"noon", t!"zone"], [t!"hour", t!"minute", t!"second"],
      (t!"hour", h), [(t!"minute", m), (t!"second", s)]
    simpa using takes_add (takes_add (takes_add (takes_add (takes_field hh th) (takes_insert (s := t!":")))
      (takes_spaceField (g := minuteG) hm (takes_left tm)))
      (takes_some (takes_add (takes_insert (s := t!":")) (takes_spaceField hs ts))))
      (takes_none (a := verbalizeField t!"noon" (some (.tab noon)) true))
  · rename_i s h m hs ts hh th n hm tm hn tn
    refine ⟨(t!"noon", n), [(t!"hour", h), (t!"minute", m), (t!"second", s)], by simp [fieldT], ?_⟩
    sorted_by [t!"hour", t!"minute", t!"second", t!"noon", t!"zone"], [t!"noon", t!"hour", t!"minute", t!"second"],
      (t!"hour", h), [(t!"minute", m), (t!"second", s), (t!"noon", n)]
    simpa using takes_add (takes_add (takes_add (takes_add (takes_field hh th) (takes_insert (s := t!":")))
      (takes_spaceField (g := minuteG) hm (takes_left tm)))
      (takes_some (takes_add (takes_insert (s := t!":")) (takes_spaceField hs ts))))
      (takes_some (takes_spaceField hn tn))
  · rename_i h m n hh th hm tm hn tn
    refine ⟨(t!"noon", n), [(t!"hour", h), (t!"minute", m)], by simp [fieldT], ?_⟩
    sorted_by [t!"hour", t!"minute", t!"second", t!"noon", t!"zone"], [t!"noon", t!"hour", t!"minute"],
      (t!"hour", h), [(t!"minute", m), (t!"noon", n)]
    simpa using takes_add (takes_add (takes_add (takes_add (takes_field hh th) (takes_insert (s := t!":")))
      (takes_spaceField (g := minuteG) hm (takes_right tm)))
      (takes_none (a := Wfst.insert t!":" + verbalizeField t!"second" (some (.tab second)) true)))
      (takes_some (takes_spaceField hn tn))
  · rename_i s h m hs ts n hh th hm tm hn tn
    refine ⟨(t!"noon", n), [(t!"hour", h), (t!"minute", m), (t!"second", s)], by simp [fieldT], ?_⟩
    sorted_by [t!"hour", t!"minute", t!"second", t!"noon", t!"zone"], [t!"noon", t!"hour", t!"minute", t!"second"],
      (t!"hour", h), [(t!"minute", m), (t!"second", s), (t!"noon", n)]
    simpa using takes_add (takes_add (takes_add (takes_add (takes_field hh th) (takes_insert (s := t!":")))
      (takes_spaceField (g := minuteG) hm (takes_right tm)))
      (takes_some (takes_add (takes_insert (s := t!":")) (takes_spaceField hs ts))))
      (takes_some (takes_spaceField hn tn))

theorem utters_tagger (c : Config) : Utters tokenOrders (verbalizerU c) (taggerU c) := by
  refine utters_union (taggerUnion_eq c) ?_
  intro s hs hk
  simp only [rules, List.mem_cons, List.not_mem_nil, or_false] at hs
  rcases hs with rfl | rfl | rfl | rfl | rfl | rfl | rfl | rfl | rfl | rfl | rfl
  · exact utters_date c
  · exact utters_whitelist c
  · exact utters_fraction c
  · exact utters_measure c
  · exact utters_money c
  · exact utters_time c
  · exact utters_cardinal c
  · exact utters_math c
  · exact utters_plate c
  · exact utters_train c
  · exact utters_charRule c

theorem repeatFree : Verif.Token.RepeatFree tokenOrders := Verif.Token.builtin_repeatFree _ (by decide)

theorem nul_verbalizerU (c : Config) : (mustC ['\x00'] (verbalizerU c)).2 = true := by
  obtain ⟨b0, b1, b2, b3⟩ := c
  revert b0 b1 b2 b3
  decide +kernel

theorem nul_verbalizer (c : Config) :
    (mustC ['\x00'] (.star (.comp (verbalizerU c) (postprocessor c.removeInterjections)))).2 = true := by
  have h : ∀ b, (mustC ['\x00'] (postprocessor b)).2 = true := by decide +kernel
  simp only [mustC, nul_verbalizerU, h]
  simp

theorem utters (c : Config) : Utters tokenOrders
    (.comp (verbalizerU c) (postprocessor c.removeInterjections)) (taggerU c) := by
  refine (utters_tagger c).post repeatFree (nul_verbalizerU c) ?_
  intro y hy
  exact ⟨_, _, (maps_postprocessor _ y _ _).2 ⟨hy, rfl, rfl⟩⟩

end Verif.ZhItn
