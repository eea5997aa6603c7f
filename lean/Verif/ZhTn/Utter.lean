import Verif.Wfst.Utter
import Verif.Wfst.Deploy
import Verif.Token.Props
import Verif.ZhTn.Tokens

/-
Every token the taggers of the Chinese normalizer write is read by its verbalizer.
-/

namespace Verif.ZhTn

open Verif.Wfst
open Verif.Token.Spec (esc write writeAll Tok Writable)

/-- The verbalizer of the union reads what a rule's verbalizer reads. -/
theorem takes_rule (c : Config) {s : RuleSpec} (hs : s ∈ rules c) (hv : s.verbalize = true) (x : Str)
    (h : Takes s.rule.verbalizer x) : Takes (verbalizerU c.removeErhua) x :=
  takes_union (verbalizerUnion_eq c) hs hv x h

theorem bare_number : Bare number := bare_of (by decide +kernel)

theorem utters_cardinal (c : Config) : Utters tokenOrders (verbalizerU c.removeErhua) cardinalRule.tagger :=
  utters_rawValue (by decide) (by decide +kernel) (bare_of (by decide +kernel))
    (takes_rule c (s := ⟨cardinalRule, some 106000, true⟩) (by simp [rules]) rfl)

theorem utters_range (c : Config) : Utters tokenOrders (verbalizerU c.removeErhua) rangeRule.tagger :=
  utters_rawValue (by decide) (by decide +kernel) (bare_of (by decide +kernel))
    (takes_rule c (s := ⟨rangeRule, none, true⟩) (by simp [rules]) rfl)

theorem utters_math (c : Config) : Utters tokenOrders (verbalizerU c.removeErhua) mathRule.tagger :=
  utters_rawValue (by decide) (by decide +kernel) (bare_of (by decide +kernel))
    (takes_rule c (s := ⟨mathRule, some 9000000, true⟩) (by simp [rules]) rfl)

theorem utters_charRule (c : Config) : Utters tokenOrders (verbalizerU c.removeErhua) charRule.tagger :=
  utters_char (by decide +kernel)
    (takes_rule c (s := ⟨charRule, some 10000000, true⟩) (by simp [rules]) rfl)

theorem utters_fraction (c : Config) : Utters tokenOrders (verbalizerU c.removeErhua) fractionRule.tagger := by
  refine (utters_token (v := fractionRule.verbalizer) ?_).mono
    (takes_rule c (s := ⟨fractionRule, some 105000, true⟩) (by simp [rules]) rfl)
  intro m hm
  unfold rmspace at hm
  fields_of hm
  rename_i v hv tv u hu tu
  refine ⟨(t!"numerator", u), [(t!"denominator", v)], by simp [fieldT], ?_⟩
  refine good_sorted (d := [t!"denominator", t!"numerator"]) (f := (t!"denominator", v)) (gs := [(t!"numerator", u)])
    (writable_of [t!"numerator", t!"denominator"] rfl (by decide)) (by simp [hu, hv]) (by decide +kernel)
    (by simp) (by simp) (by simp [Verif.Token.Spec.canonical]) ?_
  have := takes_add (takes_add (takes_raw (pre := t!"denominator: \"") (post := t!"\" ") bare_number tv rfl)
    (takes_insert (s := t!"分之"))) (takes_raw (pre := t!"numerator: \"") (post := t!"\"") bare_number tu rfl)
  simpa [fieldT] using this

theorem bare_noon : Bare (.tab noon) := bare_of (by decide +kernel)
theorem bare_hour : Bare (.tab hour) := bare_of (by decide +kernel)
theorem bare_minute : Bare (.tab minute) := bare_of (by decide +kernel)
theorem bare_second : Bare (.tab second) := bare_of (by decide +kernel)

theorem utters_time (c : Config) : Utters tokenOrders (verbalizerU c.removeErhua) timeRule.tagger := by
  have h : Utters tokenOrders (verbalizerU c.removeErhua) (addTokens t!"time" timeBody) := by
    refine (utters_token (v := timeRule.verbalizer) ?_).mono
      (takes_rule c (s := ⟨timeRule, some 105000, true⟩) (by simp [rules]) rfl)
    intro m hm
    unfold timeBody colon at hm
    fields_of hm
    · rename_i m hm tm h hh th
      refine ⟨(t!"hour", h), [(t!"minute", m)], by simp [fieldT], ?_⟩
      sorted_by [t!"noon", t!"hour", t!"minute", t!"second"], [t!"hour", t!"minute"], (t!"hour", h),
        [(t!"minute", m)]
      have := takes_add (takes_add (takes_add (takes_none (a := del t!"noon: \"" + .tab noon + del t!"\" "))
        (takes_raw (pre := t!"hour: \"") (post := t!"\" ") bare_hour th rfl))
        (takes_raw (pre := t!"minute: \"") (post := t!"\"") bare_minute tm rfl))
        (takes_none (a := del t!" second: \"" + .tab second + del t!"\""))
      simpa [fieldT] using this
    · rename_i m hm tm s hs ts h hh th
      refine ⟨(t!"hour", h), [(t!"minute", m), (t!"second", s)], by simp [fieldT], ?_⟩
      sorted_by [t!"noon", t!"hour", t!"minute", t!"second"], [t!"hour", t!"minute", t!"second"],
        (t!"hour", h), [(t!"minute", m), (t!"second", s)]
      have := takes_add (takes_add (takes_add (takes_none (a := del t!"noon: \"" + .tab noon + del t!"\" "))
        (takes_raw (pre := t!"hour: \"") (post := t!"\" ") bare_hour th rfl))
        (takes_raw (pre := t!"minute: \"") (post := t!"\"") bare_minute tm rfl))
        (takes_some (takes_raw (pre := t!" second: \"") (post := t!"\"") bare_second ts rfl))
      simpa [fieldT] using this
    · rename_i n hn tn m hm tm h hh th
      refine ⟨(t!"hour", h), [(t!"minute", m), (t!"noon", n)], by simp [fieldT], ?_⟩
      sorted_by [t!"noon", t!"hour", t!"minute", t!"second"], [t!"hour", t!"minute", t!"noon"],
        (t!"noon", n), [(t!"hour", h), (t!"minute", m)]
      have := takes_add (takes_add (takes_add
        (takes_some (takes_raw (pre := t!"noon: \"") (post := t!"\" ") bare_noon tn rfl))
        (takes_raw (pre := t!"hour: \"") (post := t!"\" ") bare_hour th rfl))
        (takes_raw (pre := t!"minute: \"") (post := t!"\"") bare_minute tm rfl))
        (takes_none (a := del t!" second: \"" + .tab second + del t!"\""))
      simpa [fieldT] using this
    · rename_i n hn tn m hm tm s hs ts h hh th
      refine ⟨(t!"hour", h), [(t!"minute", m), (t!"second", s), (t!"noon", n)], by simp [fieldT], ?_⟩
      sorted_by [t!"noon", t!"hour", t!"minute", t!"second"],
        [t!"hour", t!"minute", t!"second", t!"noon"],
        (t!"noon", n), [(t!"hour", h), (t!"minute", m), (t!"second", s)]
      have := takes_add (takes_add (takes_add
        (takes_some (takes_raw (pre := t!"noon: \"") (post := t!"\" ") bare_noon tn rfl))
        (takes_raw (pre := t!"hour: \"") (post := t!"\" ") bare_hour th rfl))
        (takes_raw (pre := t!"minute: \"") (post := t!"\"") bare_minute tm rfl))
        (takes_some (takes_raw (pre := t!" second: \"") (post := t!"\"") bare_second ts rfl))
      simpa [fieldT] using this
  exact h.add_ques ((utters_range c).add h)

theorem bare_year : Bare year := bare_of (by decide +kernel)
theorem bare_month : Bare month := bare_of (by decide +kernel)
theorem bare_day : Bare day := bare_of (by decide +kernel)

theorem utters_date (c : Config) : Utters tokenOrders (verbalizerU c.removeErhua) dateRule.tagger := by
  have h : Utters tokenOrders (verbalizerU c.removeErhua) (addTokens t!"date" dateBody) := by
    refine (utters_token (v := dateRule.verbalizer) ?_).mono
      (takes_rule c (s := ⟨dateRule, some 102000, true⟩) (by simp [rules]) rfl)
    intro m hm
    have full {y m d : Str} (ty : Takes year y) (tm : Takes month m) (td : Takes day d) :
        Takes ((del t!"year: \"" + year + del t!"\" ").ques + (del t!"month: \"" + month + del t!"\"") +
          (del t!" day: \"" + day + del t!"\"").ques) (fieldT (t!"year", y) ++
          [(t!"month", m), (t!"day", d)].flatMap fun f => ' ' :: fieldT f) := by
      have := takes_add (takes_add
        (takes_some (takes_raw (pre := t!"year: \"") (post := t!"\" ") bare_year ty rfl))
        (takes_raw (pre := t!"month: \"") (post := t!"\"") bare_month tm rfl))
        (takes_some (takes_raw (pre := t!" day: \"") (post := t!"\"") bare_day td rfl))
      simpa [fieldT] using this
    have noDay {y m : Str} (ty : Takes year y) (tm : Takes month m) :
        Takes ((del t!"year: \"" + year + del t!"\" ").ques + (del t!"month: \"" + month + del t!"\"") +
          (del t!" day: \"" + day + del t!"\"").ques) (fieldT (t!"year", y) ++
          [(t!"month", m)].flatMap fun f => ' ' :: fieldT f) := by
      have := takes_add (takes_add
        (takes_some (takes_raw (pre := t!"year: \"") (post := t!"\" ") bare_year ty rfl))
        (takes_raw (pre := t!"month: \"") (post := t!"\"") bare_month tm rfl))
        (takes_none (a := del t!" day: \"" + day + del t!"\""))
      simpa [fieldT] using this
    unfold dateBody dateSign at hm
    fields_of hm
    · rename_i d hd td m y hm tm hy ty
      refine ⟨(t!"year", y), [(t!"month", m), (t!"day", d)], by simp [fieldT], ?_⟩
      sorted_by [t!"year", t!"month", t!"day"], [t!"year", t!"month", t!"day"], (t!"year", y),
        [(t!"month", m), (t!"day", d)]
      exact full ty tm td
    · rename_i y hy ty m d hm tm hd td
      refine ⟨(t!"day", d), [(t!"month", m), (t!"year", y)], by simp [fieldT], ?_⟩
      sorted_by [t!"year", t!"month", t!"day"], [t!"day", t!"month", t!"year"], (t!"year", y),
        [(t!"month", m), (t!"day", d)]
      exact full ty tm td
    · rename_i m y hm tm hy ty
      refine ⟨(t!"year", y), [(t!"month", m)], by simp [fieldT], ?_⟩
      sorted_by [t!"year", t!"month", t!"day"], [t!"year", t!"month"], (t!"year", y), [(t!"month", m)]
      exact noDay ty (takes_right tm)
    · rename_i y m hy ty hm tm
      refine ⟨(t!"month", m), [(t!"year", y)], by simp [fieldT], ?_⟩
      sorted_by [t!"year", t!"month", t!"day"], [t!"month", t!"year"], (t!"year", y), [(t!"month", m)]
      exact noDay ty (takes_right tm)
    · rename_i d m hd td hm tm
      refine ⟨(t!"month", m), [(t!"day", d)], by simp [fieldT], ?_⟩
      sorted_by [t!"year", t!"month", t!"day"], [t!"month", t!"day"], (t!"month", m), [(t!"day", d)]
      have := takes_add (takes_add (takes_none (a := del t!"year: \"" + year + del t!"\" "))
        (takes_raw (pre := t!"month: \"") (post := t!"\"") bare_month (takes_right tm) rfl))
        (takes_some (takes_raw (pre := t!" day: \"") (post := t!"\"") bare_day td rfl))
      simpa [fieldT] using this
  exact h.add_ques ((utters_range c).add h)

theorem utters_sport (c : Config) : Utters tokenOrders (verbalizerU c.removeErhua) sportRule.tagger := by
  refine (utters_token (v := sportRule.verbalizer) ?_).mono
    (takes_rule c (s := ⟨sportRule, some 104000, true⟩) (by simp [rules]) rfl)
  intro m hm
  fields_of hm
  rename_i s t hs ts ht tt
  refine ⟨(t!"team", t), [(t!"score", s)], by simp [fieldT], ?_⟩
  refine good_free (writable_of [t!"team", t!"score"] rfl (by decide)) (by simp [*]) (by decide +kernel) ?_
  have := takes_add (takes_raw (pre := t!"team: \"") (post := t!"\" ") (bare_of (by decide +kernel)) tt rfl)
    (takes_raw (pre := t!"score: \"") (post := t!"\"") (bare_of (by decide +kernel)) ts rfl)
  simpa [fieldT] using this

theorem utters_money (c : Config) : Utters tokenOrders (verbalizerU c.removeErhua) moneyRule.tagger := by
  refine (utters_token (v := moneyRule.verbalizer) ?_).mono
    (takes_rule c (s := ⟨moneyRule, some 105000, true⟩) (by simp [rules]) rfl)
  intro m hm
  fields_of hm
  rename_i u hu tu k hk tk
  refine ⟨(t!"currency", k), [(t!"value", u)], by simp [fieldT], ?_⟩
  sorted_by [t!"value", t!"currency"], [t!"currency", t!"value"], (t!"value", u), [(t!"currency", k)]
  have := takes_add (takes_raw (pre := t!"value: \"") (post := t!"\" ") bare_number tu rfl)
    (takes_raw (pre := t!"currency: \"") (post := t!"\"") (bare_of (by decide +kernel)) tk rfl)
  simpa [fieldT] using this

theorem utters_measure (c : Config) : Utters tokenOrders (verbalizerU c.removeErhua) measureRule.tagger := by
  refine (utters_token (v := measureRule.verbalizer) ?_).mono
    (takes_rule c (s := ⟨measureRule, some 105000, true⟩) (by simp [rules]) rfl)
  intro m hm
  unfold rmspace at hm
  rcases gives_or.1 hm with hm | hm
  · obtain ⟨u, rfl, hu, tu⟩ := gives_tagField.1 hm
    refine ⟨(t!"value", u), [], by simp, Good.mono (v := deleteTokens t!"measure" (del t!"value: \"" + (measure ||| annual) + del t!"\"")) ?_ fun _ => takes_left⟩
    sorted_by [t!"denominator", t!"numerator", t!"value"], [t!"value"], (t!"value", u), []
    have := takes_raw (pre := t!"value: \"") (post := t!"\"") (bare_of (by decide +kernel)) tu rfl
    simpa [fieldT] using this
  · fields_of hm
    rename_i d hd td n hn tn
    refine ⟨(t!"numerator", n), [(t!"denominator", d)], by simp [fieldT], Good.mono (v := deleteTokens t!"measure" (insert t!"每" + (del t!"denominator: \"" + denominator + del t!"\" ") +
      (del t!"numerator: \"" + measure + del t!"\""))) ?_ fun _ => takes_right⟩
    sorted_by [t!"denominator", t!"numerator", t!"value"], [t!"numerator", t!"denominator"],
      (t!"denominator", d), [(t!"numerator", n)]
    have := takes_add (takes_add (takes_insert (s := t!"每"))
      (takes_raw (pre := t!"denominator: \"") (post := t!"\" ") (bare_of (by decide +kernel)) td rfl))
      (takes_raw (pre := t!"numerator: \"") (post := t!"\"") (bare_of (by decide +kernel)) tn rfl)
    simpa [fieldT] using this

theorem utters_whitelist (c : Config) :
    Utters tokenOrders (verbalizerU c.removeErhua) (whitelistRule c.removeErhua).tagger := by
  refine (utters_token (v := (whitelistRule c.removeErhua).verbalizer) ?_).mono
    (takes_rule c (s := ⟨whitelistRule c.removeErhua, some 103000, true⟩) (by simp [rules]) rfl)
  intro m hm
  rcases gives_or.1 hm with hm | hm
  · fields_of hm
    refine ⟨(t!"erhua", t!"儿"), [], by decide +kernel, ?_⟩
    have key : ∀ body : G, Takes body t!"erhua: \"儿\"" →
        Good tokenOrders (deleteTokens t!"whitelist" body) ⟨t!"whitelist", [(t!"erhua", t!"儿")]⟩ :=
      fun body hb => good_free (writable_of [t!"erhua"] rfl (by decide)) (by decide) (by decide +kernel) hb
    unfold whitelistRule
    dsimp only
    cases c.removeErhua
    · exact (key _ (takes_add (takes_add takes_del takes_lit) takes_del)).mono fun _ => takes_right
    · exact (key _ takes_del).mono fun _ => takes_right
  · obtain ⟨u, rfl, hu, tu⟩ := gives_tagField.1 hm
    refine ⟨(t!"value", u), [], by simp, Good.mono (v := deleteTokens t!"whitelist" (del t!"value: \"" + whitelistG + del t!"\"")) ?_ fun _ => takes_left⟩
    refine good_free (writable_of [t!"value"] rfl (by decide)) (by simp [*]) (by decide +kernel) ?_
    have := takes_raw (pre := t!"value: \"") (post := t!"\"") (bare_of (by decide +kernel)) tu rfl
    simpa [fieldT] using this

theorem utters_tagger (c : Config) : Utters tokenOrders (verbalizerU c.removeErhua) (taggerU c.removeErhua) := by
  refine utters_union (taggerUnion_eq c) ?_
  intro s hs hk
  simp only [rules, List.mem_cons, List.not_mem_nil, or_false] at hs
  rcases hs with rfl | rfl | rfl | rfl | rfl | rfl | rfl | rfl | rfl | rfl | rfl
  · exact utters_date c
  · exact utters_whitelist c
  · exact utters_sport c
  · exact utters_fraction c
  · exact utters_measure c
  · exact utters_money c
  · exact utters_time c
  · exact utters_cardinal c
  · exact utters_math c
  · exact utters_charRule c
  · cases hk

theorem repeatFree : Verif.Token.RepeatFree tokenOrders := Verif.Token.builtin_repeatFree _ (by decide)

theorem nul_verbalizerU : ∀ b, (mustC ['\x00'] (verbalizerU b)).2 = true := by decide +kernel

theorem nul_verbalizer (c : Config) :
    (mustC ['\x00'] (.star (.comp (verbalizerU c.removeErhua) (postprocessor c)))).2 = true := by
  have h : (mustC ['\x00'] (postprocessor c)).2 = true := by
    obtain ⟨a, b, d, e, f, g⟩ := c
    revert a b d e f g
    decide +kernel
  simp only [mustC, nul_verbalizerU, h]
  simp

theorem utters (c : Config) : Utters tokenOrders (.comp (verbalizerU c.removeErhua) (postprocessor c))
    (taggerU c.removeErhua) := by
  refine (utters_tagger c).post repeatFree (nul_verbalizerU _) ?_
  intro y hy
  exact ⟨_, _, (maps_postprocessor c y _ _).2 ⟨hy, rfl, rfl⟩⟩

end Verif.ZhTn
