import Verif.Wfst.Deploy
import Verif.Token.Props
import Verif.JaTn.Tokens

/-
Every token the taggers of the Japanese normalizer write is read by its verbalizer.
-/

namespace Verif.JaTn

open Verif.Wfst
open Verif.Token.Spec (esc write writeAll Tok Writable)

/-- The verbalizer of the union reads what a rule's verbalizer reads. -/
theorem takes_rule (c : Config) {s : RuleSpec} (hs : s ∈ rules c) (hv : s.verbalize = true) (x : Str)
    (h : Takes s.rule.verbalizer x) : Takes (verbalizerU c) x :=
  takes_union (verbalizerUnion_eq c) hs hv x h

/-- Marks that are deleted behind the preprocessor. -/
theorem gives_pre_del {h : Bool} {g : G} {t : Str} (hg : ∀ t, Gives g t ↔ t = []) (c : Char)
    (hc : vchar c = true) (ht : Takes g [half h c]) : Gives (pre h g) t ↔ t = [] := by
  constructor
  · rintro ⟨x, w, hd⟩
    exact (hg t).1 ⟨_, _, (den_pre.1 hd).2⟩
  · rintro rfl
    obtain ⟨y, w, hd⟩ := ht
    obtain rfl := (hg y).1 ⟨_, _, hd⟩
    exact ⟨[c], w, den_pre.2 ⟨vtext_single c hc, hd⟩⟩

theorem gives_slash {h : Bool} {t : Str} : Gives (pre h (del t!"/")) t ↔ t = [] :=
  gives_pre_del (fun t => gives_del) '/' rfl (by
    have : half h '/' = '/' := by revert h; decide +kernel
    rw [this]; exact takes_del)

theorem gives_sign {h : Bool} {t : Str} :
    Gives (pre h (del t!"/" ||| del t!"-" ||| del t!".")) t ↔ t = [] :=
  gives_pre_del (fun t => by simp only [gives_or, gives_del, or_self]) '/' rfl (by
    have : half h '/' = '/' := by revert h; decide +kernel
    rw [this]; exact takes_left (takes_left takes_del))

theorem gives_colon {h : Bool} {t : Str} : Gives (colon h) t ↔ t = [] :=
  gives_pre_del (fun t => by simp only [gives_or, gives_del, or_self]) ':' rfl (by
    have : half h ':' = ':' := by revert h; decide +kernel
    rw [this]; exact takes_left takes_del)

/-- As `fields_of`, with the deleted marks of this normalizer. -/
macro "fields_of' " h:ident : tactic =>
  `(tactic| (simp only [gives_slash, gives_sign, gives_colon, gives_add, gives_or, gives_wt, gives_tagField,
      gives_insert, gives_lit, gives_del, gives_ques, or_self] at $h:ident <;>
      casesm* _ ∧ _, Exists _, _ ∨ _ <;> subst_vars))

theorem bare_number (h : Bool) : Bare (number h) := bare_of (by revert h; decide +kernel)

theorem utters_cardinal (c : Config) : Utters tokenOrders (verbalizerU c) (cardinalRule c.fullToHalf).tagger :=
  utters_rawValue (by decide) (by decide +kernel) (bare_of (by generalize c.fullToHalf = h; revert h; decide +kernel))
    (takes_rule c (s := ⟨cardinalRule c.fullToHalf, some 106000, true⟩) (by simp [rules]) rfl)

theorem utters_range (c : Config) : Utters tokenOrders (verbalizerU c) (rangeRule c.fullToHalf).tagger :=
  utters_rawValue (by decide) (by decide +kernel) (bare_of (by generalize c.fullToHalf = h; revert h; decide +kernel))
    (takes_rule c (s := ⟨rangeRule c.fullToHalf, none, true⟩) (by simp [rules]) rfl)

theorem utters_math (c : Config) : Utters tokenOrders (verbalizerU c) (mathRule c.fullToHalf).tagger :=
  utters_rawValue (by decide) (by decide +kernel) (bare_of (by generalize c.fullToHalf = h; revert h; decide +kernel))
    (takes_rule c (s := ⟨mathRule c.fullToHalf, some 9000000, true⟩) (by simp [rules]) rfl)

theorem utters_whitelist (c : Config) : Utters tokenOrders (verbalizerU c) (whitelistRule c.fullToHalf).tagger :=
  utters_rawValue (by decide) (by decide +kernel) (bare_of (by generalize c.fullToHalf = h; revert h; decide +kernel))
    (takes_rule c (s := ⟨whitelistRule c.fullToHalf, some 103000, true⟩) (by simp [rules]) rfl)

theorem utters_transliteration (c : Config) (hc : c.transliterate = true) :
    Utters tokenOrders (verbalizerU c) (transliterationRule c.fullToHalf).tagger :=
  utters_rawValue (by decide) (by decide +kernel) (bare_of (by generalize c.fullToHalf = h; revert h; decide +kernel))
    (takes_rule c (s := ⟨transliterationRule c.fullToHalf, some 104000, true⟩) (by simp [rules, hc]) rfl)

theorem utters_charRule (c : Config) : Utters tokenOrders (verbalizerU c) charRule.tagger :=
  utters_char (by decide +kernel)
    (takes_rule c (s := ⟨charRule, some 10000000, true⟩) (by simp [rules]) rfl)

theorem utters_measure (c : Config) : Utters tokenOrders (verbalizerU c) (measureRule c.fullToHalf).tagger := by
  refine (utters_token (v := (measureRule c.fullToHalf).verbalizer) ?_).mono
    (takes_rule c (s := ⟨measureRule c.fullToHalf, some 105000, true⟩) (by simp [rules]) rfl)
  intro m hm
  obtain ⟨u, rfl, hu, tu⟩ := gives_tagField.1 hm
  refine ⟨(t!"value", u), [], by simp, ?_⟩
  unfold measureRule valueRule
  dsimp only
  sorted_by [t!"denominator", t!"numerator", t!"value"], [t!"value"], (t!"value", u), []
  have := takes_raw (pre := t!"value: \"") (post := t!"\"")
    (bare_of (by generalize c.fullToHalf = h; revert h; decide +kernel)) tu rfl
  simpa [fieldT] using this

theorem utters_fraction (c : Config) : Utters tokenOrders (verbalizerU c) (fractionRule c.fullToHalf).tagger := by
  refine (utters_token (v := (fractionRule c.fullToHalf).verbalizer) ?_).mono
    (takes_rule c (s := ⟨fractionRule c.fullToHalf, some 105000, true⟩) (by simp [rules]) rfl)
  intro m hm
  unfold rmspace at hm
  fields_of' hm
  rename_i v hv tv u hu tu
  refine ⟨(t!"numerator", u), [(t!"denominator", v)], by simp [fieldT], ?_⟩
  sorted_by [t!"denominator", t!"numerator"], [t!"numerator", t!"denominator"], (t!"denominator", v),
    [(t!"numerator", u)]
  have := takes_add (takes_add (takes_raw (pre := t!"denominator: \"") (post := t!"\" ") (bare_number _) tv rfl)
    (takes_insert (s := t!"分の"))) (takes_raw (pre := t!"numerator: \"") (post := t!"\"") (bare_number _) tu rfl)
  simpa [fieldT] using this

theorem utters_money (c : Config) : Utters tokenOrders (verbalizerU c) (moneyRule c.fullToHalf).tagger := by
  refine (utters_token (v := (moneyRule c.fullToHalf).verbalizer) ?_).mono
    (takes_rule c (s := ⟨moneyRule c.fullToHalf, some 105000, true⟩) (by simp [rules]) rfl)
  intro m hm
  fields_of hm
  rename_i u hu tu k hk tk
  refine ⟨(t!"currency", k), [(t!"value", u)], by simp [fieldT], ?_⟩
  sorted_by [t!"value", t!"currency"], [t!"currency", t!"value"], (t!"value", u), [(t!"currency", k)]
  have := takes_add (takes_raw (pre := t!"value: \"") (post := t!"\" ") (bare_number _) tu rfl)
    (takes_raw (pre := t!"currency: \"") (post := t!"\"")
      (bare_of (by generalize c.fullToHalf = h; revert h; decide +kernel)) tk rfl)
  simpa [fieldT] using this

theorem bare_score (h : Bool) : Bare (teamScore h ||| onlyScore h) := bare_of (by revert h; decide +kernel)
theorem bare_team (h : Bool) : Bare (team h) := bare_of (by revert h; decide +kernel)

theorem utters_sport (c : Config) : Utters tokenOrders (verbalizerU c) (sportRule c.fullToHalf).tagger := by
  refine (utters_token (v := (sportRule c.fullToHalf).verbalizer) ?_).mono
    (takes_rule c (s := ⟨sportRule c.fullToHalf, some 106000, true⟩) (by simp [rules]) rfl)
  intro m hm
  fields_of hm
  · rename_i s hs ts t ht tt
    refine ⟨(t!"team", t), [(t!"score", s)], by simp [fieldT], ?_⟩
    refine good_free (writable_of [t!"team", t!"score"] rfl (by decide)) (by simp [*]) (by decide +kernel) ?_
    have := takes_add (takes_some (takes_raw (pre := t!"team: \"") (post := t!"\" ") (bare_team _) tt rfl))
      (takes_raw (pre := t!"score: \"") (post := t!"\"") (bare_score _) (takes_left ts) rfl)
    simpa [fieldT] using this
  · rename_i s hs ts
    refine ⟨(t!"score", s), [], by simp [fieldT], ?_⟩
    refine good_free (writable_of [t!"score"] rfl (by decide)) (by simp [*]) (by decide +kernel) ?_
    have := takes_add (takes_none (a := del t!"team: \"" + team c.fullToHalf + del t!"\" "))
      (takes_raw (pre := t!"score: \"") (post := t!"\"") (bare_score _) (takes_right ts) rfl)
    simpa [fieldT] using this

theorem bare_noon (h : Bool) : Bare (pre h (.tab noon)) := bare_of (by revert h; decide +kernel)
theorem bare_hour (h : Bool) : Bare (pre h (.tab hour)) := bare_of (by revert h; decide +kernel)
theorem bare_minute (h : Bool) : Bare (pre h (.tab minute)) := bare_of (by revert h; decide +kernel)
theorem bare_second (h : Bool) : Bare (pre h (.tab second)) := bare_of (by revert h; decide +kernel)

theorem utters_time (c : Config) : Utters tokenOrders (verbalizerU c) (timeRule c.fullToHalf).tagger := by
  have h : Utters tokenOrders (verbalizerU c) (addTokens t!"time" (timeBody c.fullToHalf)) := by
    refine (utters_token (v := (timeRule c.fullToHalf).verbalizer) ?_).mono
      (takes_rule c (s := ⟨timeRule c.fullToHalf, some 105000, true⟩) (by simp [rules]) rfl)
    intro m hm
    unfold timeBody at hm
    fields_of' hm
    · rename_i m hm tm h hh th
      refine ⟨(t!"hour", h), [(t!"minute", m)], by simp [fieldT], ?_⟩
      sorted_by [t!"noon", t!"hour", t!"minute", t!"second"], [t!"hour", t!"minute"],
        (t!"hour", h), [(t!"minute", m)]
      refine takes_left ?_
      have := takes_add (takes_add (takes_add (takes_none (a := del t!"noon: \"" + pre c.fullToHalf (.tab noon) + del t!"\" "))
        (takes_raw (pre := t!"hour: \"") (post := t!"\"") (bare_hour _) th rfl))
        (takes_raw (pre := t!" minute: \"") (post := t!"\"") (bare_minute _) tm rfl))
        (takes_none (a := del t!" second: \"" + pre c.fullToHalf (.tab second) + del t!"\""))
      simpa [fieldT] using this
    · rename_i m hm tm s hs ts h hh th
      refine ⟨(t!"hour", h), [(t!"minute", m), (t!"second", s)], by simp [fieldT], ?_⟩
      sorted_by [t!"noon", t!"hour", t!"minute", t!"second"], [t!"hour", t!"minute", t!"second"],
        (t!"hour", h), [(t!"minute", m), (t!"second", s)]
      refine takes_left ?_
      have := takes_add (takes_add (takes_add (takes_none (a := del t!"noon: \"" + pre c.fullToHalf (.tab noon) + del t!"\" "))
        (takes_raw (pre := t!"hour: \"") (post := t!"\"") (bare_hour _) th rfl))
        (takes_raw (pre := t!" minute: \"") (post := t!"\"") (bare_minute _) tm rfl))
        (takes_some (takes_raw (pre := t!" second: \"") (post := t!"\"") (bare_second _) ts rfl))
      simpa [fieldT] using this
    · rename_i n m hn tn hm tm h hh th
      refine ⟨(t!"hour", h), [(t!"minute", m), (t!"noon", n)], by simp [fieldT], ?_⟩
      sorted_by [t!"noon", t!"hour", t!"minute", t!"second"], [t!"hour", t!"minute", t!"noon"],
        (t!"noon", n), [(t!"hour", h), (t!"minute", m)]
      refine takes_left ?_
      have := takes_add (takes_add (takes_add (takes_some (takes_raw (pre := t!"noon: \"") (post := t!"\" ") (bare_noon _) tn rfl))
        (takes_raw (pre := t!"hour: \"") (post := t!"\"") (bare_hour _) th rfl))
        (takes_raw (pre := t!" minute: \"") (post := t!"\"") (bare_minute _) tm rfl))
        (takes_none (a := del t!" second: \"" + pre c.fullToHalf (.tab second) + del t!"\""))
      simpa [fieldT] using this
    · rename_i n m hn tn hm tm s hs ts h hh th
      refine ⟨(t!"hour", h), [(t!"minute", m), (t!"second", s), (t!"noon", n)], by simp [fieldT], ?_⟩
      sorted_by [t!"noon", t!"hour", t!"minute", t!"second"], [t!"hour", t!"minute", t!"second", t!"noon"],
        (t!"noon", n), [(t!"hour", h), (t!"minute", m), (t!"second", s)]
      refine takes_left ?_
      have := takes_add (takes_add (takes_add (takes_some (takes_raw (pre := t!"noon: \"") (post := t!"\" ") (bare_noon _) tn rfl))
        (takes_raw (pre := t!"hour: \"") (post := t!"\"") (bare_hour _) th rfl))
        (takes_raw (pre := t!" minute: \"") (post := t!"\"") (bare_minute _) tm rfl))
        (takes_some (takes_raw (pre := t!" second: \"") (post := t!"\"") (bare_second _) ts rfl))
      simpa [fieldT] using this
    · rename_i n h hn tn hh th
      refine ⟨(t!"hour", h), [(t!"noon", n)], by simp [fieldT], ?_⟩
      sorted_by [t!"noon", t!"hour", t!"minute", t!"second"], [t!"hour", t!"noon"],
        (t!"noon", n), [(t!"hour", h)]
      refine takes_right ?_
      have := takes_add (takes_raw (pre := t!"noon: \"") (post := t!"\" ") (bare_noon _) tn rfl)
        (takes_raw (pre := t!"hour: \"") (post := t!"\"") (bare_hour _) th rfl)
      simpa [fieldT] using this
  exact h.add_ques ((utters_range c).add h)

theorem bare_year (h : Bool) : Bare (year h) := bare_of (by revert h; decide +kernel)
theorem bare_month (h : Bool) : Bare (month h) := bare_of (by revert h; decide +kernel)
theorem bare_day (h : Bool) : Bare (day h) := bare_of (by revert h; decide +kernel)

theorem takes_month {h : Bool} {m : Str} (tm : Takes (pre h (.tab dateMM)) m) : Takes (month h) m := by
  obtain ⟨y, w, hd⟩ := tm
  obtain ⟨h1, h2⟩ := den_pre.1 hd
  exact ⟨y, w, den_pre.2 ⟨h1, .inr h2⟩⟩

section
variable {h : Bool} {y m d : Str} (hy : VText y) (ty : Takes (year h) y) (hm : VText m)
  (tm : Takes (month h) m) (hd : VText d) (td : Takes (day h) d)
include hy ty hm tm hd td

theorem takes_ymd : Takes ((del t!"year: \"" + year h + del t!"\" ").ques + (del t!"month: \"" + month h + del t!"\"") +
      (del t!" day: \"" + day h + del t!"\"").ques) (fieldT (t!"year", y) ++
    [(t!"month", m), (t!"day", d)].flatMap fun f => ' ' :: fieldT f) := by
  have := takes_add (takes_add
    (takes_some (takes_raw (pre := t!"year: \"") (post := t!"\" ") (bare_year _) ty rfl))
    (takes_raw (pre := t!"month: \"") (post := t!"\"") (bare_month _) tm rfl))
    (takes_some (takes_raw (pre := t!" day: \"") (post := t!"\"") (bare_day _) td rfl))
  simpa [fieldT] using this

theorem good_ymd : Good tokenOrders (dateRule h).verbalizer
    ⟨t!"date", [(t!"year", y), (t!"month", m), (t!"day", d)]⟩ := by
  sorted_by [t!"year", t!"month", t!"day"], [t!"year", t!"month", t!"day"], (t!"year", y),
    [(t!"month", m), (t!"day", d)]
  exact takes_ymd hy ty hm tm hd td

theorem good_dmy : Good tokenOrders (dateRule h).verbalizer
    ⟨t!"date", [(t!"day", d), (t!"month", m), (t!"year", y)]⟩ := by
  sorted_by [t!"year", t!"month", t!"day"], [t!"day", t!"month", t!"year"], (t!"year", y),
    [(t!"month", m), (t!"day", d)]
  exact takes_ymd hy ty hm tm hd td

omit hy ty in
theorem good_md : Good tokenOrders (dateRule h).verbalizer ⟨t!"date", [(t!"month", m), (t!"day", d)]⟩ := by
  sorted_by [t!"year", t!"month", t!"day"], [t!"month", t!"day"], (t!"month", m), [(t!"day", d)]
  have := takes_add (takes_add (takes_none (a := del t!"year: \"" + year h + del t!"\" "))
    (takes_raw (pre := t!"month: \"") (post := t!"\"") (bare_month _) tm rfl))
    (takes_some (takes_raw (pre := t!" day: \"") (post := t!"\"") (bare_day _) td rfl))
  simpa [fieldT] using this

omit hd td in
theorem takes_ym : Takes ((del t!"year: \"" + year h + del t!"\" ").ques + (del t!"month: \"" + month h + del t!"\"") +
      (del t!" day: \"" + day h + del t!"\"").ques) (fieldT (t!"year", y) ++
    [(t!"month", m)].flatMap fun f => ' ' :: fieldT f) := by
  have := takes_add (takes_add
    (takes_some (takes_raw (pre := t!"year: \"") (post := t!"\" ") (bare_year _) ty rfl))
    (takes_raw (pre := t!"month: \"") (post := t!"\"") (bare_month _) tm rfl))
    (takes_none (a := del t!" day: \"" + day h + del t!"\""))
  simpa [fieldT] using this

omit hd td in
theorem good_ym : Good tokenOrders (dateRule h).verbalizer ⟨t!"date", [(t!"year", y), (t!"month", m)]⟩ := by
  sorted_by [t!"year", t!"month", t!"day"], [t!"year", t!"month"], (t!"year", y), [(t!"month", m)]
  exact takes_ym hy ty hm tm

omit hd td in
theorem good_my : Good tokenOrders (dateRule h).verbalizer ⟨t!"date", [(t!"month", m), (t!"year", y)]⟩ := by
  sorted_by [t!"year", t!"month", t!"day"], [t!"month", t!"year"], (t!"year", y), [(t!"month", m)]
  exact takes_ym hy ty hm tm
end

theorem utters_date (c : Config) : Utters tokenOrders (verbalizerU c) (dateRule c.fullToHalf).tagger := by
  have h : Utters tokenOrders (verbalizerU c) (addTokens t!"date" (dateBody c.fullToHalf)) := by
    refine (utters_token (v := (dateRule c.fullToHalf).verbalizer) ?_).mono
      (takes_rule c (s := ⟨dateRule c.fullToHalf, some 102000, true⟩) (by simp [rules]) rfl)
    intro m hm
    unfold dateBody dateSign at hm
    fields_of' hm
    · rename_i d hd td m y hm tm hy ty
      exact ⟨(t!"year", y), [(t!"month", m), (t!"day", d)], by simp [fieldT], good_ymd hy ty hm tm hd td⟩
    · rename_i y hy ty m d hm tm hd td
      exact ⟨(t!"day", d), [(t!"month", m), (t!"year", y)], by simp [fieldT], good_dmy hy ty hm tm hd td⟩
    · rename_i m y hm tm hy ty
      exact ⟨(t!"year", y), [(t!"month", m)], by simp [fieldT], good_ym hy ty hm (takes_month tm)⟩
    · rename_i y m hy ty hm tm
      exact ⟨(t!"month", m), [(t!"year", y)], by simp [fieldT], good_my hy ty hm (takes_month tm)⟩
    · rename_i d m hd td hm tm
      exact ⟨(t!"month", m), [(t!"day", d)], by simp [fieldT], good_md hm (takes_month tm) hd td⟩
  have hs : Utters tokenOrders (verbalizerU c) (addTokens t!"date" (simpleDate c.fullToHalf)) := by
    refine (utters_token (v := (dateRule c.fullToHalf).verbalizer) ?_).mono
      (takes_rule c (s := ⟨dateRule c.fullToHalf, some 102000, true⟩) (by simp [rules]) rfl)
    intro m hm
    unfold simpleDate dateSign at hm
    fields_of' hm
    · rename_i m y hm tm hy ty
      exact ⟨(t!"year", y), [(t!"month", m)], by simp [fieldT], good_ym hy ty hm tm⟩
    · rename_i y m hy ty hm tm
      exact ⟨(t!"month", m), [(t!"year", y)], by simp [fieldT], good_my hy ty hm tm⟩
    · rename_i d m hd td hm tm
      exact ⟨(t!"month", m), [(t!"day", d)], by simp [fieldT], good_md hm tm hd td⟩
  exact (h.add_ques ((utters_range c).add h)).or ((hs.add (utters_range c)).add hs)

theorem utters_tagger (c : Config) : Utters tokenOrders (verbalizerU c) (taggerU c) := by
  refine utters_union (taggerUnion_eq c) ?_
  intro s hs hk
  simp only [rules] at hs
  rcases List.mem_append.1 hs with hs | hs
  · simp only [List.mem_cons, List.not_mem_nil, or_false] at hs
    rcases hs with rfl | rfl | rfl | rfl | rfl | rfl | rfl | rfl | rfl | rfl | rfl
    · exact utters_cardinal c
    · exact utters_charRule c
    · exact utters_date c
    · exact utters_fraction c
    · exact utters_math c
    · exact utters_measure c
    · exact utters_money c
    · exact utters_sport c
    · exact utters_time c
    · exact utters_whitelist c
    · cases hk
  · split at hs
    · rename_i hc
      rw [List.mem_singleton.1 hs]
      exact utters_transliteration c hc
    · cases hs

theorem repeatFree : Verif.Token.RepeatFree tokenOrders := Verif.Token.builtin_repeatFree _ (by decide)

theorem nul_verbalizerU (c : Config) : (mustC ['\x00'] (verbalizerU c)).2 = true := by
  obtain ⟨b0, b1, b2, b3, b4⟩ := c
  revert b0 b1 b2 b3 b4
  decide +kernel

theorem utters (c : Config) : Utters tokenOrders (.comp (verbalizerU c) (postprocessor c)) (taggerU c) := by
  refine (utters_tagger c).post repeatFree (nul_verbalizerU c) ?_
  intro y hy
  exact ⟨_, _, (maps_postprocessor c y _ _).2 ⟨hy, rfl, rfl⟩⟩

end Verif.JaTn
