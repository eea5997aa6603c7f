import Verif.Wfst.Deploy
import Verif.Token.Props
import Verif.JaItn.Tokens

/-
Every token the taggers of the Japanese inverse normalizer write is read by its verbalizer.
-/

namespace Verif.JaItn

open Verif.Wfst
open Verif.Cpp (CleanEscapes clean_append)
open Verif.Token.Spec (esc write writeAll Tok Writable IsName Spaces)

/-- The verbalizer of the union reads what a rule's verbalizer reads. -/
theorem takes_rule (c : Config) {s : RuleSpec} (hs : s ∈ rules c) (hv : s.verbalize = true) (x : Str)
    (h : Takes s.rule.verbalizer x) : Takes (verbalizerU c) x :=
  takes_union (verbalizerUnion_eq c) hs hv x h

theorem utters_cardinal (c : Config) : Utters tokenOrders (verbalizerU c) (cardinalRule c).tagger :=
  utters_value (by decide) (by decide +kernel)
    (takes_rule c (s := ⟨cardinalRule c, some 106000, true⟩) (by simp [rules]) rfl)

theorem utters_charRule (c : Config) : Utters tokenOrders (verbalizerU c) (charRule c.fullToHalf).tagger :=
  utters_value (by decide) (by decide +kernel)
    (takes_rule c (s := ⟨charRule c.fullToHalf, some 10000000, true⟩) (by simp [rules]) rfl)

theorem utters_math (c : Config) : Utters tokenOrders (verbalizerU c) (mathRule c).tagger :=
  utters_value (by decide) (by decide +kernel)
    (takes_rule c (s := ⟨mathRule c, some 9000000, true⟩) (by simp [rules]) rfl)

theorem utters_ordinal (c : Config) : Utters tokenOrders (verbalizerU c) (ordinalRule c).tagger :=
  utters_value (by decide) (by decide +kernel)
    (takes_rule c (s := ⟨ordinalRule c, some 104000, true⟩) (by simp [rules]) rfl)

theorem utters_whitelist (c : Config) : Utters tokenOrders (verbalizerU c) (whitelistRule c.fullToHalf).tagger :=
  utters_value (by decide) (by decide +kernel)
    (takes_rule c (s := ⟨whitelistRule c.fullToHalf, some 101000, true⟩) (by simp [rules]) rfl)

theorem utters_measure (c : Config) : Utters tokenOrders (verbalizerU c) (measureRule c).tagger := by
  refine (utters_token (v := (measureRule c).verbalizer) ?_).mono
    (takes_rule c (s := ⟨measureRule c, some 105000, true⟩) (by simp [rules]) rfl)
  intro m hm
  obtain ⟨u, rfl, hu, tu⟩ := gives_tagField.1 hm
  refine ⟨(t!"value", u), [], by simp, ?_⟩
  unfold measureRule valueRule
  dsimp only
  sorted_by [t!"numerator", t!"denominator", t!"value", t!"units"], [t!"value"], (t!"value", u), []
  simpa using takes_field hu tu

theorem utters_money (c : Config) : Utters tokenOrders (verbalizerU c) (moneyRule c).tagger := by
  refine (utters_token (v := (moneyRule c).verbalizer) ?_).mono
    (takes_rule c (s := ⟨moneyRule c, some 104000, true⟩) (by simp [rules]) rfl)
  intro m hm
  fields_of hm
  rename_i k u hk tk hu tu
  refine ⟨(t!"value", u), [(t!"currency", k)], by simp [fieldT], ?_⟩
  sorted_by [t!"currency", t!"value", t!"decimal", t!"quantity"], [t!"value", t!"currency"],
    (t!"currency", k), [(t!"value", u)]
  simpa using takes_add (takes_field hk tk) (takes_spaceField hu tu)

theorem utters_fraction (c : Config) : Utters tokenOrders (verbalizerU c) (fractionRule c.fullToHalf).tagger := by
  refine (utters_token (v := (fractionRule c.fullToHalf).verbalizer) ?_).mono
    (takes_rule c (s := ⟨fractionRule c.fullToHalf, some 105000, true⟩) (by simp [rules]) rfl)
  intro m hm
  fields_of hm
  · rename_i n hn tn d hd td
    refine ⟨(t!"denominator", d), [(t!"numerator", n)], by simp [fieldT], ?_⟩
    sorted_by [t!"sign", t!"numerator", t!"denominator"], [t!"denominator", t!"numerator"],
      (t!"numerator", n), [(t!"denominator", d)]
    simpa using takes_add (takes_add (takes_add (takes_add
      (takes_none (a := verbalizeField t!"sign" (some (fractionSign c.fullToHalf)) + del t!" "))
      (takes_field hn tn)) (takes_del (s := t!" "))) (takes_insert (s := t!"/"))) (takes_field hd td)
  · rename_i n hn tn d hd td s hs ts
    refine ⟨(t!"sign", s), [(t!"denominator", d), (t!"numerator", n)], by simp [fieldT], ?_⟩
    sorted_by [t!"sign", t!"numerator", t!"denominator"], [t!"sign", t!"denominator", t!"numerator"],
      (t!"sign", s), [(t!"numerator", n), (t!"denominator", d)]
    simpa using takes_add (takes_add (takes_add (takes_add
      (takes_some (takes_add (takes_field hs ts) (takes_del (s := t!" "))))
      (takes_field hn tn)) (takes_del (s := t!" "))) (takes_insert (s := t!"/"))) (takes_field hd td)

theorem utters_date (c : Config) : Utters tokenOrders (verbalizerU c) (dateRule c.fullToHalf).tagger := by
  refine (utters_token (v := (dateRule c.fullToHalf).verbalizer) ?_).mono
    (takes_rule c (s := ⟨dateRule c.fullToHalf, some 102000, true⟩) (by simp [rules]) rfl)
  intro m hm
  fields_of hm
  · rename_i m y hm tm hy ty
    refine ⟨(t!"year", y), [(t!"month", m)], by simp [fieldT], ?_⟩
    sorted_by [t!"year", t!"month", t!"day", t!"preserve_order"], [t!"year", t!"month"],
      (t!"year", y), [(t!"month", m)]
    refine takes_left (takes_left (takes_left ?_))
    simpa using takes_add (takes_add (takes_add (takes_field hy ty) (takes_insert (s := t!"年")))
      (takes_del (s := t!" ")))
      (takes_add (takes_field hm tm) (takes_insert (s := t!"月")))
  · rename_i d m hd td hm tm
    refine ⟨(t!"month", m), [(t!"day", d)], by simp [fieldT], ?_⟩
    sorted_by [t!"year", t!"month", t!"day", t!"preserve_order"], [t!"month", t!"day"],
      (t!"month", m), [(t!"day", d)]
    refine takes_left (takes_left (takes_right ?_))
    simpa using takes_add (takes_add (takes_add (takes_field hm tm) (takes_insert (s := t!"月")))
      (takes_del (s := t!" ")))
      (takes_add (takes_field hd td) (takes_insert (s := t!"日")))
  · rename_i d hd td m y hm tm hy ty
    refine ⟨(t!"year", y), [(t!"month", m), (t!"day", d)], by simp [fieldT], ?_⟩
    sorted_by [t!"year", t!"month", t!"day", t!"preserve_order"], [t!"year", t!"month", t!"day"],
      (t!"year", y), [(t!"month", m), (t!"day", d)]
    refine takes_left (takes_right ?_)
    simpa using takes_add (takes_add (takes_add (takes_add (takes_add (takes_field hy ty) (takes_insert (s := t!"年")))
      (takes_del (s := t!" ")))
      (takes_add (takes_field hm tm) (takes_insert (s := t!"月")))) (takes_del (s := t!" ")))
      (takes_add (takes_field hd td) (takes_insert (s := t!"日")))
  · rename_i y hy ty
    refine ⟨(t!"year", y), [], by simp [fieldT], ?_⟩
    sorted_by [t!"year", t!"month", t!"day", t!"preserve_order"], [t!"year"], (t!"year", y), []
    refine takes_right ?_
    simpa using takes_field hy ty

theorem utters_times (c : Config) : Utters tokenOrders (verbalizerU c) (addTokens t!"time"
        ((tagField t!"hour" (hourG c.fullToHalf) + Wfst.insert t!" ").ques + tagField t!"minute" (minuteG c.fullToHalf) +
          (Wfst.insert t!" " + tagField t!"second" (secondG c.fullToHalf)).ques)) := by
  refine (utters_token (v := (timeRule c.fullToHalf).verbalizer) ?_).mono
    (takes_rule c (s := ⟨timeRule c.fullToHalf, some 104000, true⟩) (by simp [rules]) rfl)
  intro m hm
  fields_of hm
  · rename_i m hm tm
    refine ⟨(t!"minute", m), [], by simp [fieldT], ?_⟩
    sorted_by [t!"hour", t!"minute", t!"second", t!"noon", t!"zone"], [t!"minute"],
      (t!"minute", m), []
    refine takes_left (takes_left ?_)
    simpa using takes_add (takes_add
      (takes_none (a := verbalizeField t!"hour" (some (hourG c.fullToHalf)) + (del t!" ").ques + Wfst.insert t!"時"))
      (takes_add (takes_field hm tm) (takes_insert (s := t!"分"))))
      (takes_none (a := (del t!" ").ques + verbalizeField t!"second" (some (secondG c.fullToHalf)) + Wfst.insert t!"秒"))
  · rename_i m hm tm h hh th
    refine ⟨(t!"hour", h), [(t!"minute", m)], by simp [fieldT], ?_⟩
    sorted_by [t!"hour", t!"minute", t!"second", t!"noon", t!"zone"], [t!"hour", t!"minute"],
      (t!"hour", h), [(t!"minute", m)]
    refine takes_left (takes_left ?_)
    simpa using takes_add (takes_add
      (takes_some (takes_add (takes_add (takes_field hh th) (takes_some (takes_del (s := t!" ")))) (takes_insert (s := t!"時"))))
      (takes_add (takes_field hm tm) (takes_insert (s := t!"分"))))
      (takes_none (a := (del t!" ").ques + verbalizeField t!"second" (some (secondG c.fullToHalf)) + Wfst.insert t!"秒"))
  · rename_i m hm tm s hs ts
    refine ⟨(t!"minute", m), [(t!"second", s)], by simp [fieldT], ?_⟩
    sorted_by [t!"hour", t!"minute", t!"second", t!"noon", t!"zone"], [t!"minute", t!"second"],
      (t!"minute", m), [(t!"second", s)]
    refine takes_left (takes_left ?_)
    simpa using takes_add (takes_add
      (takes_none (a := verbalizeField t!"hour" (some (hourG c.fullToHalf)) + (del t!" ").ques + Wfst.insert t!"時"))
      (takes_add (takes_field hm tm) (takes_insert (s := t!"分"))))
      (takes_some (takes_add (takes_add (takes_some (takes_del (s := t!" "))) (takes_field hs ts)) (takes_insert (s := t!"秒"))))
  · rename_i m hm tm s h hs ts hh th
    refine ⟨(t!"hour", h), [(t!"minute", m), (t!"second", s)], by simp [fieldT], ?_⟩
    sorted_by [t!"hour", t!"minute", t!"second", t!"noon", t!"zone"], [t!"hour", t!"minute", t!"second"],
      (t!"hour", h), [(t!"minute", m), (t!"second", s)]
    refine takes_left (takes_left ?_)
    simpa using takes_add (takes_add
      (takes_some (takes_add (takes_add (takes_field hh th) (takes_some (takes_del (s := t!" ")))) (takes_insert (s := t!"時"))))
      (takes_add (takes_field hm tm) (takes_insert (s := t!"分"))))
      (takes_some (takes_add (takes_add (takes_some (takes_del (s := t!" "))) (takes_field hs ts)) (takes_insert (s := t!"秒"))))

/-- A token with one field and a few spaces around it. -/
theorem written_one {v : G} {n k u s₁ s₂ : Str} (hn : IsName n) (hk : IsName k) (h1 : Spaces s₁)
    (h2 : Spaces s₂) (h : Good tokenOrders v ⟨n, [(k, u)]⟩) (b : Str)
    (hb : b = n ++ t!" { " ++ s₁ ++ k ++ t!": \"" ++ esc u ++ t!"\"" ++ s₂ ++ t!"}") :
    Written tokenOrders v b ⟨n, [(k, u)]⟩ := by
  subst hb
  refine ⟨block_one hn hk h1 h2, ?_, h⟩
  intro r
  have hsp : ∀ s : Str, Spaces s → ∀ c ∈ s, c ≠ '\\' := by
    rintro s hs c hc rfl
    have := hs _ hc
    revert this; decide
  simp only [List.append_assoc]
  rw [clean_append (name_clean hn), clean_append (by decide), clean_append (hsp _ h1),
    clean_append (name_clean hk), clean_append (by decide), clean_esc_append, clean_append (by decide),
    clean_append (hsp _ h2), clean_append (by decide)]

theorem utters_time (c : Config) : Utters tokenOrders (verbalizerU c) (timeRule c.fullToHalf).tagger := by
  rintro t ⟨x, w, hd⟩
  obtain ⟨m, rfl, hm⟩ := den_addTokens.1 hd
  rcases hm with (hm | hm) | hm
  · exact utters_times c _ ⟨x, w, den_addTokens.2 ⟨m, rfl, hm⟩⟩
  · obtain ⟨m', rfl, hm'⟩ := den_add_insert.1 hm
    obtain ⟨h, rfl, hh, th⟩ := gives_tagField.1 ⟨x, w, hm'⟩
    refine ⟨[t!"time { " ++ fieldT (t!"hour", h) ++ t!"  }"], [⟨t!"time", [(t!"hour", h)]⟩], by simp,
      by simp [spacedB], .cons (written_one (s₁ := []) (s₂ := t!"  ") (by decide) (by decide)
        (by simp [Spaces]) (by simp [Spaces]) (Good.mono (v := (timeRule c.fullToHalf).verbalizer) ?_
          (takes_rule c (s := ⟨timeRule c.fullToHalf, some 104000, true⟩) (by simp [rules]) rfl)) _
        (by simp [fieldT])) .nil⟩
    sorted_by [t!"hour", t!"minute", t!"second", t!"noon", t!"zone"], [t!"hour"], (t!"hour", h), []
    refine takes_right ?_
    simpa using takes_add (takes_add (takes_field hh th) (takes_none (a := del t!" ")))
      (takes_insert (s := t!"時"))
  · obtain ⟨m', rfl, hm'⟩ := den_insert_add.1 hm
    obtain ⟨s, rfl, hs, ts⟩ := gives_tagField.1 ⟨x, w, hm'⟩
    refine ⟨[t!"time {  " ++ fieldT (t!"second", s) ++ t!" }"], [⟨t!"time", [(t!"second", s)]⟩], by simp,
      by simp [spacedB], .cons (written_one (s₁ := t!" ") (s₂ := t!" ") (by decide) (by decide)
        (by simp [Spaces]) (by simp [Spaces]) (Good.mono (v := (timeRule c.fullToHalf).verbalizer) ?_
          (takes_rule c (s := ⟨timeRule c.fullToHalf, some 104000, true⟩) (by simp [rules]) rfl)) _
        (by simp [fieldT])) .nil⟩
    sorted_by [t!"hour", t!"minute", t!"second", t!"noon", t!"zone"], [t!"second"], (t!"second", s), []
    refine takes_left (takes_right ?_)
    simpa using takes_add (takes_add (takes_none (a := del t!" ")) (takes_field hs ts))
      (takes_insert (s := t!"秒"))

theorem utters (c : Config) : Utters tokenOrders (verbalizerU c) (taggerU c) := by
  refine utters_union (taggerUnion_eq c) ?_
  intro s hs hk
  simp only [rules, List.mem_cons, List.not_mem_nil, or_false] at hs
  rcases hs with rfl | rfl | rfl | rfl | rfl | rfl | rfl | rfl | rfl | rfl
  · exact utters_cardinal c
  · exact utters_charRule c
  · exact utters_date c
  · exact utters_fraction c
  · exact utters_math c
  · exact utters_measure c
  · exact utters_money c
  · exact utters_ordinal c
  · exact utters_time c
  · exact utters_whitelist c

theorem repeatFree : Verif.Token.RepeatFree tokenOrders := Verif.Token.builtin_repeatFree _ (by decide)

theorem nul_verbalizer (c : Config) : (mustC ['\x00'] (.star (verbalizerU c))).2 = true := by
  obtain ⟨b0, b1, b2, b3⟩ := c
  revert b0 b1 b2 b3
  decide +kernel

end Verif.JaItn
