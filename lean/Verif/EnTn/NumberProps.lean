import Verif.EnTn.Ordinal

/-
Properties C74, C75 and C76: what English TN says for integers and for ordinal numbers.
-/

namespace Verif.EnTn

open Verif.Wfst
open Spec
open Verif.EnItn.Spec (value english ordinalName ordinalEnding)
open Verif.Token.Spec (esc)

/-! ### C74: names -/

/-- **C74.** The integer grammar reads exactly the numbers below 10^15, written with or without commas between
groups of three digits, and says exactly the English name of the number. -/
theorem C74_names (x y : Str) (w : W) : cardinal.den x y w ↔
    ∃ n, n < 10 ^ 15 ∧ Numeral x n ∧ y = english false n ∧ w = 0 := cardinal_iff

example : Numeral t!"1234567" 1234567 ∧ Numeral t!"1,234,567" 1234567 ∧
    english false 1234567 = t!"one million two hundred thirty four thousand five hundred sixty seven" := by
  refine ⟨.inl (by decide +kernel), .inr ⟨t!"1", [t!"234", t!"567"], by decide, by decide, ?_, by decide, by decide +kernel⟩,
    by decide +kernel⟩
  simp only [List.mem_cons, List.not_mem_nil, or_false]
  rintro h (rfl | rfl) <;> exact ⟨rfl, by decide⟩
example : (cardinal.outputs t!"1,234,567").map (·.1) =
    [t!"one million two hundred thirty four thousand five hundred sixty seven"] := by decide +kernel
example : cardinal.outputs t!"1,23" = [] ∧ cardinal.outputs t!"007" = [] := by decide +kernel

/-- **C74.** English ITN turns the name back into the digits, and into nothing else. -/
theorem C74_roundTrip (x y : Str) (w : W) (h : cardinal.den x y w) :
    ∃ n, Numeral x n ∧ ∀ z, (∃ v, EnItn.cardinal.den y z v) ↔ z = Nat.toDigits 10 n := by
  obtain ⟨n, h1, h2, rfl, -⟩ := cardinal_iff.1 h
  exact ⟨n, h2, EnItn.C58_names false n (h1.trans (by decide))⟩

example : (cardinal.outputs t!"30,017").map (·.1) = [t!"thirty thousand seventeen"] ∧
    (EnItn.cardinal.outputs t!"thirty thousand seventeen").map (·.1) = [t!"30017"] := by decide +kernel

/-! ### C75: what is said for an integer -/

/-- **C75.** Whatever the cardinal grammar says for a text is a reading of it: its name, with at most one
"and" put in, its digits, its leading zeros and then its name, and "a" for a first "one". -/
theorem C75_readings (x y : Str) (w : W) (h : finalGraph.den x y w) : Reads x y := final_reads h

/-- **C75.** The name of a number below 10^15 is among its readings. -/
theorem C75_name (x : Str) (n : Nat) (h : n < 10 ^ 15) (hx : Numeral x n) : finalGraph.den x (english false n) 1 :=
  final_name h hx

/-- **C75.** Putting in "and" does not change the number that is named. -/
theorem C75_value (n : Nat) (h : n < 10 ^ 15) (y : Str) (hy : AndIn (english false n) y) : value y = some n :=
  value_of_and h hy

example : (finalGraph.outputs t!"1,250").map (·.1) ≠ [] ∧ value t!"one thousand two hundred and fifty" = some 1250 ∧
    AndIn (english false 1250) t!"one thousand two hundred and fifty" := by
  refine ⟨by decide +kernel, by decide +kernel, .inr ⟨t!"one thousand two hundred", t!"fifty", .inl (by decide), by decide +kernel, by decide⟩⟩
example : ∀ y ∈ [t!"zero zero seven", t!"oh oh seven"], y ∈ (finalGraph.outputs t!"007").map (·.1) := by decide +kernel
example : Reads t!"123" t!"one twenty three" := .named (.short (n := 123) (by decide) (by decide) (by decide) (by decide))

theorem reads_chars {x y : Str} (h : Reads x y) : Grouped x := by
  have num : ∀ {x n}, Numeral x n → Grouped x := by
    rintro x n (rfl | ⟨g, gs, -, -, h3, rfl, h5⟩)
    · exact grouped_digits (digs_toDigits n).1
    · intro c hc
      rcases List.mem_append.1 hc with hc | hc
      · exact .inl ((digs_toDigits n).1 c (by rw [← h5]; simp [hc]))
      · obtain ⟨l, hl, hc⟩ := List.mem_flatMap.1 hc
        rcases List.mem_cons.1 hc with rfl | hc
        · exact .inr rfl
        · exact .inl ((h3 l hl).2 c hc)
  have named : ∀ {x y}, Named x y → Grouped x := by
    intro x y h
    cases h with
    | name _ h _ => exact num h
    | short _ _ _ _ => exact grouped_digits (digs_toDigits _).1
  have digit : ∀ {c w}, SaysDigit c w → c.isDigit = true := by
    intro c w h
    cases h with
    | zero => rfl
    | oh => rfl
    | unit _ h => exact digitChar_isDigit _ h
  have all : ∀ {x : Str} {ws : List Str}, List.Forall₂ SaysDigit x ws → ∀ c ∈ x, c.isDigit = true := by
    intro x ws h
    induction h with
    | nil => simp
    | cons h _ ih => simpa using ⟨digit h, ih⟩
  induction h with
  | named h => exact named h
  | spelled h =>
    obtain ⟨-, ws, h, -⟩ := h
    intro c hc
    by_cases hc' : c = ','
    · exact .inr hc'
    · exact .inl (all h c (List.mem_filter.2 ⟨hc, by simpa using hc'⟩))
  | zeros h0 _ hx _ =>
    refine grouped_digits fun c hc => ?_
    rcases List.mem_append.1 hc with hc | hc
    · rw [h0 c hc]; rfl
    · exact hx c hc
  | aHundred _ ih => exact ih
  | thousand _ ih => exact ih
  | aMillion _ ih => exact ih

theorem grouped_esc {x : Str} (h : Grouped x) : esc x = x := by
  refine esc_plain fun c hc => ?_
  rcases h c hc with h | rfl
  · constructor <;> rintro rfl <;> exact absurd h (by decide)
  · decide

theorem grouped_vtext {x : Str} (h : Grouped x) : VText x := by
  intro c hc
  simp only [vchar, bne_iff_ne, ne_eq]
  rintro rfl
  rcases h _ hc with h | h <;> exact absurd h (by decide)

theorem den_signs {x y : Str} {w : W} (h : ((crossS t!"negative: \"-\"" t!"minus " |||
    G.wt (crossS t!"negative: \"-\"" t!"negative ") (-10)) ||| crossS t!"negative: \"-\"" t!"dash ").den x y w) :
    x = t!"negative: \"-\"" ∧ y ∈ [t!"minus ", t!"negative ", t!"dash "] := by
  rcases h with (h | ⟨w0, h, -⟩) | h <;> obtain ⟨rfl, rfl, -⟩ := den_crossS.1 h <;> simp

theorem den_minusField {x y : Str} {w : W} : minusField.den x y w ↔
    w = 0 ∧ (x = [] ∧ y = [] ∨ x = t!"-" ∧ y = t!"negative: \"-\" ") := by
  unfold minusField
  rw [den_ques, isp, den_add_insert]
  constructor
  · rintro (⟨rfl, rfl, rfl⟩ | ⟨y', rfl, h⟩)
    · exact ⟨rfl, .inl ⟨rfl, rfl⟩⟩
    · obtain ⟨rfl, -, z, h⟩ := den_tagField.1 h
      obtain ⟨rfl, -, rfl⟩ := den_crossS.1 h
      exact ⟨rfl, .inr ⟨rfl, by decide⟩⟩
  · rintro ⟨rfl, ⟨rfl, rfl⟩ | ⟨rfl, rfl⟩⟩
    · exact .inl ⟨rfl, rfl, rfl⟩
    · exact .inr ⟨t!"negative: \"-\"", rfl, den_tagField.2 ⟨by decide, by decide, _, den_crossS.2 ⟨rfl, rfl, rfl⟩⟩⟩

/-- **C75.** The cardinal rule end to end: what its verbalizer says for its own tagging of a text is the sign
and a reading of the number. -/
theorem C75_rule (x t z : Str) (w w' : W) (h : cardinalRule.tagger.den x t w) (h' : cardinalRule.verbalizer.den t z w') :
    ∃ s d s' y, x = s ++ d ∧ SaysSign s s' ∧ Reads d y ∧ z = s' ++ y := by
  obtain ⟨b, rfl, h1⟩ := den_addTokens.1 h
  have h2 := den_tokens.1 h'
  obtain ⟨s, b1, w1, d, b2, w2, h3, h4, rfl, rfl, rfl⟩ := h1
  obtain ⟨rfl, -, y0, h5⟩ := den_tagField.1 h4
  rw [grouped_esc (reads_chars (final_reads h5))] at h2
  obtain ⟨rfl, hs⟩ := den_minusField.1 h3
  clear h3
  obtain ⟨c1, z1, v1, c2, z2, v2, k1, k2, e, rfl, -⟩ := h2
  obtain ⟨c3, rfl, k3⟩ := den_del_add.1 k2
  obtain ⟨sp, d', hsp, rfl, k4⟩ := den_quoted.1 k3
  have fin : ∀ {sp' : Str}, (∀ c ∈ sp', isSpace c = true) → sp' ++ 'i' :: (t!"nteger: \"" ++ d ++ t!"\"") =
      'i' :: (t!"nteger:" ++ (sp ++ '"' :: d' ++ ['"'])) → d = d' := by
    intro sp' h e
    obtain ⟨-, e'⟩ := spaces_then (b := []) h (by simp) (by decide) e
    have e'' : [' '] ++ '"' :: (d ++ ['"']) = sp ++ '"' :: (d' ++ ['"']) := by simpa using e'
    exact List.append_cancel_right (spaces_then (by simp [isSpace]) hsp (by decide) e'').2
  rcases k1 with ⟨rfl, rfl, -⟩ | ⟨c4, z4, v4, c5, z5, v5, k5, k6, rfl, rfl, -⟩
  · rcases hs with ⟨rfl, rfl⟩ | ⟨rfl, rfl⟩
    · have := fin (sp' := []) (by simp) (by simpa using e)
      subst this
      exact ⟨[], d, [], z2, by simp, .inl ⟨rfl, rfl⟩, final_reads k4, by simp⟩
    · exact absurd (congrArg List.head? e) (by simp)
  · obtain ⟨rfl, k7⟩ := den_signs k5
    obtain ⟨rfl, -, k8⟩ := den_spaces.1 k6
    rcases hs with ⟨rfl, rfl⟩ | ⟨rfl, rfl⟩
    · exact absurd (congrArg List.head? e) (by simp)
    · have e' : ' ' :: 'i' :: (t!"nteger: \"" ++ d ++ t!"\"") = c5 ++ 'i' :: (t!"nteger:" ++ (sp ++ '"' :: d' ++ ['"'])) := by
        simpa using e
      obtain ⟨rfl, e''⟩ := spaces_then (a := [' ']) (b := c5) (by simp [isSpace]) k8 (by decide) e'
      have := fin (sp' := []) (by simp) (by simpa using e'')
      subst this
      exact ⟨t!"-", d, z4, z2, rfl, .inr ⟨rfl, k7⟩, final_reads k4, by simp⟩

/-- **C75.** The rule says the name of every number below 10^15, with "minus" for a sign before it. -/
theorem C75_rule_name (s s' x : Str) (n : Nat) (h : n < 10 ^ 15) (hx : Numeral x n) (hs : SaysSign s s') :
    ∃ t w w', cardinalRule.tagger.den (s ++ x) t w ∧ cardinalRule.verbalizer.den t (s' ++ english false n) w' := by
  have hf := final_name h hx
  have hg := reads_chars (final_reads hf)
  have tag : (tagField t!"integer" finalGraph).den x (t!"integer: \"" ++ x ++ t!"\"") 1 :=
    den_tagField.2 ⟨by rw [grouped_esc hg]; rfl, grouped_vtext hg, _, hf⟩
  have verb : (del t!"integer:" + cardinalValue).den (t!"integer: \"" ++ x ++ t!"\"") (english false n) 1 :=
    den_del_add.2 ⟨t!" \"" ++ x ++ t!"\"", by simp, den_quoted.2 ⟨t!" ", x, by simp [isSpace], by simp, hf⟩⟩
  rcases hs with ⟨rfl, rfl⟩ | ⟨rfl, hs⟩
  · refine ⟨_, 1, 1, den_addTokens.2 ⟨_, rfl, [], [], 0, _, _, 1, den_minusField.2 ⟨rfl, .inl ⟨rfl, rfl⟩⟩, tag, rfl, rfl, rfl⟩,
      den_tokens.2 ⟨[], [], 0, _, _, 1, .inl ⟨rfl, rfl, rfl⟩, verb, rfl, rfl, rfl⟩⟩
  · obtain ⟨v, hv⟩ : ∃ v, ((crossS t!"negative: \"-\"" t!"minus " |||
        G.wt (crossS t!"negative: \"-\"" t!"negative ") (-10)) ||| crossS t!"negative: \"-\"" t!"dash ").den t!"negative: \"-\"" s' v := by
      simp only [List.mem_cons, List.not_mem_nil, or_false] at hs
      rcases hs with rfl | rfl | rfl
      · exact ⟨0, .inl (.inl (den_crossS.2 ⟨rfl, rfl, rfl⟩))⟩
      · exact ⟨-10, .inl (.inr ⟨0, den_crossS.2 ⟨rfl, rfl, rfl⟩, rfl⟩)⟩
      · exact ⟨0, .inr (den_crossS.2 ⟨rfl, rfl, rfl⟩)⟩
    refine ⟨_, 1, v + 1, den_addTokens.2 ⟨_, rfl, t!"-", t!"negative: \"-\" ", 0, _, _, 1,
      den_minusField.2 ⟨rfl, .inr ⟨rfl, rfl⟩⟩, tag, rfl, rfl, rfl⟩,
      den_tokens.2 ⟨t!"negative: \"-\" ", s', v, _, _, 1, .inr ⟨t!"negative: \"-\"", s', v, t!" ", [], 0, hv,
        den_spaces.2 ⟨rfl, rfl, by simp [isSpace]⟩, rfl, by simp, by simp⟩, verb, rfl, rfl, rfl⟩⟩

example : (cardinalRule.tagger.outputs t!"-30,017").map (·.1) ≠ [] ∧
    t!"minus thirty thousand seventeen" ∈
      (cardinalRule.verbalizer.outputs t!"cardinal { negative: \"-\" integer: \"30,017\" } ").map (·.1) := by decide +kernel

/-- **C75, a defect.** "and" is also put between "hundred" and "billion": for 100000000000 the grammar prefers
"one hundred and billion" to "one hundred billion". -/
theorem C75_and_before_billion : ∀ y w, finalGraph.den t!"100000000000" y w → w ≤ 0 →
    y = t!"one hundred and billion" ∨ y = t!"a hundred and billion" := by
  have key : ∀ e ∈ finalGraph.outputs t!"100000000000", e.2 ≤ 0 → e.1 = t!"one hundred and billion" ∨ e.1 = t!"a hundred and billion" := by
    decide +kernel
  intro y w h hw
  exact key (y, w) ((mem_outputs (by decide +kernel)).2 h) hw

example : (finalGraph.outputs t!"100000000000").filter (·.2 ≤ 0) ≠ [] := by decide +kernel

theorem final_or_a {x y : Str} {w : W} (h : finalGraph.den x y w) :
    (∃ m : Str, finalGraph1.den m y w ∧ (m = x ∨ (digitBut ['0'] + del t!"," + DIGIT.pow 3).den x m 0)) ∨
      ∃ r, y = t!"a hundred" ++ r ∨ y = t!"thousand" ++ r ∨ y = t!"a million" ++ r := by
  have two : ∀ {x y : Str} {w : W}, finalGraph2.den x y w → finalGraph1.den x y w ∨
      ∃ r, y = t!"a hundred" ++ r ∨ y = t!"thousand" ++ r ∨ y = t!"a million" ++ r := by
    rintro x y w (h | ⟨m, w1, w2, h1, ⟨x₁, y₁, w₁, r, _, w₂, h2, h3, rfl, rfl, -⟩, -⟩)
    · exact .inl h
    · right
      obtain ⟨rfl, -, -⟩ := den_VSIGMA.1 h3
      rcases h2 with (⟨w0, h2, -⟩ | ⟨w0, h2, -⟩) | ⟨w0, h2, -⟩ <;> obtain ⟨rfl, rfl, -⟩ := den_crossS.1 h2
      · exact ⟨_, .inl rfl⟩
      · exact ⟨_, .inr (.inl rfl)⟩
      · exact ⟨_, .inr (.inr rfl)⟩
  rcases h with h | ⟨m, w1, w2, h1, h2, rfl⟩
  · rcases two h with h | h
    · exact .inl ⟨x, h, .inl rfl⟩
    · exact .inr h
  · have hw : w1 = 0 := by
      obtain ⟨x₁, y₁, w₁, x₂, y₂, w₂, k1, k2, rfl, rfl, rfl⟩ := h1
      obtain ⟨x₃, rfl, k3⟩ := den_add_del.1 k1
      obtain ⟨c, -, -, rfl, rfl, rfl⟩ := but_iff.1 k3
      obtain ⟨rfl, -, -, rfl⟩ := pow_digit.1 k2
      rfl
    subst hw
    rw [Int.zero_add]
    rcases two h2 with h | h
    · exact .inl ⟨m, h, .inr h1⟩
    · exact .inr h

theorem vtext_reads {x y : Str} (h : Reads x y) : VText y := by
  have units : ∀ d < 10, 0 < d → VText (EnItn.Spec.unitNames.getD (d - 1) []) := by decide +kernel
  have spelled : ∀ {x y}, Spelled x y → VText y := by
    rintro x y ⟨-, ws, h, rfl⟩
    refine EnItn.vtext_join' ?_
    induction h with
    | nil => simp
    | cons h _ ih =>
      intro w hw
      rcases List.mem_cons.1 hw with rfl | hw
      · cases h with
        | zero => decide
        | oh => decide
        | unit h1 h2 => exact units _ h2 h1
      · exact ih w hw
  have named : ∀ {x y}, Named x y → VText y := by
    intro x y h
    cases h with
    | name h1 _ h2 =>
      have := vtext_english h1
      rcases h2 with rfl | ⟨p, r, -, e, rfl⟩
      · exact this
      · rw [e] at this
        intro c hc
        simp only [List.mem_append] at hc
        rcases hc with (hc | hc) | hc
        · exact this c (by simp [hc])
        · exact (by decide : VText t!" and ") c hc
        · exact this c (by simp [hc])
    | short h1 h2 h3 h4 =>
      refine EnItn.vtext_join' fun w hw => ?_
      rcases List.mem_cons.1 hw with rfl | hw
      · exact units _ (by omega) (by omega)
      · exact (by decide +kernel : ∀ n < 100, 0 < n → ∀ w ∈ EnItn.Spec.below100 n, VText w) _ (by omega) (by omega) w hw
  have swap : ∀ {a b r : Str}, VText b → VText (a ++ r) → VText (b ++ r) := by
    intro a b r hb h c hc
    rcases List.mem_append.1 hc with hc | hc
    · exact hb c hc
    · exact h c (by simp [hc])
  induction h with
  | named h => exact named h
  | spelled h => exact spelled h
  | zeros _ h1 _ h2 =>
    intro c hc
    rcases List.mem_append.1 hc with hc | hc
    · exact spelled h1 c hc
    · rcases List.mem_cons.1 hc with rfl | hc
      · decide
      · exact named h2 c hc
  | aHundred _ ih => exact swap (by decide) ih
  | thousand _ ih => exact swap (by decide) ih
  | aMillion _ ih => exact swap (by decide) ih

/-- **C75, a defect.** A reading that begins with "one thousand" is never the cheapest: the one without "one"
costs less, so that 1250 is said "thousand two hundred fifty". -/
theorem C75_thousand (x r : Str) (w : W) (h : finalGraph.den x (t!"one thousand" ++ r) w) :
    finalGraph.den x (t!"thousand" ++ r) (w - 10) := by
  have hr : VText r := by
    have := vtext_reads (final_reads h)
    exact fun c hc => this c (by simp [hc])
  have step : ∀ {m : Str}, finalGraph1.den m (t!"one thousand" ++ r) w → finalGraph2.den m (t!"thousand" ++ r) (w - 10) := by
    intro m h
    refine .inr ⟨_, w, -10, h, ⟨t!"one thousand", t!"thousand", -10, r, r, 0, .inl (.inr ⟨0, den_crossS.2 ⟨rfl, rfl, rfl⟩, rfl⟩),
      den_VSIGMA.2 ⟨rfl, rfl, hr⟩, rfl, rfl, rfl⟩, Int.sub_eq_add_neg⟩
  rcases final_or_a h with ⟨m, h1, rfl | h2⟩ | ⟨r', e | e | e⟩
  · exact .inl (step h1)
  · exact .inr ⟨m, 0, w - 10, h2, step h1, (Int.zero_add _).symm⟩
  all_goals exact absurd (congrArg List.head? e) (by simp)

example : finalGraph.den t!"1250" (t!"one thousand" ++ t!" two hundred fifty") 1 :=
  C75_name t!"1250" 1250 (by decide) (.inl (by decide +kernel))

/-! ### C76: ordinal numbers -/

/-- **C76.** The ordinal grammar reads exactly the ordinal numbers below 10^15: a numeral and the ending that
belongs to the number, in small letters, capitals or superscript. -/
theorem C76_written (x y : Str) (w : W) : ordinal.den x y w ↔
    ∃ n, n < 10 ^ 15 ∧ OrdinalNumeral x n ∧ y = english false n ∧ w = 0 := ordinal_iff

example : t!"one thousand one hundred twelve" ∈ (ordinal.outputs t!"1,112th").map (·.1) ∧ ordinal.outputs t!"112nd" = [] ∧
    t!"twenty two" ∈ (ordinal.outputs t!"22ND").map (·.1) ∧ ordinal.outputs t!"11st" = [] := by decide +kernel
example : OrdinalNumeral t!"1,112th" 1112 := by
  refine ⟨t!"1,112", t!"th", .inr ⟨t!"1", [t!"112"], by decide, by decide, ?_, by decide, by decide +kernel⟩, by decide, by decide⟩
  simp only [List.mem_cons, List.not_mem_nil, or_false]
  rintro h rfl
  exact ⟨rfl, by decide⟩

theorem ordinal_chars {x : Str} {n : Nat} (h : n < 10 ^ 15) (hx : OrdinalNumeral x n) : VText x ∧ esc x = x := by
  obtain ⟨d, e, h1, h2, rfl⟩ := hx
  have hd := reads_chars (final_reads (final_name h h1))
  have he : ∀ f ∈ [t!"st", t!"nd", t!"rd", t!"th"], ∀ e ∈ endingForms f, ∀ c ∈ e, vchar c = true ∧ c ≠ '"' ∧ c ≠ '\\' := by
    decide +kernel
  have hf : ordinalEnding n ∈ [t!"st", t!"nd", t!"rd", t!"th"] := by
    unfold ordinalEnding
    split_ifs <;> simp
  have he := he _ hf e h2
  constructor
  · intro c hc
    rcases List.mem_append.1 hc with hc | hc
    · exact grouped_vtext hd c hc
    · exact (he c hc).1
  · refine esc_plain fun c hc => ?_
    rcases List.mem_append.1 hc with hc | hc
    · rcases hd c hc with h | rfl
      · constructor <;> rintro rfl <;> exact absurd h (by decide)
      · decide
    · exact (he c hc).2

/-- **C76.** The ordinal rule end to end: it says the ordinal name of the number, and nothing else. -/
theorem C76_rule (x z : Str) : (∃ t w w', ordinalRule.tagger.den x t w ∧ ordinalRule.verbalizer.den t z w') ↔
    ∃ n, n < 10 ^ 15 ∧ OrdinalNumeral x n ∧ z = ordinalName false n := by
  constructor
  · rintro ⟨t, w, w', h1, h2⟩
    obtain ⟨b, rfl, h3⟩ := den_addTokens.1 h1
    have h4 := den_tokens.1 h2
    obtain ⟨rfl, -, y0, h5⟩ := den_tagField.1 h3
    obtain ⟨n, hn, hx, rfl, -⟩ := ordinal_iff.1 h5
    rw [(ordinal_chars hn hx).2] at h4
    obtain ⟨m, w1, w2, h6, h7, -⟩ := h4
    have h6 := den_field.1 h6
    obtain ⟨n', hn', hx', rfl, -⟩ := ordinal_iff.1 h6
    exact ⟨n', hn', hx', ((suffix_iff (hn'.trans (by decide))).1 h7).1⟩
  · rintro ⟨n, hn, hx, rfl⟩
    obtain ⟨hv, he⟩ := ordinal_chars hn hx
    have h1 := ordinal_iff.2 ⟨n, hn, hx, rfl, rfl⟩
    exact ⟨_, 0, 0, den_addTokens.2 ⟨_, rfl, den_tagField.2 ⟨by rw [he], hv, _, h1⟩⟩,
      den_tokens.2 ⟨_, 0, 0, den_field.2 h1, (suffix_iff (hn.trans (by decide))).2 ⟨rfl, rfl⟩, rfl⟩⟩

/-- **C76.** English ITN turns what is said back into the digits and the ending. -/
theorem C76_roundTrip (x z : Str) (t : Str) (w w' : W) (h : ordinalRule.tagger.den x t w)
    (h' : ordinalRule.verbalizer.den t z w') :
    ∃ n, OrdinalNumeral x n ∧ ∀ u, (∃ t w w', EnItn.ordinalRule.tagger.den z t w ∧ EnItn.ordinalRule.verbalizer.den t u w') ↔
      u = Nat.toDigits 10 n ++ ordinalEnding n := by
  obtain ⟨n, h1, h2, rfl⟩ := (C76_rule x z).1 ⟨t, w, w', h, h'⟩
  exact ⟨n, h2, EnItn.C70_rule false n (h1.trans (by decide))⟩

example : (ordinalRule.tagger.outputs t!"1,023RD").map (·.1) = [t!"ordinal { integer: \"1,023RD\" } "] ∧
    (ordinalRule.verbalizer.outputs t!"ordinal { integer: \"1,023RD\" } ").map (·.1) = [t!"one thousand twenty third"] ∧
    (EnItn.ordinalRule.verbalizer.outputs t!"ordinal { integer: \"one thousand twenty third\" } ").map (·.1) = [t!"1023rd"] := by
  decide +kernel

end Verif.EnTn
