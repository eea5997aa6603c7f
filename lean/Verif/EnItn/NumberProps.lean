import Verif.EnItn.Ordinal
import Verif.Wfst.Props

/-
C58 and C70: the numbers and ordinals of the English inverse grammar. The values of number words, the
English names of numbers and the endings of ordinals are those of Spec.lean.
-/

namespace Verif.EnItn

open Verif.Wfst
open Verif.EnItn.Spec (value english ordinalName ordinalEnding)

/-- **C58.** Whatever the cardinal grammar writes for a phrase are the digits of the number the phrase
names, without leading zeros. -/
theorem C58_value (x y : Str) (w : W) (h : cardinal.den x y w) :
    ∃ n, value x = some n ∧ y = Nat.toDigits 10 n := cardinal_value h

example : (cardinal.outputs t!"one million two hundred and five").map (·.1) = [t!"1000205"] ∧
    value t!"one million two hundred and five" = some 1000205 := by decide +kernel
example : (cardinal.outputs t!"twenty one hundred").map (·.1) = [t!"2100"] := by decide +kernel

/-- **C58.** The English name of every number below 10²⁴, with or without "and" after "hundred", is
accepted, and its digits are the only thing written for it. -/
theorem C58_names (british : Bool) (n : Nat) (h : n < 10 ^ 24) (y : Str) :
    (∃ w, cardinal.den (english british n) y w) ↔ y = Nat.toDigits 10 n := by
  have key := cardinal_accepts british h
  constructor
  · rintro ⟨w, hw⟩
    obtain ⟨w', hw'⟩ := key
    obtain ⟨a, h1, rfl⟩ := cardinal_value hw
    obtain ⟨b, h2, h3⟩ := cardinal_value hw'
    rw [h1] at h2
    rw [h3, Option.some.inj h2]
  · rintro rfl; exact key

example : english true 12000000345 = t!"twelve billion three hundred and forty five" := by decide +kernel
example : (cardinal.outputs t!"twelve billion three hundred and forty five").map (·.1) = [t!"12000000345"] := by
  decide +kernel

theorem esc_injective {s t : Str} (h : Token.Spec.esc s = Token.Spec.esc t) : s = t := by
  rw [← Verif.Token.C02_escape_spec, ← Verif.Token.C02_escape_spec] at h
  exact Verif.Token.C02_escape_injective h

theorem den_DELETE_SPACE {x y : Str} {w : W} (h : DELETE_SPACE.den x y w) : y = [] ∧ ∀ c ∈ x, isSpace c = true := by
  induction (show Star (delete (.cls isSpace)).den x y w from h) with
  | nil => exact ⟨rfl, by simp⟩
  | cons h1 h2 ih =>
    obtain ⟨rfl, c, hc, rfl, -, -⟩ := h1
    obtain ⟨rfl, ih'⟩ := ih h2
    refine ⟨rfl, fun d hd => ?_⟩
    rcases List.mem_cons.1 hd with rfl | hd
    · exact hc
    · exact ih' d hd

/-- A spoken sign and what is written for it. -/
def Sign (s t : Str) : Prop := s = [] ∧ t = [] ∨ (s = t!"minus " ∨ s = t!"negative ") ∧ t = t!"-"

/-- **C58.** The cardinal rule end to end: what its verbalizer writes for its own tagging of a text is
the sign and the digits of the number the text names; the words zero to twelve are left alone. -/
theorem C58_rule (x t z : Str) (w w' : W) (h : cardinalRule.tagger.den x t w) (h' : cardinalRule.verbalizer.den t z w') :
    ∃ s s' x' n, x = s ++ x' ∧ Sign s s' ∧ value x' = some n ∧ z = s' ++ Nat.toDigits 10 n ∧
      x' ∉ t!"zero" :: ones.tail.take 12 := by
  obtain ⟨b, rfl, h1⟩ := den_addTokens.1 h
  obtain ⟨b', sp, hsp, hb, h2⟩ := den_deleteTokens.1 h'
  have hbb : b' = b := by
    rcases hsp with rfl | rfl
    · exfalso
      rw [List.append_nil] at hb
      have := congrArg List.reverse hb
      simp at this
    · simpa using hb.symm
  subst hbb
  have hint : ∀ {x' z : Str} {w : W}, integer.den x' z w →
      ∃ n, value x' = some n ∧ z = Nat.toDigits 10 n ∧ x' ∉ t!"zero" :: ones.tail.take 12 := by
    rintro x' z w ⟨m, w1, w2, ⟨rfl, h3, h4⟩, h5, rfl⟩
    obtain ⟨n, h6, h7⟩ := cardinal_value h5
    refine ⟨n, h6, h7, fun hx => h4 ?_⟩
    have key : ∀ x ∈ t!"zero" :: ones.tail.take 12, (exception.outputs x) ≠ [] := by decide +kernel
    obtain ⟨⟨y, w⟩, l, hl⟩ := List.exists_cons_of_ne_nil (key m hx)
    exact ⟨y, w, (mem_outputs (g := exception) (by decide +kernel)).1 (by rw [hl]; simp)⟩
  have hneg : ∀ {x' z : Str} {w : W}, negative.den x' z w → (x' = t!"minus" ∨ x' = t!"negative") ∧ z = t!"-" := by
    rintro x' z w (h | h)
    · obtain ⟨rfl, rfl, -⟩ := den_crossS.1 h; exact ⟨Or.inl rfl, rfl⟩
    · obtain ⟨rfl, rfl, -⟩ := den_crossS.1 h; exact ⟨Or.inr rfl, rfl⟩
  obtain ⟨x1, b1, w1, x2, b2, w2, t1, t2, rfl, rfl, rfl⟩ := h1
  obtain ⟨y1, z1, v1, y2, z2, v2, u1, u2, hy, rfl, rfl⟩ := h2
  obtain ⟨rfl, hv2, -, -⟩ := den_tagField.1 t2
  obtain ⟨m2, rfl, d2⟩ := den_verbalizeField.1 u2
  obtain ⟨e2, rfl, hve2, i2⟩ := den_decoded_some.1 d2
  rcases t1 with ⟨rfl, rfl, -⟩ | t1
  · rcases u1 with ⟨rfl, rfl, -⟩ | u1
    · have e : x2 = e2 := esc_injective (by simpa using hy)
      subst e
      obtain ⟨n, h3, h4, h5⟩ := hint i2
      exact ⟨[], [], x2, n, rfl, Or.inl ⟨rfl, rfl⟩, h3, h4, h5⟩
    · exfalso
      obtain ⟨y3, z3, v3, y4, z4, v4, u3, u4, rfl, rfl, rfl⟩ := u1
      obtain ⟨m1, rfl, -⟩ := den_verbalizeField.1 u3
      have := congrArg List.head? hy
      simp at this
  · obtain ⟨x3, b3, w3, x4, b4, w4, t3, t4, rfl, rfl, rfl⟩ := t1
    obtain ⟨x5, b5, w5, x6, b6, w6, t5, t6, rfl, rfl, rfl⟩ := t3
    obtain ⟨rfl, rfl, rfl⟩ := den_insert.1 t4
    obtain ⟨rfl, rfl, rfl⟩ := den_ds.1 t6
    obtain ⟨rfl, hv5, q, t7⟩ := den_tagField.1 t5
    obtain ⟨n5, rfl⟩ := hneg t7
    rcases u1 with ⟨rfl, rfl, -⟩ | u1
    · exfalso
      have := congrArg List.head? hy
      simp at this
    · obtain ⟨y3, z3, v3, y4, z4, v4, u3, u4, rfl, rfl, rfl⟩ := u1
      obtain ⟨m1, rfl, d1⟩ := den_verbalizeField.1 u3
      obtain ⟨e1, rfl, hve1, i1⟩ := den_decoded_some.1 d1
      obtain ⟨n1, rfl⟩ := hneg i1
      obtain ⟨rfl, hsp4⟩ := den_DELETE_SPACE u4
      have k4 : t!" " ++ (t!"integer" ++ t!": \"" ++ Token.Spec.esc x2 ++ t!"\"") =
          y4 ++ (t!"integer" ++ t!": \"" ++ Token.Spec.esc e2 ++ t!"\"") := by
        have em : Token.Spec.esc t!"minus" = t!"minus" := by decide
        have en : Token.Spec.esc t!"negative" = t!"negative" := by decide
        rcases n5 with rfl | rfl <;> rcases n1 with rfl | rfl <;> simp [em, en] at hy ⊢ <;> exact hy
      have e : x2 = e2 := by
        cases y4 with
        | nil => simp at k4
        | cons c y4 =>
          cases y4 with
          | nil => exact esc_injective (by have := k4; simp at this; exact this.2)
          | cons d y4 =>
            exfalso
            have hd := hsp4 d (by simp)
            have : 'i' = d := by
              have := congrArg (fun l => l[1]?) k4
              simpa using this
            rw [← this] at hd
            exact absurd hd (by decide)
      subst e
      obtain ⟨n, h3, h4, h5⟩ := hint i2
      refine ⟨x5 ++ t!" ", t!"-", x2, n, by simp, Or.inr ⟨?_, rfl⟩, h3, ?_, h5⟩
      · rcases n5 with rfl | rfl
        · exact Or.inl rfl
        · exact Or.inr rfl
      · rw [h4]; simp

example : ((cardinalRule.tagger.outputs t!"minus twenty one").map (·.1)) =
      [t!"cardinal { negative: \"minus\" integer: \"twenty one\" } "] ∧
    (cardinalRule.verbalizer.outputs t!"cardinal { negative: \"minus\" integer: \"twenty one\" } ").map (·.1) = [t!"-21"] := by
  decide +kernel

/-- **C70.** The ordinal name of every number below 10²⁴ is read as that number and as no other. -/
theorem C70_names (british : Bool) (n : Nat) (h : n < 10 ^ 24) (y : Str) :
    (∃ w, ordinal.den (ordinalName british n) y w) ↔ y = Nat.toDigits 10 n :=
  (ordinalName_iff british h y).trans (C58_names british n h y)

/-- **C70.** The verbalizer writes the ending of the number after its digits: th for 11, 12, 13 and
whatever ends in them, st, nd, rd after the other 1, 2, 3, and th otherwise. -/
theorem C70_ending (n : Nat) (z : Str) :
    (∃ w, ordinalSuffix.den (Nat.toDigits 10 n) z w) ↔ z = Nat.toDigits 10 n ++ ordinalEnding n := by
  have hd := digs_toDigits n
  have hne : Nat.toDigits 10 n ≠ [] := Nat.toDigits_ne_nil
  constructor
  · rintro ⟨w, h⟩; exact suffix_sound hd hne h
  · rintro rfl; exact suffix_turns hd hne

/-- **C70.** The ordinal rule end to end: for the ordinal name of a number below 10²⁴ the only tagging is
one field with the name, and the verbalizer writes exactly the digits and the ending. -/
theorem C70_rule (british : Bool) (n : Nat) (h : n < 10 ^ 24) (z : Str) :
    (∃ t w w', ordinalRule.tagger.den (ordinalName british n) t w ∧ ordinalRule.verbalizer.den t z w') ↔
      z = Nat.toDigits 10 n ++ ordinalEnding n := by
  constructor
  · rintro ⟨t, w, w', h1, h2⟩
    obtain ⟨b, rfl, h3⟩ := den_addTokens.1 h1
    obtain ⟨b', sp, hsp, hb, h4⟩ := den_deleteTokens.1 h2
    have hbb : b' = b := by
      rcases hsp with rfl | rfl
      · exfalso
        rw [List.append_nil] at hb
        have := congrArg List.reverse hb
        simp at this
      · simpa using hb.symm
    subst hbb
    obtain ⟨rfl, hv, -⟩ := den_tagField.1 h3
    obtain ⟨m, w1, w2, h5, h6, -⟩ := h4
    have h7 := (verbalize_tagged t!"integer" ordinal _ m w1 hv).1 h5
    obtain rfl := (C70_names british n h m).1 ⟨w1, h7⟩
    exact (C70_ending n z).1 ⟨w2, h6⟩
  · intro hz
    obtain ⟨w2, h6⟩ := (C70_ending n z).2 hz
    obtain ⟨w1, h7⟩ := (C70_names british n h _).2 rfl
    have hv : VText (ordinalName british n) := by
      obtain ⟨u, s, t, h1, h2, h3, -⟩ := ordinal_den.1 h7
      rw [h2]
      intro c hc
      rcases List.mem_append.1 hc with hc | hc
      · exact h3 c hc
      · exact (by decide +kernel : ∀ p ∈ ordPairs, VText p.1) _ h1 c hc
    refine ⟨_, w1, w1 + w2, den_addTokens.2 ⟨_, rfl, den_tagField.2 ⟨rfl, hv, _, h7⟩⟩,
      den_deleteTokens.2 ⟨t!"integer" ++ t!": \"" ++ Token.Spec.esc (ordinalName british n) ++ t!"\"", t!" ", Or.inr rfl, by simp,
        ⟨_, w1, w2, (verbalize_tagged t!"integer" ordinal _ _ w1 hv).2 h7, h6, rfl⟩⟩⟩

example : ordinalName true 112 = t!"one hundred and twelfth" ∧ ordinalName false 1000023 = t!"one million twenty third" := by
  decide +kernel
example : (ordinalRule.verbalizer.outputs t!"ordinal { integer: \"one hundred and twelfth\" } ").map (·.1) = [t!"112th"] ∧
    (ordinalRule.verbalizer.outputs t!"ordinal { integer: \"twenty third\" } ").map (·.1) = [t!"23rd"] := by
  decide +kernel

end Verif.EnItn
