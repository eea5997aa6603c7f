import Verif.JaItn.Number
import Verif.JaTn.NumberProps

/-
C85: the Japanese inverse grammar writes the names of numbers back in digits.
-/

namespace Verif.JaItn

open Verif.Wfst
open Verif.JaItn.Spec
open Verif.JaTn.Spec (place full below big japanese digitName signs)

/-! ### With the units 万 and 億 -/

theorem den_unit_del {c : Char} (x y : Str) (w : W) : (del [c]).den x y w ↔ x = [c] ∧ y = [] ∧ w = 0 := den_del
theorem den_unit_lit {c : Char} (x y : Str) (w : W) : (G.lit [c]).den x y w ↔ x = [c] ∧ y = [c] ∧ w = 0 := Iff.rfl

theorem lo4_free {one : Bool} {n : Nat} (h : n < 10 ^ 4) {c : Char} (hc : c ∉ t!"一二三四五六七八九十百千") : c ∉ lo4 one n :=
  fun hm => hc (lo4_chars h c hm)

/-- A number below ten thousand or nothing. -/
theorem exactly_ques {g : G} {n : Nat} (h : n < 10 ^ 4) (hg : n ≠ 0 → Exactly g (lo4 false n) (Nat.toDigits 10 n)) (hn : Never g []) :
    Exactly g.ques (lo4 false n) (part [] n) := by
  intro y w
  rw [den_ques]
  by_cases h0 : n = 0
  · subst h0
    have e : lo4 false 0 = [] := by decide
    rw [e]
    constructor
    · rintro (⟨_, rfl, rfl⟩ | h)
      · exact ⟨rfl, rfl⟩
      · exact (hn _ _ h).elim
    · rintro ⟨rfl, rfl⟩; exact .inl ⟨rfl, rfl, rfl⟩
  · have e : part [] n = Nat.toDigits 10 n := by unfold part; rw [if_neg h0, List.append_nil]
    rw [e, hg h0]
    constructor
    · rintro (⟨e, _⟩ | h)
      · have := (hg h0 (Nat.toDigits 10 n) 0).2 ⟨rfl, rfl⟩
        rw [e] at this
        exact (hn _ _ this).elim
      · exact h
    · exact .inr

/-- The grammar of `ten_thousand_minus` reads no empty text. -/
theorem minus_nil : Never tenThousandMinus [] := never_run (by decide +kernel) (by decide +kernel)

/-- A number with 万. -/
theorem exactly_wan (m : Bool) {b c : Nat} (hb0 : b ≠ 0) (hb : b < 10 ^ 4) (hc : c < 10 ^ 4) :
    Exactly (tenThousand m) (lo4 true b ++ '万' :: lo4 false c) (digitsWith m (10 ^ 4 * b + c)) := by
  have hfree : '万' ∉ lo4 true b := lo4_free hb (by decide)
  cases m with
  | true =>
    have key := exactly_unit (s := del ['万']) (t := []) (a := (two ||| hundred) ||| thousand) (by decide +kernel) hfree den_unit_del
      (exactly_four (one := true) hb0 hb) (exactly_tail4 hc)
    have e : digitsWith true (10 ^ 4 * b + c) = Nat.toDigits 10 b ++ [] ++ pad 4 c := by
      unfold digitsWith
      rw [if_pos (.inr ⟨rfl, by omega⟩), List.append_nil, toDigits_pad (by omega) hc]
    rw [e]
    have heq : ∀ x y w, (thousand ||| hundred ||| teenG ||| tens ||| digits).den x y w ↔
        ((two ||| hundred) ||| thousand).den x y w := by
      intro x y w
      simp only [two, den_or]; tauto
    refine key.congr fun y w => ?_
    change ((thousand ||| hundred ||| teenG ||| tens ||| digits) + del ['万'] + tenThousandTail).den _ y w ↔ _
    constructor
    · rintro ⟨_, _, _, x₃, y₃, w₃, ⟨x₁, y₁, w₁, x₂, y₂, w₂, g1, g2, rfl, rfl, rfl⟩, g3, e, rfl, rfl⟩
      exact ⟨_, _, _, _, _, _, ⟨_, _, _, _, _, _, (heq _ _ _).1 g1, g2, rfl, rfl, rfl⟩, g3, e, rfl, rfl⟩
    · rintro ⟨_, _, _, x₃, y₃, w₃, ⟨x₁, y₁, w₁, x₂, y₂, w₂, g1, g2, rfl, rfl, rfl⟩, g3, e, rfl, rfl⟩
      exact ⟨_, _, _, _, _, _, ⟨_, _, _, _, _, _, (heq _ _ _).2 g1, g2, rfl, rfl, rfl⟩, g3, e, rfl, rfl⟩
  | false =>
    change Exactly ((two + del ['万'] + tenThousandTail) |||
      ((thousand ||| hundred) + .lit ['万'] + (thousand ||| hundred ||| tens ||| teenG ||| digits).ques)) _ _
    by_cases h1 : b < 100
    · have e : digitsWith false (10 ^ 4 * b + c) = Nat.toDigits 10 b ++ [] ++ pad 4 c := by
        unfold digitsWith
        rw [if_pos (.inl (by omega)), List.append_nil, toDigits_pad (by omega) hc]
      have e' : lo4 true b = lo2 b := by rw [lo4_small (by omega), lo3_small h1]
      rw [e, e']
      rw [e'] at hfree
      refine Exactly.left (exactly_unit (by decide +kernel) hfree den_unit_del (exactly_two hb0 h1) (exactly_tail4 hc)) ?_
      refine never_unit (by decide +kernel) hfree den_unit_lit ?_
      refine Never.or ?_ ?_
      · rw [← e']; exact never_thousand (by omega)
      · rw [← lo3_small h1]; exact never_hundred h1
    · have e : digitsWith false (10 ^ 4 * b + c) = Nat.toDigits 10 b ++ ['万'] ++ part [] c := by
        unfold digitsWith
        rw [if_neg (by simp; omega), show (10 ^ 4 * b + c) / 10 ^ 8 = 0 by omega, show (10 ^ 4 * b + c) / 10 ^ 4 % 10 ^ 4 = b by omega,
          show (10 ^ 4 * b + c) % 10 ^ 4 = c by omega]
        simp only [part, if_true, List.nil_append]
        rw [if_neg hb0]
      rw [e]
      refine Exactly.right (never_unit (t := []) (by decide +kernel) hfree den_unit_del ?_) ?_
      · by_cases h2 : b < 1000
        · rw [lo4_small h2]
          exact never_shuns (q := t!"百") (by decide +kernel) (mem_hundred (by omega)) (by simp)
        · exact never_shuns (q := t!"千") (by decide +kernel) (mem_thousand (by omega)) (by simp)
      · refine exactly_unit (by decide +kernel) hfree den_unit_lit ?_ (exactly_ques hc (fun h0 => ?_) ?_)
        · by_cases h2 : b < 1000
          · refine Exactly.right (never_thousand h2) ?_
            rw [lo4_small h2]
            exact exactly_hundred (by omega) h2
          · exact Exactly.left (exactly_thousand (by omega) hb)
              (never_shuns (q := t!"千") (by decide +kernel) (mem_thousand (by omega)) (by simp))
        · refine (exactly_four h0 hc).congr fun y w => ?_
          simp only [two, den_or]
          tauto
        · exact never_run (by decide +kernel) (by decide +kernel)

/-- What follows 億. -/
theorem exactly_bigTail {b c : Nat} (hb : b < 10 ^ 4) (hc : c < 10 ^ 4) :
    Exactly bigTail (big '万' b ++ lo4 false c) (part ['万'] b ++ part [] c) := by
  by_cases h0 : b = 0
  · subst h0
    have e1 : big '万' 0 = [] := rfl
    have e2 : part ['万'] 0 = [] := rfl
    rw [e1, e2, List.nil_append, List.nil_append]
    have hfree : '万' ∉ lo4 false c := lo4_free hc (by decide)
    have plain : ∀ x y w, '万' ∉ x → ((tenThousandMinus + (.lit t!"万" + tenThousandMinus.ques).ques).den x y w ↔ tenThousandMinus.den x y w) := by
      intro x y w hx
      constructor
      · rintro ⟨x₁, y₁, w₁, x₂, y₂, w₂, g1, g2, rfl, rfl, rfl⟩
        rcases den_ques.1 g2 with ⟨rfl, rfl, rfl⟩ | ⟨x₁', _, _, _, _, _, ⟨rfl, _⟩, _, rfl, _⟩
        · rw [List.append_nil, List.append_nil, show w₁ + (0 : W) = w₁ from Int.add_zero _]; exact g1
        · exact absurd hx (by simp)
      · intro g
        exact ⟨x, y, w, [], [], 0, g, .inl ⟨rfl, rfl, rfl⟩, by simp, by simp, (Int.add_zero _).symm⟩
    refine exactly_ques hc (fun h0 => (exactly_minus h0 hc).congr fun y w => plain _ y w hfree) ?_
    intro y w h
    exact minus_nil _ _ ((plain [] y w (by simp)).1 h)
  · have e1 : big '万' b ++ lo4 false c = lo4 true b ++ '万' :: lo4 false c := by
      unfold big; rw [if_neg h0, lo4_below hb]; simp
    have e2 : part ['万'] b ++ part [] c = Nat.toDigits 10 b ++ ['万'] ++ part [] c := by
      unfold part; rw [if_neg h0]
    rw [e1, e2]
    have hfree : '万' ∉ lo4 true b := lo4_free hb (by decide)
    have key := exactly_unit (s := G.lit ['万']) (t := ['万']) (a := tenThousandMinus) (by decide +kernel) hfree den_unit_lit
      (exactly_minus (one := true) h0 hb) (exactly_ques hc (fun h0 => exactly_minus h0 hc) minus_nil)
    intro y w
    rw [← key y w]
    constructor
    · intro h
      rcases den_ques.1 h with ⟨e, _⟩ | ⟨x₁, y₁, w₁, x₂, y₂, w₂, g1, g2, e, rfl, rfl⟩
      · simp at e
      · rcases den_ques.1 g2 with ⟨rfl, rfl, rfl⟩ | ⟨x₃, y₃, w₃, x₄, y₄, w₄, g3, g4, rfl, rfl, rfl⟩
        · exfalso
          have : '万' ∈ x₁ := by
            rw [List.append_nil] at e
            rw [← e]; simp
          exact shuns_den (q := t!"万") (by decide +kernel) g1 _ this (by simp)
        · exact ⟨_, _, _, _, _, _, ⟨_, _, _, _, _, _, g1, g3, rfl, rfl, rfl⟩, g4, by rw [e, List.append_assoc], by simp,
            (Int.add_assoc _ _ _).symm⟩
    · rintro ⟨_, _, _, x₃, y₃, w₃, ⟨x₁, y₁, w₁, x₂, y₂, w₂, g1, g2, rfl, rfl, rfl⟩, g3, e, rfl, rfl⟩
      exact .inr ⟨_, _, _, _, _, _, g1, .inr ⟨_, _, _, _, _, _, g2, g3, rfl, rfl, rfl⟩, by rw [e, List.append_assoc], by simp,
        Int.add_assoc _ _ _⟩

/-- `big_integer` without the sign. -/
def bigBody : G :=
  ((tenThousandMinus + .lit t!"兆").ques + tenThousandMinus + .lit t!"億" + bigTail) |||
    (tenThousandMinus + .lit t!"兆" + (tenThousandMinus + .lit t!"億").ques + bigTail)

theorem japanese_chars {n : Nat} (hn : n < 10 ^ 12) : ∀ c ∈ japanese n, c ∈ t!"〇一二三四五六七八九十百千万億" := by
  have up : ∀ c ∈ t!"一二三四五六七八九十百千", c ∈ t!"〇一二三四五六七八九十百千万億" := by decide
  have hb : ∀ {u : Char} {k : Nat}, k < 10 ^ 4 → u ∈ t!"〇一二三四五六七八九十百千万億" →
      ∀ c ∈ big u k, c ∈ t!"〇一二三四五六七八九十百千万億" := by
    intro u k hk hu c hc
    unfold big at hc
    split at hc
    · cases hc
    · rw [lo4_below hk] at hc
      rcases List.mem_append.1 hc with hc | hc
      · exact up c (lo4_chars hk c hc)
      · rwa [List.mem_singleton.1 hc]
  intro c hc
  unfold japanese at hc
  split at hc
  · rw [List.mem_singleton.1 hc]; decide
  · rcases List.mem_append.1 hc with hc | hc
    · rcases List.mem_append.1 hc with hc | hc
      · exact hb (by omega) (by decide) c hc
      · exact hb (by omega) (by decide) c hc
    · rw [lo4_below (by omega)] at hc
      exact up c (lo4_chars (by omega) c hc)

/-- Below a hundred million. -/
theorem exactly_positive (m : Bool) {n : Nat} (hn : n < 10 ^ 8) : Exactly (positiveInteger m) (japanese n) (digitsWith m n) := by
  unfold positiveInteger
  have hs : ∀ m, shuns t!"億" (tenThousand m) = true := by decide +kernel
  have hm : ∀ m, must t!"万" (tenThousand m) = true := by decide +kernel
  by_cases h0 : n = 0
  · subst h0
    have e : digitsWith m 0 = t!"0" := by unfold digitsWith; rw [if_pos (.inl (by decide))]; rfl
    rw [e]
    exact Exactly.left (exactly_run (by decide +kernel) (by decide +kernel)) (never_must (hm m) (by decide))
  · have e : japanese n = big '万' (n / 10 ^ 4) ++ lo4 false (n % 10 ^ 4) := by
      unfold japanese
      rw [if_neg h0, show n / 10 ^ 8 = 0 by omega, show n / 10 ^ 4 % 10 ^ 4 = n / 10 ^ 4 by omega, lo4_below (by omega)]
      rfl
    by_cases h1 : n / 10 ^ 4 = 0
    · have e' : digitsWith m n = Nat.toDigits 10 n := by unfold digitsWith; rw [if_pos (.inl (by omega))]
      rw [e, h1, e', show n % 10 ^ 4 = n by omega]
      refine Exactly.left (exactly_minus h0 (by omega)) (never_must (hm m) fun c hc hq => ?_)
      rw [List.mem_singleton.1 hq] at hc
      exact lo4_free (by omega) (by decide) hc
    · have e' : japanese n = lo4 true (n / 10 ^ 4) ++ '万' :: lo4 false (n % 10 ^ 4) := by
        rw [e]; unfold big; rw [if_neg h1, lo4_below (by omega)]; simp
      rw [e']
      have key := exactly_wan m h1 (b := n / 10 ^ 4) (c := n % 10 ^ 4) (by omega) (by omega)
      rw [Nat.div_add_mod] at key
      exact Exactly.right (never_shuns (q := t!"万") (c := '万') (by decide +kernel) (by simp) (by simp)) key

/-- The digits of 億 are in the name. -/
theorem japanese_yi {n : Nat} (h : 10 ^ 8 ≤ n) (hn : n < 10 ^ 12) :
    japanese n = lo4 true (n / 10 ^ 8) ++ '億' :: (big '万' (n / 10 ^ 4 % 10 ^ 4) ++ lo4 false (n % 10 ^ 4)) := by
  unfold japanese
  rw [if_neg (by omega), lo4_below (by omega)]
  have : big '億' (n / 10 ^ 8) = lo4 true (n / 10 ^ 8) ++ ['億'] := by
    unfold big; rw [if_neg (by omega), lo4_below (by omega)]
  rw [this]
  simp

/-- From a hundred million on. -/
theorem exactly_bigBody (m : Bool) {n : Nat} (h : 10 ^ 8 ≤ n) (hn : n < 10 ^ 12) : Exactly bigBody (japanese n) (digitsWith m n) := by
  have hz : ∀ c ∈ japanese n, c ∉ t!"兆" := by
    intro c hc hq
    have : ∀ c ∈ t!"〇一二三四五六七八九十百千万億", c ∉ t!"兆" := by decide
    exact this c (japanese_chars hn c hc) hq
  refine Exactly.left ?_ (never_must (q := t!"兆") (by decide +kernel) hz)
  have e : digitsWith m n = Nat.toDigits 10 (n / 10 ^ 8) ++ ['億'] ++ (part ['万'] (n / 10 ^ 4 % 10 ^ 4) ++ part [] (n % 10 ^ 4)) := by
    unfold digitsWith
    rw [if_neg (by rintro (h' | ⟨_, h'⟩) <;> omega)]
    have : part ['億'] (n / 10 ^ 8) = Nat.toDigits 10 (n / 10 ^ 8) ++ ['億'] := by unfold part; rw [if_neg (by omega)]
    rw [this, List.append_assoc]
  have key := exactly_unit (s := G.lit ['億']) (t := ['億']) (a := tenThousandMinus) (by decide +kernel)
    (lo4_free (one := true) (n := n / 10 ^ 8) (by omega) (by decide)) den_unit_lit
    (exactly_minus (one := true) (n := n / 10 ^ 8) (by omega) (by omega))
    (exactly_bigTail (b := n / 10 ^ 4 % 10 ^ 4) (c := n % 10 ^ 4) (by omega) (by omega))
  rw [← japanese_yi h hn, ← e] at key
  refine key.congr fun y w => ?_
  constructor
  · rintro ⟨_, _, _, x₄, y₄, w₄, ⟨_, _, _, x₃, y₃, w₃, ⟨x₁, y₁, w₁, x₂, y₂, w₂, g1, g2, rfl, rfl, rfl⟩, g3, rfl, rfl, rfl⟩, g4, ex, rfl, rfl⟩
    rcases den_ques.1 g1 with ⟨rfl, rfl, rfl⟩ | g1
    · exact ⟨_, _, _, _, _, _, ⟨_, _, _, _, _, _, g2, g3, rfl, rfl, rfl⟩, g4, by simpa using ex, by simp, by
        rw [show (0 : W) + w₂ = w₂ from Int.zero_add _]⟩
    · exfalso
      obtain ⟨_, _, _, _, _, _, _, ⟨rfl, _⟩, rfl, _⟩ := g1
      exact hz '兆' (by rw [ex]; simp) (by simp)
  · rintro ⟨_, _, _, x₃, y₃, w₃, ⟨x₁, y₁, w₁, x₂, y₂, w₂, g1, g2, rfl, rfl, rfl⟩, g3, ex, rfl, rfl⟩
    exact ⟨_, _, _, _, _, _, ⟨_, _, _, _, _, _, ⟨[], [], 0, _, _, _, .inl ⟨rfl, rfl, rfl⟩, g1, rfl, rfl, rfl⟩, g2, rfl, rfl, rfl⟩, g3,
      by simpa using ex, by simp, by rw [show (0 : W) + w₁ = w₁ from Int.zero_add _]⟩

/-- All numbers below 10^12 without a sign. -/
theorem exactly_body (m : Bool) {n : Nat} (hn : n < 10 ^ 12) :
    Exactly (positiveInteger m ||| bigBody) (japanese n) (digitsWith m n) := by
  by_cases h : n < 10 ^ 8
  · refine Exactly.left (exactly_positive m h) (never_must (q := t!"億兆") (by decide +kernel) ?_)
    intro c hc hq
    unfold japanese at hc
    split at hc
    · rw [List.mem_singleton.1 hc] at hq; exact absurd hq (by decide)
    · rw [show n / 10 ^ 8 = 0 by omega, lo4_below (n := n % 10 ^ 4) (by omega)] at hc
      have no : ∀ c ∈ t!"一二三四五六七八九十百千", c ∉ t!"億兆" := by decide
      simp only [big, if_true, List.nil_append] at hc
      split at hc
      · exact no c (lo4_chars (one := false) (n := n % 10 ^ 4) (by omega) c (by simpa using hc)) hq
      · rw [lo4_below (n := n / 10 ^ 4 % 10 ^ 4) (by omega)] at hc
        rcases List.mem_append.1 hc with hc | hc
        · rcases List.mem_append.1 hc with hc | hc
          · exact no c (lo4_chars (by omega) c hc) hq
          · rw [List.mem_singleton.1 hc] at hq; exact absurd hq (by decide)
        · exact no c (lo4_chars (by omega) c hc) hq
  · refine Exactly.right ?_ (exactly_bigBody m (by omega) hn)
    have : ∀ m, shuns t!"億" (positiveInteger m) = true := by decide +kernel
    exact never_shuns (this m) (c := '億') (by rw [japanese_yi (by omega) hn]; simp) (by simp)

/-! ### Signs -/

/-- The characters of the signs. -/
def signChars : Str := t!"プラスマイナ负の"

theorem split_class {q u v u' v' : Str} (hu : ∀ c ∈ u, c ∈ q) (hv : ∀ c ∈ v, c ∉ q) (hu' : ∀ c ∈ u', c ∈ q) (hv' : ∀ c ∈ v', c ∉ q)
    (h : u ++ v = u' ++ v') : u = u' ∧ v = v' := by
  induction u generalizing u' with
  | nil =>
    cases u' with
    | nil => exact ⟨rfl, h⟩
    | cons a u' =>
      rw [List.nil_append] at h
      exact absurd (hu' a (by simp)) (hv a (by rw [h]; simp))
  | cons a u ih =>
    cases u' with
    | nil =>
      rw [List.nil_append] at h
      exact absurd (hu a (by simp)) (hv' a (by rw [← h]; simp))
    | cons b u' =>
      obtain ⟨rfl, e⟩ := List.cons.inj h
      obtain ⟨rfl, rfl⟩ := ih (fun c hc => hu c (by simp [hc])) (fun c hc => hu' c (by simp [hc])) e
      exact ⟨rfl, rfl⟩

/-- A sign before a number. -/
theorem exactly_sign {g : G} (hg : shuns signChars g = true) {s t x y : Str} (hs : (s, t) ∈ signs) (hx : ∀ c ∈ x, c ∉ signChars)
    (h : Exactly g x y) : Exactly (signG.ques + g) (t ++ x) (s ++ y) := by
  have h1 : ∀ e ∈ signs, (∀ c ∈ e.2, c ∈ signChars) ∧ runsTo signG.ques e.2 e.1 = true := by decide +kernel
  have h2 : ∀ e ∈ sign, ∀ c ∈ e.1, c ∈ signChars := by decide
  have hsign : Exactly signG.ques t s := exactly_run (by decide +kernel) (h1 _ hs).2
  intro y' w
  constructor
  · rintro ⟨x₁, y₁, w₁, x₂, y₂, w₂, g1, g2, e, rfl, rfl⟩
    have hx1 : ∀ c ∈ x₁, c ∈ signChars := by
      rcases den_ques.1 g1 with ⟨rfl, _⟩ | g
      · intro c hc; cases hc
      · exact h2 _ (den_tab.1 g).1
    obtain ⟨rfl, rfl⟩ := split_class (h1 _ hs).1 hx hx1 (shuns_den hg g2) e
    obtain ⟨rfl, rfl⟩ := (hsign _ _).1 g1
    obtain ⟨rfl, rfl⟩ := (h _ _).1 g2
    exact ⟨rfl, rfl⟩
  · rintro ⟨rfl, rfl⟩
    exact ⟨_, _, _, _, _, _, (hsign s 0).2 ⟨rfl, rfl⟩, (h y 0).2 ⟨rfl, rfl⟩, rfl, rfl, rfl⟩

theorem japanese_unsigned {n : Nat} (hn : n < 10 ^ 12) : ∀ c ∈ japanese n, c ∉ signChars := by
  have : ∀ c ∈ t!"〇一二三四五六七八九十百千万億", c ∉ signChars := by decide
  exact fun c hc => this c (japanese_chars hn c hc)

/-- **C85.** The grammar of integers reads the Japanese name of every number below 10^12, with or without a sign, and
writes exactly one thing: the sign and the number in digits, from a million on (with `enable_million` from a hundred
million on) with the units 万 and 億. -/
theorem C85_integer (m : Bool) (n : Nat) (hn : n < 10 ^ 12) (s t : Str) (hs : (s, t) ∈ signs) (y : Str) (w : W) :
    (anyInteger m).den (t ++ japanese n) y w ↔ y = s ++ digitsWith m n ∧ w = 0 := by
  have hsh : ∀ m, shuns signChars (positiveInteger m ||| bigBody) = true := by decide +kernel
  rw [← exactly_sign (hsh m) hs (japanese_unsigned hn) (exactly_body m hn) y w]
  change ((signG.ques + positiveInteger m) ||| (signG.ques + bigBody)).den _ y w ↔ _
  constructor
  · rintro (⟨_, _, _, _, _, _, g1, g2, e⟩ | ⟨_, _, _, _, _, _, g1, g2, e⟩)
    · exact ⟨_, _, _, _, _, _, g1, .inl g2, e⟩
    · exact ⟨_, _, _, _, _, _, g1, .inr g2, e⟩
  · rintro ⟨_, _, _, _, _, _, g1, g2 | g2, e⟩
    · exact .inl ⟨_, _, _, _, _, _, g1, g2, e⟩
    · exact .inr ⟨_, _, _, _, _, _, g1, g2, e⟩

example : (t!"-", t!"マイナス") ∈ signs ∧ japanese 1020034 = t!"百二万三十四" ∧ digitsWith false 1020034 = t!"102万34" ∧
    digitsWith true 1020034 = t!"1020034" := by decide +kernel

/-! ### Decimals -/

theorem star_digits {es : List Nat} (he : ∀ d ∈ es, d < 10) {y : Str} {w : W} :
    Star digits.den (es.map digitName) y w ↔ y = es.map Nat.digitChar ∧ w = 0 := by
  have one : ∀ d < 10, runsTo digits [digitName d] [Nat.digitChar d] = true := by decide +kernel
  have ok : digits.ok = true := by decide +kernel
  induction es generalizing y w with
  | nil =>
    constructor
    · intro h
      generalize e : List.map digitName [] = x at h
      cases h with
      | nil => exact ⟨rfl, rfl⟩
      | cons h1 h2 =>
        exfalso
        obtain ⟨e1, _⟩ := List.append_eq_nil_iff.1 e.symm
        subst e1
        exact never_run ok (by decide +kernel) _ _ h1
    · rintro ⟨rfl, rfl⟩; exact .nil
  | cons d es ih =>
    have hd := exactly_run ok (one d (he d (by simp)))
    constructor
    · intro h
      generalize e : List.map digitName (d :: es) = x at h
      cases h with
      | nil => cases e
      | @cons x₁ y₁ w₁ x₂ y₂ w₂ h1 h2 =>
        have h3 : x₁ = [digitName d] := by
          have len : ∀ e ∈ zero ++ digit, e.1.length = 1 ∨ e.1.head? ∈ [some 'ゼ', some 'れ'] := by decide
          have hm : (x₁, y₁) ∈ zero ++ digit := by
            rcases h1 with h1 | h1
            · exact List.mem_append_left _ (den_tab.1 h1).1
            · exact List.mem_append_right _ (den_tab.1 h1).1
          have nk : ∀ d < 10, some (digitName d) ∉ [some 'ゼ', some 'れ'] := by decide
          cases x₁ with
          | nil => rcases len _ hm with h | h <;> simp at h
          | cons c x₁ =>
            have ec : c = digitName d := (List.cons.inj e).1.symm
            rcases len _ hm with h | h
            · cases x₁ with
              | nil => rw [ec]
              | cons => simp at h
            · rw [ec] at h
              exact absurd h (nk d (he d (by simp)))
        subst h3
        obtain ⟨rfl, rfl⟩ := (hd _ _).1 h1
        have e2 : x₂ = es.map digitName := by simpa using e.symm
        subst e2
        obtain ⟨rfl, rfl⟩ := (ih fun d hd => he d (by simp [hd])).1 h2
        exact ⟨rfl, rfl⟩
    · rintro ⟨rfl, rfl⟩
      exact Star.cons ((hd _ 0).2 ⟨rfl, rfl⟩) ((ih fun d hd => he d (by simp [hd])).2 ⟨rfl, rfl⟩)

theorem exactly_digits {es : List Nat} (hne : es ≠ []) (he : ∀ d ∈ es, d < 10) :
    Exactly digits.plus (es.map digitName) (es.map Nat.digitChar) := by
  intro y w
  rw [← star_digits he]
  constructor
  · rintro ⟨_, _, _, _, _, _, h1, h2, e1, e2, e3⟩
    rw [e1, e2, e3]
    exact Star.cons h1 h2
  · intro h
    generalize e : es.map digitName = x at h
    cases h with
    | nil => exact absurd (List.map_eq_nil_iff.1 e) hne
    | cons h1 h2 => exact ⟨_, _, _, _, _, _, h1, h2, rfl, rfl, rfl⟩

/-- **C85.** The grammar of decimals reads the name of every number below 10^8, with or without a sign, followed by 点
and the names of digits, and writes exactly one thing: the sign, the number, a point and the digits. -/
theorem C85_decimal (m : Bool) (n : Nat) (hn : n < 10 ^ 8) (es : List Nat) (hne : es ≠ []) (he : ∀ d ∈ es, d < 10) (s t : Str)
    (hs : (s, t) ∈ signs) (y : Str) (w : W) : (decimal m).den (t ++ japanese n ++ '点' :: es.map digitName) y w ↔
      y = s ++ digitsWith m n ++ '.' :: es.map Nat.digitChar ∧ w = 0 := by
  have hsh : ∀ m, shuns signChars (positiveInteger m) = true := by decide +kernel
  have hp : ∀ m, shuns t!"点" (signG.ques + positiveInteger m) = true := by decide +kernel
  have h1 := exactly_sign (hsh m) hs (japanese_unsigned (by omega)) (exactly_positive m hn)
  have hfree : '点' ∉ t ++ japanese n := by
    have ht : ∀ e ∈ signs, '点' ∉ e.2 := by decide
    have hj : '点' ∉ t!"〇一二三四五六七八九十百千万億" := by decide
    intro hc
    rcases List.mem_append.1 hc with hc | hc
    · exact ht _ hs hc
    · exact hj (japanese_chars (by omega) _ hc)
  have hdot : ∀ x y w, dotG.den x y w ↔ x = ['点'] ∧ y = ['.'] ∧ w = 0 := by
    intro x y w
    simp [dotG, den_tab, dot, and_assoc]
  have key := exactly_unit (hp m) hfree hdot h1 (exactly_digits hne he)
  have := key y w
  simpa only [decimal, List.append_assoc, List.singleton_append] using this

example : japanese 12 ++ '点' :: [0, 5].map digitName = t!"十二点〇五" ∧
    digitsWith false 12 ++ '.' :: [0, 5].map Nat.digitChar = t!"12.05" := by decide +kernel

/-! ### What is written -/

theorem means_digit {acc cur d : Nat} (hd : d < 10) {x : Str} :
    meansFrom acc cur (Nat.digitChar d :: x) = meansFrom acc (10 * cur + d) x := by
  have : ∀ d < 10, Nat.digitChar d ≠ '億' ∧ Nat.digitChar d ≠ '万' ∧ JaTn.Spec.digitVal (Nat.digitChar d) = some d := by decide
  obtain ⟨h1, h2, h3⟩ := this d hd
  simp only [meansFrom, if_neg h1, if_neg h2, h3]

theorem means_digits {acc : Nat} (n : Nat) (x : Str) : meansFrom acc 0 (Nat.toDigits 10 n ++ x) = meansFrom acc n x := by
  induction n using Nat.strongRecOn generalizing x with
  | ind n ih =>
    by_cases h : n < 10
    · rw [Nat.toDigits_of_lt_base h, List.singleton_append, means_digit h]
      simp
    · rw [Nat.toDigits_of_base_le (by omega) (by omega), List.append_assoc, ih _ (by omega), List.singleton_append,
        means_digit (by omega), Nat.div_add_mod]

/-- **C85.** What is written means the number. -/
theorem C85_means (m : Bool) (n : Nat) : means (digitsWith m n) = some n := by
  have nil : ∀ a c, meansFrom a c [] = some (a + c) := fun _ _ => rfl
  have last : ∀ a k, meansFrom a 0 (part [] k) = some (a + k) := by
    intro a k
    unfold part
    split
    · subst k; rfl
    · rw [means_digits, nil]
  have yi : ∀ a k x, meansFrom a 0 (part ['億'] k ++ x) = meansFrom (a + k * 10 ^ 8) 0 x := by
    intro a k x
    unfold part
    split
    · subst k; simp
    · rw [List.append_assoc, means_digits]; rfl
  have wan : ∀ a k x, meansFrom a 0 (part ['万'] k ++ x) = meansFrom (a + k * 10 ^ 4) 0 x := by
    intro a k x
    unfold part
    split
    · subst k; simp
    · rw [List.append_assoc, means_digits]; rfl
  unfold means digitsWith
  split
  · have := means_digits (acc := 0) n []
    rw [List.append_nil] at this
    rw [this, nil, Nat.zero_add]
  · rw [List.append_assoc, yi, wan, last]
    congr 1
    omega

/-! ### Back and forth -/

/-- **C85.** What the text normalizer says for a sequence of digits is written back as the number that the digits
write, and as nothing else. -/
theorem C85_inverse (m : Bool) (x y z : Str) (w w' : W) (h : JaTn.integer.den x y w) :
    ∃ ds, JaTn.Spec.Writes x ds ∧ ((anyInteger m).den y z w' ↔ z = digitsWith m (JaTn.Spec.valOf ds) ∧ w' = 0) := by
  obtain ⟨ds, hw, hr, rfl, rfl⟩ := (JaTn.C80_integer x y w).1 h
  exact ⟨ds, hw, by simpa using C85_integer m _ (JaTn.writes_lt hw hr.1 hr.2.1) [] [] (by decide) z w'⟩

/-- **C85.** The digits of every number below a million, and with `enable_million` below a hundred million, come
back as they were. -/
theorem C85_digits (m : Bool) (n : Nat) (hn : n < 10 ^ 6 ∨ m = true ∧ n < 10 ^ 8) :
    ∃ y, JaTn.integer.den (Nat.toDigits 10 n) y 0 ∧ ∀ z w, (anyInteger m).den y z w ↔ z = Nat.toDigits 10 n ∧ w = 0 := by
  have h8 : n < 10 ^ 8 := by rcases hn with h | h <;> omega
  refine ⟨_, (JaTn.C80_every n).1 h8 _ (.inl rfl), fun z w => ?_⟩
  have := C85_integer m n (by omega) [] [] (by decide) z w
  have e : digitsWith m n = Nat.toDigits 10 n := by unfold digitsWith; rw [if_pos hn]
  rw [e] at this
  simpa using this

/-! ### Texts that are no names -/

/-- **C85.** The grammar also reads texts that are no names, and the digits can then be wrong: a count of thousands
may itself have two or three digits, and after 万 its digits are put behind the others. 一万十千 is written 110000;
read from left to right it is 10000 + 10 + 1000, and with ten thousands for 十千 it would be 20000. -/
theorem C85_beyond (m : Bool) : (∃ w, (anyInteger m).den t!"一万十千" t!"110000" w) ∧
    JaTn.Spec.value t!"一万十千" = some 11010 := by
  refine ⟨?_, by decide +kernel⟩
  have : ∀ m, ∃ e ∈ (anyInteger m).outputs t!"一万十千", e.1 = t!"110000" := by decide +kernel
  obtain ⟨⟨y, w⟩, h1, h2⟩ := this m
  have ok : ∀ m, (anyInteger m).ok = true := by decide +kernel
  simp only at h2
  subst h2
  exact ⟨w, (mem_outputs (ok m)).1 h1⟩

end Verif.JaItn
