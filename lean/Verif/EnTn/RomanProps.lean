import Verif.EnTn.NumberProps
import Verif.EnTn.StreamProps
import Verif.EnTn.RomanTable

/-
Property C95: what the rule for Roman numerals says.
-/

namespace Verif.EnTn

open Verif.Wfst
open Spec
open Verif.EnItn.Spec (english ordinalName)
open Verif.Token.Spec (esc)

/-! ### What the first graph writes -/

theorem cut {a b r r' : Str} (ha : ∀ c ∈ a, c ≠ '"') (hb : ∀ c ∈ b, c ≠ '"') (h : a ++ '"' :: r = b ++ '"' :: r') : a = b ∧ r = r' := by
  induction a generalizing b with
  | nil =>
    cases b with
    | nil => exact ⟨rfl, (List.cons.inj h).2⟩
    | cons c b => exact absurd (List.cons.inj h).1.symm (hb c (by simp))
  | cons d a ih =>
    cases b with
    | nil => exact absurd (List.cons.inj h).1 (ha d (by simp))
    | cons c b =>
      obtain ⟨rfl, h'⟩ := List.cons.inj h
      obtain ⟨e, h''⟩ := ih (fun c hc => ha c (List.mem_cons_of_mem _ hc)) (fun c hc => hb c (List.mem_cons_of_mem _ hc)) h'
      exact ⟨by rw [e], h''⟩

theorem den_oneOf {l : List Str} {x y : Str} {w : W} : (oneOf l).den x y w ↔ x ∈ l ∧ y = x ∧ w = 0 := by
  unfold oneOf
  rw [den_tab, List.mem_map]
  constructor
  · rintro ⟨⟨s, hs, h⟩, rfl⟩
    obtain ⟨rfl, rfl⟩ := Prod.mk.inj h
    exact ⟨hs, rfl, rfl⟩
  · rintro ⟨h, rfl, rfl⟩
    exact ⟨⟨_, h, rfl⟩, rfl⟩

theorem den_default {x y : Str} {w : W} : romanDefault.den x y w ↔
    ∃ n, 1 ≤ n ∧ n ≤ 2000 ∧ x = roman n ∧ y = t!"integer: \"" ++ spoken n ++ t!"\"" ∧ w = 0 := by
  unfold romanDefault
  rw [den_add_insert]
  constructor
  · rintro ⟨y', rfl, h⟩
    obtain ⟨y'', rfl, h1, rfl⟩ := den_insert_add.1 h
    obtain ⟨n, h2, h3, rfl, rfl⟩ := mem_table.1 h1
    exact ⟨n, h2, h3, rfl, rfl, rfl⟩
  · rintro ⟨n, h2, h3, rfl, rfl, rfl⟩
    exact ⟨_, rfl, den_insert_add.2 ⟨_, rfl, mem_table.2 ⟨n, h2, h3, rfl, rfl⟩, rfl⟩⟩

/-- The least ordinal number. -/
abbrev low (d : Bool) : Nat := if d then 2 else 1

theorem den_teens {d : Bool} {x y : Str} {w : W} : (G.comp (romanTeens d) romanDefault).den x y w ↔
    ∃ n, low d ≤ n ∧ n ≤ 19 ∧ x = roman n ∧ y = t!"integer: \"" ++ spoken n ++ t!"\"" ∧ w = 0 := by
  have hl : (if d then 1 else 0) + 1 = low d := by cases d <;> rfl
  constructor
  · rintro ⟨m, w₁, w₂, h1, h2, rfl⟩
    obtain ⟨h1', rfl, rfl⟩ := den_oneOf.1 h1
    obtain ⟨n, h3, h4, rfl⟩ := (take_table 19 (by decide) _).1 h1'
    obtain ⟨n', h5, h6, h7, rfl, rfl⟩ := den_default.1 h2
    obtain rfl := roman_inj (by omega) h6 h7
    exact ⟨n, by rw [← hl]; exact h3, h4, rfl, rfl, rfl⟩
  · rintro ⟨n, h3, h4, rfl, rfl, rfl⟩
    have : 1 ≤ low d := by cases d <;> decide
    exact ⟨_, 0, 0, den_oneOf.2 ⟨(take_table 19 (by decide) _).2 ⟨n, by rw [hl]; exact h3, h4, rfl⟩, rfl, rfl⟩,
      den_default.2 ⟨n, by omega, by omega, rfl, rfl, rfl⟩, rfl⟩

theorem pow_cls {p : Char → Bool} {n : Nat} {x y : Str} {w : W} :
    ((G.cls p).pow n).den x y w ↔ y = x ∧ x.length = n ∧ (∀ c ∈ x, p c = true) ∧ w = 0 := by
  induction n generalizing x y w with
  | zero =>
    constructor
    · rintro ⟨rfl, rfl, rfl⟩; simp
    · rintro ⟨rfl, h, _, rfl⟩
      obtain rfl := List.length_eq_zero_iff.1 h
      exact ⟨rfl, rfl, rfl⟩
  | succ n ih =>
    constructor
    · rintro ⟨x₁, y₁, w₁, x₂, y₂, w₂, ⟨c, hc, rfl, rfl, rfl⟩, h2, rfl, rfl, rfl⟩
      obtain ⟨rfl, h3, h4, rfl⟩ := ih.1 h2
      exact ⟨rfl, by simp [h3], by simpa [hc] using h4, by simp⟩
    · rintro ⟨rfl, h, hc, rfl⟩
      cases y with
      | nil => cases h
      | cons c s =>
        exact ⟨[c], [c], 0, s, s, 0, ⟨c, hc c (by simp), rfl, rfl, rfl⟩,
          ih.2 ⟨rfl, by simpa using h, fun c h => hc c (by simp [h]), rfl⟩, rfl, rfl, by simp⟩

theorem atLeast_sound {p : Char → Bool} {n : Nat} {x y : Str} {w : W} (h : (atLeast n (.cls p)).den x y w) :
    y = x ∧ n ≤ x.length := by
  obtain ⟨x₁, y₁, w₁, x₂, y₂, w₂, h1, h2, rfl, rfl, -⟩ := h
  obtain ⟨rfl, rfl, -, -⟩ := pow_cls.1 h1
  obtain ⟨rfl, -⟩ := star_cls h2
  exact ⟨rfl, by simp⟩

theorem atLeast_den {p : Char → Bool} {n : Nat} {x : Str} (hl : n ≤ x.length) (h : ∀ c ∈ x, p c = true) :
    (atLeast n (.cls p)).den x x 0 :=
  ⟨x.take n, x.take n, 0, x.drop n, x.drop n, 0,
    pow_cls.2 ⟨rfl, by simp [hl], fun c hc => h c (List.mem_of_mem_take hc), rfl⟩,
    star_cls_den fun c hc => h c (List.mem_of_mem_drop hc), by simp, by simp, by simp⟩

/-- What the first graph writes. -/
inductive Structured (d : Bool) (N : PersonNames) : Str → Str → Prop
  | name {a n} : a ∈ N.list → low d ≤ n → n ≤ 19 →
      Structured d N (a ++ ' ' :: roman n) (t!"key_the_ordinal: \"" ++ (a ++ (t!"\" integer: \"" ++ (spoken n ++ t!"\""))))
  | key {k n} : k ∈ romanKeys → 1 ≤ n → n ≤ 2000 →
      Structured d N (k ++ ' ' :: roman n) (t!"key_cardinal: \"" ++ (k ++ (t!"\" integer: \"" ++ (spoken n ++ t!"\""))))
  | alone {n} : 2 ≤ n → n ≤ 2000 → (d = true → n ≤ 49 ∧ 2 ≤ (roman n).length) →
      Structured d N (roman n) (t!"default_cardinal: \"default\" integer: \"" ++ (spoken n ++ t!"\""))
  | th {n} : low d ≤ n → n ≤ 19 →
      Structured d N (roman n ++ t!"th") (t!"default_ordinal: \"default\" integer: \"" ++ (spoken n ++ t!"\""))

theorem den_prefixed {p : Str} {l : List Str} {g : G} {x y : Str} {w : W} :
    (Wfst.insert p + oneOf l + Wfst.insert t!"\"" + .lit t!" " + g).den x y w ↔
      ∃ a x' y', a ∈ l ∧ x = a ++ ' ' :: x' ∧ y = p ++ (a ++ (t!"\" " ++ y')) ∧ g.den x' y' w := by
  constructor
  · rintro ⟨x₁, y₁, w₁, x₂, y₂, w₂, ⟨x₃, y₃, w₃, x₄, y₄, w₄, h3, ⟨rfl, rfl, rfl⟩, rfl, rfl, rfl⟩, h2, rfl, rfl, rfl⟩
    obtain ⟨y₅, rfl, h4⟩ := den_add_insert.1 h3
    obtain ⟨y₆, rfl, h5⟩ := den_insert_add.1 h4
    obtain ⟨h6, rfl, rfl⟩ := den_oneOf.1 h5
    exact ⟨_, x₂, y₂, h6, by simp, by simp, by simpa using h2⟩
  · rintro ⟨a, x', y', h1, rfl, rfl, h2⟩
    exact ⟨_, _, 0, x', y', w, ⟨_, _, 0, _, _, 0, den_add_insert.2 ⟨_, rfl, den_insert_add.2 ⟨_, rfl, den_oneOf.2 ⟨h1, rfl, rfl⟩⟩⟩,
      ⟨rfl, rfl, rfl⟩, rfl, rfl, rfl⟩, h2, by simp, by simp, by simp⟩

theorem structured_sound {d : Bool} {N : PersonNames} {x s : Str} {w : W} (h : (romanStructured d N).den x s w) : Structured d N x s := by
  rcases h with ((h | h) | h) | h
  · obtain ⟨a, x', y', h1, rfl, rfl, h2⟩ := den_prefixed.1 h
    obtain ⟨n, h3, h4, rfl, rfl, -⟩ := den_teens.1 h2
    simpa using Structured.name (d := d) h1 h3 h4
  · obtain ⟨a, x', y', h1, rfl, rfl, h2⟩ := den_prefixed.1 h
    obtain ⟨n, h3, h4, rfl, rfl, -⟩ := den_default.1 h2
    simpa using Structured.key (d := d) (N := N) h1 h3 h4
  · cases d with
    | true =>
      obtain ⟨m, w₁, w₂, h1, h2, -⟩ := h
      obtain ⟨rfl, hl⟩ := atLeast_sound h1
      obtain ⟨y', rfl, m', w₃, w₄, h3, h4, -⟩ := den_insert_add.1 h2
      obtain ⟨h3', rfl, -⟩ := den_oneOf.1 h3
      obtain ⟨n, a1, a2, rfl⟩ := (take_table 50 (by decide) 0).1 h3'
      obtain ⟨n', b1, b2, b3, rfl, -⟩ := den_default.1 h4
      obtain rfl := roman_inj (by omega) b2 b3
      have e50 : (roman 50).length = 1 := by decide
      have e1 : (roman 1).length = 1 := by decide
      have h50 : n ≠ 50 := by rintro rfl; omega
      have h1 : n ≠ 1 := by rintro rfl; omega
      simpa using Structured.alone (d := true) (N := N) (n := n) (by omega) b2 fun _ => ⟨by omega, hl⟩
    | false =>
      obtain ⟨m, w₁, w₂, h1, h2, -⟩ := h
      obtain ⟨rfl, -, hn⟩ := h1
      obtain ⟨y', rfl, h3⟩ := den_add_insert.1 h2
      obtain ⟨y'', rfl, h4, -⟩ := den_insert_add.1 h3
      obtain ⟨n, a1, a2, rfl, rfl⟩ := mem_table.1 h4
      have h1 : n ≠ 1 := by
        rintro rfl
        exact hn ⟨t!"I", 0, by decide, by decide, rfl⟩
      simpa using Structured.alone (d := false) (N := N) (n := n) (by omega) a2 (by simp)
  · obtain ⟨m, w₁, w₂, h1, h2, -⟩ := h
    obtain ⟨rfl, hl⟩ := atLeast_sound h1
    obtain ⟨x', rfl, h3⟩ := den_add_del.1 h2
    obtain ⟨y', rfl, h4⟩ := den_insert_add.1 h3
    obtain ⟨n, a1, a2, rfl, rfl, -⟩ := den_teens.1 h4
    simpa using Structured.th (d := d) (N := N) a1 a2

theorem structured_den {d : Bool} {N : PersonNames} {x s : Str} (h : Structured d N x s) : ∃ w, (romanStructured d N).den x s w := by
  cases h with
  | @name a n h1 h2 h3 =>
    exact ⟨0, .inl (.inl (.inl (den_prefixed.2 ⟨a, roman n, _, h1, rfl, by simp, den_teens.2 ⟨n, h2, h3, rfl, rfl, rfl⟩⟩)))⟩
  | @key k n h1 h2 h3 =>
    exact ⟨0, .inl (.inl (.inr (den_prefixed.2 ⟨k, roman n, _, h1, rfl, by simp, den_default.2 ⟨n, h2, h3, rfl, rfl, rfl⟩⟩)))⟩
  | @alone n h1 h2 h3 =>
    refine ⟨0, .inl (.inr ?_)⟩
    obtain ⟨c0, c1, c2⟩ := roman_chars (n := n) (by omega) h2
    cases d with
    | true =>
      obtain ⟨h4, h5⟩ := h3 rfl
      exact ⟨roman n, 0, 0, atLeast_den h5 fun c hc => (c1 c hc).1, den_insert_add.2 ⟨_, by simp, roman n, 0, 0,
        den_oneOf.2 ⟨(take_table 50 (by decide) 0).2 ⟨n, by omega, by omega, rfl⟩, rfl, rfl⟩,
        den_default.2 ⟨n, by omega, h2, rfl, rfl, rfl⟩, rfl⟩, rfl⟩
    | false =>
      refine ⟨roman n, 0, 0, ⟨rfl, star_cls_den fun c hc => (c1 c hc).2.1, ?_⟩, den_add_insert.2 ⟨_, by simp, den_insert_add.2 ⟨_, rfl,
        mem_table.2 ⟨n, by omega, h2, rfl, rfl⟩, rfl⟩⟩, rfl⟩
      rintro ⟨z, w, h, -⟩
      have := roman_inj h2 (by decide : 1 ≤ 2000) (h.trans (by decide))
      omega
  | @th n h1 h2 =>
    have : 1 ≤ low d := by cases d <;> decide
    obtain ⟨c0, c1, c2⟩ := roman_chars (n := n) (by omega) (by omega)
    have hl := List.length_pos_iff.2 c0
    refine ⟨0, .inr ⟨_, 0, 0, atLeast_den (by simp; omega) ?_, den_add_del.2 ⟨_, rfl, den_insert_add.2 ⟨_, by simp,
      den_teens.2 ⟨n, h1, h2, rfl, rfl, rfl⟩⟩⟩, rfl⟩⟩
    intro c hc
    rcases List.mem_append.1 hc with hc | hc
    · exact (c1 c hc).1
    · exact (by decide : ∀ c ∈ t!"th", isAlpha c = true) c hc

/-! ### What is said for it -/

/-- What the second graph says. -/
inductive Said : Str → Str → Prop
  | key {a b} : a ≠ [] → Unquoted a → Unquoted b →
      Said (t!"key_cardinal: \"" ++ (a ++ (t!"\" integer: \"" ++ (b ++ t!"\"")))) (a ++ ' ' :: b)
  | cardinal {b} : Unquoted b → Said (t!"default_cardinal: \"default\" integer: \"" ++ (b ++ t!"\"")) b
  | ordinal {b z w} : Unquoted b → ordSuffix.den b z w → Said (t!"default_ordinal: \"default\" integer: \"" ++ (b ++ t!"\"")) z
  | name {a b z w} : a ≠ [] → Unquoted a → Unquoted b → ordSuffix.den b z w →
      Said (t!"key_the_ordinal: \"" ++ (a ++ (t!"\" integer: \"" ++ (b ++ t!"\"")))) (a ++ ' ' :: z)
  | nameThe {a b z w} : a ≠ [] → Unquoted a → Unquoted b → ordSuffix.den b z w →
      Said (t!"key_the_ordinal: \"" ++ (a ++ (t!"\" integer: \"" ++ (b ++ t!"\"")))) (a ++ (t!" the " ++ z))

theorem unquoted_iff {s : Str} : (∀ c ∈ s, (vchar c && c != '"') = true) ↔ Unquoted s := by
  simp [Unquoted]

theorem notQuotes_sound {x y : Str} {w : W} (h : notQuotes.den x y w) : y = x ∧ Unquoted x :=
  ⟨(star_cls h).1, unquoted_iff.1 (star_cls h).2⟩
theorem notQuotes_den {x : Str} (h : Unquoted x) : notQuotes.den x x 0 := star_cls_den (unquoted_iff.2 h)
theorem some_sound {x y : Str} {w : W} (h : someNotQuotes.den x y w) : y = x ∧ x ≠ [] ∧ Unquoted x :=
  ⟨(plus_cls h).1, (plus_cls h).2.1, unquoted_iff.1 (plus_cls h).2.2⟩
theorem some_den {x : Str} (hn : x ≠ []) (h : Unquoted x) : someNotQuotes.den x x 0 := plus_cls_den hn (unquoted_iff.2 h)

/-- The part of the graph up to the number. -/
theorem before_sound {p x y : Str} {w : W}
    (h : (del p + someNotQuotes + del t!"\"" + .lit t!" " + del t!"integer: \"").den x y w) :
    ∃ a, a ≠ [] ∧ Unquoted a ∧ x = p ++ (a ++ t!"\" integer: \"") ∧ y = a ++ t!" " := by
  obtain ⟨x1, rfl, x2, y2, w2, _, _, _, h2, ⟨rfl, rfl, rfl⟩, rfl, rfl, rfl⟩ := den_add_del.1 h
  obtain ⟨x3, rfl, h3⟩ := den_add_del.1 h2
  obtain ⟨x4, rfl, h4⟩ := den_del_add.1 h3
  obtain ⟨rfl, h5, h6⟩ := some_sound h4
  exact ⟨_, h5, h6, by simp, rfl⟩

theorem before_den {p a : Str} (hn : a ≠ []) (ha : Unquoted a) :
    (del p + someNotQuotes + del t!"\"" + .lit t!" " + del t!"integer: \"").den (p ++ (a ++ t!"\" integer: \"")) (a ++ t!" ") 0 :=
  den_add_del.2 ⟨p ++ (a ++ t!"\" "), by simp, p ++ (a ++ t!"\""), a, 0, t!" ", t!" ", 0,
    den_add_del.2 ⟨p ++ a, by simp, den_del_add.2 ⟨a, rfl, some_den hn ha⟩⟩, ⟨rfl, rfl, rfl⟩, by simp, rfl, rfl⟩

theorem spoken_sound {s z : Str} {w : W} (h : romanSpoken.den s z w) : Said s z := by
  rcases h with ((h | h) | h) | h
  · obtain ⟨x1, rfl, x2, y2, w2, x3, y3, w3, h2, h3, rfl, rfl, -⟩ := den_add_del.1 h
    obtain ⟨a, h4, h5, rfl, rfl⟩ := before_sound h2
    obtain ⟨rfl, h6⟩ := notQuotes_sound h3
    simpa using Said.key h4 h5 h6
  · obtain ⟨x1, rfl, h2⟩ := den_add_del.1 h
    obtain ⟨x2, rfl, h3⟩ := den_del_add.1 h2
    obtain ⟨rfl, h6⟩ := notQuotes_sound h3
    simpa using Said.cardinal h6
  · obtain ⟨x1, rfl, h2⟩ := den_add_del.1 h
    obtain ⟨x2, rfl, m, w1, w2, h3, h4, -⟩ := den_del_add.1 h2
    obtain ⟨rfl, h6⟩ := notQuotes_sound h3
    simpa using Said.ordinal h6 h4
  · obtain ⟨x1, rfl, x2, y2, w2, x3, y3, w3, ⟨x4, y4, w4, x5, y5, w5, h4, h5, rfl, rfl, -⟩, ⟨m, w6, w7, h3, h7, -⟩, rfl, rfl, -⟩ :=
      den_add_del.1 h
    obtain ⟨a, h8, h9, rfl, rfl⟩ := before_sound h4
    obtain ⟨rfl, h6⟩ := notQuotes_sound h3
    rcases den_ques.1 h5 with ⟨rfl, rfl, -⟩ | h5
    · simpa using Said.name h8 h9 h6 h7
    · obtain ⟨rfl, rfl, -⟩ := den_insert.1 h5
      simpa using Said.nameThe h8 h9 h6 h7

theorem spoken_den {s z : Str} (h : Said s z) : ∃ w, romanSpoken.den s z w := by
  cases h with
  | @key a b h1 h2 h3 =>
    exact ⟨0, .inl (.inl (.inl (den_add_del.2 ⟨_, by simp, _, _, 0, _, _, 0, before_den h1 h2, notQuotes_den h3, rfl, by simp, rfl⟩)))⟩
  | @cardinal b h3 =>
    exact ⟨0, .inl (.inl (.inr (den_add_del.2 ⟨_, by simp, den_del_add.2 ⟨_, rfl, notQuotes_den h3⟩⟩)))⟩
  | @ordinal b z w h3 h4 =>
    exact ⟨w, .inl (.inr (den_add_del.2 ⟨_, by simp, den_del_add.2 ⟨_, rfl, _, 0, w, notQuotes_den h3, h4, (zero_add w).symm⟩⟩))⟩
  | @name a b z w h1 h2 h3 h4 =>
    refine ⟨w, .inr (den_add_del.2 ⟨t!"key_the_ordinal: \"" ++ (a ++ t!"\" integer: \"") ++ [] ++ b, by simp, _, a ++ t!" " ++ [], 0, b, z, w,
      ⟨_, _, 0, [], [], 0, before_den h1 h2, ?_, rfl, rfl, rfl⟩, ⟨b, 0, w, notQuotes_den h3, h4, (zero_add w).symm⟩, rfl, by simp, (zero_add w).symm⟩)⟩
    exact den_ques.2 (.inl ⟨rfl, rfl, rfl⟩)
  | @nameThe a b z w h1 h2 h3 h4 =>
    refine ⟨w, .inr (den_add_del.2 ⟨t!"key_the_ordinal: \"" ++ (a ++ t!"\" integer: \"") ++ [] ++ b, by simp, _, a ++ t!" " ++ t!"the ", 0, b, z, w,
      ⟨_, _, 0, [], t!"the ", 0, before_den h1 h2, ?_, rfl, rfl, rfl⟩, ⟨b, 0, w, notQuotes_den h3, h4, (zero_add w).symm⟩, rfl, by simp,
      (zero_add w).symm⟩)⟩
    exact den_ques.2 (.inr (den_insert.2 ⟨rfl, rfl, rfl⟩))

theorem unquoted_name {N : PersonNames} {a : Str} (h : a ∈ N.list) : a ≠ [] ∧ Unquoted a :=
  ⟨(N.plain a h).1, fun c hc => ⟨((N.plain a h).2 c hc).1, ((N.plain a h).2 c hc).2.1⟩⟩
theorem unquoted_key {k : Str} (h : k ∈ romanKeys) : k ≠ [] ∧ Unquoted k :=
  ⟨(key_chars k h).1, fun c hc => ⟨((key_chars k h).2 c hc).1, ((key_chars k h).2 c hc).2.1⟩⟩

theorem cut2 {p a b s t : Str} (ha : Unquoted a) (hb : Unquoted b) (hs : Unquoted s) (ht : Unquoted t)
    (h : p ++ (a ++ (t!"\" integer: \"" ++ (s ++ t!"\""))) = p ++ (b ++ (t!"\" integer: \"" ++ (t ++ t!"\"")))) : a = b ∧ s = t := by
  obtain ⟨h1, h2⟩ := cut (fun c hc => (ha c hc).2) (fun c hc => (hb c hc).2) (List.append_cancel_left h)
  exact ⟨h1, (cut (fun c hc => (hs c hc).2) (fun c hc => (ht c hc).2) (List.append_cancel_left (as := t!" integer: \"") h2)).1⟩

theorem ordinal_small {n : Nat} (h : n ≤ 19) {z : Str} {w : W} : ordSuffix.den (spoken n) z w ↔ z = ordinalName false n ∧ w = 0 := by
  rw [spoken_small h]
  exact suffix_iff (lt_of_le_of_lt h (by decide))

theorem says_iff {d : Bool} {N : PersonNames} {x z : Str} :
    (∃ s, Structured d N x s ∧ Said s z) ↔ SaysRoman d N.list romanKeys x z := by
  have hlow : 1 ≤ low d := by cases d <;> decide
  constructor
  · rintro ⟨s, h1, h2⟩
    cases h1 with
    | @name a n h3 h4 h5 =>
      have hs := (roman_chars (n := n) (by omega) (by omega)).2.2
      generalize hg : t!"key_the_ordinal: \"" ++ (a ++ (t!"\" integer: \"" ++ (spoken n ++ t!"\""))) = s at h2
      cases h2 with
      | key | cardinal | ordinal => simp at hg
      | name b1 b2 b3 b4 =>
        obtain ⟨rfl, rfl⟩ := cut2 (unquoted_name h3).2 b2 hs b3 hg
        obtain ⟨rfl, -⟩ := (ordinal_small h5).1 b4
        exact .name h3 h4 h5
      | nameThe b1 b2 b3 b4 =>
        obtain ⟨rfl, rfl⟩ := cut2 (unquoted_name h3).2 b2 hs b3 hg
        obtain ⟨rfl, -⟩ := (ordinal_small h5).1 b4
        simpa using SaysRoman.nameThe (keys := romanKeys) h3 h4 h5
    | @key a n h3 h4 h5 =>
      have hs := (roman_chars h4 h5).2.2
      generalize hg : t!"key_cardinal: \"" ++ (a ++ (t!"\" integer: \"" ++ (spoken n ++ t!"\""))) = s at h2
      cases h2 with
      | name | nameThe | cardinal | ordinal => simp at hg
      | key b1 b2 b3 =>
        obtain ⟨rfl, rfl⟩ := cut2 (unquoted_key h3).2 b2 hs b3 hg
        exact .key h3 h4 h5
    | @alone n h3 h4 h5 =>
      generalize hg : t!"default_cardinal: \"default\" integer: \"" ++ (spoken n ++ t!"\"") = s at h2
      cases h2 with
      | name | nameThe | key | ordinal => simp at hg
      | cardinal b3 =>
        obtain rfl := List.append_cancel_right (List.append_cancel_left hg)
        exact .alone h3 h4 h5
    | @th n h3 h4 =>
      generalize hg : t!"default_ordinal: \"default\" integer: \"" ++ (spoken n ++ t!"\"") = s at h2
      cases h2 with
      | name | nameThe | key | cardinal => simp at hg
      | ordinal b3 b4 =>
        obtain rfl := List.append_cancel_right (List.append_cancel_left hg)
        obtain ⟨rfl, -⟩ := (ordinal_small h4).1 b4
        exact .th h3 h4
  · intro h
    cases h with
    | @name a n h3 h4 h5 =>
      have h4 : low d ≤ n := h4
      exact ⟨_, .name h3 h4 h5, .name (unquoted_name h3).1 (unquoted_name h3).2 (roman_chars (n := n) (by omega) (by omega)).2.2
        ((ordinal_small h5).2 ⟨rfl, rfl⟩)⟩
    | @nameThe a n h3 h4 h5 =>
      have h4 : low d ≤ n := h4
      have := Said.nameThe (unquoted_name h3).1 (unquoted_name h3).2 (roman_chars (n := n) (by omega) (by omega)).2.2
        ((ordinal_small h5).2 ⟨rfl, rfl⟩)
      exact ⟨_, .name h3 h4 h5, by simpa using this⟩
    | @key k n h3 h4 h5 =>
      exact ⟨_, .key h3 h4 h5, .key (unquoted_key h3).1 (unquoted_key h3).2 (roman_chars h4 h5).2.2⟩
    | @alone n h3 h4 h5 => exact ⟨_, .alone h3 h4 h5, .cardinal (roman_chars (n := n) (by omega) h4).2.2⟩
    | @th n h3 h4 =>
      have h3 : low d ≤ n := h3
      exact ⟨_, .th h3 h4, .ordinal (roman_chars (n := n) (by omega) (by omega)).2.2 ((ordinal_small h4).2 ⟨rfl, rfl⟩)⟩

theorem structured_chars {d : Bool} {N : PersonNames} {x s : Str} (h : Structured d N x s) :
    VText x ∧ esc x = x := by
  have hlow : 1 ≤ low d := by cases d <;> decide
  have key : ∀ c ∈ x, vchar c = true ∧ c ≠ '"' ∧ c ≠ '\\' := by
    intro c hc
    have hr : ∀ {n}, 1 ≤ n → n ≤ 2000 → c ∈ roman n → vchar c = true ∧ c ≠ '"' ∧ c ≠ '\\' := fun h1 h2 hc => ((roman_chars h1 h2).2.1 c hc).2
    cases h with
    | name h3 h4 h5 =>
      rcases List.mem_append.1 hc with hc | hc
      · exact (N.plain _ h3).2 c hc
      · rcases List.mem_cons.1 hc with rfl | hc
        · decide
        · exact hr (by omega) (by omega) hc
    | key h3 h4 h5 =>
      rcases List.mem_append.1 hc with hc | hc
      · exact (key_chars _ h3).2 c hc
      · rcases List.mem_cons.1 hc with rfl | hc
        · decide
        · exact hr h4 h5 hc
    | alone h3 h4 h5 => exact hr (by omega) h4 hc
    | th h3 h4 =>
      rcases List.mem_append.1 hc with hc | hc
      · exact hr (by omega) (by omega) hc
      · exact (by decide : ∀ c ∈ t!"th", vchar c = true ∧ c ≠ '"' ∧ c ≠ '\\') c hc
  exact ⟨fun c hc => (key c hc).1, esc_plain fun c hc => (key c hc).2⟩

/-- **C95.** The rule for Roman numerals end to end: it reads exactly the texts of the specification and says exactly
what that says. -/
theorem C95_rule (d : Bool) (N : PersonNames) (x z : Str) :
    (∃ t w w', (romanRule d N).tagger.den x t w ∧ (romanRule d N).verbalizer.den t z w') ↔ SaysRoman d N.list romanKeys x z := by
  rw [← says_iff]
  constructor
  · rintro ⟨t, w, w', h1, h2⟩
    obtain ⟨b, rfl, h3⟩ := den_addTokens.1 h1
    have h4 := den_tokens.1 h2
    obtain ⟨rfl, -, s, h5⟩ := den_tagField.1 h3
    rw [(structured_chars (structured_sound h5)).2] at h4
    obtain ⟨x', e, h6⟩ := den_add_del.1 h4
    obtain ⟨x'', rfl, m, w1, w2, h7, h8, -⟩ := den_del_add.1 h6
    obtain rfl : x = x'' := List.append_cancel_left (List.append_cancel_right e)
    exact ⟨m, structured_sound h7, spoken_sound h8⟩
  · rintro ⟨s, h1, h2⟩
    obtain ⟨hv, he⟩ := structured_chars h1
    obtain ⟨w, h3⟩ := structured_den h1
    obtain ⟨w', h4⟩ := spoken_den h2
    exact ⟨_, w, _, den_addTokens.2 ⟨_, rfl, den_tagField.2 ⟨by rw [he]; rfl, hv, _, h3⟩⟩,
      den_tokens.2 (den_add_del.2 ⟨_, rfl, den_del_add.2 ⟨_, rfl, _, _, _, h3, h4, rfl⟩⟩)⟩

/-- **C95.** The numeral of a number has its value, so no two numbers share one. -/
theorem C95_value (n : Nat) (h : n ≤ 2000) : romanValue (roman n) = n := value_roman n h

/-- The key words in the three ways they are written. -/
theorem C95_keys : romanKeys = [t!"chapter", t!"Chapter", t!"CHAPTER", t!"class", t!"Class", t!"CLASS", t!"part", t!"Part", t!"PART",
    t!"article", t!"Article", t!"ARTICLE", t!"section", t!"Section", t!"SECTION", t!"paragraph", t!"Paragraph", t!"PARAGRAPH"] := by
  decide +kernel

/-- Two names. -/
def someNames : PersonNames where
  list := [t!"Louis", t!"HENRY"]
  plain := by decide

example : SaysRoman true someNames.list romanKeys t!"Louis XIV" t!"Louis the fourteenth" :=
  SaysRoman.nameThe (n := 14) (a := t!"Louis") (by decide) (by decide) (by decide)
example : SaysRoman true someNames.list romanKeys t!"Chapter MCMXCIV" t!"Chapter one thousand, nine hundred ninety four" := by
  rw [show t!"Chapter one thousand, nine hundred ninety four" = t!"Chapter" ++ ' ' :: spoken 1994 by decide +kernel]
  exact SaysRoman.key (n := 1994) (k := t!"Chapter") (by decide +kernel) (by decide) (by decide)

end Verif.EnTn
