import Verif.EnTn.Model

/-
How verbalizers of English TN read what their taggers have written.
-/

namespace Verif.EnTn

open Verif.Wfst
open Verif.Token.Spec (esc)

/-- A verbalizer gets from a token exactly what the tagger put into it. -/
theorem den_tokens {n b z : Str} {g : G} {w : W} :
    (deleteTokens n g).den (n ++ t!" { " ++ b ++ t!" } ") z w ↔ g.den b z w := by
  rw [den_deleteTokens]
  constructor
  · rintro ⟨m, sp, hsp, hb, h⟩
    have : m = b := by
      rcases hsp with rfl | rfl
      · exfalso
        rw [List.append_nil] at hb
        have := congrArg List.reverse hb
        simp at this
      · simpa using hb.symm
    rwa [← this]
  · intro h
    exact ⟨b, t!" ", .inr rfl, by simp, h⟩

theorem den_spaces {x y : Str} {w : W} : DELETE_SPACE.den x y w ↔ y = [] ∧ w = 0 ∧ ∀ c ∈ x, isSpace c = true := by
  constructor
  · intro h
    change Star _ _ _ _ at h
    induction h with
    | nil => simp
    | cons h1 _ ih =>
      obtain ⟨rfl, c, hc, rfl, -, rfl⟩ := h1
      obtain ⟨rfl, rfl, h⟩ := ih
      exact ⟨rfl, rfl, by simpa using ⟨hc, h⟩⟩
  · rintro ⟨rfl, rfl, h⟩
    show Star _ _ _ _
    induction x with
    | nil => exact .nil
    | cons c x ih =>
      exact Star.cons (R := (delete (.cls isSpace)).den) (x := [c]) (y := []) (w := 0) (w' := 0)
        ⟨rfl, c, h c (by simp), rfl, rfl, rfl⟩ (ih fun d hd => h d (by simp [hd]))

/-- Spaces and then a character that is no space. -/
theorem spaces_then {a b : Str} {c : Char} {x x' : Str} (ha : ∀ d ∈ a, isSpace d = true) (hb : ∀ d ∈ b, isSpace d = true)
    (hc : isSpace c = false) (h : a ++ c :: x = b ++ c :: x') : a = b ∧ x = x' := by
  induction a generalizing b with
  | nil =>
    cases b with
    | nil => simpa using h
    | cons d b =>
      exfalso
      simp only [List.nil_append, List.cons_append, List.cons.injEq] at h
      have := hb d (by simp)
      rw [← h.1, hc] at this
      cases this
  | cons e a ih =>
    cases b with
    | nil =>
      exfalso
      simp only [List.nil_append, List.cons_append, List.cons.injEq] at h
      have := ha e (by simp)
      rw [h.1, hc] at this
      cases this
    | cons d b =>
      simp only [List.cons_append, List.cons.injEq] at h
      obtain ⟨rfl, h⟩ := h
      obtain ⟨rfl, rfl⟩ := ih (fun d hd => ha d (by simp [hd])) (fun d hd => hb d (by simp [hd])) h
      exact ⟨rfl, rfl⟩

/-- A field with any spaces before the value. -/
theorem den_quoted {g : G} {x y : Str} {w : W} : (DELETE_SPACE + del t!"\"" + g + del t!"\"").den x y w ↔
    ∃ s v, (∀ c ∈ s, isSpace c = true) ∧ x = s ++ '"' :: v ++ ['"'] ∧ g.den v y w := by
  constructor
  · intro h
    obtain ⟨x', rfl, h1⟩ := den_add_del.1 h
    obtain ⟨x₁, y₁, w₁, v, y₂, w₂, h2, h3, rfl, rfl, rfl⟩ := h1
    obtain ⟨s, rfl, h4⟩ := den_add_del.1 h2
    obtain ⟨rfl, rfl, h5⟩ := den_spaces.1 h4
    exact ⟨s, v, h5, by simp, by simpa using h3⟩
  · rintro ⟨s, v, h1, rfl, h2⟩
    refine den_add_del.2 ⟨s ++ '"' :: v, by simp, ?_⟩
    exact ⟨s ++ ['"'], [], 0, v, y, w, den_add_del.2 ⟨s, rfl, den_spaces.2 ⟨rfl, rfl, h1⟩⟩, h2, by simp, rfl, by simp⟩

/-- The value of a field is read as it stands in the token. -/
theorem den_field {n v y : Str} {g : G} {w : W} : (field n g).den (n ++ t!": \"" ++ v ++ t!"\"") y w ↔ g.den v y w := by
  have assoc : ∀ {x : Str}, (field n g).den x y w ↔ (del (n ++ t!":") + (DELETE_SPACE + del t!"\"" + g + del t!"\"")).den x y w := by
    intro x
    constructor
    · intro h
      obtain ⟨x', rfl, h1⟩ := den_add_del.1 h
      obtain ⟨x₁, y₁, w₁, v, y₂, w₂, h2, h3, rfl, rfl, rfl⟩ := h1
      obtain ⟨s, rfl, h4⟩ := den_add_del.1 h2
      obtain ⟨s', rfl, h5⟩ := den_del_add.1 h4
      obtain ⟨rfl, rfl, h6⟩ := den_spaces.1 h5
      exact den_del_add.2 ⟨s' ++ '"' :: v ++ ['"'], by simp, den_quoted.2 ⟨s', v, h6, rfl, by simpa using h3⟩⟩
    · intro h
      obtain ⟨x', rfl, h1⟩ := den_del_add.1 h
      obtain ⟨s, v, h2, rfl, h3⟩ := den_quoted.1 h1
      refine den_add_del.2 ⟨n ++ t!":" ++ s ++ '"' :: v, by simp, ?_⟩
      exact ⟨n ++ t!":" ++ s ++ ['"'], [], 0, v, y, w,
        den_add_del.2 ⟨n ++ t!":" ++ s, rfl, den_del_add.2 ⟨s, rfl, den_spaces.2 ⟨rfl, rfl, h2⟩⟩⟩, h3, by simp, rfl, by simp⟩
  rw [assoc, den_del_add]
  constructor
  · rintro ⟨x', e, h⟩
    obtain ⟨s, v', h2, rfl, h3⟩ := den_quoted.1 h
    have e' : [' '] ++ '"' :: (v ++ ['"']) = s ++ '"' :: (v' ++ ['"']) := by simpa using e
    obtain ⟨-, e''⟩ := spaces_then (by simp [isSpace]) h2 (by decide) e'
    rw [List.append_cancel_right e'']
    exact h3
  · intro h
    exact ⟨[' '] ++ '"' :: v ++ ['"'], by simp, den_quoted.2 ⟨[' '], v, by simp [isSpace], rfl, h⟩⟩

/-- Plain text needs no escapes. -/
theorem esc_plain {x : Str} (h : ∀ c ∈ x, c ≠ '"' ∧ c ≠ '\\') : esc x = x := by
  induction x with
  | nil => rfl
  | cons c x ih =>
    have := h c (by simp)
    rw [esc_cons, ih fun d hd => h d (by simp [hd])]
    simp [this.1, this.2]

end Verif.EnTn
