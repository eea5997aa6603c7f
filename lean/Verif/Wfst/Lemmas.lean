import Verif.Wfst.Processor
import Mathlib.Data.List.Basic

/-
Reading off the relation of each operator, and facts about repetition, escaping and rewriting.
-/

namespace Verif.Wfst

open Verif.Token.Spec (esc)

variable {a b : G} {x y s u v : Str} {w k : W}

theorem den_lit : (G.lit s).den x y w ↔ x = s ∧ y = s ∧ w = 0 := Iff.rfl
theorem den_cross : (G.cross a v).den x y w ↔ y = v ∧ a.den x x w := Iff.rfl
theorem den_cls {p} : (G.cls p).den x y w ↔ ∃ c, p c = true ∧ x = [c] ∧ y = [c] ∧ w = 0 := Iff.rfl
theorem den_tab {t} : (G.tab t).den x y w ↔ (x, y) ∈ t ∧ w = 0 := Iff.rfl
theorem den_add : (a + b).den x y w ↔ ∃ x₁ y₁ w₁ x₂ y₂ w₂, a.den x₁ y₁ w₁ ∧ b.den x₂ y₂ w₂ ∧
    x = x₁ ++ x₂ ∧ y = y₁ ++ y₂ ∧ w = w₁ + w₂ := Iff.rfl
theorem den_or : (a ||| b).den x y w ↔ a.den x y w ∨ b.den x y w := Iff.rfl
theorem den_star : (G.star a).den x y w ↔ Star a.den x y w := Iff.rfl
theorem den_comp : (G.comp a b).den x y w ↔ ∃ m w₁ w₂, a.den x m w₁ ∧ b.den m y w₂ ∧ w = w₁ + w₂ :=
  Iff.rfl
theorem den_proj : (G.proj a).den x y w ↔ y = x ∧ ∃ z, a.den x z w := Iff.rfl
theorem den_wt : (G.wt a k).den x y w ↔ ∃ w₀, a.den x y w₀ ∧ w = w₀ + k := Iff.rfl
theorem den_rw {l r} : (G.rw a l r).den x y w ↔ VText x ∧ Rewrites a.den l r [] x y w := Iff.rfl

theorem den_insert : (insert v).den x y w ↔ x = [] ∧ y = v ∧ w = 0 := by
  simp only [insert, den_cross, den_lit]; tauto

theorem den_delete : (delete a).den x y w ↔ y = [] ∧ a.den x x w := Iff.rfl

theorem den_del : (del s).den x y w ↔ x = s ∧ y = [] ∧ w = 0 := by
  simp only [del, den_delete, den_lit]; tauto

theorem den_crossS : (crossS u v).den x y w ↔ x = u ∧ y = v ∧ w = 0 := by
  simp only [crossS, den_cross, den_lit]; tauto

theorem den_ques : a.ques.den x y w ↔ (x = [] ∧ y = [] ∧ w = 0) ∨ a.den x y w := Iff.rfl

theorem den_plus : a.plus.den x y w ↔ ∃ x₁ y₁ w₁ x₂ y₂ w₂, a.den x₁ y₁ w₁ ∧
    Star a.den x₂ y₂ w₂ ∧ x = x₁ ++ x₂ ∧ y = y₁ ++ y₂ ∧ w = w₁ + w₂ := Iff.rfl

theorem den_pow_zero : (a.pow 0).den x y w ↔ x = [] ∧ y = [] ∧ w = 0 := Iff.rfl

theorem den_pow_succ {n} : (a.pow (n + 1)).den x y w ↔ (a + a.pow n).den x y w := Iff.rfl

theorem den_unionOf {g : G} {gs : List G} :
    (unionOf g gs).den x y w ↔ ∃ h ∈ g :: gs, h.den x y w := by
  induction gs generalizing g with
  | nil => simp [unionOf]
  | cons h hs ih =>
    show g.den x y w ∨ (unionOf h hs).den x y w ↔ _
    rw [ih]; simp

/-! Joining paths. -/

theorem G.den.cat {x' y' w'} (h₁ : a.den x y w) (h₂ : b.den x' y' w') :
    (a + b).den (x ++ x') (y ++ y') (w + w') := ⟨_, _, _, _, _, _, h₁, h₂, rfl, rfl, rfl⟩

/-- Inserted text before a graph. -/
theorem den_insert_add : (insert v + a).den x y w ↔ ∃ y', y = v ++ y' ∧ a.den x y' w := by
  simp only [den_add, den_insert]
  constructor
  · rintro ⟨_, _, _, x₂, y₂, w₂, ⟨rfl, rfl, rfl⟩, h, rfl, rfl, rfl⟩
    exact ⟨y₂, rfl, by simpa using h⟩
  · rintro ⟨y', rfl, h⟩
    exact ⟨[], v, 0, x, y', w, ⟨rfl, rfl, rfl⟩, h, rfl, rfl, by simp⟩

/-- Inserted text after a graph. -/
theorem den_add_insert : (a + insert v).den x y w ↔ ∃ y', y = y' ++ v ∧ a.den x y' w := by
  simp only [den_add, den_insert]
  constructor
  · rintro ⟨x₁, y₁, w₁, _, _, _, h, ⟨rfl, rfl, rfl⟩, rfl, rfl, rfl⟩
    exact ⟨y₁, rfl, by simpa using h⟩
  · rintro ⟨y', rfl, h⟩
    exact ⟨x, y', w, [], v, 0, h, ⟨rfl, rfl, rfl⟩, by simp, rfl, by simp⟩

/-- Deleted text before a graph. -/
theorem den_del_add : (del s + a).den x y w ↔ ∃ x', x = s ++ x' ∧ a.den x' y w := by
  simp only [den_add, den_del]
  constructor
  · rintro ⟨_, _, _, x₂, y₂, w₂, ⟨rfl, rfl, rfl⟩, h, rfl, rfl, rfl⟩
    exact ⟨x₂, rfl, by simpa using h⟩
  · rintro ⟨x', rfl, h⟩
    exact ⟨s, [], 0, x', y, w, ⟨rfl, rfl, rfl⟩, h, rfl, rfl, by simp⟩

/-- Deleted text after a graph. -/
theorem den_add_del : (a + del s).den x y w ↔ ∃ x', x = x' ++ s ∧ a.den x' y w := by
  simp only [den_add, den_del]
  constructor
  · rintro ⟨x₁, y₁, w₁, _, _, _, h, ⟨rfl, rfl, rfl⟩, rfl, rfl, rfl⟩
    exact ⟨x₁, rfl, by simpa using h⟩
  · rintro ⟨x', rfl, h⟩
    exact ⟨x', y, w, s, [], 0, h, ⟨rfl, rfl, rfl⟩, rfl, by simp, by simp⟩

/-! Repetition. -/

theorem Star.append {R : Rel} {x y w x' y' w'} (h : Star R x y w) (h' : Star R x' y' w') :
    Star R (x ++ x') (y ++ y') (w + w') := by
  induction h with
  | nil => simpa using h'
  | cons hr _ ih => simp only [List.append_assoc, Int.add_assoc]; exact .cons hr ih

theorem Star.one {R : Rel} {x y w} (h : R x y w) : Star R x y w := by
  simpa using Star.cons h .nil

/-- `VSIGMA` copies exactly the valid texts. -/
theorem den_VSIGMA : VSIGMA.den x y w ↔ y = x ∧ w = 0 ∧ VText x := by
  constructor
  · intro h
    induction (show Star (G.cls vchar).den x y w from h) with
    | nil => exact ⟨rfl, rfl, by simp [VText]⟩
    | cons hr _ ih =>
      obtain ⟨c, hc, rfl, rfl, rfl⟩ := hr
      obtain ⟨rfl, rfl, hv⟩ := ih (by assumption)
      exact ⟨rfl, rfl, fun d hd => (by
        rcases List.mem_append.1 hd with hd | hd
        · rw [List.mem_singleton.1 hd]; exact hc
        · exact hv d hd)⟩
  · rintro ⟨rfl, rfl, hv⟩
    induction y with
    | nil => exact Star.nil
    | cons c x ih =>
      have h1 : (G.cls vchar).den [c] [c] 0 := ⟨c, hv c (by simp), rfl, rfl, rfl⟩
      exact Star.cons h1 (ih fun d hd => hv d (by simp [hd]))

theorem plainChar_iff {c : Char} : plainChar c = true ↔ vchar c = true ∧ ¬(c = '"' ∨ c = '\\') := by
  simp only [plainChar, Bool.and_eq_true, bne_iff_ne, ne_eq]; tauto

theorem esc_cons (c : Char) (s : Str) :
    esc (c :: s) = (if c = '"' ∨ c = '\\' then ['\\', c] else [c]) ++ esc s := by
  simp [esc]

/-- `CHAR.star` writes exactly the escaped form of its input. -/
theorem den_CHAR_star : (G.star CHAR).den x y w ↔ y = esc x ∧ w = 0 ∧ VText x := by
  constructor
  · intro h
    induction (show Star CHAR.den x y w from h) with
    | nil => exact ⟨rfl, rfl, by simp [VText]⟩
    | cons hr _ ih =>
      obtain ⟨rfl, rfl, hv⟩ := ih (by assumption)
      have key : ∀ c : Char, vchar c = true → ∀ s : Str, VText s → VText ([c] ++ s) := by
        intro c hc s hs d hd
        rcases List.mem_append.1 hd with hd | hd
        · rw [List.mem_singleton.1 hd]; exact hc
        · exact hs d hd
      rcases hr with (⟨c, hc, rfl, rfl, rfl⟩ | hr) | hr
      · rw [plainChar_iff] at hc
        refine ⟨?_, rfl, key _ hc.1 _ hv⟩
        show [c] ++ esc _ = esc (c :: _)
        rw [esc_cons, if_neg hc.2]; rfl
      · rw [den_crossS] at hr
        obtain ⟨rfl, rfl, rfl⟩ := hr
        refine ⟨?_, rfl, key _ (by decide) _ hv⟩
        rw [List.singleton_append, esc_cons, if_pos (Or.inr rfl)]
      · rw [den_crossS] at hr
        obtain ⟨rfl, rfl, rfl⟩ := hr
        refine ⟨?_, rfl, key _ (by decide) _ hv⟩
        rw [List.singleton_append, esc_cons, if_pos (Or.inl rfl)]
  · rintro ⟨rfl, rfl, hv⟩
    induction x with
    | nil => exact Star.nil
    | cons c x ih =>
      have ih' := ih fun d hd => hv d (by simp [hd])
      have h1 : CHAR.den [c] (if c = '"' ∨ c = '\\' then ['\\', c] else [c]) 0 := by
        by_cases h : c = '"' ∨ c = '\\'
        · rw [if_pos h]
          rcases h with rfl | rfl
          · exact Or.inr (den_crossS.2 ⟨rfl, rfl, rfl⟩)
          · exact Or.inl (Or.inr (den_crossS.2 ⟨rfl, rfl, rfl⟩))
        · rw [if_neg h]
          exact Or.inl (Or.inl ⟨c, plainChar_iff.2 ⟨hv c (by simp), h⟩, rfl, rfl, rfl⟩)
      rw [esc_cons]
      exact Star.cons h1 ih'

/-- `SIGMA` undoes the escaping and accepts nothing else. -/
theorem den_SIGMA : SIGMA.den x y w ↔ x = esc y ∧ w = 0 ∧ VText y := by
  constructor
  · intro h
    unfold SIGMA at h
    induction (show Star _ x y w from h) with
    | nil => exact ⟨rfl, rfl, by simp [VText]⟩
    | cons hr _ ih =>
      obtain ⟨rfl, rfl, hv⟩ := ih (by assumption)
      have key : ∀ c : Char, vchar c = true → ∀ s : Str, VText s → VText ([c] ++ s) := by
        intro c hc s hs d hd
        rcases List.mem_append.1 hd with hd | hd
        · rw [List.mem_singleton.1 hd]; exact hc
        · exact hs d hd
      rcases hr with (⟨c, hc, rfl, rfl, rfl⟩ | hr) | hr
      · rw [plainChar_iff] at hc
        refine ⟨?_, rfl, key _ hc.1 _ hv⟩
        rw [List.singleton_append, List.singleton_append, esc_cons, if_neg hc.2]; rfl
      · rw [den_crossS] at hr
        obtain ⟨rfl, rfl, rfl⟩ := hr
        refine ⟨?_, rfl, key _ (by decide) _ hv⟩
        rw [List.singleton_append, esc_cons, if_pos (Or.inr rfl)]
      · rw [den_crossS] at hr
        obtain ⟨rfl, rfl, rfl⟩ := hr
        refine ⟨?_, rfl, key _ (by decide) _ hv⟩
        rw [List.singleton_append, esc_cons, if_pos (Or.inl rfl)]
  · rintro ⟨rfl, rfl, hv⟩
    unfold SIGMA
    induction y with
    | nil => exact Star.nil
    | cons c x ih =>
      have ih' := ih fun d hd => hv d (by simp [hd])
      rw [esc_cons]
      refine Star.cons (x := if c = '"' ∨ c = '\\' then ['\\', c] else [c]) (y := [c]) (w := 0) ?_ ih'
      by_cases h : c = '"' ∨ c = '\\'
      · rw [if_pos h]
        rcases h with rfl | rfl
        · exact Or.inr (den_crossS.2 ⟨rfl, rfl, rfl⟩)
        · exact Or.inl (Or.inr (den_crossS.2 ⟨rfl, rfl, rfl⟩))
      · rw [if_neg h]
        exact Or.inl (Or.inl ⟨c, plainChar_iff.2 ⟨hv c (by simp), h⟩, rfl, rfl, rfl⟩)

/-! The framework methods. -/

theorem den_addTokens {n : Str} :
    (addTokens n a).den x y w ↔ ∃ m, y = n ++ t!" { " ++ m ++ t!" } " ∧ a.den x m w := by
  unfold addTokens
  rw [den_add_insert]
  constructor
  · rintro ⟨y', rfl, h⟩
    obtain ⟨m, rfl, h'⟩ := den_insert_add.1 h
    exact ⟨m, rfl, h'⟩
  · rintro ⟨m, rfl, h⟩
    exact ⟨_, rfl, den_insert_add.2 ⟨m, rfl, h⟩⟩

theorem den_tagField {n : Str} :
    (tagField n a).den x y w ↔
      y = n ++ t!": \"" ++ esc x ++ t!"\"" ∧ VText x ∧ ∃ z, a.den x z w := by
  unfold tagField inputProjection
  rw [den_add_insert]
  constructor
  · rintro ⟨y', rfl, h⟩
    obtain ⟨m, rfl, h'⟩ := den_insert_add.1 h
    obtain ⟨z, w₁, w₂, ⟨rfl, z, h1⟩, h2, rfl⟩ := h'
    obtain ⟨rfl, rfl, hv⟩ := den_CHAR_star.1 h2
    exact ⟨by simp, hv, z, by simpa using h1⟩
  · rintro ⟨rfl, hv, z, h⟩
    exact ⟨_, rfl, den_insert_add.2 ⟨_, rfl, x, w, 0, ⟨rfl, z, h⟩,
      den_CHAR_star.2 ⟨rfl, rfl, hv⟩, by simp⟩⟩

theorem den_decoded_some :
    (decoded (some a)).den x y w ↔ ∃ t, x = esc t ∧ VText t ∧ a.den t y w := by
  show (∃ m w₁ w₂, SIGMA.den x m w₁ ∧ a.den m y w₂ ∧ w = w₁ + w₂) ↔ _
  constructor
  · rintro ⟨m, w₁, w₂, h1, h2, rfl⟩
    obtain ⟨rfl, rfl, hv⟩ := den_SIGMA.1 h1
    exact ⟨m, rfl, hv, by simpa using h2⟩
  · rintro ⟨t, rfl, hv, h⟩
    exact ⟨t, 0, w, den_SIGMA.2 ⟨rfl, rfl, hv⟩, h, by simp⟩

theorem den_decoded_none : (decoded none).den x y w ↔ x = esc y ∧ w = 0 ∧ VText y := den_SIGMA

theorem den_verbalizeField {n : Str} {g : Option G} {sp : Bool} :
    (verbalizeField n g sp).den x y w ↔
      ∃ m, x = (if sp then t!" " else []) ++ n ++ t!": \"" ++ m ++ t!"\"" ∧ (decoded g).den m y w := by
  unfold verbalizeField
  rw [den_add_del]
  constructor
  · rintro ⟨x', rfl, h⟩
    obtain ⟨m, rfl, h'⟩ := den_del_add.1 h
    exact ⟨m, rfl, h'⟩
  · rintro ⟨m, rfl, h⟩
    exact ⟨_, rfl, den_del_add.2 ⟨m, rfl, h⟩⟩

theorem den_deleteTokens {n : Str} :
    (deleteTokens n a).den x y w ↔
      ∃ m sp, (sp = [] ∨ sp = t!" ") ∧ x = n ++ t!" { " ++ m ++ t!" }" ++ sp ∧ a.den m y w := by
  unfold deleteTokens
  constructor
  · rintro ⟨x₁, y₁, w₁, x₂, y₂, w₂, h, h2, rfl, rfl, rfl⟩
    obtain ⟨x', rfl, h'⟩ := den_add_del.1 h
    obtain ⟨x₃, y₃, w₃, m, y₄, w₄, h3, h4, rfl, rfl, rfl⟩ := h'
    obtain ⟨x'', rfl, h5⟩ := den_add_del.1 h3
    obtain ⟨rfl, rfl, rfl⟩ := den_del.1 h5
    rcases h2 with ⟨rfl, rfl, rfl⟩ | h2
    · exact ⟨m, [], Or.inl rfl, by simp, by simpa using h4⟩
    · obtain ⟨rfl, rfl, rfl⟩ := den_del.1 h2
      exact ⟨m, t!" ", Or.inr rfl, by simp, by simpa using h4⟩
  · rintro ⟨m, sp, hsp, rfl, h⟩
    have h1 : (del n + del t!" { " + a).den (n ++ t!" { " ++ m) y w := by
      refine ⟨n ++ t!" { ", [], 0, m, y, w, ?_, h, rfl, rfl, by simp⟩
      exact den_add_del.2 ⟨n, rfl, den_del.2 ⟨rfl, rfl, rfl⟩⟩
    have h2 : (del t!" ").ques.den sp [] 0 := by
      rcases hsp with rfl | rfl
      · exact Or.inl ⟨rfl, rfl, rfl⟩
      · exact Or.inr (den_del.2 ⟨rfl, rfl, rfl⟩)
    exact ⟨n ++ t!" { " ++ m ++ t!" }", y, w, sp, [], 0, den_add_del.2 ⟨_, rfl, h1⟩, h2, rfl,
      by simp, by simp⟩

end Verif.Wfst
