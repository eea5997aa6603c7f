import Verif.ZhTn.Decimal

/-
Readings digit by digit.
-/

namespace Verif.ZhTn

open Verif.Wfst Spec

/-! ### Spelling -/

section
variable {v : Char → Option Nat} {o : List (Char × Str)} {x y : Str}

theorem _root_.Verif.ZhTn.Spec.Spells.append {x' y'} (h : Spells v o x y) (h' : Spells v o x' y') : Spells v o (x ++ x') (y ++ y') := by
  induction h with
  | nil => exact h'
  | digit h1 h2 _ ih => exact .digit h1 h2 ih
  | other h1 _ ih => rw [List.append_assoc]; exact .other h1 ih

theorem _root_.Verif.ZhTn.Spec.Spells.split {x'} (h : Spells v o (x ++ x') y) :
    ∃ y₁ y₂, y = y₁ ++ y₂ ∧ Spells v o x y₁ ∧ Spells v o x' y₂ := by
  induction x generalizing y with
  | nil => exact ⟨[], y, rfl, .nil, h⟩
  | cons c x ih =>
    cases h with
    | digit h1 h2 h =>
      obtain ⟨y₁, y₂, rfl, ha, hb⟩ := ih h
      exact ⟨_ :: y₁, y₂, rfl, .digit h1 h2 ha, hb⟩
    | other h1 h =>
      obtain ⟨y₁, y₂, rfl, ha, hb⟩ := ih h
      exact ⟨_ ++ y₁, y₂, by simp, .other h1 ha, hb⟩

/-- The digits come back from the syllables. -/
theorem _root_.Verif.ZhTn.Spec.Spells.recover (h : Spells v o x y) (ho : ∀ e ∈ o, digitVal e.1 = none ∧ ∀ c ∈ e.2, v c = none) :
    y.filterMap v = x.filterMap digitVal := by
  induction h with
  | nil => rfl
  | digit h1 h2 _ ih => rw [List.filterMap_cons_some h2, List.filterMap_cons_some h1, ih]
  | @other c p x y h1 _ ih =>
    rw [List.filterMap_append, List.filterMap_cons_none (ho _ h1).1, ih,
      List.filterMap_eq_nil_iff.2 (ho _ h1).2, List.nil_append]

/-- A text is spelled in one way. -/
theorem _root_.Verif.ZhTn.Spec.Spells.unique {y'} (h : Spells v o x y) (h' : Spells v o x y')
    (hv : ∀ s t d, v s = some d → v t = some d → s = t) (ho : ∀ e ∈ o, digitVal e.1 = none)
    (hf : ∀ e ∈ o, ∀ e' ∈ o, e.1 = e'.1 → e.2 = e'.2) : y = y' := by
  induction h generalizing y' with
  | nil => cases h'; rfl
  | digit h1 h2 _ ih =>
    cases h' with
    | digit h3 h4 h =>
      rw [h1] at h3
      rw [ih h, hv _ _ _ h2 (Option.some.inj h3 ▸ h4)]
    | other h3 h => rw [ho _ h3] at h1; cases h1
  | other h1 _ ih =>
    cases h' with
    | digit h3 h4 h => rw [ho _ h1] at h3; cases h3
    | other h3 h =>
      have e := hf _ h1 _ h3 rfl
      simp only at e
      rw [ih h, e]

/-- A character that is spelled as listed. -/
theorem spells_other {c : Char} {p : Str} (h : (c, p) ∈ o) : Spells v o [c] p := by
  have := Spells.other (v := v) h .nil
  rwa [List.append_nil] at this

theorem spells_other_inv {c : Char} (h : Spells v o [c] y) (hc : digitVal c = none) : (c, y) ∈ o := by
  cases h with
  | digit h1 => rw [hc] at h1; cases h1
  | other h1 h => cases h; rwa [List.append_nil]

/-- A grammar of one digit. -/
def SpellsDigit (g : G) (v : Char → Option Nat) : Prop :=
  ∀ x y w, g.den x y w ↔ ∃ c s d, x = [c] ∧ y = [s] ∧ digitVal c = some d ∧ v s = some d ∧ w = 0

theorem SpellsDigit.star {g : G} (hg : SpellsDigit g v) (ho : ∀ e ∈ o, digitVal e.1 = none) {w} :
    Star g.den x y w ↔ Digits x ∧ Spells v o x y ∧ w = 0 := by
  constructor
  · intro h
    induction h with
    | nil => exact ⟨by simp [Digits], .nil, rfl⟩
    | cons hr _ ih =>
      obtain ⟨c, s, d, rfl, rfl, h1, h2, rfl⟩ := (hg _ _ _).1 hr
      obtain ⟨hd, hs, rfl⟩ := ih
      refine ⟨?_, .digit h1 h2 hs, rfl⟩
      intro e he
      rcases List.mem_cons.1 he with rfl | he
      · rw [h1]; rfl
      · exact hd e he
  · rintro ⟨hd, hs, rfl⟩
    induction hs with
    | nil => exact .nil
    | digit h1 h2 _ ih =>
      exact Star.cons (x := [_]) (y := [_]) (w := 0) ((hg _ _ _).2 ⟨_, _, _, rfl, rfl, h1, h2, rfl⟩)
        (ih fun c hc => hd c (by simp [hc]))
    | @other c p x y h1 _ ih =>
      have := hd c (by simp)
      rw [ho _ h1] at this; cases this

theorem SpellsDigit.plus {g : G} (hg : SpellsDigit g v) (ho : ∀ e ∈ o, digitVal e.1 = none) {w} :
    g.plus.den x y w ↔ Digits1 x ∧ Spells v o x y ∧ w = 0 := by
  constructor
  · rintro ⟨x₁, y₁, w₁, x₂, y₂, w₂, h1, h2, rfl, rfl, rfl⟩
    obtain ⟨hd, hs, rfl⟩ := (hg.star ho).1 h2
    obtain ⟨c, s, d, rfl, rfl, h3, h4, rfl⟩ := (hg _ _ _).1 h1
    refine ⟨⟨by simp, ?_⟩, .digit h3 h4 hs, rfl⟩
    intro e he
    rcases List.mem_cons.1 he with rfl | he
    · rw [h3]; rfl
    · exact hd e he
  · rintro ⟨⟨h0, hd⟩, hs, rfl⟩
    cases hs with
    | nil => exact absurd rfl h0
    | @digit c s d x y h1 h2 hs =>
      exact ⟨[c], [s], 0, x, y, 0, (hg _ _ _).2 ⟨_, _, _, rfl, rfl, h1, h2, rfl⟩,
        (hg.star ho).2 ⟨fun c hc => hd c (by simp [hc]), hs, rfl⟩, rfl, rfl, rfl⟩
    | @other c p x y h1 _ =>
      have := hd c (by simp)
      rw [ho _ h1] at this; cases this

theorem SpellsDigit.pow {g : G} (hg : SpellsDigit g v) (ho : ∀ e ∈ o, digitVal e.1 = none) {w} (n : Nat) :
    (g.pow n).den x y w ↔ Digits x ∧ x.length = n ∧ Spells v o x y ∧ w = 0 := by
  induction n generalizing x y w with
  | zero =>
    rw [den_pow_zero]
    constructor
    · rintro ⟨rfl, rfl, rfl⟩; exact ⟨by simp [Digits], rfl, .nil, rfl⟩
    · rintro ⟨_, hl, hs, rfl⟩
      rw [List.length_eq_zero_iff.1 hl] at hs ⊢
      cases hs; exact ⟨rfl, rfl, rfl⟩
  | succ n ih =>
    rw [den_pow_succ]
    constructor
    · rintro ⟨x₁, y₁, w₁, x₂, y₂, w₂, h1, h2, rfl, rfl, rfl⟩
      obtain ⟨hd, hl, hs, rfl⟩ := ih.1 h2
      obtain ⟨c, s, d, rfl, rfl, h3, h4, rfl⟩ := (hg _ _ _).1 h1
      refine ⟨?_, by simp [hl], .digit h3 h4 hs, rfl⟩
      intro e he
      rcases List.mem_cons.1 he with rfl | he
      · rw [h3]; rfl
      · exact hd e he
    · rintro ⟨hd, hl, hs, rfl⟩
      cases hs with
      | nil => simp at hl
      | @digit c s d x y h1 h2 hs =>
        exact ⟨[c], [s], 0, x, y, 0, (hg _ _ _).2 ⟨_, _, _, rfl, rfl, h1, h2, rfl⟩,
          ih.2 ⟨fun c hc => hd c (by simp [hc]), by simpa using hl, hs, rfl⟩, rfl, rfl, rfl⟩
      | @other c p x y h1 _ =>
        have := hd c (by simp)
        rw [ho _ h1] at this; cases this

end

/-! ### The digit grammars -/

theorem syllableVal_iff {s : Char} {d : Nat} (hd : d < 10) : syllableVal s = some d ↔ s = num d := by
  constructor
  · intro h
    obtain ⟨l₁, l₂, he, _⟩ := List.lookup_eq_some_iff.1 h
    have : ∀ e ∈ syllableTable, e.1 = num e.2 := by decide
    exact this (s, d) (by rw [he]; simp)
  · rintro rfl; exact syllable_num hd

theorem digits_spell : SpellsDigit digits syllableVal := by
  intro x y w
  rw [reads_digits x y w]
  constructor
  · rintro ⟨ds, hv, hl, _, rfl, rfl⟩
    obtain ⟨d, rfl⟩ := List.length_eq_one_iff.1 hl
    obtain ⟨c, rfl, hc⟩ := vals_singleton.1 hv
    exact ⟨c, num d, d, rfl, rfl, hc, syllable_num (digitVal_lt hc), rfl⟩
  · rintro ⟨c, s, d, rfl, rfl, hc, hs, rfl⟩
    rw [syllableVal_iff (digitVal_lt hc)] at hs
    exact ⟨[d], vals_singleton.2 ⟨c, rfl, hc⟩, rfl, rfl, by rw [hs]; rfl, rfl⟩

/-- 一 becomes 幺. -/
def yao (c : Char) : Str := if c = '一' then ['幺'] else [c]

theorem den_yao {x y w} : (buildRule (crossS t!"一" t!"幺")).den x y w ↔ VText x ∧ y = x.flatMap yao ∧ w = 0 := by
  show VText x ∧ Rewrites _ _ _ _ _ _ _ ↔ _
  rw [rewrites_charMap (fun u v w h => by obtain ⟨rfl, _⟩ := den_crossS.1 h; rfl),
    charMap_function yao (fun c v w h => by
      obtain ⟨h1, rfl, rfl⟩ := den_crossS.1 h
      cases h1; exact ⟨rfl, rfl⟩) (fun c h => by
      unfold yao
      rw [if_neg]
      rintro rfl
      exact h ⟨_, _, den_crossS.2 ⟨rfl, rfl, rfl⟩⟩)]

theorem phoneVal_iff {s : Char} {d : Nat} (hd : d < 10) : phoneVal s = some d ↔ yao (num d) = [s] := by
  constructor
  · intro h
    obtain ⟨l₁, l₂, he, _⟩ := List.lookup_eq_some_iff.1 h
    have : ∀ e ∈ phoneTable, yao (num e.2) = [e.1] := by decide
    exact this (s, d) (by rw [he]; simp)
  · intro h
    have : ∀ d < 10, ∀ s ∈ yao (num d), phoneVal s = some d := by decide
    exact this d hd s (by rw [h]; simp)

theorem yao_num (d : Nat) : ∃ s, yao (num d) = [s] := by
  unfold yao; split
  · exact ⟨_, rfl⟩
  · exact ⟨_, rfl⟩

theorem phoneDigits_spell : SpellsDigit phoneDigits phoneVal := by
  intro x y w
  constructor
  · rintro ⟨m, w₁, w₂, h1, h2, rfl⟩
    obtain ⟨c, s, d, rfl, rfl, hc, hs, rfl⟩ := (digits_spell _ _ _).1 h1
    obtain ⟨_, rfl, rfl⟩ := den_yao.1 h2
    rw [syllableVal_iff (digitVal_lt hc)] at hs
    subst hs
    obtain ⟨s, hs⟩ := yao_num d
    refine ⟨c, s, d, rfl, ?_, hc, (phoneVal_iff (digitVal_lt hc)).2 hs, rfl⟩
    rw [← hs]; simp
  · rintro ⟨c, s, d, rfl, rfl, hc, hs, rfl⟩
    rw [phoneVal_iff (digitVal_lt hc)] at hs
    refine ⟨[num d], 0, 0, (digits_spell _ _ _).2 ⟨c, num d, d, rfl, rfl, hc, syllable_num (digitVal_lt hc), rfl⟩,
      den_yao.2 ⟨vtext_num [d], ?_, rfl⟩, rfl⟩
    rw [← hs]; simp

theorem sep_none : ∀ e ∈ separators, digitVal e.1 = none := by decide
theorem tail_none : ∀ e ∈ tailWords, digitVal e.1 = none := by decide

/-! ### `cardinal` -/

theorem den_group {g : G} {c : Char} {p : Str} (hg : ∀ x y w, g.den x y w ↔ x = [c] ∧ y = p ∧ w = 0)
    (hc : digitVal c = none) (hm : (c, p) ∈ separators) {x y w} :
    (g + digits.plus).den x y w ↔
      ∃ z, Digits1 z ∧ x = c :: z ∧ Spells syllableVal separators x y ∧ w = 0 := by
  constructor
  · rintro ⟨x₁, y₁, w₁, x₂, y₂, w₂, h1, h2, rfl, rfl, rfl⟩
    obtain ⟨rfl, rfl, rfl⟩ := (hg _ _ _).1 h1
    obtain ⟨hd, hs, rfl⟩ := (digits_spell.plus sep_none).1 h2
    exact ⟨x₂, hd, rfl, Spells.append (spells_other hm) hs, rfl⟩
  · rintro ⟨z, hd, rfl, hs, rfl⟩
    obtain ⟨y₁, y₂, rfl, h1, h2⟩ := Spells.split (x := [c]) hs
    have h3 := spells_other_inv h1 hc
    have : y₁ = p := by
      have hf : ∀ e ∈ separators, ∀ e' ∈ separators, e.1 = e'.1 → e.2 = e'.2 := by decide
      exact hf _ h3 _ hm rfl
    exact ⟨[c], y₁, 0, z, y₂, 0, (hg _ _ _).2 ⟨rfl, this, rfl⟩,
      (digits_spell.plus sep_none).2 ⟨hd, h2, rfl⟩, rfl, rfl, rfl⟩

theorem den_dotG {x y w} : dotG.den x y w ↔ x = ['.'] ∧ y = ['点'] ∧ w = 0 := by
  constructor
  · intro h
    obtain ⟨hm, rfl⟩ := den_tab.1 h
    obtain ⟨rfl, rfl⟩ : x = ['.'] ∧ y = ['点'] := by simpa [dot] using hm
    exact ⟨rfl, rfl, rfl⟩
  · rintro ⟨rfl, rfl, rfl⟩
    exact den_tab.2 ⟨by simp [dot], rfl⟩

/-- Groups of digits each after a separator. -/
theorem den_groups {g : G} {c : Char} {p : Str} (hg : ∀ x y w, g.den x y w ↔ x = [c] ∧ y = p ∧ w = 0)
    (hc : digitVal c = none) (hm : (c, p) ∈ separators) (n : Nat) {x y w} :
    ((g + digits.plus).pow n).den x y w ↔
      (∃ zs : List Str, zs.length = n ∧ (∀ z ∈ zs, Digits1 z) ∧ x = zs.flatMap (c :: ·)) ∧
      Spells syllableVal separators x y ∧ w = 0 := by
  induction n generalizing x y w with
  | zero =>
    rw [den_pow_zero]
    constructor
    · rintro ⟨rfl, rfl, rfl⟩; exact ⟨⟨[], rfl, by simp, rfl⟩, .nil, rfl⟩
    · rintro ⟨⟨zs, hl, _, rfl⟩, hs, rfl⟩
      rw [List.length_eq_zero_iff.1 hl] at hs ⊢
      cases hs; exact ⟨rfl, rfl, rfl⟩
  | succ n ih =>
    rw [den_pow_succ]
    constructor
    · rintro ⟨x₁, y₁, w₁, x₂, y₂, w₂, h1, h2, rfl, rfl, rfl⟩
      obtain ⟨z, hz, rfl, hs, rfl⟩ := (den_group hg hc hm).1 h1
      obtain ⟨⟨zs, rfl, hzs, rfl⟩, hs', rfl⟩ := ih.1 h2
      exact ⟨⟨z :: zs, rfl, by simpa using ⟨hz, hzs⟩, by simp⟩, hs.append hs', rfl⟩
    · rintro ⟨⟨zs, hl, hzs, rfl⟩, hs, rfl⟩
      match zs, hl with
      | z :: zs, hl =>
        rw [List.flatMap_cons] at hs
        obtain ⟨y₁, y₂, rfl, h1, h2⟩ := hs.split
        exact ⟨c :: z, y₁, 0, zs.flatMap (c :: ·), y₂, 0,
          (den_group hg hc hm).2 ⟨z, hzs z (by simp), rfl, h1, rfl⟩,
          ih.2 ⟨⟨zs, by simpa using hl, fun z hz => hzs z (by simp [hz]), rfl⟩, h2, rfl⟩, by simp, rfl, rfl⟩

theorem den_ip {x y w} : (digits.plus + (dotG + digits.plus).pow 3).den x y w ↔
    Ip x ∧ Spells syllableVal separators x y ∧ w = 0 := by
  constructor
  · rintro ⟨x₁, y₁, w₁, x₂, y₂, w₂, h1, h2, rfl, rfl, rfl⟩
    obtain ⟨hd, hs, rfl⟩ := (digits_spell.plus sep_none).1 h1
    obtain ⟨⟨zs, hl, hzs, rfl⟩, hs', rfl⟩ := (den_groups (fun _ _ _ => den_dotG) (by decide) (by decide) 3).1 h2
    obtain ⟨a, b, c, rfl⟩ := List.length_eq_three.1 hl
    exact ⟨⟨x₁, a, b, c, hd, hzs a (by simp), hzs b (by simp), hzs c (by simp), by simp⟩, hs.append hs', rfl⟩
  · rintro ⟨⟨a, b, c, d, ha, hb, hc, hd, rfl⟩, hs, rfl⟩
    have e : a ++ '.' :: b ++ '.' :: c ++ '.' :: d = a ++ [b, c, d].flatMap ('.' :: ·) := by simp
    rw [e] at hs ⊢
    obtain ⟨y₁, y₂, rfl, h1, h2⟩ := hs.split
    exact ⟨a, y₁, 0, _, y₂, 0, (digits_spell.plus sep_none).2 ⟨ha, h1, rfl⟩,
      (den_groups (fun _ _ _ => den_dotG) (by decide) (by decide) 3).2
        ⟨⟨[b, c, d], rfl, by simpa using ⟨hb, hc, hd⟩, rfl⟩, h2, rfl⟩, rfl, rfl, rfl⟩

theorem den_dashed {x y w} : (digits.plus + (del t!"-" + digits.plus).pow 2).den x y w ↔
    Dashed x ∧ Spells syllableVal separators x y ∧ w = 0 := by
  constructor
  · rintro ⟨x₁, y₁, w₁, x₂, y₂, w₂, h1, h2, rfl, rfl, rfl⟩
    obtain ⟨hd, hs, rfl⟩ := (digits_spell.plus sep_none).1 h1
    obtain ⟨⟨zs, hl, hzs, rfl⟩, hs', rfl⟩ := (den_groups (fun _ _ _ => den_del) (by decide) (by decide) 2).1 h2
    obtain ⟨a, b, rfl⟩ := List.length_eq_two.1 hl
    exact ⟨⟨x₁, a, b, hd, hzs a (by simp), hzs b (by simp), by simp⟩, hs.append hs', rfl⟩
  · rintro ⟨⟨a, b, c, ha, hb, hc, rfl⟩, hs, rfl⟩
    have e : a ++ '-' :: b ++ '-' :: c = a ++ [b, c].flatMap ('-' :: ·) := by simp
    rw [e] at hs ⊢
    obtain ⟨y₁, y₂, rfl, h1, h2⟩ := hs.split
    exact ⟨a, y₁, 0, _, y₂, 0, (digits_spell.plus sep_none).2 ⟨ha, h1, rfl⟩,
      (den_groups (fun _ _ _ => den_del) (by decide) (by decide) 2).2
        ⟨⟨[b, c], rfl, by simpa using ⟨hb, hc⟩, rfl⟩, h2, rfl⟩, rfl, rfl, rfl⟩

theorem den_landline {x y w} : (digits.pow 3 + del t!"-" + digits.pow 8).den x y w ↔
    Landline x ∧ Spells syllableVal separators x y ∧ w = 0 := by
  constructor
  · rintro ⟨x₁, y₁, w₁, x₂, y₂, w₂, ⟨x₃, y₃, w₃, x₄, y₄, w₄, h1, h2, rfl, rfl, rfl⟩, h3, rfl, rfl, rfl⟩
    obtain ⟨hd, hl, hs, rfl⟩ := (digits_spell.pow sep_none 3).1 h1
    obtain ⟨hd', hl', hs', rfl⟩ := (digits_spell.pow sep_none 8).1 h3
    obtain ⟨rfl, rfl, rfl⟩ := den_del.1 h2
    exact ⟨⟨x₃, x₂, hd, hd', hl, hl', by simp⟩,
      (hs.append (spells_other (by decide))).append hs', rfl⟩
  · rintro ⟨⟨a, b, ha, hb, hla, hlb, rfl⟩, hs, rfl⟩
    have e : a ++ '-' :: b = a ++ ['-'] ++ b := by simp
    rw [e] at hs ⊢
    obtain ⟨y₁, y₂, rfl, h1, h2⟩ := hs.split
    obtain ⟨y₃, y₄, rfl, h3, h4⟩ := h1.split
    have h5 := spells_other_inv h4 (by decide)
    have : y₄ = [] := by simpa [separators] using h5
    subst this
    exact G.den.cat (w := 0 + 0) (w' := 0) (G.den.cat ((digits_spell.pow sep_none 3).2 ⟨ha, hla, h3, rfl⟩)
      (den_del.2 ⟨rfl, rfl, rfl⟩)) ((digits_spell.pow sep_none 8).2 ⟨hb, hlb, h2, rfl⟩)

/-- Copied words before digits. -/
theorem spells_words {p y : Str} (hp : ∀ c ∈ p, (c, [c]) ∈ tailWords) :
    Spells phoneVal tailWords p y ↔ y = p := by
  constructor
  · intro h
    induction p generalizing y with
    | nil => cases h; rfl
    | cons c p ih =>
      have hc := hp c (by simp)
      cases h with
      | digit h1 => rw [tail_none _ hc] at h1; cases h1
      | other h1 h =>
        have hf : ∀ e ∈ tailWords, ∀ e' ∈ tailWords, e.1 = e'.1 → e.2 = e'.2 := by decide
        have := hf _ h1 _ hc rfl
        simp only at this
        rw [this, ih (fun c hc => hp c (by simp [hc])) h]; rfl
  · rintro rfl
    induction y with
    | nil => exact .nil
    | cons c p ih => exact Spells.other (hp c (by simp)) (ih fun c hc => hp c (by simp [hc]))

theorem den_tailPrefix {x y w} : (G.lit t!"尾号" + (G.lit t!"是" ||| .lit t!"为").ques).den x y w ↔
    x ∈ ([['尾', '号'], ['尾', '号', '是'], ['尾', '号', '为']] : List Str) ∧ y = x ∧ w = 0 := by
  constructor
  · rintro ⟨_, _, _, _, _, _, ⟨rfl, rfl, rfl⟩, ⟨rfl, rfl, rfl⟩ | ⟨rfl, rfl, rfl⟩ | ⟨rfl, rfl, rfl⟩, rfl, rfl, rfl⟩
    · exact ⟨by decide, rfl, rfl⟩
    · exact ⟨by decide, rfl, rfl⟩
    · exact ⟨by decide, rfl, rfl⟩
  · rintro ⟨h, rfl, rfl⟩
    simp only [List.mem_cons, List.not_mem_nil, or_false] at h
    rcases h with rfl | rfl | rfl
    · exact ⟨['尾', '号'], ['尾', '号'], 0, [], [], 0, ⟨rfl, rfl, rfl⟩, Or.inl ⟨rfl, rfl, rfl⟩, rfl, rfl, rfl⟩
    · exact ⟨['尾', '号'], ['尾', '号'], 0, _, _, 0, ⟨rfl, rfl, rfl⟩, Or.inr (Or.inl ⟨rfl, rfl, rfl⟩), rfl, rfl, rfl⟩
    · exact ⟨['尾', '号'], ['尾', '号'], 0, _, _, 0, ⟨rfl, rfl, rfl⟩, Or.inr (Or.inr ⟨rfl, rfl, rfl⟩), rfl, rfl, rfl⟩

theorem tail_words {p : Str} (hp : p ∈ ([['尾', '号'], ['尾', '号', '是'], ['尾', '号', '为']] : List Str)) :
    ∀ c ∈ p, (c, [c]) ∈ tailWords := by
  revert p; decide

theorem den_tail {x y w} :
    (G.lit t!"尾号" + (G.lit t!"是" ||| .lit t!"为").ques + phoneDigits.pow 4).den x y w ↔
    Tail x ∧ Spells phoneVal tailWords x y ∧ w = 0 := by
  constructor
  · rintro ⟨x₁, y₁, w₁, x₂, y₂, w₂, h1, h2, rfl, rfl, rfl⟩
    obtain ⟨hp, rfl, rfl⟩ := den_tailPrefix.1 h1
    obtain ⟨hd, hl, hs, rfl⟩ := (phoneDigits_spell.pow tail_none 4).1 h2
    exact ⟨⟨y₁, x₂, hp, hd, hl, rfl⟩, ((spells_words (tail_words hp)).2 rfl).append hs, rfl⟩
  · rintro ⟨⟨p, d, hp, hd, hl, rfl⟩, hs, rfl⟩
    obtain ⟨y₁, y₂, rfl, h1, h2⟩ := hs.split
    rw [spells_words (tail_words hp)] at h1
    subst h1
    exact ⟨y₁, y₁, 0, d, y₂, 0, den_tailPrefix.2 ⟨hp, rfl, rfl⟩,
      (phoneDigits_spell.pow tail_none 4).2 ⟨hd, hl, h2, rfl⟩, rfl, rfl, rfl⟩

/-- Spelling a text of digits, computed. -/
def spell (x : Str) : Option Str := x.mapM fun c => (digitVal c).map fun d => if d = 1 then '幺' else num d

theorem spell_spells {x y : Str} (h : spell x = some y) : Spells phoneVal tailWords x y := by
  induction x generalizing y with
  | nil => cases h; exact .nil
  | cons c x ih =>
    unfold spell at h
    rw [List.mapM_cons] at h
    cases hc : digitVal c with
    | none => rw [hc] at h; cases h
    | some d =>
      cases hx : spell x with
      | none => rw [hc] at h; unfold spell at hx; rw [hx] at h; cases h
      | some y' =>
        rw [hc] at h
        have hx' := hx
        unfold spell at hx; rw [hx] at h
        cases h
        refine .digit hc ?_ (ih hx')
        have : ∀ d < 10, phoneVal (if d = 1 then '幺' else num d) = some d := by decide
        exact this d (digitVal_lt hc)

theorem phoneVal_inj : ∀ s t d, phoneVal s = some d → phoneVal t = some d → s = t := by
  intro s t d h h'
  have hd : d < 10 := by
    obtain ⟨l₁, l₂, he, _⟩ := List.lookup_eq_some_iff.1 h
    have : ∀ e ∈ phoneTable, e.2 < 10 := by decide
    exact this (s, d) (by rw [he]; simp)
  have := ((phoneVal_iff hd).1 h).symm.trans ((phoneVal_iff hd).1 h')
  exact (List.cons.inj this).1

theorem syllableVal_inj : ∀ s t d, syllableVal s = some d → syllableVal t = some d → s = t := by
  intro s t d h h'
  have hd : d < 10 := by
    obtain ⟨l₁, l₂, he, _⟩ := List.lookup_eq_some_iff.1 h
    have : ∀ e ∈ syllableTable, e.2 < 10 := by decide
    exact this (s, d) (by rw [he]; simp)
  exact ((syllableVal_iff hd).1 h).trans ((syllableVal_iff hd).1 h').symm

theorem den_phoneTab {x y w} : (G.tab phone).den x y w ↔ Service x ∧ Spells phoneVal tailWords x y ∧ w = 0 := by
  have h1 : ∀ e ∈ phone, ∃ n ∈ serviceNumbers, e.1 = Nat.toDigits 10 n := by decide +kernel
  have h2 : ∀ e ∈ phone, spell e.1 = some e.2 := by decide +kernel
  have h3 : ∀ n ∈ serviceNumbers, ∃ e ∈ phone, e.1 = Nat.toDigits 10 n := by decide +kernel
  rw [den_tab]
  constructor
  · rintro ⟨h, rfl⟩
    exact ⟨h1 _ h, spell_spells (h2 _ h), rfl⟩
  · rintro ⟨⟨n, hn, rfl⟩, hs, rfl⟩
    obtain ⟨⟨a, b⟩, he, h⟩ := h3 n hn
    simp only at h
    subst h
    have := (spell_spells (h2 _ he)).unique hs phoneVal_inj tail_none (by decide)
    simp only at this
    rw [← this]
    exact ⟨he, rfl⟩

theorem den_phone {x y w} : phoneG.den x y w ↔
    (Service x ∨ Mobile x ∨ Tail x) ∧ Spells phoneVal tailWords x y ∧ w = 0 := by
  unfold phoneG
  rw [den_or, den_or, den_phoneTab, phoneDigits_spell.pow tail_none 11, den_tail]
  unfold Mobile
  tauto

theorem den_phone_wt {x y w} : (G.wt phoneG (-100000)).den x y w ↔
    (Service x ∨ Mobile x ∨ Tail x) ∧ Spells phoneVal tailWords x y ∧ w = -100000 := by
  rw [den_wt]
  constructor
  · rintro ⟨w₀, h, rfl⟩
    obtain ⟨hf, hs, rfl⟩ := den_phone.1 h
    exact ⟨hf, hs, zero_add _⟩
  · rintro ⟨hf, hs, hw⟩
    exact ⟨0, den_phone.2 ⟨hf, hs, rfl⟩, hw.trans (zero_add _).symm⟩

theorem den_cardinal {x y w} : cardinal.den x y w ↔ percent.den x y w ∨
    ((Ip x ∨ Dashed x ∨ Landline x) ∧ Spells syllableVal separators x y ∧ w = 0) ∨
    ((Service x ∨ Mobile x ∨ Tail x) ∧ Spells phoneVal tailWords x y ∧ w = -100000) := by
  have hu : cardinal = ((((digits.plus + (dotG + digits.plus).pow 3) ||| percent) |||
      (digits.plus + (del t!"-" + digits.plus).pow 2)) |||
      (digits.pow 3 + del t!"-" + digits.pow 8)) ||| (G.wt phoneG (-100000)) := rfl
  rw [hu, den_or, den_or, den_or, den_or, den_ip, den_dashed, den_landline, den_phone_wt]
  refine Iff.trans (or_congr_left ?_) or_assoc
  constructor
  · rintro (((⟨h, hs⟩ | h) | ⟨h, hs⟩) | ⟨h, hs⟩)
    · exact Or.inr ⟨Or.inl h, hs⟩
    · exact Or.inl h
    · exact Or.inr ⟨Or.inr (Or.inl h), hs⟩
    · exact Or.inr ⟨Or.inr (Or.inr h), hs⟩
  · rintro (h | ⟨h | h | h, hs⟩)
    · exact Or.inl (Or.inl (Or.inr h))
    · exact Or.inl (Or.inl (Or.inl ⟨h, hs⟩))
    · exact Or.inl (Or.inr ⟨h, hs⟩)
    · exact Or.inr ⟨h, hs⟩

/-! ### Years -/

theorem den_year {x y w} : year.den x y w ↔ Digits x ∧ x.length = 4 ∧ digitVal (x.headD '0') ≠ some 0 ∧
    ∃ z, Spells syllableVal [] x z ∧ y = z ++ ['年'] ∧ w = 0 := by
  have key : ∀ x y w, yyyy.den x y w ↔ Digits x ∧ x.length = 4 ∧ digitVal (x.headD '0') ≠ some 0 ∧
      Spells syllableVal [] x y ∧ w = 0 := by
    intro x y w
    have hsw : ∀ x y w, (digitG ||| zeroG).den x y w ↔ digits.den x y w := by
      intro x y w
      unfold digits
      rw [den_or, den_or, or_comm]
    have hpow : SpellsDigit (digitG ||| zeroG) syllableVal := fun x y w => (hsw x y w).trans (digits_spell x y w)
    constructor
    · rintro ⟨x₁, y₁, w₁, x₂, y₂, w₂, h1, h2, rfl, rfl, rfl⟩
      obtain ⟨hd, hl, hs, rfl⟩ := (hpow.pow (o := []) (by simp) 3).1 h2
      have h1' : digits.den x₁ y₁ w₁ := Or.inr h1
      obtain ⟨c, s, d, rfl, rfl, hc, hs1, rfl⟩ := (digits_spell _ _ _).1 h1'
      obtain ⟨ds, hv, _, hp, _⟩ := (reads_digit _ _ _).1 h1
      have hds : ds = [d] := hv.unique (vals_singleton.2 ⟨c, rfl, hc⟩)
      subst hds
      refine ⟨?_, by simp [hl], ?_, .digit hc hs1 hs, rfl⟩
      · intro e he
        rcases List.mem_cons.1 he with rfl | he
        · rw [hc]; rfl
        · exact hd e he
      · show digitVal c ≠ some 0
        rw [hc]
        intro e
        rw [Option.some.inj e] at hp; revert hp; decide
    · rintro ⟨hd, hl, h0, hs, rfl⟩
      match x, hl, hs with
      | c :: x, hl, hs =>
        cases hs with
        | other h => cases h
        | @digit _ s d _ y hc hs1 hs' =>
          refine ⟨[c], [s], 0, x, y, 0, (reads_digit _ _ _).2 ⟨[d], vals_singleton.2 ⟨c, rfl, hc⟩, rfl, ?_, ?_, rfl⟩,
            (hpow.pow (o := []) (by simp) 3).2 ⟨fun c hc => hd c (by simp [hc]), by simpa using hl, hs', rfl⟩, rfl, rfl, rfl⟩
          · have : d ≠ 0 := by rintro rfl; exact h0 hc
            simpa using this
          · rw [(syllableVal_iff (digitVal_lt hc)).1 hs1]; rfl
  unfold year
  rw [den_add_insert]
  constructor
  · rintro ⟨z, rfl, h⟩
    obtain ⟨h1, h2, h3, h4, rfl⟩ := (key _ _ _).1 h
    exact ⟨h1, h2, h3, z, h4, rfl, rfl⟩
  · rintro ⟨h1, h2, h3, z, h4, rfl, rfl⟩
    exact ⟨z, rfl, (key _ _ _).2 ⟨h1, h2, h3, h4, rfl⟩⟩

end Verif.ZhTn
