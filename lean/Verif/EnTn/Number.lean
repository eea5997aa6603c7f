import Verif.EnTn.Model
import Verif.EnTn.NumberSpec
import Verif.EnItn.NumberProps
import Verif.Wfst.Enum

/-
The names of numbers in English TN.
-/

namespace Verif.EnTn

open Verif.Wfst
open Spec
open Verif.EnItn.Spec (below100 below1000 groups join english scaleNames)
open Verif.EnItn (after join_append below1000_ne groups_ne)

/-! ### Texts of digits -/

/-- The number written by digits. -/
def num (x : Str) : Nat := Nat.ofDigitChars 10 x 0

theorem digs_split {x : Str} {n k : Nat} (h : Digs x n) (hl : x.length = k + 1) :
    ∃ a d, d < 10 ∧ x = a ++ [Nat.digitChar d] ∧ Digs a (n / 10) ∧ n % 10 = d ∧ a.length = k := by
  rcases List.eq_nil_or_concat x with rfl | ⟨a, c, rfl⟩
  · simp at hl
  · rw [List.concat_eq_append] at h hl ⊢
    obtain ⟨d, hd, rfl⟩ := isDigit_digitChar (h.1 c (by simp))
    have ha : Digs a (Nat.ofDigitChars 10 a 0) := ⟨fun c hc => h.1 c (by simp [hc]), rfl⟩
    have e := (ha.append (digs_digit hd)).2
    rw [h.2] at e
    simp only [List.length_singleton, Nat.pow_one] at e
    refine ⟨a, d, hd, rfl, ?_, by omega, by simpa using hl⟩
    rw [show n / 10 = Nat.ofDigitChars 10 a 0 by omega]
    exact ha

theorem digs_lt {x : Str} {n : Nat} (h : Digs x n) : n < 10 ^ x.length := by
  generalize hk : x.length = k
  induction k generalizing x n with
  | zero =>
    rw [List.length_eq_zero_iff] at hk
    subst hk
    have : n = 0 := h.2.symm
    simp [this]
  | succ k ih =>
    obtain ⟨a, d, hd, rfl, h1, h2, h3⟩ := digs_split h hk
    have := ih h1 h3
    rw [Nat.pow_succ]; omega

theorem digs_inj {x y : Str} {n : Nat} (h : Digs x n) (h' : Digs y n) (hl : x.length = y.length) : x = y := by
  generalize hk : x.length = k at hl
  induction k generalizing x y n with
  | zero =>
    rw [List.length_eq_zero_iff] at hk
    rw [hk, List.length_eq_zero_iff.1 hl.symm]
  | succ k ih =>
    obtain ⟨a, d, hd, rfl, h1, h2, h3⟩ := digs_split h hk
    obtain ⟨b, d', hd', rfl, h1', h2', h3'⟩ := digs_split h' hl.symm
    rw [ih h1 h1' h3 h3'.symm, ← h2, ← h2']

theorem digs_exists {k n : Nat} (h : n < 10 ^ k) : ∃ x, x.length = k ∧ Digs x n := by
  induction k generalizing n with
  | zero => exact ⟨[], rfl, by simp, by simp at h; simp [h]⟩
  | succ k ih =>
    obtain ⟨a, h1, h2⟩ := ih (n := n / 10) (by rw [Nat.pow_succ] at h; omega)
    refine ⟨a ++ [Nat.digitChar (n % 10)], by simp [h1], ?_⟩
    have := h2.append (digs_digit (Nat.mod_lt n (by decide)))
    simp only [List.length_singleton, Nat.pow_one] at this
    rwa [show n / 10 * 10 + n % 10 = n by omega] at this

theorem Digs.unique {x : Str} {n m : Nat} (h : Digs x n) (h' : Digs x m) : n = m := h.2.symm.trans h'.2

theorem toDigits_head {n : Nat} (h : 0 < n) : (Nat.toDigits 10 n).head? ≠ some '0' := by
  induction n using Nat.strong_induction_on with
  | _ n ih =>
    by_cases hn : n < 10
    · have key : ∀ n < 10, 0 < n → (Nat.toDigits 10 n).head? ≠ some '0' := by decide
      exact key n hn h
    · have e : Nat.toDigits 10 n = Nat.toDigits 10 (n / 10) ++ [Nat.digitChar (n % 10)] :=
        Nat.toDigits_of_base_le (by decide) (by omega)
      have := ih (n / 10) (by omega) (by omega)
      rw [e]
      cases hx : Nat.toDigits 10 (n / 10) with
      | nil => exact absurd hx Nat.toDigits_ne_nil
      | cons c s => rw [hx] at this; simpa using this

/-- A number written after another. -/
theorem toDigits_append {a b : Nat} {t : Str} (ha : 0 < a) (ht : Digs t b) :
    Nat.toDigits 10 a ++ t = Nat.toDigits 10 (a * 10 ^ t.length + b) := by
  refine ((digs_toDigits a).append ht).canonical (by simp [Nat.toDigits_ne_nil]) ?_
  have := toDigits_head ha
  cases hx : Nat.toDigits 10 a with
  | nil => exact absurd hx Nat.toDigits_ne_nil
  | cons c s => rw [hx] at this; simpa using this

theorem toDigits_inj {n m : Nat} (h : Nat.toDigits 10 n = Nat.toDigits 10 m) : n = m := by
  have h1 := digs_toDigits n
  rw [h] at h1
  exact Digs.unique h1 (digs_toDigits m)

/-! ### Groups of three digits -/

/-- The paths of `three`. -/
def threeList : List (Str × Str × W) := (enum three).getD []
/-- The paths of `leadGroup`. -/
def leadList : List (Str × Str × W) := (enum leadGroup).getD []

theorem enum_three : enum three = some threeList := rfl
theorem enum_lead : enum leadGroup = some leadList := rfl

theorem three_sound : ∀ e ∈ threeList, e.1.length = 3 ∧ Digs e.1 (num e.1) ∧ 0 < num e.1 ∧
    e.2.1 = join (below1000 false (num e.1)) ∧ e.2.2 = 0 := by decide +kernel
theorem three_all : threeList.map (fun e => num e.1) = List.range' 1 999 := by decide +kernel
theorem lead_sound : ∀ e ∈ leadList, e.1 = Nat.toDigits 10 (num e.1) ∧ 0 < num e.1 ∧ num e.1 < 1000 ∧
    e.2.1 = join (below1000 false (num e.1)) ∧ e.2.2 = 0 := by decide +kernel
theorem lead_all : leadList.map (fun e => num e.1) = List.range' 1 999 := by decide +kernel

theorem three_iff {x y : Str} {w : W} : three.den x y w ↔
    ∃ n, 0 < n ∧ x.length = 3 ∧ Digs x n ∧ y = join (below1000 false n) ∧ w = 0 := by
  rw [enum_den enum_three]
  constructor
  · intro h
    obtain ⟨h1, h2, h3, h4, h5⟩ := three_sound _ h
    exact ⟨_, h3, h1, h2, h4, h5⟩
  · rintro ⟨n, h0, hl, hd, rfl, rfl⟩
    have hlt := digs_lt hd
    rw [hl] at hlt
    have : n ∈ threeList.map (fun e => num e.1) := by
      rw [three_all, List.mem_range'_1]; omega
    obtain ⟨⟨a, b, c⟩, he, rfl⟩ := List.mem_map.1 this
    obtain ⟨h1, h2, h3, h4, h5⟩ := three_sound _ he
    dsimp only at *
    rw [digs_inj hd h2 (hl.trans h1.symm), ← h4, ← h5]
    exact he

theorem lead_iff {x y : Str} {w : W} : leadGroup.den x y w ↔
    ∃ n, 0 < n ∧ n < 1000 ∧ x = Nat.toDigits 10 n ∧ y = join (below1000 false n) ∧ w = 0 := by
  rw [enum_den enum_lead]
  constructor
  · intro h
    obtain ⟨h1, h2, h3, h4, h5⟩ := lead_sound _ h
    exact ⟨_, h2, h3, h1, h4, h5⟩
  · rintro ⟨n, h0, hlt, rfl, rfl, rfl⟩
    have : n ∈ leadList.map (fun e => num e.1) := by
      rw [lead_all, List.mem_range'_1]; omega
    obtain ⟨⟨a, b, c⟩, he, rfl⟩ := List.mem_map.1 this
    obtain ⟨h1, h2, h3, h4, h5⟩ := lead_sound _ he
    dsimp only at *
    rw [← h1, ← h4, ← h5]
    exact he

theorem after_append {a b : List Str} : after (a ++ b) = after a ++ after b := by
  unfold after
  by_cases ha : a = []
  · subst ha; simp
  · by_cases hb : b = []
    · subst hb; simp [ha]
    · rw [if_neg (by simp [ha]), if_neg ha, if_neg hb, join_append ha hb]; simp

theorem join_after {a b : List Str} (ha : a ≠ []) : join (a ++ b) = join a ++ after b := by
  unfold after
  by_cases hb : b = []
  · subst hb; simp
  · rw [if_neg hb, join_append ha hb]

theorem after_below {n : Nat} (s : Str) :
    after (below1000 false n ++ [s]) = ' ' :: join (below1000 false n) ++ ' ' :: s := by
  rw [after, if_neg (by simp), join_append (below1000_ne _ _) (by simp)]
  rfl

theorem digs_zeros : Digs t!"000" 0 := by decide

theorem len_pow (k : Nat) : (10 : Nat) ^ (3 * k) = 1000 ^ k := by rw [Nat.pow_mul]

theorem tail_iff {ss : List Str} {x y : Str} {w : W} : (tailGroups ss).den x y w ↔
    ∃ n, x.length = 3 * (ss.length + 1) ∧ Digs x n ∧ y = after (groups false ss n) ∧ w = 0 := by
  induction ss generalizing x y w with
  | nil =>
    constructor
    · rintro (h | h)
      · obtain ⟨rfl, rfl, rfl⟩ := den_del.1 h
        exact ⟨0, rfl, digs_zeros, rfl, rfl⟩
      · obtain ⟨y', rfl, h1⟩ := den_insert_add.1 h
        obtain ⟨n, h0, h2, h3, rfl, rfl⟩ := three_iff.1 h1
        refine ⟨n, h2, h3, ?_, rfl⟩
        rw [groups, if_neg (by omega), after, if_neg (below1000_ne _ _)]; rfl
    · rintro ⟨n, h1, h2, rfl, rfl⟩
      by_cases h0 : n = 0
      · subst h0
        left
        exact den_del.2 ⟨digs_inj h2 digs_zeros h1, rfl, rfl⟩
      · right
        rw [groups, if_neg h0, after, if_neg (below1000_ne _ _)]
        exact den_insert_add.2 ⟨_, rfl, three_iff.2 ⟨n, by omega, h1, h2, rfl, rfl⟩⟩
  | cons s ss ih =>
    have hpos : 0 < 1000 ^ (ss.length + 1) := Nat.pow_pos (by decide)
    have hg : ∀ a b, b < 1000 ^ (ss.length + 1) → groups false (s :: ss) (a * 1000 ^ (ss.length + 1) + b) =
        (if a = 0 then [] else below1000 false a ++ [s]) ++ groups false ss b := by
      intro a b hb
      have e1 : (a * 1000 ^ (ss.length + 1) + b) / 1000 ^ (ss.length + 1) = a := by
        rw [Nat.mul_comm, Nat.mul_add_div hpos, Nat.div_eq_of_lt hb]; rfl
      have e2 : (a * 1000 ^ (ss.length + 1) + b) % 1000 ^ (ss.length + 1) = b := by
        rw [Nat.mul_comm, Nat.mul_add_mod, Nat.mod_eq_of_lt hb]
      rw [groups, e1, e2]
    constructor
    · rintro ⟨x₁, y₁, w₁, x₂, y₂, w₂, h1, h2, rfl, rfl, rfl⟩
      obtain ⟨b, h3, h4, rfl, rfl⟩ := ih.1 h2
      have hb := digs_lt h4
      rw [h3, len_pow] at hb
      rcases h1 with h1 | h1
      · obtain ⟨rfl, rfl, rfl⟩ := den_del.1 h1
        have hd := digs_zeros.append h4
        rw [h3, len_pow] at hd
        refine ⟨_, by simp [h3]; omega, hd, ?_, rfl⟩
        rw [hg _ _ hb, if_pos rfl]; rfl
      · obtain ⟨y', rfl, h5⟩ := den_add_insert.1 h1
        obtain ⟨y'', rfl, h6⟩ := den_insert_add.1 h5
        obtain ⟨a, h0, h7, h8, rfl, rfl⟩ := three_iff.1 h6
        have hd := h8.append h4
        rw [h3, len_pow] at hd
        refine ⟨_, by simp [h3, h7]; omega, hd, ?_, rfl⟩
        rw [hg _ _ hb, if_neg (by omega), after_append, after_below]
        simp
    · rintro ⟨n, h1, h2, rfl, rfl⟩
      rw [← List.take_append_drop 3 x] at h2 ⊢
      obtain ⟨a, b, h3, h4, rfl⟩ := EnItn.Digs.left h2
      have hl : (x.drop 3).length = 3 * (ss.length + 1) := by simp [h1]; omega
      have hl' : (x.take 3).length = 3 := by simp [h1]
      have hb := digs_lt h4
      rw [hl, len_pow] at hb
      rw [hl, len_pow, hg _ _ hb]
      refine ⟨x.take 3, after (if a = 0 then [] else below1000 false a ++ [s]), 0, x.drop 3, _, 0, ?_,
        ih.2 ⟨b, hl, h4, rfl, rfl⟩, rfl, after_append, rfl⟩
      by_cases h0 : a = 0
      · subst h0
        left
        exact den_del.2 ⟨digs_inj h3 digs_zeros hl', rfl, rfl⟩
      · right
        rw [if_neg h0, after_below]
        refine den_add_insert.2 ⟨' ' :: join (below1000 false a), rfl, den_insert_add.2 ⟨_, rfl, ?_⟩⟩
        exact three_iff.2 ⟨a, by omega, hl', h3, rfl, rfl⟩

theorem big_iff {ss : List Str} {x y : Str} {w : W} : (bigNames ss).den x y w ↔
    ∃ n, 0 < n ∧ n < 1000 ^ (ss.length + 1) ∧ x = Nat.toDigits 10 n ∧ y = join (groups false ss n) ∧ w = 0 := by
  induction ss generalizing x y w with
  | nil =>
    rw [show bigNames [] = leadGroup from rfl, lead_iff]
    refine exists_congr fun n => and_congr_right fun h0 => ?_
    rw [groups, if_neg (by omega)]; simp
  | cons s ss ih =>
    have hpos : 0 < 1000 ^ (ss.length + 1) := Nat.pow_pos (by decide)
    have hg : ∀ n, n < 1000 ^ (ss.length + 1) → groups false (s :: ss) n = groups false ss n := by
      intro n hn
      rw [groups, Nat.div_eq_of_lt hn, if_pos rfl, Nat.mod_eq_of_lt hn]; rfl
    constructor
    · rintro (h | h)
      · obtain ⟨n, h0, h1, rfl, rfl, rfl⟩ := ih.1 h
        refine ⟨n, h0, ?_, rfl, by rw [hg n h1], rfl⟩
        have := Nat.pow_succ 1000 (ss.length + 1)
        simp only [List.length_cons]; omega
      · obtain ⟨x₁, y₁, w₁, x₂, y₂, w₂, h1, h2, rfl, rfl, rfl⟩ := h
        obtain ⟨y', rfl, h3⟩ := den_add_insert.1 h1
        obtain ⟨a, ha, ha', rfl, rfl, rfl⟩ := lead_iff.1 h3
        obtain ⟨b, h4, h5, rfl, rfl⟩ := tail_iff.1 h2
        have hb := digs_lt h5
        rw [h4, len_pow] at hb
        have e := toDigits_append ha h5
        rw [h4, len_pow] at e
        have e1 : (a * 1000 ^ (ss.length + 1) + b) / 1000 ^ (ss.length + 1) = a := by
          rw [Nat.mul_comm, Nat.mul_add_div hpos, Nat.div_eq_of_lt hb]; rfl
        have e2 : (a * 1000 ^ (ss.length + 1) + b) % 1000 ^ (ss.length + 1) = b := by
          rw [Nat.mul_comm, Nat.mul_add_mod, Nat.mod_eq_of_lt hb]
        have hm : 1000 ^ (ss.length + 1) ≤ a * 1000 ^ (ss.length + 1) := Nat.le_mul_of_pos_left _ ha
        refine ⟨a * 1000 ^ (ss.length + 1) + b, by omega, ?_, e, ?_, rfl⟩
        · have h6 : (a + 1) * 1000 ^ (ss.length + 1) ≤ 1000 * 1000 ^ (ss.length + 1) :=
            Nat.mul_le_mul_right _ (by omega)
          rw [Nat.add_mul, Nat.one_mul] at h6
          have := Nat.pow_succ 1000 (ss.length + 1)
          simp only [List.length_cons]; omega
        · rw [groups, e1, e2, if_neg (by omega), join_after (by simp), join_append (below1000_ne _ _) (by simp)]
          simp [join]
    · rintro ⟨n, h0, h1, rfl, rfl, rfl⟩
      by_cases hn : n < 1000 ^ (ss.length + 1)
      · left
        exact ih.2 ⟨n, h0, hn, rfl, by rw [hg n hn], rfl⟩
      · right
        have hdm : n / 1000 ^ (ss.length + 1) * 1000 ^ (ss.length + 1) + n % 1000 ^ (ss.length + 1) = n := by
          rw [Nat.mul_comm]; exact Nat.div_add_mod n _
        have hq : n / 1000 ^ (ss.length + 1) < 1000 := by
          rw [Nat.div_lt_iff_lt_mul hpos]
          have := Nat.pow_succ 1000 (ss.length + 1)
          simp only [List.length_cons] at h1; omega
        have hq0 : 0 < n / 1000 ^ (ss.length + 1) := Nat.div_pos (by omega) hpos
        obtain ⟨t, ht, hd⟩ := digs_exists (k := 3 * (ss.length + 1)) (n := n % 1000 ^ (ss.length + 1))
          (by rw [len_pow]; exact Nat.mod_lt n hpos)
        have e := toDigits_append hq0 hd
        rw [ht, len_pow, hdm] at e
        rw [← e]
        refine ⟨_, join (below1000 false (n / 1000 ^ (ss.length + 1))) ++ (' ' :: s), 0, t, _, 0,
          den_add_insert.2 ⟨_, rfl, lead_iff.2 ⟨_, hq0, hq, rfl, rfl, rfl⟩⟩,
          tail_iff.2 ⟨_, ht, hd, rfl, rfl⟩, rfl, ?_, rfl⟩
        rw [groups, if_neg (by omega), join_after (by simp), join_append (below1000_ne _ _) (by simp)]
        simp [join]

theorem english_eq {n : Nat} (h0 : 0 < n) (h : n < 10 ^ 15) : english false n = join (groups false scales n) := by
  have hs : ∀ s : Str, ∀ ss : List Str, n < 1000 ^ (ss.length + 1) → groups false (s :: ss) n = groups false ss n := by
    intro s ss hn
    rw [groups, Nat.div_eq_of_lt hn, if_pos rfl, Nat.mod_eq_of_lt hn]; rfl
  unfold english EnItn.Spec.numberWords
  rw [if_neg (by omega)]
  show join (groups false (_ :: _ :: _ :: scales) n) = _
  rw [hs _ _ (by simp [scales]; omega), hs _ _ (by simp [scales]; omega), hs _ _ (by simp [scales]; omega)]

/-- The names of the numbers below 10^15. -/
theorem names_iff {x y : Str} {w : W} : names.den x y w ↔
    ∃ n, n < 10 ^ 15 ∧ x = Nat.toDigits 10 n ∧ y = english false n ∧ w = 0 := by
  constructor
  · rintro (h | h)
    · obtain ⟨rfl, rfl, rfl⟩ := den_crossS.1 h
      exact ⟨0, by decide, rfl, rfl, rfl⟩
    · obtain ⟨n, h0, h1, rfl, rfl, rfl⟩ := big_iff.1 h
      have h1 : n < 10 ^ 15 := by simpa [scales] using h1
      exact ⟨n, h1, rfl, (english_eq h0 h1).symm, rfl⟩
  · rintro ⟨n, h1, rfl, rfl, rfl⟩
    by_cases h0 : n = 0
    · subst h0
      exact .inl (den_crossS.2 ⟨rfl, rfl, rfl⟩)
    · exact .inr (big_iff.2 ⟨n, by omega, by simpa [scales] using h1, rfl, english_eq (by omega) h1, rfl⟩)

/-! ### Written numbers -/

theorem isDigit_eq {c : Char} : isDigit c = true ↔ c.isDigit = true := by
  simp only [isDigit, Char.isDigit, Bool.and_eq_true, decide_eq_true_eq]
  exact Iff.rfl

theorem pow_digit {k : Nat} {x y : Str} {w : W} : (DIGIT.pow k).den x y w ↔
    x = y ∧ x.length = k ∧ (∀ c ∈ x, c.isDigit = true) ∧ w = 0 := by
  induction k generalizing x y w with
  | zero =>
    rw [den_pow_zero]
    constructor
    · rintro ⟨rfl, rfl, rfl⟩; simp
    · rintro ⟨rfl, h, _, rfl⟩
      rw [List.length_eq_zero_iff] at h
      simp [h]
  | succ k ih =>
    rw [den_pow_succ]
    constructor
    · rintro ⟨_, _, _, x₂, y₂, w₂, ⟨c, hc, rfl, rfl, rfl⟩, h2, rfl, rfl, rfl⟩
      obtain ⟨rfl, h3, h4, rfl⟩ := ih.1 h2
      refine ⟨rfl, by simp [h3], ?_, rfl⟩
      intro d hd
      rcases List.mem_cons.1 hd with rfl | hd
      · exact isDigit_eq.1 hc
      · exact h4 d hd
    · rintro ⟨rfl, h1, h2, rfl⟩
      cases x with
      | nil => simp at h1
      | cons c x =>
        exact ⟨[c], [c], 0, x, x, 0, ⟨c, isDigit_eq.2 (h2 c (by simp)), rfl, rfl, rfl⟩,
          ih.2 ⟨rfl, by simpa using h1, fun d hd => h2 d (by simp [hd]), rfl⟩, rfl, rfl, rfl⟩

theorem upTo_digit {k : Nat} {x y : Str} {w : W} : (DIGIT.upTo k).den x y w ↔
    x = y ∧ x.length ≤ k ∧ (∀ c ∈ x, c.isDigit = true) ∧ w = 0 := by
  induction k generalizing x y w with
  | zero =>
    constructor
    · rintro ⟨rfl, rfl, rfl⟩; simp
    · rintro ⟨rfl, h, _, rfl⟩
      rw [Nat.le_zero, List.length_eq_zero_iff] at h
      subst h
      exact ⟨rfl, rfl, rfl⟩
  | succ k ih =>
    constructor
    · rintro (⟨rfl, rfl, rfl⟩ | ⟨_, _, _, x₂, y₂, w₂, ⟨c, hc, rfl, rfl, rfl⟩, h2, rfl, rfl, rfl⟩)
      · simp
      · obtain ⟨rfl, h3, h4, rfl⟩ := ih.1 h2
        refine ⟨rfl, by simpa using h3, ?_, rfl⟩
        intro d hd
        rcases List.mem_cons.1 hd with rfl | hd
        · exact isDigit_eq.1 hc
        · exact h4 d hd
    · rintro ⟨rfl, h1, h2, rfl⟩
      cases x with
      | nil => exact .inl ⟨rfl, rfl, rfl⟩
      | cons c x =>
        exact .inr ⟨[c], [c], 0, x, x, 0, ⟨c, isDigit_eq.2 (h2 c (by simp)), rfl, rfl, rfl⟩,
          ih.2 ⟨rfl, by simpa using h1, fun d hd => h2 d (by simp [hd]), rfl⟩, rfl, rfl, rfl⟩

theorem between_digit {m k : Nat} {x y : Str} {w : W} : (between m k DIGIT).den x y w ↔
    x = y ∧ m ≤ x.length ∧ x.length ≤ m + k ∧ (∀ c ∈ x, c.isDigit = true) ∧ w = 0 := by
  constructor
  · rintro ⟨x₁, y₁, w₁, x₂, y₂, w₂, h1, h2, rfl, rfl, rfl⟩
    obtain ⟨rfl, h3, h4, rfl⟩ := pow_digit.1 h1
    obtain ⟨rfl, h5, h6, rfl⟩ := upTo_digit.1 h2
    refine ⟨rfl, by simp; omega, by simp; omega, ?_, rfl⟩
    intro c hc
    rcases List.mem_append.1 hc with hc | hc
    · exact h4 c hc
    · exact h6 c hc
  · rintro ⟨rfl, h1, h2, h3, rfl⟩
    refine ⟨x.take m, x.take m, 0, x.drop m, x.drop m, 0, pow_digit.2 ⟨rfl, by simp; omega, ?_, rfl⟩,
      upTo_digit.2 ⟨rfl, by simp; omega, ?_, rfl⟩, (List.take_append_drop m x).symm, (List.take_append_drop m x).symm, rfl⟩
    · exact fun c hc => h3 c (List.mem_of_mem_take hc)
    · exact fun c hc => h3 c (List.mem_of_mem_drop hc)

theorem star_triples {x y : Str} {w : W} : (G.star (DIGIT.pow 3)).den x y w ↔
    ∃ gs : List Str, (∀ g ∈ gs, Triple g) ∧ x = gs.flatten ∧ y = gs.flatten ∧ w = 0 := by
  constructor
  · intro h
    have h : Star (DIGIT.pow 3).den x y w := h
    induction h with
    | nil => exact ⟨[], by simp, rfl, rfl, rfl⟩
    | cons h1 _ ih =>
      obtain ⟨rfl, h2, h3, rfl⟩ := pow_digit.1 h1
      obtain ⟨gs, h4, rfl, rfl, rfl⟩ := ih ‹_›
      exact ⟨_ :: gs, by simpa using ⟨⟨h2, h3⟩, h4⟩, rfl, rfl, rfl⟩
  · rintro ⟨gs, h, rfl, rfl, rfl⟩
    induction gs with
    | nil => exact Star.nil
    | cons g gs ih =>
      have hg := h g (by simp)
      exact Star.cons (R := (DIGIT.pow 3).den) (w := 0) (w' := 0) (pow_digit.2 ⟨rfl, hg.1, hg.2, rfl⟩)
        (ih fun g' hg' => h g' (by simp [hg']))

theorem star_commas {x y : Str} {w : W} : (G.star (del t!"," + DIGIT.pow 3)).den x y w ↔
    ∃ gs : List Str, (∀ g ∈ gs, Triple g) ∧ x = gs.flatMap (',' :: ·) ∧ y = gs.flatten ∧ w = 0 := by
  constructor
  · intro h
    have h : Star (del t!"," + DIGIT.pow 3).den x y w := h
    induction h with
    | nil => exact ⟨[], by simp, rfl, rfl, rfl⟩
    | cons h1 _ ih =>
      obtain ⟨x', rfl, h1'⟩ := den_del_add.1 h1
      obtain ⟨rfl, h2, h3, rfl⟩ := pow_digit.1 h1'
      obtain ⟨gs, h4, rfl, rfl, rfl⟩ := ih ‹_›
      exact ⟨_ :: gs, by simpa using ⟨⟨h2, h3⟩, h4⟩, rfl, rfl, rfl⟩
  · rintro ⟨gs, h, rfl, rfl, rfl⟩
    induction gs with
    | nil => exact Star.nil
    | cons g gs ih =>
      have hg := h g (by simp)
      exact Star.cons (R := (del t!"," + DIGIT.pow 3).den) (w := 0) (w' := 0) (x := ',' :: g)
        (den_del_add.2 ⟨g, rfl, pow_digit.2 ⟨rfl, hg.1, hg.2, rfl⟩⟩)
        (ih fun g' hg' => h g' (by simp [hg']))

theorem triples_of {x : Str} {k : Nat} (hl : x.length = 3 * k) (h : ∀ c ∈ x, c.isDigit = true) :
    ∃ gs : List Str, (∀ g ∈ gs, Triple g) ∧ x = gs.flatten := by
  induction k generalizing x with
  | zero =>
    rw [Nat.mul_zero, List.length_eq_zero_iff] at hl
    exact ⟨[], by simp, by simp [hl]⟩
  | succ k ih =>
    obtain ⟨gs, h1, h2⟩ := ih (x := x.drop 3) (by simp; omega) fun c hc => h c (List.mem_of_mem_drop hc)
    refine ⟨x.take 3 :: gs, ?_, ?_⟩
    · intro g hg
      rcases List.mem_cons.1 hg with rfl | hg
      · exact ⟨by simp; omega, fun c hc => h c (List.mem_of_mem_take hc)⟩
      · exact h1 g hg
    · rw [List.flatten_cons, ← h2, List.take_append_drop]

/-- The numerals the cardinal grammar reads, with what is left when the commas are removed. -/
theorem numeral_iff {x m : Str} {w : W} : numeral.den x m w ↔ w = 0 ∧ m ≠ [] ∧ (∀ c ∈ m, c.isDigit = true) ∧
    (x = m ∨ ∃ (g : Str) (gs : List Str), g ≠ [] ∧ g.length ≤ 3 ∧ (∀ h ∈ gs, Triple h) ∧ x = g ++ gs.flatMap (',' :: ·) ∧
      g ++ gs.flatten = m) := by
  constructor
  · rintro ⟨g, _, _, x₂, y₂, w₂, h1, h2, rfl, rfl, rfl⟩
    obtain ⟨rfl, h3, h4, h5, rfl⟩ := between_digit.1 h1
    have hne : g ≠ [] := by rintro rfl; simp at h3
    rcases h2 with h2 | h2
    · obtain ⟨gs, h6, rfl, rfl, rfl⟩ := star_commas.1 h2
      refine ⟨rfl, by simp [hne], ?_, .inr ⟨g, gs, hne, h4, h6, rfl, rfl⟩⟩
      intro c hc
      rcases List.mem_append.1 hc with hc | hc
      · exact h5 c hc
      · obtain ⟨l, hl, hc⟩ := List.mem_flatten.1 hc
        exact (h6 l hl).2 c hc
    · obtain ⟨gs, h6, rfl, rfl, rfl⟩ := star_triples.1 h2
      refine ⟨rfl, by simp [hne], ?_, .inl rfl⟩
      intro c hc
      rcases List.mem_append.1 hc with hc | hc
      · exact h5 c hc
      · obtain ⟨l, hl, hc⟩ := List.mem_flatten.1 hc
        exact (h6 l hl).2 c hc
  · rintro ⟨rfl, hne, hd, rfl | ⟨g, gs, h1, h2, h3, rfl, rfl⟩⟩
    · have hpos : 0 < x.length := List.length_pos_iff.2 hne
      obtain ⟨gs, h1, h2⟩ := triples_of (x := x.drop ((x.length - 1) % 3 + 1)) (k := (x.length - 1) / 3)
        (by simp; omega) fun c hc => hd c (List.mem_of_mem_drop hc)
      refine ⟨x.take ((x.length - 1) % 3 + 1), x.take ((x.length - 1) % 3 + 1), 0, x.drop ((x.length - 1) % 3 + 1),
        x.drop ((x.length - 1) % 3 + 1), 0, between_digit.2 ⟨rfl, by simp; omega, by simp; omega, ?_, rfl⟩, .inr ?_,
        (List.take_append_drop _ x).symm, (List.take_append_drop _ x).symm, rfl⟩
      · exact fun c hc => hd c (List.mem_of_mem_take hc)
      · exact star_triples.2 ⟨gs, h1, h2, h2, rfl⟩
    · have hpos : 0 < g.length := List.length_pos_iff.2 h1
      exact ⟨g, g, 0, _, _, 0, between_digit.2 ⟨rfl, hpos, h2, fun c hc => hd c (by simp [hc]), rfl⟩,
        .inl (star_commas.2 ⟨gs, h3, rfl, rfl, rfl⟩), rfl, rfl, rfl⟩

/-- The cardinal grammar: numerals below 10^15 and their names. -/
theorem cardinal_iff {x y : Str} {w : W} : cardinal.den x y w ↔
    ∃ n, n < 10 ^ 15 ∧ Numeral x n ∧ y = english false n ∧ w = 0 := by
  constructor
  · rintro ⟨m, w₁, w₂, h1, h2, rfl⟩
    obtain ⟨n, hn, rfl, rfl, rfl⟩ := names_iff.1 h2
    obtain ⟨rfl, h3, h4, h5⟩ := numeral_iff.1 h1
    exact ⟨n, hn, h5, rfl, rfl⟩
  · rintro ⟨n, hn, h, rfl, rfl⟩
    exact ⟨Nat.toDigits 10 n, 0, 0, numeral_iff.2 ⟨rfl, Nat.toDigits_ne_nil, (digs_toDigits n).1, h⟩,
      names_iff.2 ⟨n, hn, rfl, rfl, rfl⟩, rfl⟩

end Verif.EnTn
