import Verif.EnTn.Reading
import Verif.EnTn.Fields

/-
Ordinal numbers in English TN.
-/

namespace Verif.EnTn

open Verif.Wfst
open Spec
open Verif.EnItn.Spec (below100 below1000 groups join english ordinalName ordinalWord ordinalEnding)
open Verif.EnItn (join_append join_last numWords)

/-! ### The written form -/

/-- Digits and commas. -/
def Grouped (x : Str) : Prop := ∀ c ∈ x, c.isDigit = true ∨ c = ','

theorem format_iff {x y : Str} {w : W} : cardinalFormat.den x y w ↔ x = y ∧ Grouped x ∧ w = 0 := by
  constructor
  · intro h
    change Star _ _ _ _ at h
    induction h with
    | nil => simp [Grouped]
    | cons h1 _ ih =>
      obtain ⟨c, hc, rfl, rfl, rfl⟩ := h1
      obtain ⟨rfl, h, rfl⟩ := ih
      simp only [Bool.or_eq_true, decide_eq_true_eq] at hc
      refine ⟨rfl, ?_, rfl⟩
      intro d hd
      rcases List.mem_cons.1 hd with rfl | hd
      · exact hc.imp isDigit_eq.1 id
      · exact h d hd
  · rintro ⟨rfl, h, rfl⟩
    show Star _ _ _ _
    induction x with
    | nil => exact .nil
    | cons c x ih =>
      exact Star.cons (R := (G.cls fun c => isDigit c || c = ',').den) (x := [c]) (y := [c]) (w := 0) (w' := 0)
        ⟨c, by simpa using (h c (by simp)).imp isDigit_eq.2 id, rfl, rfl, rfl⟩ (ih fun d hd => h d (by simp [hd]))

theorem but_iff {cs : List Char} {x y : Str} {w : W} : (digitBut cs).den x y w ↔
    ∃ c, c.isDigit = true ∧ c ∉ cs ∧ x = [c] ∧ y = [c] ∧ w = 0 := by
  unfold digitBut
  rw [den_cls]
  constructor
  · rintro ⟨c, hc, h⟩
    simp only [Bool.and_eq_true, Bool.not_eq_true', List.contains_eq_mem, decide_eq_false_iff_not] at hc
    exact ⟨c, isDigit_eq.1 hc.1, hc.2, h⟩
  · rintro ⟨c, h1, h2, h⟩
    exact ⟨c, by simpa using ⟨isDigit_eq.2 h1, h2⟩, h⟩

theorem oneOf_iff {l : List Str} {x y : Str} {w : W} : (delete (oneOf l)).den x y w ↔ x ∈ l ∧ y = [] ∧ w = 0 := by
  rw [den_delete, oneOf, den_tab]
  simp only [List.mem_map, Prod.mk.injEq]
  constructor
  · rintro ⟨rfl, ⟨a, h, rfl, -⟩, rfl⟩; exact ⟨h, rfl, rfl⟩
  · rintro ⟨h, rfl, rfl⟩; exact ⟨rfl, ⟨x, h, rfl, rfl⟩, rfl⟩

/-- A final digit `u` that stands alone or after a digit other than 1. -/
theorem single_iff {u : Char} {l : List Str} {x m : Str} {w : W} :
    (notTeen + .lit [u] + delete (oneOf l)).den x m w ↔
      w = 0 ∧ ∃ e ∈ l, x = m ++ e ∧ (m = [u] ∨ ∃ q d, Grouped q ∧ d.isDigit = true ∧ d ≠ '1' ∧ m = q ++ [d, u]) := by
  constructor
  · rintro ⟨_, _, _, e, _, _, ⟨x₁, y₁, w₁, _, _, _, h1, ⟨rfl, rfl, rfl⟩, rfl, rfl, rfl⟩, h2, rfl, rfl, rfl⟩
    obtain ⟨he, rfl, rfl⟩ := oneOf_iff.1 h2
    rcases h1 with ⟨rfl, rfl, rfl⟩ | ⟨q, _, _, _, _, _, h3, h4, rfl, rfl, rfl⟩
    · exact ⟨rfl, e, he, by simp, .inl rfl⟩
    · obtain ⟨rfl, h5, rfl⟩ := format_iff.1 h3
      obtain ⟨d, h6, h7, rfl, rfl, rfl⟩ := but_iff.1 h4
      exact ⟨rfl, e, he, by simp, .inr ⟨q, d, h5, h6, by simpa using h7, by simp⟩⟩
  · rintro ⟨rfl, e, he, rfl, rfl | ⟨q, d, h1, h2, h3, rfl⟩⟩
    · exact ⟨[u], [u], 0, e, [], 0, ⟨[], [], 0, [u], [u], 0, .inl ⟨rfl, rfl, rfl⟩, ⟨rfl, rfl, rfl⟩, rfl, rfl, rfl⟩,
        oneOf_iff.2 ⟨he, rfl, rfl⟩, rfl, rfl, rfl⟩
    · refine ⟨q ++ [d, u], q ++ [d, u], 0, e, [], 0, ⟨q ++ [d], q ++ [d], 0, [u], [u], 0, .inr ?_, ⟨rfl, rfl, rfl⟩,
        by simp, by simp, rfl⟩, oneOf_iff.2 ⟨he, rfl, rfl⟩, rfl, by simp, rfl⟩
      exact ⟨q, q, 0, [d], [d], 0, format_iff.2 ⟨rfl, h1, rfl⟩, but_iff.2 ⟨d, h2, by simpa using h3, rfl, rfl, rfl⟩, rfl, rfl, rfl⟩

/-- What `th_format` requires of the end. -/
def EndsTh (m : Str) : Prop :=
  (∃ q u, u.isDigit = true ∧ u ∉ ['1', '2', '3'] ∧ m = q ++ [u]) ∨ ∃ q u, u.isDigit = true ∧ m = q ++ ['1', u]

theorem EndsTh.after {m : Str} (h : EndsTh m) (p : Str) : EndsTh (p ++ m) := by
  rcases h with ⟨q, u, h1, h2, rfl⟩ | ⟨q, u, h1, rfl⟩
  · exact .inl ⟨p ++ q, u, h1, h2, by simp⟩
  · exact .inr ⟨p ++ q, u, h1, by simp⟩

/-- One of the parts that `th_format` repeats. -/
def thPart : G :=
  digitBut ['1', '2', '3'] ||| (cardinalFormat + .lit t!"1" + DIGIT) |||
    (cardinalFormat + digitBut ['1'] + digitBut ['1', '2', '3'])

theorem thPart_sound {x y : Str} {w : W} (h : thPart.den x y w) : x = y ∧ w = 0 ∧ EndsTh x := by
  rcases h with (h | ⟨_, _, _, _, _, _, ⟨q, _, _, _, _, _, h1, ⟨rfl, rfl, rfl⟩, rfl, rfl, rfl⟩, ⟨u, hu, rfl, rfl, rfl⟩, rfl, rfl, rfl⟩) |
    ⟨_, _, _, _, _, _, ⟨q, _, _, _, _, _, h1, h2, rfl, rfl, rfl⟩, h3, rfl, rfl, rfl⟩
  · obtain ⟨c, h1, h2, rfl, rfl, rfl⟩ := but_iff.1 h
    exact ⟨rfl, rfl, .inl ⟨[], c, h1, h2, rfl⟩⟩
  · obtain ⟨rfl, -, rfl⟩ := format_iff.1 h1
    exact ⟨rfl, rfl, .inr ⟨q, u, isDigit_eq.1 hu, by simp⟩⟩
  · obtain ⟨rfl, -, rfl⟩ := format_iff.1 h1
    obtain ⟨d, -, -, rfl, rfl, rfl⟩ := but_iff.1 h2
    obtain ⟨u, h4, h5, rfl, rfl, rfl⟩ := but_iff.1 h3
    exact ⟨rfl, rfl, .inl ⟨q ++ [d], u, h4, h5, rfl⟩⟩

theorem th_sound {x m : Str} {w : W} (h : thFormat.den x m w) :
    w = 0 ∧ ∃ e ∈ [t!"th", t!"TH", t!"ᵗʰ"], x = m ++ e ∧ EndsTh m := by
  obtain ⟨x₁, _, _, e, _, _, h1, h2, rfl, rfl, rfl⟩ := h
  obtain ⟨he, rfl, rfl⟩ := oneOf_iff.1 h2
  obtain ⟨x₂, y₂, w₂, x₃, y₃, w₃, h3, h4, rfl, rfl, rfl⟩ := h1
  obtain ⟨rfl, rfl, h5⟩ := thPart_sound h3
  have key : x₃ = y₃ ∧ w₃ = 0 ∧ (x₃ = [] ∨ EndsTh x₃) := by
    change Star thPart.den _ _ _ at h4
    clear h3 h2
    induction h4 with
    | nil => simp
    | cons k1 _ ih =>
      obtain ⟨rfl, rfl, k2⟩ := thPart_sound k1
      obtain ⟨rfl, rfl, k3⟩ := ih
      refine ⟨rfl, rfl, .inr ?_⟩
      rcases k3 with rfl | k3
      · simpa using k2
      · exact k3.after _
  obtain ⟨rfl, rfl, h6⟩ := key
  refine ⟨rfl, e, he, by simp, ?_⟩
  rw [List.append_nil]
  rcases h6 with rfl | h6
  · simpa using h5
  · exact h6.after _

theorem th_of_part {x e : Str} (h : thPart.den x x 0) (he : e ∈ [t!"th", t!"TH", t!"ᵗʰ"]) :
    thFormat.den (x ++ e) x 0 :=
  ⟨x, x, 0, e, [], 0, ⟨x, x, 0, [], [], 0, h, Star.nil, by simp, by simp, rfl⟩, oneOf_iff.2 ⟨he, rfl, rfl⟩, rfl, by simp, rfl⟩

/-! ### The end of a number -/

theorem grouped_digits {x : Str} (h : ∀ c ∈ x, c.isDigit = true) : Grouped x := fun c hc => .inl (h c hc)

theorem digs_end {x : Str} {n : Nat} (h : Digs x n) (hl : 2 ≤ x.length) :
    ∃ q, (∀ c ∈ q, c.isDigit = true) ∧ x = q ++ [Nat.digitChar (n / 10 % 10), Nat.digitChar (n % 10)] := by
  obtain ⟨a, d, h1, rfl, h3, h4, h5⟩ := digs_split h (k := x.length - 1) (by omega)
  obtain ⟨b, e, h6, rfl, h8, h9, h10⟩ := digs_split h3 (k := a.length - 1) (by simp at hl; omega)
  exact ⟨b, h8.1, by rw [h4, h9]; simp⟩

theorem digs_suffix {a b : Str} {n : Nat} (h : Digs (a ++ b) n) : ∃ m, Digs b m ∧ n % 10 ^ b.length = m := by
  have ha : Digs a (num a) := ⟨fun c hc => h.1 c (by simp [hc]), rfl⟩
  have hb : Digs b (num b) := ⟨fun c hc => h.1 c (by simp [hc]), rfl⟩
  refine ⟨num b, hb, ?_⟩
  have := Digs.unique h (ha.append hb)
  rw [this, Nat.mul_add_mod_self_right, Nat.mod_eq_of_lt (digs_lt hb)]

theorem numeral_end {x : Str} {n : Nat} (h : Numeral x n) :
    (n < 10 ∧ x = [Nat.digitChar n]) ∨
      ∃ q, Grouped q ∧ x = q ++ [Nat.digitChar (n / 10 % 10), Nat.digitChar (n % 10)] := by
  have plain : ∀ {x}, x = Nat.toDigits 10 n → (n < 10 ∧ x = [Nat.digitChar n]) ∨
      ∃ q, Grouped q ∧ x = q ++ [Nat.digitChar (n / 10 % 10), Nat.digitChar (n % 10)] := by
    rintro x rfl
    by_cases h : n < 10
    · exact .inl ⟨h, Nat.toDigits_of_lt_base h⟩
    · right
      have hl : ¬ (Nat.toDigits 10 n).length ≤ 1 := fun hl =>
        h (by simpa using (Nat.length_toDigits_le_iff (by decide) (by decide)).1 hl)
      obtain ⟨q, h1, h2⟩ := digs_end (digs_toDigits n) (by omega)
      exact ⟨q, grouped_digits h1, h2⟩
  rcases h with h | ⟨g, gs, h1, h2, h3, rfl, h5⟩
  · exact plain h
  · rcases List.eq_nil_or_concat gs with rfl | ⟨gs, t, rfl⟩
    · exact plain (by simpa using h5)
    · right
      rw [List.concat_eq_append] at h3 h5 ⊢
      obtain ⟨ht1, ht2⟩ := h3 t (by simp)
      have hd : Digs ((g ++ gs.flatten) ++ t) n := by
        rw [show (g ++ gs.flatten) ++ t = Nat.toDigits 10 n by rw [← h5]; simp]
        exact digs_toDigits n
      obtain ⟨m, k1, k2⟩ := digs_suffix hd
      obtain ⟨q, k3, k4⟩ := digs_end k1 (by omega)
      refine ⟨g ++ gs.flatMap (',' :: ·) ++ ',' :: q, ?_, ?_⟩
      · intro c hc
        rcases List.mem_append.1 hc with hc | hc
        · rcases List.mem_append.1 hc with hc | hc
          · exact .inl (hd.1 c (by simp [hc]))
          · obtain ⟨l, hl, hc⟩ := List.mem_flatMap.1 hc
            rcases List.mem_cons.1 hc with rfl | hc
            · exact .inr rfl
            · exact .inl ((h3 l (by simp [hl])).2 c hc)
        · rcases List.mem_cons.1 hc with rfl | hc
          · exact .inr rfl
          · exact .inl (k3 c hc)
      · rw [ht1] at k2
        have e1 : m / 10 % 10 = n / 10 % 10 := by omega
        have e2 : m % 10 = n % 10 := by omega
        rw [e1, e2] at k4
        rw [k4]
        simp

theorem digitChar_inj : ∀ a < 10, ∀ b < 10, Nat.digitChar a = Nat.digitChar b → a = b := by decide

theorem digitChar_isDigit : ∀ a < 10, (Nat.digitChar a).isDigit = true := by decide

/-- The last digit of a numeral is `u`, and the one before it is not 1. -/
theorem single_end {x : Str} {n u : Nat} (hu : u < 10) (h : Numeral x n) :
    (x = [Nat.digitChar u] ∨ ∃ q d, Grouped q ∧ d.isDigit = true ∧ d ≠ '1' ∧ x = q ++ [d, Nat.digitChar u]) ↔
      n % 10 = u ∧ n / 10 % 10 ≠ 1 := by
  rcases numeral_end h with ⟨h1, rfl⟩ | ⟨q, h1, rfl⟩
  · constructor
    · rintro (e | ⟨q', d, -, -, -, e⟩)
      · have := digitChar_inj _ h1 _ hu (by simpa using e)
        omega
      · have := congrArg List.length e
        simp at this
    · rintro ⟨e1, -⟩
      left
      rw [show n = u by omega]
  · constructor
    · rintro (e | ⟨q', d, -, h2, h3, e⟩)
      · have := congrArg List.length e
        simp at this
      · have e' := List.append_inj_right' e rfl
        simp only [List.cons.injEq, and_true] at e'
        have := digitChar_inj _ (Nat.mod_lt _ (by decide)) _ hu e'.2
        refine ⟨this, fun k => h3 ?_⟩
        rw [← e'.1, k]; rfl
    · rintro ⟨e1, e2⟩
      refine .inr ⟨q, Nat.digitChar (n / 10 % 10), h1, digitChar_isDigit _ (Nat.mod_lt _ (by decide)), ?_, by rw [e1]⟩
      intro k
      exact e2 (digitChar_inj _ (Nat.mod_lt _ (by decide)) 1 (by decide) k)

theorem th_end {x : Str} {n : Nat} (h : Numeral x n) (hx : EndsTh x) : n % 10 ∉ [1, 2, 3] ∨ n / 10 % 10 = 1 := by
  have hl : ∃ q, x = q ++ [Nat.digitChar (n % 10)] := by
    rcases numeral_end h with ⟨h1, rfl⟩ | ⟨q, h1, rfl⟩
    · exact ⟨[], by rw [Nat.mod_eq_of_lt h1]; rfl⟩
    · exact ⟨q ++ [Nat.digitChar (n / 10 % 10)], by simp⟩
  rcases hx with ⟨q, u, -, h2, rfl⟩ | ⟨q, u, -, rfl⟩
  · left
    obtain ⟨q', e⟩ := hl
    have e' := List.append_inj_right' e rfl
    simp only [List.cons.injEq, and_true] at e'
    subst e'
    intro k
    apply h2
    simp only [List.mem_cons, List.not_mem_nil, or_false] at k ⊢
    rcases k with k | k | k <;> rw [k] <;> simp
  · right
    rcases numeral_end h with ⟨h1, e⟩ | ⟨q', h1, e⟩
    · have := congrArg List.length e
      simp at this
    · have e' := List.append_inj_right' e rfl
      simp only [List.cons.injEq, and_true] at e'
      exact (digitChar_inj 1 (by decide) _ (Nat.mod_lt _ (by decide)) e'.1).symm

theorem th_part_of {x : Str} {n : Nat} (h : Numeral x n) (hn : n % 10 ∉ [1, 2, 3] ∨ n / 10 % 10 = 1) : thPart.den x x 0 := by
  have digit123 : ∀ a < 10, a ∉ [1, 2, 3] → Nat.digitChar a ∉ ['1', '2', '3'] := by decide
  rcases numeral_end h with ⟨h1, rfl⟩ | ⟨q, h1, rfl⟩
  · rcases hn with hn | hn
    · rw [Nat.mod_eq_of_lt h1] at hn
      exact .inl (.inl (but_iff.2 ⟨_, digitChar_isDigit n h1, digit123 n h1 hn, rfl, rfl, rfl⟩))
    · omega
  · have d1 := digitChar_isDigit (n % 10) (Nat.mod_lt _ (by decide))
    by_cases ht : n / 10 % 10 = 1
    · refine .inl (.inr ⟨q ++ ['1'], q ++ ['1'], 0, [Nat.digitChar (n % 10)], [Nat.digitChar (n % 10)], 0,
        ⟨q, q, 0, _, _, 0, format_iff.2 ⟨rfl, h1, rfl⟩, ⟨rfl, rfl, rfl⟩, rfl, rfl, rfl⟩,
        ⟨_, isDigit_eq.2 d1, rfl, rfl, rfl⟩, ?_, ?_, rfl⟩) <;> rw [ht] <;> simp
    · have hn := hn.resolve_right ht
      refine .inr ⟨q ++ [Nat.digitChar (n / 10 % 10)], q ++ [Nat.digitChar (n / 10 % 10)], 0, _, _, 0,
        ⟨q, q, 0, _, _, 0, format_iff.2 ⟨rfl, h1, rfl⟩, but_iff.2 ⟨_, digitChar_isDigit _ (Nat.mod_lt _ (by decide)), ?_, rfl, rfl, rfl⟩,
          rfl, rfl, rfl⟩, but_iff.2 ⟨_, d1, digit123 _ (Nat.mod_lt _ (by decide)) hn, rfl, rfl, rfl⟩, by simp, by simp, rfl⟩
      intro k
      exact ht (digitChar_inj _ (Nat.mod_lt _ (by decide)) 1 (by decide) (List.mem_singleton.1 k))

/-- The ordinal grammar: ordinal numerals below 10^15 and the names of the numbers. -/
theorem ordinal_iff {x y : Str} {w : W} : ordinal.den x y w ↔
    ∃ n, n < 10 ^ 15 ∧ OrdinalNumeral x n ∧ y = english false n ∧ w = 0 := by
  constructor
  · rintro ⟨m, w₁, w₂, h1, h2, rfl⟩
    obtain ⟨n, hn, h3, rfl, rfl⟩ := cardinal_iff.1 h2
    have fin : w₁ = 0 ∧ ∃ e ∈ endingForms (ordinalEnding n), x = m ++ e := by
      rcases h1 with ((h1 | h1) | h1) | h1
      · obtain ⟨rfl, e, he, rfl, h4⟩ := single_iff.1 h1
        obtain ⟨k1, k2⟩ := (single_end (u := 1) (by decide) h3).1 h4
        refine ⟨rfl, e, ?_, rfl⟩
        unfold ordinalEnding
        rw [if_neg (by omega), if_pos k1]
        exact he
      · obtain ⟨rfl, e, he, rfl, h4⟩ := single_iff.1 h1
        obtain ⟨k1, k2⟩ := (single_end (u := 2) (by decide) h3).1 h4
        refine ⟨rfl, e, ?_, rfl⟩
        unfold ordinalEnding
        rw [if_neg (by omega), if_neg (by omega), if_pos k1]
        exact he
      · obtain ⟨rfl, e, he, rfl, h4⟩ := single_iff.1 h1
        obtain ⟨k1, k2⟩ := (single_end (u := 3) (by decide) h3).1 h4
        refine ⟨rfl, e, ?_, rfl⟩
        unfold ordinalEnding
        rw [if_neg (by omega), if_neg (by omega), if_neg (by omega), if_pos k1]
        exact he
      · obtain ⟨rfl, e, he, rfl, h4⟩ := th_sound h1
        have k := th_end h3 h4
        refine ⟨rfl, e, ?_, rfl⟩
        have : ordinalEnding n = t!"th" := by
          unfold ordinalEnding
          simp only [List.mem_cons, List.not_mem_nil, or_false, not_or] at k
          by_cases h11 : n % 100 = 11 ∨ n % 100 = 12 ∨ n % 100 = 13
          · rw [if_pos h11]
          · rw [if_neg h11, if_neg (by omega), if_neg (by omega), if_neg (by omega)]
        rw [this]
        exact he
    obtain ⟨rfl, e, he, rfl⟩ := fin
    exact ⟨n, hn, ⟨m, e, h3, he, rfl⟩, rfl, rfl⟩
  · rintro ⟨n, hn, ⟨d, e, h1, h2, rfl⟩, rfl, rfl⟩
    refine ⟨d, 0, 0, ?_, cardinal_iff.2 ⟨n, hn, h1, rfl, rfl⟩, rfl⟩
    unfold ordinalEnding at h2
    by_cases h11 : n % 100 = 11 ∨ n % 100 = 12 ∨ n % 100 = 13
    · rw [if_pos h11] at h2
      exact .inr (th_of_part (th_part_of h1 (.inr (by omega))) h2)
    · rw [if_neg h11] at h2
      by_cases k1 : n % 10 = 1
      · rw [if_pos k1] at h2
        exact .inl (.inl (.inl (single_iff.2 ⟨rfl, e, h2, rfl, (single_end (u := 1) (by decide) h1).2 ⟨k1, by omega⟩⟩)))
      · rw [if_neg k1] at h2
        by_cases k2 : n % 10 = 2
        · rw [if_pos k2] at h2
          exact .inl (.inl (.inr (single_iff.2 ⟨rfl, e, h2, rfl, (single_end (u := 2) (by decide) h1).2 ⟨k2, by omega⟩⟩)))
        · rw [if_neg k2] at h2
          by_cases k3 : n % 10 = 3
          · rw [if_pos k3] at h2
            exact .inl (.inr (single_iff.2 ⟨rfl, e, h2, rfl, (single_end (u := 3) (by decide) h1).2 ⟨k3, by omega⟩⟩))
          · rw [if_neg k3] at h2
            refine .inr (th_of_part (th_part_of h1 (.inl ?_)) h2)
            simp only [List.mem_cons, List.not_mem_nil, or_false, not_or]
            exact ⟨k1, k2, k3⟩

/-! ### The spoken form -/

/-- What `suffix` makes of a word. -/
def suffixed (w : Str) : List Str :=
  (ordinalEndings.filter fun e => e.1.isSuffixOf w).map fun e => w.take (w.length - e.1.length) ++ e.2

theorem suffixed_table : ∀ w ∈ numWords, ' ' ∉ w ∧ VText w ∧
    (suffixed w = [ordinalWord w] ∨ suffixed w = [] ∧ w ++ t!"th" = ordinalWord w) := by decide +kernel

theorem mem_suffixed {v s t : Str} (h : (s, t) ∈ ordinalEndings) : v ++ t ∈ suffixed (v ++ s) := by
  unfold suffixed
  refine List.mem_map.2 ⟨(s, t), List.mem_filter.2 ⟨h, ?_⟩, by simp⟩
  rw [List.isSuffixOf_iff_suffix]
  exact List.suffix_append v s

theorem endings_nospace : ∀ e ∈ ordinalEndings, ' ' ∉ e.1 := by decide +kernel

/-- `suffix` turns the name of a number into its ordinal name. -/
theorem suffix_iff {n : Nat} (h : n < 10 ^ 24) {z : Str} {w : W} :
    ordSuffix.den (english false n) z w ↔ z = ordinalName false n ∧ w = 0 := by
  obtain ⟨l, v, h1, h2, h3⟩ := EnItn.numberWords_last false h
  obtain ⟨t1, t2, t3⟩ := suffixed_table v h2
  have hl : VText (if l = [] then ([] : Str) else join l ++ [' ']) := by
    by_cases h0 : l = []
    · rw [if_pos h0]; intro c hc; cases hc
    · rw [if_neg h0]
      intro c hc
      rcases List.mem_append.1 hc with hc | hc
      · refine EnItn.vtext_join' (fun u hu => ?_) c hc
        intro c hc
        have := (h3 u hu).2 c hc
        simp only [vchar, bne_iff_ne, ne_eq]
        rintro rfl; exact absurd this (by decide)
      · rw [List.mem_singleton] at hc
        subst hc; decide
  unfold english ordinalName
  rw [h1, EnItn.ordinalWords_last, join_last, join_last]
  generalize hp : (if l = [] then ([] : Str) else join l ++ [' ']) = p at hl
  have hsuf : ∀ {u s : Str}, ' ' ∉ s → p ++ v = u ++ s → ∃ r, u = p ++ r ∧ v = r ++ s := by
    intro u s hs e
    subst hp
    exact EnItn.suffix_in_last hs e t1
  constructor
  · rintro (⟨u, _, _, s, t, _, k1, ⟨k2, rfl⟩, e, rfl, rfl⟩ | k)
    · obtain ⟨rfl, rfl, -⟩ := den_VSIGMA.1 k1
      obtain ⟨r, rfl, rfl⟩ := hsuf (endings_nospace _ k2) e
      have := mem_suffixed (v := r) k2
      rcases t3 with t3 | ⟨t3, -⟩
      · rw [t3, List.mem_singleton] at this
        rw [← this]
        exact ⟨by simp, rfl⟩
      · rw [t3] at this; cases this
    · obtain ⟨z', rfl, rfl, k1, k2⟩ := den_add_insert.1 k
      obtain ⟨-, rfl, -⟩ := den_VSIGMA.1 k1
      refine ⟨?_, rfl⟩
      rcases t3 with t3 | ⟨-, t3⟩
      · exfalso
        have : suffixed v ≠ [] := by rw [t3]; simp
        obtain ⟨x, hx⟩ := List.exists_mem_of_ne_nil _ this
        obtain ⟨e, he, -⟩ := List.mem_map.1 hx
        obtain ⟨he', hs⟩ := List.mem_filter.1 he
        rw [List.isSuffixOf_iff_suffix] at hs
        obtain ⟨r, rfl⟩ := hs
        refine k2 ⟨p ++ (r ++ e.1), 0, p ++ r, p ++ r, 0, e.1, e.1, 0, den_VSIGMA.2 ⟨rfl, rfl, ?_⟩,
          ⟨List.mem_map.2 ⟨e, he', rfl⟩, rfl⟩, by simp, by simp, rfl⟩
        intro c hc
        rcases List.mem_append.1 hc with hc | hc
        · exact hl c hc
        · exact t2 c (by simp [hc])
      · rw [List.append_assoc, t3]
  · rintro ⟨rfl, rfl⟩
    rcases t3 with t3 | ⟨t3, t4⟩
    · have : ordinalWord v ∈ suffixed v := by rw [t3]; simp
      obtain ⟨e, he, hw⟩ := List.mem_map.1 this
      obtain ⟨he', hs⟩ := List.mem_filter.1 he
      rw [List.isSuffixOf_iff_suffix] at hs
      obtain ⟨r, rfl⟩ := hs
      rw [← hw]
      refine .inl ⟨p ++ r, p ++ r, 0, e.1, e.2, 0, den_VSIGMA.2 ⟨rfl, rfl, ?_⟩, ⟨he', rfl⟩, by simp, by simp, rfl⟩
      intro c hc
      rcases List.mem_append.1 hc with hc | hc
      · exact hl c hc
      · exact t2 c (by simp [hc])
    · refine .inr (den_add_insert.2 ⟨p ++ v, by rw [List.append_assoc, t4], rfl, den_VSIGMA.2 ⟨rfl, rfl, ?_⟩, ?_⟩)
      · intro c hc
        rcases List.mem_append.1 hc with hc | hc
        · exact hl c hc
        · exact t2 c hc
      · rintro ⟨z, w', u, _, _, s, _, _, k1, ⟨k2, rfl⟩, e, rfl, rfl⟩
        obtain ⟨e', he', k3⟩ := List.mem_map.1 k2
        cases k3
        obtain ⟨r, rfl, rfl⟩ := hsuf (endings_nospace _ he') e
        have := mem_suffixed (v := r) (s := e'.1) (t := e'.2) he'
        rw [t3] at this
        cases this

end Verif.EnTn
