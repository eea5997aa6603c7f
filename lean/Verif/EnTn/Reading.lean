import Verif.EnTn.Number
import Verif.EnItn.Ordinal

/-
What the cardinal grammar of English TN says for an integer.
-/

namespace Verif.EnTn

open Verif.Wfst
open Spec
open Verif.EnItn.Spec (below100 below1000 groups join english scaleNames unitNames value)
open Verif.EnItn (join_append join_last)

/-! ### The names again -/

theorem value_english {n : Nat} (h : n < 10 ^ 15) : value (english false n) = some n := by
  obtain ⟨w, hw⟩ := (EnItn.C58_names false n (h.trans (by decide)) _).2 rfl
  obtain ⟨m, h1, h2⟩ := EnItn.C58_value _ _ _ hw
  rw [h1, toDigits_inj h2]

theorem vtext_english {n : Nat} (h : n < 10 ^ 15) : VText (english false n) := by
  obtain ⟨l, w, h1, h2, h3⟩ := EnItn.numberWords_last false (h.trans (by decide : 10 ^ 15 < 10 ^ 24))
  unfold english
  rw [h1]
  refine EnItn.vtext_join' fun v hv => ?_
  rcases List.mem_append.1 hv with hv | hv
  · intro c hc
    have := (h3 v hv).2 c hc
    simp only [vchar, bne_iff_ne, ne_eq]
    rintro rfl; exact absurd this (by decide)
  · rw [List.mem_singleton] at hv
    subst hv
    exact (by decide +kernel : ∀ w ∈ EnItn.numWords, VText w) v h2

theorem value_and {p r : Str} : value (p ++ t!" and " ++ r) = value (p ++ ' ' :: r) := by
  have e : EnItn.Spec.words (p ++ t!" and " ++ r) = EnItn.Spec.words p ++ (t!"and" :: EnItn.Spec.words r) := by
    rw [show p ++ t!" and " ++ r = p ++ ' ' :: (t!"and" ++ ' ' :: r) by simp, EnItn.words_append_space,
      EnItn.words_append_space]
    rfl
  unfold value
  rw [e, EnItn.words_append_space]
  simp

theorem value_of_and {n : Nat} (h : n < 10 ^ 15) {y : Str} (hy : AndIn (english false n) y) : value y = some n := by
  rcases hy with rfl | ⟨p, r, -, h1, rfl⟩
  · exact value_english h
  · rw [value_and, ← h1]; exact value_english h

/-! ### Digits one by one -/

theorem says_digit : ∀ e ∈ inv digit, ∃ c, e.1 = [c] ∧ SaysDigit c e.2 ∧ c.isDigit = true := by
  have key : ∀ e ∈ inv digit, ∃ d, (0 < d ∧ d < 10) ∧ e.1 = [Nat.digitChar d] ∧ e.2 = unitNames.getD (d - 1) [] ∧
      (Nat.digitChar d).isDigit = true := by
    have : ∀ e ∈ inv digit, ∃ d ∈ List.range' 1 9, e.1 = [Nat.digitChar d] ∧ e.2 = unitNames.getD (d - 1) [] ∧
      (Nat.digitChar d).isDigit = true := by decide +kernel
    intro e he
    obtain ⟨d, hd, h⟩ := this e he
    rw [List.mem_range'_1] at hd
    exact ⟨d, by omega, h⟩
  intro e he
  obtain ⟨d, h1, h2, h3, h4⟩ := key e he
  exact ⟨_, h2, h3 ▸ .unit h1.1 h1.2, h4⟩

theorem digitZero_says {x y : Str} {w : W} (h : digitZero.den x y w) :
    ∃ c, x = [c] ∧ SaysDigit c y ∧ c.isDigit = true := by
  obtain ⟨h, rfl⟩ := h
  rw [inv, List.map_append, List.mem_append] at h
  rcases h with h | h
  · exact says_digit _ h
  · have e : (zero.map Prod.swap) = [(t!"0", t!"zero")] := by decide +kernel
    rw [e, List.mem_singleton] at h
    cases h
    exact ⟨'0', rfl, .zero, rfl⟩

theorem digitOh_says {x y : Str} {w : W} (h : digitOh.den x y w) :
    ∃ c, x = [c] ∧ SaysDigit c y ∧ c.isDigit = true := by
  rcases h with ⟨h, rfl⟩ | h
  · exact says_digit _ h
  · obtain ⟨rfl, rfl, -⟩ := den_crossS.1 h
    exact ⟨'0', rfl, .oh, rfl⟩

/-- Digits said one by one, with the digits themselves. -/
def SpelledD (x y : Str) : Prop := Spelled x y ∧ ∀ c ∈ x, c.isDigit = true

theorem spelled_append {x y x' y' : Str} (h : SpelledD x y) (h' : SpelledD x' y') :
    SpelledD (x ++ x') (y ++ ' ' :: y') := by
  obtain ⟨⟨h1, ws, h2, rfl⟩, h3⟩ := h
  obtain ⟨⟨h1', ws', h2', rfl⟩, h3'⟩ := h'
  have n1 : ws ≠ [] := by rintro rfl; cases h2; exact h1 rfl
  have n2 : ws' ≠ [] := by rintro rfl; cases h2'; exact h1' rfl
  refine ⟨⟨by simp [h1], ws ++ ws', List.rel_append h2 h2', (join_append n1 n2).symm⟩, ?_⟩
  intro c hc
  rcases List.mem_append.1 hc with hc | hc
  · exact h3 c hc
  · exact h3' c hc

theorem spelled_one {x y : Str} (h : ∃ c, x = [c] ∧ SaysDigit c y ∧ c.isDigit = true) : SpelledD x y := by
  obtain ⟨c, rfl, h1, h2⟩ := h
  exact ⟨⟨by simp, [y], .cons h1 .nil, rfl⟩, by simpa using h2⟩

theorem spelled_star {g : G} (hg : ∀ {x y w}, g.den x y w → ∃ c, x = [c] ∧ SaysDigit c y ∧ c.isDigit = true)
    {x y : Str} {w : W} (h : (g + .star (isp + g)).den x y w) : SpelledD x y := by
  obtain ⟨x₁, y₁, w₁, x₂, y₂, w₂, h1, h2, rfl, rfl, rfl⟩ := h
  have h0 := spelled_one (hg h1)
  change Star _ _ _ _ at h2
  clear h1
  induction h2 generalizing x₁ y₁ with
  | nil => simpa using h0
  | cons h1 _ ih =>
    obtain ⟨y', rfl, h4⟩ := den_insert_add.1 h1
    have := ih _ _ (spelled_append h0 (spelled_one (hg h4)))
    simpa using this

theorem singleDigits_spelled {x y : Str} {w : W} (h : singleDigits.den x y w) : SpelledD x y := by
  rcases h with ⟨w0, h, -⟩ | h
  · exact spelled_star digitZero_says h
  · exact spelled_star digitOh_says h

theorem threeSingle_spelled {x y : Str} {w : W} (h : threeSingle.den x y w) :
    ∃ t, x = ',' :: t ∧ SpelledD t y := by
  obtain ⟨x₁, y₁, w₁, x₂, y₂, w₂, h1, h2, rfl, rfl, rfl⟩ := h
  obtain ⟨z₁, rfl, k1⟩ := den_add_insert.1 h1
  obtain ⟨x₃, y₃, w₃, x₄, y₄, w₄, h3, h4, rfl, rfl, rfl⟩ := k1
  obtain ⟨z₃, rfl, k3⟩ := den_add_insert.1 h3
  obtain ⟨x₅, rfl, k5⟩ := den_del_add.1 k3
  refine ⟨x₅ ++ x₄ ++ x₂, by simp, ?_⟩
  have := spelled_append (spelled_append (spelled_one (digitZero_says k5)) (spelled_one (digitZero_says h4)))
    (spelled_one (digitZero_says h2))
  simpa using this

theorem filter_digits {x : Str} (h : ∀ c ∈ x, c.isDigit = true) : x.filter (· ≠ ',') = x := by
  refine List.filter_eq_self.2 fun c hc => ?_
  simp only [ne_eq, decide_eq_true_eq]
  rintro rfl
  exact absurd (h _ hc) (by decide)

theorem upTo_spelled {k : Nat} {x y : Str} {w : W} (h : ((singleDigits + isp).upTo k).den x y w) {x₀ y₀ : Str}
    (h₀ : SpelledD x₀ y₀) : ∃ z, y₀ ++ t!" " ++ y = z ++ t!" " ∧ SpelledD (x₀ ++ x) z := by
  induction k generalizing x y w x₀ y₀ with
  | zero =>
    obtain ⟨rfl, rfl, -⟩ := h
    exact ⟨y₀, by simp, by simpa using h₀⟩
  | succ k ih =>
    rcases h with ⟨rfl, rfl, -⟩ | ⟨x₁, y₁, w₁, x₂, y₂, w₂, h1, h2, rfl, rfl, rfl⟩
    · exact ⟨y₀, by simp, by simpa using h₀⟩
    · obtain ⟨z₁, rfl, k1⟩ := den_add_insert.1 h1
      obtain ⟨z, e, h3⟩ := ih h2 (spelled_append h₀ (singleDigits_spelled k1))
      exact ⟨z, by simpa using e, by simpa using h3⟩

theorem digitsWithCommas_spelled {x y : Str} {w : W} (h : digitsWithCommas.den x y w) :
    Spelled (x.filter (· ≠ ',')) y := by
  obtain ⟨x₁, y₁, w₁, x₂, y₂, w₂, h1, h2, rfl, rfl, rfl⟩ := h
  obtain ⟨x₃, y₃, w₃, x₄, y₄, w₄, h3, h4, rfl, rfl, rfl⟩ := h1
  obtain ⟨x₅, y₅, w₅, x₆, y₆, w₆, h5, ⟨rfl, rfl, -⟩, rfl, rfl, rfl⟩ := h3
  obtain ⟨z₅, rfl, k5⟩ := den_add_insert.1 h5
  obtain ⟨z, e, hz⟩ := upTo_spelled h4 (singleDigits_spelled k5)
  have e' : z₅ ++ [' '] ++ [] ++ y₄ = z ++ [' '] := by simpa using e
  rw [e']
  obtain ⟨x₇, y₇, w₇, x₈, y₈, w₈, h7, h8, rfl, rfl, rfl⟩ := h2
  obtain ⟨t, rfl, k7⟩ := threeSingle_spelled h7
  have base := spelled_append hz k7
  change Star _ _ _ _ at h8
  have key : ∀ {a b : Str}, SpelledD a b → SpelledD (a ++ x₈.filter (· ≠ ',')) (b ++ y₈) := by
    clear base h7 k7 h4 h5 k5 hz e e'
    induction h8 with
    | nil => intro a b h; simpa using h
    | cons h1 _ ih =>
      intro a b h
      obtain ⟨y', rfl, h4⟩ := den_insert_add.1 h1
      obtain ⟨t, rfl, k4⟩ := threeSingle_spelled h4
      have := ih (spelled_append h k4)
      rw [List.filter_append, List.filter_cons_of_neg (by simp), filter_digits k4.2]
      simpa using this
  have := (key base).1
  have f1 : ∀ c ∈ x₅ ++ [] ++ x₄, c.isDigit = true := by simpa using hz.2
  rw [List.filter_append, filter_digits f1, List.filter_append, List.filter_cons_of_neg (by simp), filter_digits k7.2]
  simpa using this

/-! ### Names with "and", without "hundred" -/

/-- The numbers of three digits other than 0. -/
def fullHundreds : List Nat := (List.range' 100 900).filter fun n => n % 10 ≠ 0 ∧ n / 10 % 10 ≠ 0

/-- Every text obtained from `s` by taking out `t` once. -/
def without (t : Str) : Str → List Str
  | [] => if t = [] then [[]] else []
  | c :: s => (if t.isPrefixOf (c :: s) then [(c :: s).drop t.length] else []) ++ (without t s).map (c :: ·)

theorem mem_without {t p r : Str} : p ++ r ∈ without t (p ++ t ++ r) := by
  induction p with
  | nil =>
    simp only [List.nil_append]
    cases h : t ++ r with
    | nil =>
      obtain ⟨rfl, rfl⟩ := List.append_eq_nil_iff.1 h
      simp [without]
    | cons c s =>
      unfold without
      rw [← h, if_pos (by rw [List.isPrefixOf_iff_prefix]; exact List.prefix_append t r)]
      simp
  | cons c p ih =>
    simp only [List.cons_append]
    unfold without
    exact List.mem_append_right _ (List.mem_map.2 ⟨_, ih, rfl⟩)

theorem short_table : ∀ n ∈ fullHundreds, without t!" hundred" (english false n) =
    [join (unitNames.getD (n / 100 - 1) [] :: below100 (n % 100))] := by decide +kernel

theorem notQuotes_same {x y : Str} {w : W} (h : notQuotes.den x y w) : x = y ∧ w = 0 := by
  change Star _ _ _ _ at h
  induction h with
  | nil => exact ⟨rfl, rfl⟩
  | cons h1 _ ih =>
    obtain ⟨c, -, rfl, rfl, rfl⟩ := h1
    obtain ⟨rfl, rfl⟩ := ih
    exact ⟨rfl, rfl⟩

theorem putAnd_says {x y : Str} {w : W} (h : putAnd.den x y w) : AndIn x y := by
  rcases h with ⟨p, _, _, x₂, y₂, w₂, h1, ⟨w0, ⟨x₃, y₃, w₃, r, y₄, w₄, h3, h4, rfl, rfl, rfl⟩, -⟩, rfl, rfl, rfl⟩ |
    ⟨p, _, _, x₂, y₂, w₂, h1, ⟨w0, ⟨x₃, y₃, w₃, r, y₄, w₄, h3, h4, rfl, rfl, rfl⟩, -⟩, rfl, rfl, rfl⟩
  · obtain ⟨rfl, -⟩ := notQuotes_same h1
    obtain ⟨rfl, rfl, -⟩ := den_crossS.1 h3
    obtain rfl := h4.1
    exact .inr ⟨p ++ t!"hundred", y₄, .inl ⟨p, rfl⟩, by simp, by simp⟩
  · obtain ⟨rfl, -⟩ := notQuotes_same h1
    obtain ⟨rfl, rfl, -⟩ := den_crossS.1 h3
    obtain rfl := h4.1
    exact .inr ⟨p ++ t!"thousand", y₄, .inr ⟨p, rfl⟩, by simp, by simp⟩

theorem pow_but {cs : List Char} {k : Nat} {x y : Str} {w : W} (h : ((digitBut cs).pow k).den x y w) :
    x = y ∧ x.length = k ∧ (∀ c ∈ x, c.isDigit = true ∧ c ∉ cs) := by
  induction k generalizing x y w with
  | zero =>
    obtain ⟨rfl, rfl, -⟩ := den_pow_zero.1 h
    simp
  | succ k ih =>
    obtain ⟨_, _, _, x₂, y₂, w₂, ⟨c, hc, rfl, rfl, rfl⟩, h2, rfl, rfl, rfl⟩ := den_pow_succ.1 h
    obtain ⟨rfl, h3, h4⟩ := ih h2
    refine ⟨rfl, by simp [h3], ?_⟩
    intro d hd
    rcases List.mem_cons.1 hd with rfl | hd
    · simp only [Bool.and_eq_true, Bool.not_eq_true', List.contains_eq_mem, decide_eq_false_iff_not] at hc
      exact ⟨isDigit_eq.1 hc.1, hc.2⟩
    · exact h4 d hd

theorem numeral_digits {x : Str} {n : Nat} (h : Numeral x n) (hx : ∀ c ∈ x, c.isDigit = true) : x = Nat.toDigits 10 n := by
  rcases h with rfl | ⟨g, gs, h1, h2, h3, rfl, h5⟩
  · rfl
  · cases gs with
    | nil => simpa using h5
    | cons t gs => exact absurd (hx ',' (by simp)) (by decide)

theorem nonzero_last {n : Nat} (h : ∀ c ∈ Nat.toDigits 10 n, c ∉ ['0']) (hl : (Nat.toDigits 10 n).length = 3) :
    n ∈ fullHundreds := by
  have hd := digs_toDigits n
  obtain ⟨a, d, h1, h2, h3, h4, h5⟩ := digs_split hd hl
  obtain ⟨b, e, h6, h7, h8, h9, h10⟩ := digs_split h3 h5
  obtain ⟨c, f, i1, i2, i3, i4, i5⟩ := digs_split h8 h10
  have lt := digs_lt hd
  rw [hl] at lt
  have ne : ∀ d, Nat.digitChar d ∈ Nat.toDigits 10 n → d ≠ 0 := by
    rintro d hd rfl
    exact h _ hd (by decide)
  have n1 := ne d (by rw [h2]; simp)
  have n2 := ne e (by rw [h2, h7]; simp)
  have n3 := ne f (by rw [h2, h7, i2]; simp)
  unfold fullHundreds
  rw [List.mem_filter, List.mem_range'_1]
  refine ⟨by omega, by simp; omega⟩

theorem withAnd_named {x y : Str} {w : W} (h : withAnd.den x y w) : Named x y := by
  rcases h with (⟨w0, h, -⟩ | ⟨m, w1, w2, h, h', -⟩) | ⟨m, w1, w2, ⟨m', w3, w4, h3, h4, -⟩, h', -⟩
  · obtain ⟨n, h1, h2, rfl, -⟩ := cardinal_iff.1 h
    exact .name h1 h2 (.inl rfl)
  · obtain ⟨n, h1, h2, rfl, -⟩ := cardinal_iff.1 h
    exact .name h1 h2 (putAnd_says h')
  · obtain ⟨n, h1, h2, rfl, -⟩ := cardinal_iff.1 h4
    obtain ⟨rfl, h5, h6⟩ := pow_but h3
    have e := numeral_digits h2 fun c hc => (h6 c hc).1
    subst e
    have hn := nonzero_last (fun c hc => (h6 c hc).2) h5
    obtain ⟨x₁, y₁, v₁, x₂, y₂, v₂, ⟨x₃, y₃, v₃, x₄, y₄, v₄, k1, k2, rfl, rfl, -⟩, k3, e1, rfl, -⟩ := h'
    obtain ⟨rfl, -, -⟩ := den_VSIGMA.1 k1
    obtain ⟨rfl, rfl, -⟩ := den_crossS.1 k2
    obtain ⟨rfl, -, -⟩ := den_VSIGMA.1 k3
    have k4 := short_table n hn
    have k5 : y₃ ++ [] ++ y₂ ∈ without t!" hundred" (english false n) := by
      rw [e1]; simpa using mem_without (p := y₃) (t := t!" hundred") (r := y₂)
    rw [k4, List.mem_singleton] at k5
    rw [k5]
    unfold fullHundreds at hn
    rw [List.mem_filter, List.mem_range'_1] at hn
    simp only [ne_eq, Bool.decide_and, decide_not, Bool.and_eq_true, Bool.not_eq_true', decide_eq_false_iff_not] at hn
    exact .short (by omega) (by omega) hn.2.1 hn.2.2

/-! ### The whole grammar -/

theorem zeros_same {x y : Str} {w : W} (h : (G.lit t!"0").plus.den x y w) : x = y ∧ ∀ c ∈ x, c = '0' := by
  obtain ⟨_, _, _, x₃, y₃, w₃, ⟨rfl, rfl, -⟩, h6, rfl, rfl, -⟩ := h
  have : x₃ = y₃ ∧ ∀ c ∈ x₃, c = '0' := by
    change Star _ _ _ _ at h6
    induction h6 with
    | nil => simp
    | cons h1 _ ih =>
      obtain ⟨rfl, rfl, rfl⟩ := h1
      obtain ⟨rfl, h⟩ := ih
      exact ⟨rfl, by simpa using h⟩
  obtain ⟨rfl, h⟩ := this
  exact ⟨rfl, by simpa using h⟩

theorem digits_same {x y : Str} {w : W} (h : (G.star DIGIT).den x y w) : x = y ∧ ∀ c ∈ x, c.isDigit = true := by
  change Star _ _ _ _ at h
  induction h with
  | nil => simp
  | cons h1 _ ih =>
    obtain ⟨c, hc, rfl, rfl, rfl⟩ := h1
    obtain ⟨rfl, h⟩ := ih
    exact ⟨rfl, by simpa using ⟨isDigit_eq.1 hc, h⟩⟩

theorem final1_reads {x y : Str} {w : W} (h : finalGraph1.den x y w) : Reads x y := by
  rcases h with ((h | ⟨w0, h, -⟩) | ⟨w0, h, -⟩) | h
  · exact .named (withAnd_named h)
  · obtain ⟨h1, h2⟩ := singleDigits_spelled h
    exact .spelled (by rwa [filter_digits h2])
  · exact .spelled (digitsWithCommas_spelled h)
  · obtain ⟨x₁, y₁, w₁, x₂, y₂, w₂, h1, ⟨m, w3, w4, h2, h3, -⟩, rfl, rfl, -⟩ := h
    obtain ⟨z₁, rfl, k1⟩ := den_add_insert.1 h1
    obtain ⟨m', w5, w6, h4, h5, -⟩ := k1
    have hz := zeros_same h4
    obtain ⟨rfl, hz⟩ := hz
    have hd := digits_same h2
    obtain ⟨rfl, hd⟩ := hd
    have := Reads.zeros hz (singleDigits_spelled h5).1 hd (withAnd_named h3)
    simpa using this

theorem final2_reads {x y : Str} {w : W} (h : finalGraph2.den x y w) : Reads x y := by
  rcases h with h | ⟨m, w1, w2, h1, ⟨x₁, y₁, w₁, r, _, w₂, h2, h3, rfl, rfl, -⟩, -⟩
  · exact final1_reads h
  · obtain ⟨rfl, -, -⟩ := den_VSIGMA.1 h3
    have h1 := final1_reads h1
    rcases h2 with (⟨w0, h2, -⟩ | ⟨w0, h2, -⟩) | ⟨w0, h2, -⟩
    · obtain ⟨rfl, rfl, -⟩ := den_crossS.1 h2
      exact .aHundred h1
    · obtain ⟨rfl, rfl, -⟩ := den_crossS.1 h2
      exact .thousand h1
    · obtain ⟨rfl, rfl, -⟩ := den_crossS.1 h2
      exact .aMillion h1

/-- What may be said for four digits may be said for them with a comma. -/
theorem reads_comma {c : Char} {t y : Str} (hc : c.isDigit = true) (h0 : c ≠ '0') (ht : Triple t) (h : Reads (c :: t) y) :
    Reads (c :: ',' :: t) y := by
  have hd : ∀ d ∈ c :: t, d.isDigit = true := by
    intro d hd
    rcases List.mem_cons.1 hd with rfl | hd
    · exact hc
    · exact ht.2 d hd
  generalize hx : c :: t = x at h
  induction h with
  | named h =>
    subst hx
    refine .named ?_
    generalize hx : c :: t = x at h
    cases h with
    | name h1 h2 h3 =>
      subst hx
      refine .name h1 (.inr ⟨[c], [t], by simp, by simp, by simpa using ht, by simp, ?_⟩) h3
      simpa using numeral_digits h2 hd
    | short h1 h2 h3 h4 =>
      exfalso
      have := congrArg List.length hx
      rw [List.length_cons, ht.1] at this
      have hl : (Nat.toDigits 10 _).length ≤ 3 := (Nat.length_toDigits_le_iff (by decide) (by decide)).2 (by simpa using h2)
      omega
  | spelled h =>
    subst hx
    refine .spelled ?_
    rw [filter_digits hd] at h
    rw [List.filter_cons_of_pos, List.filter_cons_of_neg (by simp), filter_digits ht.2]
    · exact h
    · simp only [ne_eq, decide_eq_true_eq]; rintro rfl; exact absurd hc (by decide)
  | @zeros z x s y hz h1 _ _ =>
    exfalso
    cases z with
    | nil => exact h1.1 rfl
    | cons d z =>
      have := hz d (by simp)
      simp only [List.cons_append, List.cons.injEq] at hx
      exact h0 (hx.1.trans this)
  | aHundred _ ih => exact .aHundred (ih hx)
  | thousand _ ih => exact .thousand (ih hx)
  | aMillion _ ih => exact .aMillion (ih hx)

theorem final_reads {x y : Str} {w : W} (h : finalGraph.den x y w) : Reads x y := by
  rcases h with h | ⟨m, w1, w2, ⟨x₁, y₁, w₁, t, _, w₂, h1, h2, rfl, rfl, -⟩, h3, -⟩
  · exact final2_reads h
  · obtain ⟨x₁, rfl, c, hc, rfl, rfl, -⟩ := den_add_del.1 h1
    obtain ⟨rfl, h4, h5, -⟩ := pow_digit.1 h2
    simp only [Bool.and_eq_true, Bool.not_eq_true', List.contains_eq_mem, decide_eq_false_iff_not] at hc
    exact reads_comma (isDigit_eq.1 hc.1) (by simpa using hc.2) ⟨h4, h5⟩ (final2_reads h3)

theorem final_name {x : Str} {n : Nat} (h : n < 10 ^ 15) (hx : Numeral x n) : finalGraph.den x (english false n) 1 :=
  .inl (.inl (.inl (.inl (.inl (.inl (.inl ⟨0, cardinal_iff.2 ⟨n, h, hx, rfl, rfl⟩, rfl⟩))))))

end Verif.EnTn
