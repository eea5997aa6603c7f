import Verif.EnItn.Split

/-
How the tokens of a text read names of numbers.
-/

namespace Verif.EnItn

open Verif.Wfst Spec

/-! ### Digits without leading zeros -/

theorem heads_table : ∀ e ∈ digit ++ teen ++ ties, e.2 ≠ [] ∧ e.2.head? ≠ some '0' := by decide +kernel

/-- Something is written, and it does not begin with zero. -/
def Lead0 (y : Str) : Prop := y ≠ [] ∧ y.head? ≠ some '0'

theorem Lead0.append {y : Str} (h : Lead0 y) (z : Str) : Lead0 (y ++ z) := by
  obtain ⟨h1, h2⟩ := h
  cases y with
  | nil => exact absurd rfl h1
  | cons c y => exact ⟨by simp, by simpa using h2⟩

theorem digit_lead {x y : Str} {w : W} (h : digitG.den x y w) : Lead0 y := heads_table (x, y) (by simp [h.1])
theorem teen_lead {x y : Str} {w : W} (h : teenG.den x y w) : Lead0 y := heads_table (x, y) (by simp [h.1])
theorem ties_lead {x y : Str} {w : W} (h : tiesG.den x y w) : Lead0 y := heads_table (x, y) (by simp [h.1])

theorem twoDigit_lead {x y : Str} {w : W} (h : twoDigit.den x y w) : Lead0 y := by
  rcases h with h | ⟨x1, y1, w1, x2, y2, w2, h1, h2, rfl, rfl, rfl⟩
  · exact teen_lead h
  · exact (ties_lead h1).append _

theorem upTo999_lead {x y : Str} {w : W} (h : upTo999.den x y w) : Lead0 y := by
  rcases h with (h | h) | ⟨x1, y1, w1, x2, y2, w2, ⟨x3, y3, w3, x4, y4, w4, ⟨x5, y5, w5, x6, y6, w6, h5, h6, rfl, rfl, rfl⟩, h4,
    rfl, rfl, rfl⟩, h2, rfl, rfl, rfl⟩
  · exact digit_lead h
  · exact twoDigit_lead h
  · exact (((digit_lead h5).append _).append _).append _

theorem upTo999_value {x y : Str} {w : W} (h : upTo999.den x y w) :
    ∃ m, 0 < m ∧ m < 1000 ∧ y = Nat.toDigits 10 m ∧ Ph x 0 m := by
  obtain ⟨m, h1, h2, h3, h4, h5⟩ := upTo999_reads h
  exact ⟨m, h1, h2, h3.canonical h4 (upTo999_lead h).2, h5⟩

/-! ### Years -/

theorem yearTwo_twoDigit {x y : Str} {w : W} (h : yearTwo.den x y w) : ∃ w', twoDigit.den x y w' := by
  rcases h with h | ⟨x1, y1, w1, x2, y2, w2, h1, h2 | h2, rfl, rfl, rfl⟩
  · exact ⟨w, .inl h⟩
  · exact ⟨_, .inr ⟨x1, y1, w1, x2, y2, w2, h1, .inl h2, rfl, rfl, rfl⟩⟩
  · exact ⟨_, .inr ⟨x1, y1, w1, x2, y2, w2 + 10000, h1, .inr ⟨w2, h2, rfl⟩, rfl, rfl, rfl⟩⟩

theorem century_twoDigit {x y : Str} {w : W} (h : century.den x y w) : ∃ w', twoDigit.den x y w' := by
  rcases h with h | h
  · exact ⟨w, .inl h⟩
  · exact yearTwo_twoDigit h

theorem yearPadded_padded {x y : Str} {w : W} (h : yearPadded.den x y w) : ∃ w', padded.den x y w' := by
  rcases h with (h | h) | h
  · obtain ⟨x1, y1, w1, x2, y2, w2, h1, h2, rfl, rfl, rfl⟩ := h
    have : ∃ w', afterHundred.den x2 y2 w' := by
      rcases h2 with (⟨x3, y3, w3, x4, y4, w4, h3, h4, rfl, rfl, rfl⟩ | h2) | h2
      · obtain ⟨w', h5⟩ := yearTwo_twoDigit h4
        exact ⟨_, .inl (.inl ⟨x3, y3, w3, x4, y4, w', h3, h5, rfl, rfl, rfl⟩)⟩
      · exact ⟨_, .inl (.inr h2)⟩
      · exact ⟨_, .inr h2⟩
    obtain ⟨w', h3⟩ := this
    exact ⟨_, .inl (.inl ⟨x1, y1, w1, x2, y2, w', h1, h3, rfl, rfl, rfl⟩)⟩
  · obtain ⟨x1, y1, w1, x2, y2, w2, h1, h2, rfl, rfl, rfl⟩ := h
    obtain ⟨w', h3⟩ := yearTwo_twoDigit h2
    exact ⟨_, .inl (.inr ⟨x1, y1, w1, x2, y2, w', h1, h3, rfl, rfl, rfl⟩)⟩
  · exact ⟨_, .inr h⟩

theorem scales_thousand : Scales [t!"thousand"] := scales_mags.2.2.2.2.2.2

theorem yearThousands_reads {x y : Str} {w : W} (h : yearThousands.den x y w) :
    ∃ n, Digs y n ∧ n < 10000 ∧ Lead0 y ∧ Names x n := by
  obtain ⟨x1, y1, w1, x2, y2, w2, h1, h2, rfl, rfl, rfl⟩ := h
  have hl : ∃ w', (lower []).den x2 y2 w' := by
    rcases h2 with ⟨x3, y3, w3, x4, y4, w4, h3, h4, rfl, rfl, rfl⟩ | h2
    · obtain ⟨w', h5⟩ := yearPadded_padded h4
      exact ⟨_, .inl ⟨x3, y3, w3, x4, y4, w', h3, h5, rfl, rfl, rfl⟩⟩
    · exact ⟨_, .inr h2⟩
  obtain ⟨w', h3⟩ := hl
  obtain ⟨x5, y5, w5, x6, y6, w6, h5, h6, rfl, rfl, rfl⟩ := h1
  obtain ⟨x7, y7, w7, x8, y8, w8, h7, h8, rfl, rfl, rfl⟩ := h5
  have hb : (bigs [t!"thousand"]).den (x7 ++ x8 ++ x6 ++ x2) (y7 ++ y8 ++ y6 ++ y2) (w7 + w8 + w6 + w') :=
    .inr ⟨_, _, _, x2, y2, w', ⟨_, _, _, x6, y6, w6, ⟨x7, y7, w7, x8, y8, w8, .inl (.inl h7), h8, rfl, rfl, rfl⟩, h6, rfl, rfl, rfl⟩, h3,
      rfl, rfl, rfl⟩
  obtain ⟨n, b1, b2, b3⟩ := bigs_reads scales_thousand hb
  refine ⟨n, b1, ?_, (((digit_lead h7).append _).append _).append _, b3⟩
  obtain ⟨rfl, rfl, rfl⟩ := den_ds.1 h8
  obtain ⟨rfl, rfl, rfl⟩ := den_del.1 h6
  obtain ⟨a, a1, a2, a3, a4, -⟩ := digit_reads h7
  obtain ⟨k, k1, k2, k3, -, -⟩ := lower_reads (names := []) trivial h3
  have := a3.append k2
  rw [k3] at this
  have e : n = a * 10 ^ 3 + k := by
    have e1 := b1.2
    have e2 := this.2
    simp only [List.append_nil, List.length_nil] at e1 e2
    omega
  simp at k1
  omega

theorem yearXx_reads {x y : Str} {w : W} (h : yearXxHundred.den x y w) :
    ∃ n, Digs y n ∧ n < 10000 ∧ Lead0 y ∧ Names x n := by
  obtain ⟨x1, y1, w1, x2, y2, w2, h1, h2, rfl, rfl, rfl⟩ := h
  obtain ⟨x5, y5, w5, x6, y6, w6, h5, h6, rfl, rfl, rfl⟩ := h1
  obtain ⟨x7, y7, w7, x8, y8, w8, h7, h8, rfl, rfl, rfl⟩ := h5
  obtain ⟨rfl, rfl, rfl⟩ := den_ds.1 h8
  obtain ⟨rfl, rfl, rfl⟩ := den_del.1 h6
  obtain ⟨w', h9⟩ := century_twoDigit h7
  obtain ⟨a, a1, a2, a3, a4, a5⟩ := twoDigit_reads h9
  obtain ⟨n, b1, b2, b3, b4⟩ := hundred_reads (by omega) a2 a3 (by simpa using a5 0 rfl) (show afterHundred.den x2 y2 w2 from .inr h2)
  refine ⟨n, by simpa using b3, by omega, (((twoDigit_lead h9).append _).append _).append _, ?_⟩
  have := b4.names
  simpa using this

/-- What is written for a year is the number that its words name. -/
theorem year_value {x y : Str} {w : W} (h : yearG.den x y w) :
    Bad (words x) ∨ ∃ n, value x = some n ∧ n < 10000 ∧ y = Nat.toDigits 10 n := by
  obtain ⟨m, w1, w2, h1, h2, rfl⟩ := h
  have fin : (∃ n, Digs y n ∧ n < 10000 ∧ Lead0 y ∧ Names m n) → ∃ n, value x = some n ∧ n < 10000 ∧ y = Nat.toDigits 10 n := by
    rintro ⟨n, a1, a2, a3, a4⟩
    exact ⟨n, a4.value (deleteAnd_words h1), a2, a1.canonical a3.1 a3.2⟩
  rcases h2 with ((h2 | h2) | h2) | h2
  · left
    exact (inferInstance : Core false .hard (.comp deleteAnd yearTwoParts)).reads _ _ _ ⟨m, w1, w2, h1, h2, rfl⟩
  · exact .inr (fin (yearThousands_reads h2))
  · left
    exact (inferInstance : Core false .hard (.comp deleteAnd yearHundreds)).reads _ _ _ ⟨m, w1, w2, h1, h2, rfl⟩
  · exact .inr (fin (yearXx_reads h2))

/-! ### Numbers of millions and so on -/

theorem groups_zero (b : Bool) (ss : List Str) : groups b ss 0 = [] := by
  induction ss with
  | nil => simp [groups]
  | cons s ss ih => simp [groups, ih]

theorem groups_scale (b : Bool) {m : Nat} (h0 : 0 < m) (h : m < 1000) (ss₁ : List Str) (s : Str) (ss₂ : List Str) :
    groups b (ss₁ ++ s :: ss₂) (m * 1000 ^ (ss₂.length + 1)) = below1000 b m ++ [s] := by
  have hp : ∀ k, 0 < 1000 ^ k := fun k => Nat.pow_pos (by decide)
  induction ss₁ with
  | nil =>
    rw [List.nil_append, groups, Nat.mul_div_cancel _ (hp _), Nat.mul_mod_left, groups_zero, if_neg (by omega), List.append_nil]
  | cons a ss₁ ih =>
    have hlt : m * 1000 ^ (ss₂.length + 1) < 1000 ^ ((ss₁ ++ s :: ss₂).length + 1) := by
      have h1 : m * 1000 ^ (ss₂.length + 1) < 1000 * 1000 ^ (ss₂.length + 1) := Nat.mul_lt_mul_of_pos_right h (hp _)
      have h2 : 1000 * 1000 ^ (ss₂.length + 1) = 1000 ^ (ss₂.length + 1 + 1) := by rw [Nat.pow_succ 1000 (ss₂.length + 1), Nat.mul_comm]
      have h3 : 1000 ^ (ss₂.length + 1 + 1) ≤ 1000 ^ ((ss₁ ++ s :: ss₂).length + 1) :=
        Nat.pow_le_pow_right (by decide) (by simp)
      omega
    rw [List.cons_append, groups, Nat.div_eq_of_lt hlt, if_pos rfl, Nat.mod_eq_of_lt hlt, List.nil_append, ih]

theorem mags_split : ∀ k < 7, ∃ s, scaleNames[k]? = some s ∧ mags = mags.take (6 - k) ++ s :: mags.drop (7 - k) ∧
    (mags.drop (7 - k)).length = k ∧ words s = [s] ∧ unit s = none ∧ tens s = none ∧ s ≠ t!"hundred" ∧ scale s = some (1000 ^ (k + 1)) := by
  intro k hk
  have : k = 0 ∨ k = 1 ∨ k = 2 ∨ k = 3 ∨ k = 4 ∨ k = 5 ∨ k = 6 := by omega
  rcases this with rfl | rfl | rfl | rfl | rfl | rfl | rfl <;> exact ⟨_, rfl, rfl, rfl, by decide +kernel, by decide +kernel, by decide +kernel, by decide +kernel, by decide +kernel⟩

theorem scale_get {k : Nat} {s : Str} (h : scaleNames[k]? = some s) : k < 7 := by
  have := (List.getElem?_eq_some_iff.1 h).1
  exact this

theorem short_words {b : Bool} {n m : Nat} {s : Str} (h : Short b n m s) : numberWords b n = below1000 b m ++ [s] := by
  obtain ⟨k, h1, h2, rfl, h4, h5, h6⟩ := h
  obtain ⟨s', e1, e2, e3, -⟩ := mags_split k (scale_get h1)
  rw [h1] at e1
  cases e1
  unfold numberWords
  rw [if_neg (by
    have : 0 < 1000 ^ (k + 1) := Nat.pow_pos (by decide)
    have := Nat.mul_pos h4 this
    omega)]
  have e : scaleNames.reverse = mags := rfl
  rw [e, e2]
  have := groups_scale b h4 h5 (mags.take (6 - k)) s (mags.drop (7 - k))
  rwa [e3] at this

theorem below1000_plain (b : Bool) {m : Nat} (h0 : 0 < m) (h : m < 1000) : ∀ w ∈ below1000 b m, w ∉ scaleNames := by
  have h1 : ∀ m < 100, 0 < m → ∀ w ∈ below100 m, w ∉ scaleNames := by decide +kernel
  have h2 : ∀ m < 10, 0 < m → unitNames.getD (m - 1) [] ∉ scaleNames := by decide +kernel
  have h3 : t!"hundred" ∉ scaleNames ∧ t!"and" ∉ scaleNames := by decide +kernel
  unfold below1000
  split
  · exact h1 m (by omega) h0
  · intro w hw
    rcases List.mem_append.1 hw with hw | hw
    · simp only [List.mem_cons, List.not_mem_nil, or_false] at hw
      rcases hw with rfl | rfl
      · exact h2 _ (by omega) (by omega)
      · exact h3.1
    · split at hw
      · cases hw
      · rcases List.mem_append.1 hw with hw | hw
        · cases b with
          | true => simp only [if_true, List.mem_singleton] at hw; subst hw; exact h3.2
          | false => simp at hw
        · exact h1 _ (by omega) (by omega) w hw

theorem tail_get {q : Str} (h : q ∈ scaleNames.tail) : ∃ k, 0 < k ∧ scaleNames[k]? = some q := by
  obtain ⟨i, hi, rfl⟩ := List.mem_iff_getElem.1 h
  refine ⟨i + 1, by omega, ?_⟩
  have : i < 6 := hi
  rw [List.getElem_tail]
  simp

/-- Running through the words of a number of millions and so on. -/
theorem short_run {u q : Str} {m k : Nat} (hp : Ph u 0 m) (h0 : 0 < m) (h : m < 1000) (hq : scaleNames[k]? = some q) :
    run ⟨0, 0⟩ (words (u ++ ' ' :: q)) = some ⟨m * 1000 ^ (k + 1), 0⟩ := by
  obtain ⟨s', e1, -, -, e4, e5, e6, e7, e8⟩ := mags_split k (scale_get hq)
  rw [hq] at e1
  cases e1
  rw [mag_run e4 e5 e6 e7 e8 h0 h hp (by simp)]
  simp

/-- A token of a number of millions and so on stands only where such a number is named. -/
theorem short_reads {b : Bool} {n : Nat} (hn : n < 10 ^ 24) {u q y : Str} {w : W} (h : upTo999.den u y w) (hq : q ∈ scaleNames.tail)
    (hx : words (u ++ ' ' :: q) = numberWords b n) : ∃ m, Short b n m q ∧ y = Nat.toDigits 10 m ∧ Ph u 0 m := by
  obtain ⟨m, h1, h2, h3, h4⟩ := upTo999_value h
  obtain ⟨k, k1, k2⟩ := tail_get hq
  have hr := short_run h4 h1 h2 k2
  have hh := run_heard hr
  have hpos : 0 < n := by
    rcases Nat.eq_zero_or_pos n with rfl | h
    · exfalso
      have := congrArg List.length hx
      rw [words_append_space, List.length_append] at this
      have a1 := List.length_pos_of_ne_nil (words_ne u)
      have a2 := List.length_pos_of_ne_nil (words_ne q)
      simp [numberWords] at this
      omega
    · exact h
  obtain ⟨s, r1, r2⟩ := numberWords_run b hn hpos
  rw [← hx, hh, hr] at r1
  cases r1
  have e : n = m * 1000 ^ (k + 1) := by simpa using r2.symm
  have key : numberWords b n = below1000 b m ++ [q] := by
    obtain ⟨s', e1, e2, e3, -⟩ := mags_split k (scale_get k2)
    rw [k2] at e1
    cases e1
    unfold numberWords
    rw [if_neg (by omega), e]
    have e' : scaleNames.reverse = mags := rfl
    rw [e', e2]
    have := groups_scale b h1 h2 (mags.take (6 - k)) q (mags.drop (7 - k))
    rwa [e3] at this
  refine ⟨m, ⟨k, k2, k1, e, h1, h2, fun hand => ?_⟩, h3, h4⟩
  have hm : t!"and" ∈ heard (words (u ++ ' ' :: q)) := by rw [hh, hx, key]; simp [hand]
  simp [heard] at hm

theorem short_unique {b : Bool} {n m m' : Nat} {s s' : Str} (h : Short b n m s) (h' : Short b n m' s') : m = m' ∧ s = s' := by
  have e := (short_words h).symm.trans (short_words h')
  obtain ⟨e1, e2⟩ := List.append_inj' e rfl
  cases e2
  refine ⟨?_, rfl⟩
  obtain ⟨k, h1, h2, h3, -⟩ := h
  obtain ⟨k', h1', h2', h3', -⟩ := h'
  have hk : k = k' := by
    have hn : scaleNames.Nodup := by decide +kernel
    exact (List.getElem?_inj (scale_get h1) hn).1 (h1.trans h1'.symm)
  subst hk
  rw [h3] at h3'
  exact Nat.eq_of_mul_eq_mul_right (Nat.pow_pos (by decide)) h3'

theorem lower_weight {names : List Str} {x y : Str} {w : W} (h : (lower names).den x y w) : (0 : Int) ≤ w := by
  have hp : ∀ {x y : Str} {w : W}, padded.den x y w → (0 : Int) ≤ w := G.lo_den (by decide +kernel)
  induction names generalizing x y w with
  | nil =>
    rcases h with ⟨x1, y1, w1, x2, y2, w2, h1, h2, rfl, rfl, rfl⟩ | h
    · obtain ⟨rfl, rfl, rfl⟩ := den_ds.1 h1
      have := hp h2
      exact (Int.zero_add _).symm ▸ this
    · obtain ⟨rfl, rfl, rfl⟩ := den_insert.1 h
      exact Int.le_refl _
  | cons name names ih =>
    obtain ⟨x1, y1, w1, x2, y2, w2, h1, h2, rfl, rfl, rfl⟩ := h
    have i2 := ih h2
    have i1 : (0 : Int) ≤ w1 := by
      rcases h1 with ⟨x1, y1, w1, x2, y2, w2, h1, ⟨x3, y3, w3, x4, y4, w4, ⟨x5, y5, w5, x6, y6, w6, h5, h6, rfl, rfl, rfl⟩, h4, rfl, rfl, rfl⟩,
        rfl, rfl, rfl⟩ | h
      · obtain ⟨rfl, rfl, rfl⟩ := den_ds.1 h1
        obtain ⟨rfl, rfl, rfl⟩ := den_ds.1 h6
        obtain ⟨rfl, rfl, rfl⟩ := den_del.1 h4
        have := hp h5
        have key : ∀ a : Int, 0 ≤ a → 0 ≤ 0 + (a + 0 + 0) := by intro a ha; omega
        exact key _ this
      · obtain ⟨rfl, rfl, rfl⟩ := den_insert.1 h
        exact Int.le_refl _
    exact Int.add_nonneg i1 i2

/-- A number of millions and so on that is read as a cardinal can be read as such at no higher cost. -/
theorem short_cheaper {b : Bool} {n m : Nat} {s : Str} (hs : Short b n m s) (hn : n < 10 ^ 24) {y : Str} {w : W}
    (h : cardinal.den (english b n) y w) : ∃ y' w', upTo999.den (join (below1000 b m)) y' w' ∧ (w' : Int) ≤ w := by
  obtain ⟨x', w1, w2, h1, ⟨y1, w3, w4, h3, h4, rfl⟩, rfl⟩ := h
  have hw := short_words hs
  obtain ⟨k, k1, k2, k3, k4, k5, k6⟩ := hs
  have hand : t!"and" ∉ numberWords b n := by
    rw [hw]
    simp only [List.mem_append, List.mem_singleton, not_or]
    refine ⟨k6, ?_⟩
    rintro rfl
    exact absurd (List.mem_of_getElem? k1) (by decide +kernel)
  have hx : x' = english b n := by
    obtain ⟨c, -, -, c3⟩ := bigs_reads scales_mags h3
    refine words_inj ?_
    rw [← c3.heard, ← deleteAnd_words h1, english_words b hn]
    refine List.filter_eq_self.2 fun a ha => ?_
    simp only [ne_eq, decide_eq_true_eq]
    rintro rfl
    exact hand ha
  subst hx
  have l1 : (0 : Int) ≤ w1 := G.lo_den (g := deleteAnd) (k := 0) (by decide +kernel) h1
  have l4 : (0 : Int) ≤ w4 := G.lo_den (g := stripZeros) (k := 0) (by decide +kernel) h4
  have key : ∀ names, Scales names → (∀ a ∈ names, a ∈ scaleNames) → ∀ {y w}, (bigs names).den (english b n) y w →
      ∃ y' w', upTo999.den (join (below1000 b m)) y' w' ∧ (w' : Int) ≤ w := by
    intro names
    have hno : ∀ c, ¬ Ph (english b n) 0 c := by
      intro c hc
      have hv := hc 0
      rw [english_words b hn] at hv
      have hp : 0 < n := by
        have : 0 < 1000 ^ (k + 1) := Nat.pow_pos (by decide)
        have := Nat.mul_pos k4 this
        omega
      obtain ⟨st, r1, r2⟩ := numberWords_run b hn hp
      rw [run_heard hv, hv] at r1
      cases r1
      obtain ⟨s', e1, -, -, e4, e5, e6, e7, e8⟩ := mags_split k (scale_get k1)
      rw [k1] at e1
      cases e1
      rw [hw, run_append] at hv
      cases hb : run ⟨0, 0⟩ (below1000 b m) with
      | none => rw [hb] at hv; cases hv
      | some st =>
        rw [hb] at hv
        simp only [Option.bind_some, run, step, e5, e6, e8] at hv
        rw [if_neg e7] at hv
        split at hv
        · rename_i s1 hs1
          split at hs1
          · cases hs1
            have := congrArg St.cur (Option.some.inj hv)
            have e9 := congrArg St.total (Option.some.inj hv)
            simp only at this e9 r2
            omega
          · cases hs1
        · cases hv
    induction names with
    | nil =>
      intro _ _ y w hd
      exfalso
      rcases hd with (hd | hd) | hd
      · have hz : ∀ e ∈ zero, words e.1 = [t!"zero"] := by decide +kernel
        have := hz _ hd.1
        simp only at this
        rw [english_words b hn, hw] at this
        have e1 := congrArg List.length this
        have e2 := List.length_pos_of_ne_nil (below1000_ne b m)
        simp only [List.length_append, List.length_singleton] at e1
        omega
      · obtain ⟨c, -, -, -, -, c5⟩ := upTo999_reads hd
        exact hno c c5
      · obtain ⟨c, -, -, c5⟩ := hundredsAsThousand_reads hd
        exact hno c c5
    | cons a names ih =>
      intro hsc hsn y w hd
      rcases hd with hd | ⟨z1, y1, w1, z2, y2, w2, ⟨x3, y3, w3, x4, y4, w4, ⟨x5, y5, w5, x6, y6, w6, h5, h6, rfl, rfl, rfl⟩, h4, rfl, rfl, rfl⟩, h2,
        hx, rfl, rfl⟩
      · exact ih hsc.2 (fun c hc => hsn c (by simp [hc])) hd
      · obtain ⟨rfl, rfl, rfl⟩ := den_ds.1 h6
        obtain ⟨rfl, rfl, rfl⟩ := den_del.1 h4
        have l2 := lower_weight h2
        obtain ⟨-, -, -, -, hsep, -⟩ := lower_reads hsc.2 h2
        have e : words (english b n) = words x5 ++ (x4 :: more z2) := by
          rw [hx, words_append hsep, List.append_assoc, List.singleton_append, words_append_space, hsc.1.1]
          simp
        rw [english_words b hn, hw] at e
        have hu : words x5 = below1000 b m := by
          rcases List.eq_nil_or_concat (more z2) with hz | ⟨l, v, hz⟩
          · rw [hz] at e
            exact (List.append_inj' e rfl).1.symm
          · exfalso
            rw [hz] at e
            have e2 : below1000 b m ++ [s] = (words x5 ++ x4 :: l) ++ [v] := by rw [e]; simp
            have e3 := (List.append_inj' e2 rfl).1
            exact below1000_plain b k4 k5 x4 (by rw [e3]; simp) (hsn x4 (by simp))
        refine ⟨y5, w5, by rw [← hu, join_words]; exact h5, ?_⟩
        have key : ∀ a c : Int, 0 ≤ c → a ≤ a + 0 + 0 + c := by intro a c h; omega
        exact key _ _ l2
  obtain ⟨y', w', a1, a2⟩ := key mags scales_mags (by decide +kernel) h3
  refine ⟨y', w', a1, ?_⟩
  have key : ∀ a b c d : Int, 0 ≤ a → 0 ≤ d → b ≤ c → b ≤ a + (c + d) := by intro a b c d h1 h2 h3; omega
  exact key _ _ _ _ l1 l4 a2

end Verif.EnItn
