import Verif.ZhTn.Local
import Verif.ZhTn.Edge
import Verif.ZhTn.NameProps
import Verif.Wfst.Single

/-
Which rules read texts of digits and of the marks of numbers, dates and times, and the least weight of a token.
-/

namespace Verif.ZhTn

open Verif.Wfst
open Verif.ZhTn.Spec hiding liang tens
open Verif.Token.Spec (esc write writeAll Tok Writable IsName)

/-! ### Characters -/

/-- The characters of numbers, dates and times. -/
def numc (c : Char) : Bool := dig c || c ∈ t!".%/-:：~"

theorem digit_dig (c : Char) : (digitVal c).isSome = dig c := by
  have h1 : ∀ n, n < 10 → (digitVal (Char.ofNat (48 + n))).isSome = true ∧ (digitVal (Char.ofNat (65296 + n))).isSome = true := by
    decide
  cases h : dig c with
  | true =>
    simp only [dig, Bool.or_eq_true, Bool.and_eq_true, decide_eq_true_eq] at h
    rcases h with h | h
    · have := (h1 (c.toNat - 48) (by omega)).1
      rwa [show 48 + (c.toNat - 48) = c.toNat by omega, Char.ofNat_toNat] at this
    · have := (h1 (c.toNat - 65296) (by omega)).2
      rwa [show 65296 + (c.toNat - 65296) = c.toNat by omega, Char.ofNat_toNat] at this
  | false =>
    cases hv : digitVal c with
    | none => rfl
    | some d =>
      have h2 : digitTable.all (fun e => dig e.1) = true := by decide
      have hm : (c, d) ∈ digitTable := by
        obtain ⟨l₁, l₂, e, _⟩ := List.lookup_eq_some_iff.1 (show digitTable.lookup c = some d from hv)
        rw [e]; simp
      have := List.all_eq_true.1 h2 _ hm
      simp only at this
      rw [h] at this; cases this

theorem digits_dig {x : Str} : Digits x ↔ ∀ c ∈ x, dig c = true := by
  simp only [Digits, digit_dig]

/-- Every input has a character that is none of numbers, dates and times. -/
def wordy : G → Bool
  | .lit s => s.any fun c => !numc c
  | .tab t => t.all fun e => e.1.any fun c => !numc c
  | .cross a _ | .comp a _ | .proj a | .wt a _ | .diff a _ => wordy a
  | .cat a b => wordy a || wordy b
  | .alt a b => wordy a && wordy b
  | .cls _ | .star _ | .rw _ _ _ => false

theorem wordy_den {g : G} (hg : wordy g = true) {x y : Str} {w : W} (hd : g.den x y w) : ∃ c ∈ x, numc c = false := by
  induction g generalizing x y w with
  | lit s => rw [hd.1]; simpa [wordy] using hg
  | tab t => simpa using List.all_eq_true.1 hg _ hd.1
  | cls p => cases hg
  | star a => cases hg
  | rw a l r => cases hg
  | cross a v ih => exact ih hg hd.2
  | cat a b iha ihb =>
    obtain ⟨x₁, y₁, w₁, x₂, y₂, w₂, h1, h2, rfl, rfl, rfl⟩ := hd
    simp only [wordy, Bool.or_eq_true] at hg
    rcases hg with hg | hg
    · obtain ⟨c, hc, h⟩ := iha hg h1
      exact ⟨c, List.mem_append_left _ hc, h⟩
    · obtain ⟨c, hc, h⟩ := ihb hg h2
      exact ⟨c, List.mem_append_right _ hc, h⟩
  | alt a b iha ihb =>
    simp only [wordy, Bool.and_eq_true] at hg
    exact hd.elim (iha hg.1) (ihb hg.2)
  | comp a b iha ihb => obtain ⟨_, _, _, h, _⟩ := hd; exact iha hg h
  | proj a ih => obtain ⟨_, _, h⟩ := hd; exact ih hg h
  | wt a v ih => obtain ⟨_, h, _⟩ := hd; exact ih hg h
  | diff a b iha ihb => exact iha hg hd.2.1

theorem not_wordy {g : G} (hm : wordy g = true) {x y : Str} {w : W} (hx : ∀ c ∈ x, numc c = true)
    (hd : g.den x y w) : False := by
  obtain ⟨c, hc, h⟩ := wordy_den hm hd
  rw [hx c hc] at h; cases h

theorem wordy_measure : wordy measureRule.tagger = true := by decide +kernel
theorem wordy_money : wordy moneyRule.tagger = true := by decide +kernel
theorem wordy_sport : wordy sportRule.tagger = true := by decide +kernel
theorem wordy_whitelist : ∀ b, wordy (whitelistRule b).tagger = true := by decide +kernel

/-! ### Weights -/

theorem cardinal_weight {u t : Str} {w : W} (hd : cardinalRule.tagger.den u t w) : w = 0 ∨ w = -100000 := by
  obtain ⟨m, _, h1⟩ := den_addTokens.1 hd
  obtain ⟨_, _, z, h2⟩ := den_tagField.1 h1
  rcases (C55_cardinal _ _ _).1 h2 with h | ⟨_, _, rfl⟩ | ⟨_, _, rfl⟩
  · obtain ⟨x₀, y₀, h, _⟩ := den_percent.1 h
    exact .inl ((C83_decimal _ _ _).1 h).2
  · exact .inl rfl
  · exact .inr rfl

/-- Every token costs at least as much as a telephone number. -/
theorem tag_ge (k : Config) {u t : Str} {w : W} (hd : (taggerU k.removeErhua).den u t w) : (6000 : Int) ≤ w := by
  obtain ⟨s, hs, j, w₀, hj, h1, rfl⟩ := ((tagger_union _).2 _ (taggerUnion_eq k) u t w).1 hd
  have key : ∀ {j : Int} {g : G}, costs g = true → g.den u t w₀ → 6000 ≤ j → 6000 ≤ w₀ + j := by
    intro j g h1 h2 h3
    have h4 : (0 : Int) ≤ w₀ := costs_den h1 h2
    have : ∀ a b : Int, 0 ≤ a → 6000 ≤ b → 6000 ≤ a + b := by intros; omega
    exact this _ _ h4 h3
  simp only [rules, List.mem_cons, List.not_mem_nil, or_false] at hs
  rcases hs with rfl | rfl | rfl | rfl | rfl | rfl | rfl | rfl | rfl | rfl | rfl
  all_goals cases hj
  · exact key (by decide +kernel) h1 (by decide)
  · have hc : ∀ b, costs (whitelistRule b).tagger = true := by decide +kernel
    exact key (hc _) h1 (by decide)
  · exact key (by decide +kernel) h1 (by decide)
  · exact key (by decide +kernel) h1 (by decide)
  · exact key (by decide +kernel) h1 (by decide)
  · exact key (by decide +kernel) h1 (by decide)
  · exact key (by decide +kernel) h1 (by decide)
  · rcases cardinal_weight h1 with rfl | rfl <;> decide
  · exact key (by decide +kernel) h1 (by decide)
  · exact key (by decide +kernel) h1 (by decide)

/-! ### The rules that read such texts -/

/-- The rules that read texts of digits and marks, with the weights. -/
inductive Kind (u t : Str) : W → Prop
  | date {w : W} : dateRule.tagger.den u t w → Kind u t (w + 102000)
  | fraction {w : W} : fractionRule.tagger.den u t w → Kind u t (w + 105000)
  | time {w : W} : timeRule.tagger.den u t w → Kind u t (w + 105000)
  | cardinal {w : W} : cardinalRule.tagger.den u t w → Kind u t (w + 106000)
  | math {w : W} : mathRule.tagger.den u t w → Kind u t (w + 9000000)
  | char {w : W} : charRule.tagger.den u t w → Kind u t (w + 10000000)

theorem token_kind {k : Config} {u t : Str} {w : W} (hu : ∀ c ∈ u, numc c = true) (hd : (taggerU k.removeErhua).den u t w) :
    Kind u t w := by
  obtain ⟨s, hs, j, w₀, hj, h1, rfl⟩ := ((tagger_union _).2 _ (taggerUnion_eq k) u t w).1 hd
  simp only [rules, List.mem_cons, List.not_mem_nil, or_false] at hs
  rcases hs with rfl | rfl | rfl | rfl | rfl | rfl | rfl | rfl | rfl | rfl | rfl
  all_goals cases hj
  · exact .date h1
  · exact (not_wordy (wordy_whitelist _) hu h1).elim
  · exact (not_wordy wordy_sport hu h1).elim
  · exact .fraction h1
  · exact (not_wordy wordy_measure hu h1).elim
  · exact (not_wordy wordy_money hu h1).elim
  · exact .time h1
  · exact .cardinal h1
  · exact .math h1
  · exact .char h1

end Verif.ZhTn
