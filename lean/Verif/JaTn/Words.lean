import Verif.JaTn.Local
import Verif.JaTn.Edge
import Verif.JaTn.NumberProps
import Verif.Wfst.Single

/-
What the rules read beside numbers, and the least weight of a token.
-/

namespace Verif.JaTn

open Verif.Wfst
open Verif.JaTn.Spec
open Verif.Token.Spec (esc write writeAll Tok Writable IsName)
open Verif.NBest (Pipeline normalize)

theorem see_eq (h : Bool) (x : Str) : see h x = x.map (half h) := by
  unfold see half
  cases h <;> simp

/-! ### Characters of numbers -/

/-- The characters of numbers. -/
def numc (c : Char) : Bool := (digitVal c).isSome || c == ',' || c == '.'

/-- Characters of the words and marks beside numbers, of both widths: every such word has one. -/
def wordy : Str :=
  t!"mBaAsPRHhSb年方Ng°月JLWntzキ日時$'@GMOVc£¥Ω฿€₹₽℃つヶ㎡个人個倍冊分匹台名回度才本杯枚歳泊番畳秒箇話週部階面Ｍ￡￥%-/:~か：％＇－／＠～＄ａＡｂＢｃｇＧｈＨＪＬｍｎＮＯＰＲｓＳｔＶＷｚ号"

theorem wordy_numc (h : Bool) : ∀ c ∈ wordy, numc (half h c) = false := by
  have : ∀ h, wordy.all (fun c => !numc (half h c)) = true := by decide +kernel
  intro c hc
  simpa using List.all_eq_true.1 (this h) c hc

theorem not_wordy {h : Bool} {g : G} (hm : must wordy g = true) {x y : Str} {w : W} (hx : ∀ c ∈ x, numc (half h c) = true)
    (hd : g.den x y w) : False := by
  obtain ⟨c, hc, hq⟩ := must_den hm hd
  have := hx c hc
  rw [wordy_numc h c hq] at this
  cases this

theorem must_fraction : ∀ h, must wordy (fractionRule h).tagger = true := by decide +kernel
theorem must_measure : ∀ h, must wordy (measureRule h).tagger = true := by decide +kernel
theorem must_money : ∀ h, must wordy (moneyRule h).tagger = true := by decide +kernel
theorem must_sport : ∀ h, must wordy (sportRule h).tagger = true := by decide +kernel
theorem must_time : ∀ h, must wordy (timeRule h).tagger = true := by decide +kernel
theorem must_whitelist : ∀ h, must wordy (whitelistRule h).tagger = true := by decide +kernel
theorem must_range : ∀ h, must wordy (rangeRule h).tagger = true := by decide +kernel

/-! ### Weights -/

/-- Every token costs at least as much as a date. -/
theorem tag_ge (k : Config) {u t : Str} {w : W} (hd : (taggerU k).den u t w) : (102000 : Int) ≤ w := by
  obtain ⟨s, hs, j, w₀, hj, h1, rfl⟩ := ((tagger_union _).2 _ (taggerUnion_eq k) u t w).1 hd
  have key : ∀ a b : Int, 0 ≤ a → 102000 ≤ b → 102000 ≤ a + b := by intros; omega
  have all : ∀ {g : Bool → G}, (∀ h, costs (g h) = true) → (g k.fullToHalf).den u t w₀ → (0 : Int) ≤ w₀ :=
    fun h h1 => costs_den (h _) h1
  refine key w₀ j ?_ ?_
  · rcases mem_rules hs with hs | rfl
    · simp only [rules, List.mem_append, List.mem_cons, List.not_mem_nil, or_false, Bool.false_eq_true,
        if_false] at hs
      rcases hs with rfl | rfl | rfl | rfl | rfl | rfl | rfl | rfl | rfl | rfl | rfl
      · exact all (g := fun h => (cardinalRule h).tagger) (by decide +kernel) h1
      · exact all (g := fun h => charRule.tagger) (by decide +kernel) h1
      · exact all (g := fun h => (dateRule h).tagger) (by decide +kernel) h1
      · exact all (g := fun h => (fractionRule h).tagger) (by decide +kernel) h1
      · exact all (g := fun h => (mathRule h).tagger) (by decide +kernel) h1
      · exact all (g := fun h => (measureRule h).tagger) (by decide +kernel) h1
      · exact all (g := fun h => (moneyRule h).tagger) (by decide +kernel) h1
      · exact all (g := fun h => (sportRule h).tagger) (by decide +kernel) h1
      · exact all (g := fun h => (timeRule h).tagger) (by decide +kernel) h1
      · exact all (g := fun h => (whitelistRule h).tagger) (by decide +kernel) h1
      · exact all (g := fun h => (rangeRule h).tagger) (by decide +kernel) h1
    · exact all (g := fun h => (transliterationRule h).tagger) (by decide +kernel) h1
  · rcases mem_rules hs with hs | rfl
    · simp only [rules, List.mem_append, List.mem_cons, List.not_mem_nil, or_false, Bool.false_eq_true,
        if_false] at hs
      rcases hs with rfl | rfl | rfl | rfl | rfl | rfl | rfl | rfl | rfl | rfl | rfl
      all_goals first | cases hj | skip
      all_goals decide
    · cases hj; decide

end Verif.JaTn
