import Verif.ZhTn.Names
import Verif.ZhTn.Props

/-
Properties of the Chinese normalizer: numbers are said by their names.
-/

namespace Verif.ZhTn

open Verif.Wfst
open Verif.ZhTn.Spec (Readable Wrote Decimal Digits name chinese numOf digitVal Places Sign)

/-- **C83.** The grammar of numbers reads exactly the signed decimals, and says the sign, the name of the integer and
the digits after the point. -/
theorem C83_decimal (x y : Str) (w : W) : plainNumber.den x y w ↔ Decimal x y ∧ w = 0 := plainNumber_decimal

/-- **C83.** A number below 10^12 in its usual digits is said by its name and in no other way. -/
theorem C83_integer (n : Nat) (hn : n < 10 ^ 12) (y : Str) (w : W) :
    plainNumber.den (Nat.toDigits 10 n) y w ↔ y = chinese n ∧ w = 0 := by
  obtain ⟨z, hz, _⟩ := C53_every n hn
  have hd : Digits (Nat.toDigits 10 n) := toDigits_digits n
  have hname : ∀ {z v}, plainNumber.den (Nat.toDigits 10 n) z v → z = chinese n ∧ v = 0 := by
    intro z v h0
    obtain ⟨h, rfl⟩ := plainNumber_decimal.1 h0
    clear h0
    refine ⟨?_, rfl⟩
    generalize hx : Nat.toDigits 10 n = x at h hd
    have whole : ∀ {f g : Str}, Places f g → Digits f → f = [] ∧ g = [] := by
      intro f g hf hd
      cases hf with
      | none => exact ⟨rfl, rfl⟩
      | some => exact absurd (hd '.' (by simp)) (by decide)
    cases h with
    | @bare x f g ds hw hr hf =>
      obtain ⟨rfl, rfl⟩ := whole hf fun c hc => hd c (by simp [hc])
      have : Spec.natOf x = numOf ds := Vals.natOf hw
      rw [List.append_nil] at hx ⊢
      rw [← this, ← hx, natOf_toDigits]
    | @signed s x f g ds hs hw hr hf =>
      exfalso
      cases s
      · exact hs rfl
      all_goals exact absurd (hd _ (List.mem_append_left _ (List.mem_append_left _ (List.mem_cons_self ..)))) (by decide)
  constructor
  · exact hname
  · rintro ⟨rfl, rfl⟩
    obtain ⟨rfl, _⟩ := hname hz
    exact hz

/-- **C83.** The name of a number means the number. -/
theorem C83_value (n : Nat) (hn : n < 10 ^ 12) : Spec.value (chinese n) = some n := by
  have h := (C83_integer n hn _ _).2 ⟨rfl, rfl⟩
  have := (C53_value _ _ _ (toDigits_digits n) h).1
  rwa [natOf_toDigits] at this

/-- **C83.** Different numbers have different names. -/
theorem C83_injective (n m : Nat) (hn : n < 10 ^ 12) (hm : m < 10 ^ 12) (h : chinese n = chinese m) : n = m := by
  have := C83_value n hn
  rw [h, C83_value m hm] at this
  exact (Option.some.inj this).symm

example : Decimal "-20.50".toList "负二十点五零".toList :=
  .signed (s := .minus) (x := ['2', '0']) (f := ['.', '5', '0']) (ds := [2, 0]) (g := ['点', '五', '零']) (by decide) (by decide) (by decide)
    (.some (z := ['5', '0']) (es := [5, 0]) (by decide) (by decide))

example : chinese 200003000450 = "两千亿零三百万零四百五十".toList := by decide +kernel

end Verif.ZhTn
