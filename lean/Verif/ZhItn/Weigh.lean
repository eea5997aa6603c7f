import Verif.ZhItn.Inverse
import Verif.Wfst.Gauge

/-
The weights of the Chinese inverse grammar of numbers: every unit costs what its place in the numeral says, and parts of
a numeral read one after the other cost at least as much as the whole.
-/

namespace Verif.ZhItn

open Verif.Wfst

/-- The kinds of characters in numerals. -/
inductive Kind | digit | zero | shi | bai | qian | wan | other
  deriving DecidableEq

/-- The kind of a character. -/
def kindOf (c : Char) : Kind :=
  if t!"一幺壹二两贰三叁四肆五伍六陆七柒拐八捌九玖".contains c then .digit
  else if t!"零洞".contains c then .zero
  else if c = '十' then .shi
  else if c = '百' then .bai
  else if c = '千' then .qian
  else if c = '万' then .wan
  else .other

/-- How a text goes on: with a digit and perhaps a unit, with a unit, with 零 and perhaps a digit and a unit. -/
inductive Next | other | d | dS | dB | dQ | s | b | q | z | zd | zdS | zdB
  deriving DecidableEq

def allNext : List Next := [.other, .d, .dS, .dB, .dQ, .s, .b, .q, .z, .zd, .zdS, .zdB]
def allKinds : List Kind := [.digit, .zero, .shi, .bai, .qian, .wan, .other]

theorem mem_next (n : Next) : n ∈ allNext := by cases n <;> decide
theorem mem_kinds (k : Kind) : k ∈ allKinds := by cases k <;> decide

/-- How a text goes on with one more character before it. -/
def Kind.step : Kind → Next → Next
  | .digit, .s => .dS
  | .digit, .b => .dB
  | .digit, .q => .dQ
  | .digit, _ => .d
  | .zero, .d => .zd
  | .zero, .dQ => .zd
  | .zero, .dS => .zdS
  | .zero, .s => .zdS
  | .zero, .dB => .zdB
  | .zero, _ => .z
  | .shi, _ => .s
  | .bai, _ => .b
  | .qian, _ => .q
  | _, _ => .other

/-- What a unit costs before what follows. -/
def Kind.cost : Kind → Next → Int
  | .shi, .d | .shi, .dS | .shi, .dB | .shi, .dQ => 0
  | .shi, _ => 10000
  | .bai, .dS | .bai, .s => 0
  | .bai, .zd | .bai, .zdS | .bai, .zdB => 10000
  | .bai, .d | .bai, .dB | .bai, .dQ => 50000
  | .bai, _ => 100000
  | .qian, .dB => 0
  | .qian, .zdS => 10000
  | .qian, .zd | .qian, .zdB => 50000
  | .qian, .d | .qian, .dS | .qian, .dQ => 80000
  | .qian, _ => 100000
  | .wan, .dQ => 0
  | .wan, .zdB => 10000
  | .wan, .zd | .wan, .zdS => 50000
  | .wan, .d | .wan, .dS | .wan, .dB => 80000
  | .wan, _ => 100000
  | _, _ => 0

/-- The machine that weighs numerals. -/
def gauge : Gauge Next := ⟨fun c => (kindOf c).step, fun c => (kindOf c).cost⟩

/-- What a numeral costs. -/
def toll (x : Str) : Int := gauge.total x .other

/-- The one goes on like the other, or further. -/
def Next.further (p q : Next) : Bool :=
  p == q || q == .other || ([.dS, .dB, .dQ].contains p && q == .d) || ([.zd, .zdS, .zdB].contains p && q == .z) ||
    ([.zdS, .zdB].contains p && q == .zd)

theorem toll_append (x y : Str) : toll (x ++ y) ≤ toll x + toll y := by
  have h1 : ∀ k ∈ allKinds, ∀ p ∈ allNext, ∀ q ∈ allNext, p.further q = true →
      (k.step p).further (k.step q) = true ∧ k.cost p ≤ k.cost q := by decide +kernel
  have h2 := gauge.total_le (R := Next.further)
    (fun c p q h => (h1 (kindOf c) (mem_kinds _) p (mem_next _) q (mem_next _) h).1)
    (fun c p q h => (h1 (kindOf c) (mem_kinds _) p (mem_next _) q (mem_next _) h).2) x
    (p := gauge.state y .other) (q := .other) (by simp [Next.further])
  unfold toll
  rw [Gauge.total_append]
  have := h2.2
  omega

theorem toll_nil : toll [] = 0 := rfl

theorem toll_char (c : Char) : toll [c] ≤ 100000 := by
  have h1 : ∀ k ∈ allKinds, k.cost .other ≤ 100000 := by decide
  have := h1 (kindOf c) (mem_kinds _)
  show (kindOf c).cost .other + 0 ≤ 100000
  omega

/-- The weight of a reading is what the numeral costs. -/
theorem small_toll {x y : Str} {w : W} (h : (small true).den x y w) : w = toll x := by
  have hs : (gauge.off (small true) .other).any (·.all fun e => e.2 == 0) = true := by decide +kernel
  obtain ⟨l, e, hs⟩ := (Option.any_eq_true _ _).1 hs
  have h1 := List.all_eq_true.1 hs _ (gauge.off_den e h)
  have key : ∀ a b : Int, (a - b == 0) = true → a = b := by intro a b h; simp at h; omega
  exact key w _ h1

example : toll t!"三百零五" = 10000 ∧ toll t!"三百" + toll t!"零五" = 100000 := by decide +kernel

end Verif.ZhItn
