import Verif.EnItn.Spec
import Mathlib.Data.List.Forall2

/-
How numbers are written, without the grammars. The English names of numbers are those of EnItn/Spec.lean.
-/

namespace Verif.EnTn.Spec

open Verif.Wfst
open Verif.EnItn.Spec (unitNames below100 join english ordinalEnding)

/-- Three digits. -/
def Triple (g : Str) : Prop := g.length = 3 ∧ ∀ c ∈ g, c.isDigit = true

/-- The digits of a number, with a comma before every group of three. -/
def Commas (x : Str) (n : Nat) : Prop :=
  ∃ (g : Str) (gs : List Str), g ≠ [] ∧ g.length ≤ 3 ∧ (∀ h ∈ gs, Triple h) ∧ x = g ++ gs.flatMap (',' :: ·) ∧
    g ++ gs.flatten = Nat.toDigits 10 n

/-- A number as it is written. -/
def Numeral (x : Str) (n : Nat) : Prop := x = Nat.toDigits 10 n ∨ Commas x n

/-! ### What may be said for a number -/

/-- The word or words for a digit said by itself. -/
inductive SaysDigit : Char → Str → Prop
  | zero : SaysDigit '0' t!"zero"
  | oh : SaysDigit '0' t!"oh"
  | unit {d : Nat} (h : 0 < d) (h' : d < 10) : SaysDigit (Nat.digitChar d) (unitNames.getD (d - 1) [])

/-- Digits said one by one. -/
def Spelled (x y : Str) : Prop := x ≠ [] ∧ ∃ ws, List.Forall₂ SaysDigit x ws ∧ y = join ws

/-- A name, or the name with "and" after one of its words "hundred" and "thousand". -/
def AndIn (s y : Str) : Prop :=
  y = s ∨ ∃ p r, (t!"hundred" <:+ p ∨ t!"thousand" <:+ p) ∧ s = p ++ ' ' :: r ∧ y = p ++ t!" and " ++ r

/-- A number below 10^15 said by its name, or, when it has three digits other than 0, without "hundred". -/
inductive Named : Str → Str → Prop
  | name {x y : Str} {n : Nat} (h : n < 10 ^ 15) (hx : Numeral x n) (hy : AndIn (english false n) y) : Named x y
  | short {n : Nat} (h : 100 ≤ n) (h' : n < 1000) (h1 : n % 10 ≠ 0) (h2 : n / 10 % 10 ≠ 0) :
      Named (Nat.toDigits 10 n) (join (unitNames.getD (n / 100 - 1) [] :: below100 (n % 100)))

/-- What may be said for an integer: its name; its digits; its leading zeros and then its name; and all of
this with a "one" at the beginning turned to "a" before "hundred" and "million" and left out before
"thousand". -/
inductive Reads : Str → Str → Prop
  | named {x y : Str} (h : Named x y) : Reads x y
  | spelled {x y : Str} (h : Spelled (x.filter (· ≠ ',')) y) : Reads x y
  | zeros {z x s y : Str} (h0 : ∀ c ∈ z, c = '0') (h : Spelled z s) (hx : ∀ c ∈ x, c.isDigit = true) (hy : Named x y) :
      Reads (z ++ x) (s ++ ' ' :: y)
  | aHundred {x r : Str} (h : Reads x (t!"one hundred" ++ r)) : Reads x (t!"a hundred" ++ r)
  | thousand {x r : Str} (h : Reads x (t!"one thousand" ++ r)) : Reads x (t!"thousand" ++ r)
  | aMillion {x r : Str} (h : Reads x (t!"one million" ++ r)) : Reads x (t!"a million" ++ r)

/-- A written sign and what is said for it. -/
def SaysSign (s t : Str) : Prop := s = [] ∧ t = [] ∨ s = t!"-" ∧ t ∈ [t!"minus ", t!"negative ", t!"dash "]

/-- The ways to write an ending of an ordinal number. -/
def endingForms (e : Str) : List Str :=
  if e = t!"st" then [t!"st", t!"ST", t!"ˢᵗ"]
  else if e = t!"nd" then [t!"nd", t!"ND", t!"ⁿᵈ"]
  else if e = t!"rd" then [t!"rd", t!"RD", t!"ʳᵈ"]
  else [t!"th", t!"TH", t!"ᵗʰ"]

/-- An ordinal number as it is written. -/
def OrdinalNumeral (x : Str) (n : Nat) : Prop := ∃ d e, Numeral d n ∧ e ∈ endingForms (ordinalEnding n) ∧ x = d ++ e

end Verif.EnTn.Spec
