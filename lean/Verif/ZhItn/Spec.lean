import Mathlib.Data.List.Basic

/-
What the numbers of the Chinese inverse grammar mean: the value of a spoken numeral, with the short forms
of everyday speech, and the value of a written number that may keep the units 万, 亿 and 兆. Nothing here
depends on the model.
-/

namespace Verif.ZhItn.Spec

/-- The spoken digits other than zero: plain and banker's forms, 两, and the forms used on the radio. -/
def digitTable : List (Char × Nat) :=
  [('一', 1), ('幺', 1), ('壹', 1), ('二', 2), ('两', 2), ('贰', 2), ('三', 3), ('叁', 3), ('四', 4), ('肆', 4),
   ('五', 5), ('伍', 5), ('六', 6), ('陆', 6), ('七', 7), ('柒', 7), ('拐', 7), ('八', 8), ('捌', 8), ('九', 9),
   ('玖', 9)]

/-- The value of a spoken digit. -/
def digitVal (c : Char) : Option Nat := digitTable.lookup c

/-- Spoken numerals are read from left to right. -/
structure St where
  /-- What is closed by 兆 and 亿. -/
  hi : Nat := 0
  /-- What is closed by 万 since then. -/
  wan : Nat := 0
  /-- The value of the units 千, 百 and 十 since then. -/
  sec : Nat := 0
  /-- A digit whose unit is still to come. -/
  pend : Option Nat := none
  /-- The place of a digit without unit: one, or after a unit that is not followed by 零 the next lower
  place (一百一 is 110, 一万二 is 12000). -/
  place : Nat := 1
  deriving DecidableEq, Repr

/-- The value of everything since the last 亿 or 兆. -/
def St.low (s : St) : Nat := s.wan + s.sec + (s.pend.getD 0) * s.place

/-- One character. 十 without a digit is ten. 亿 and 兆 count what stands before them. -/
def St.step (s : St) (c : Char) : Option St :=
  match digitVal c with
  | some d => if s.pend = none then some { s with pend := some d } else none
  | none =>
    if c = '零' ∨ c = '洞' then (if s.pend = none then some { s with place := 1 } else none)
    else if c = '十' then some { s with sec := s.sec + s.pend.getD 1 * 10, pend := none, place := 1 }
    else if c = '百' then s.pend.map fun d => { s with sec := s.sec + d * 100, pend := none, place := 10 }
    else if c = '千' then s.pend.map fun d => { s with sec := s.sec + d * 1000, pend := none, place := 100 }
    else if c = '万' then some { hi := s.hi, wan := s.low * 10000, place := 1000 }
    else if c = '亿' then some { hi := s.hi + s.low * 100000000 }
    else if c = '兆' then some { hi := s.hi + s.low * 1000000000000 }
    else none

/-- Several characters. -/
def St.run (s : St) : List Char → Option St
  | [] => some s
  | c :: cs => (s.step c).bind fun s => s.run cs

/-- The number a spoken numeral denotes. -/
def spoken (x : List Char) : Option Nat := (St.run {} x).map fun s => s.hi + s.low

/-- Written numbers: what is closed by 兆 and 亿, what is closed by 万, and the digits since then. -/
structure Wr where
  hi : Nat := 0
  wan : Nat := 0
  cur : Nat := 0
  deriving DecidableEq, Repr

/-- The value of an ASCII digit. -/
def asciiVal (c : Char) : Option Nat := if c.isDigit then some (c.toNat - '0'.toNat) else none

/-- One character of a written number. -/
def Wr.step (s : Wr) (c : Char) : Option Wr :=
  match asciiVal c with
  | some d => some { s with cur := 10 * s.cur + d }
  | none =>
    if c = '万' then some { hi := s.hi, wan := (s.wan + s.cur) * 10000 }
    else if c = '亿' then some { hi := s.hi + (s.wan + s.cur) * 100000000 }
    else if c = '兆' then some { hi := s.hi + (s.wan + s.cur) * 1000000000000 }
    else none

/-- Several characters. -/
def Wr.run (s : Wr) : List Char → Option Wr
  | [] => some s
  | c :: cs => (s.step c).bind fun s => s.run cs

/-- The number a written number denotes, e.g. 12000, 1200万 or 1亿5. -/
def written (y : List Char) : Option Nat := (Wr.run {} y).map fun s => s.hi + s.wan + s.cur

/-- After 万 a unit is left out: 万 and a digit other than zero that no 十, 百 or 千 follows. -/
def ShortAfterWan (x : List Char) : Prop :=
  ∃ a d b, x = a ++ '万' :: d :: b ∧ (digitVal d).isSome ∧ ∀ u ∈ b.head?, u ∉ ['十', '百', '千']

example : spoken ['一', '百', '一'] = some 110 := by decide
example : spoken ['一', '百', '零', '一'] = some 101 := by decide
example : spoken ['两', '万', '三'] = some 23000 := by decide
example : spoken ['十', '亿', '零', '三', '百', '万'] = some 1003000000 := by decide
example : written ['1', '0', '亿', '3', '0', '0', '万'] = some 1003000000 := by decide

end Verif.ZhItn.Spec
