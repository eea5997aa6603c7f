import Verif.EnItn.Data
import Verif.EnItn.Spec
import Verif.EnItn.PieceSpec
import Mathlib.Data.List.Chain
import Mathlib.Data.List.Forall2

/-
English text with names of numbers in it, and how it is to be written. Only the data tables are used here, nothing of
the grammars.
-/

namespace Verif.EnItn.Spec

open Verif.Wfst

/-- The words for zero, 1 to 19, 20, 30, …, 90. -/
def smallNames : List Str := t!"zero" :: unitNames ++ teenNames ++ t!"fourty" :: tyNames

/-- The words of names of numbers. -/
def numberNames : List Str := smallNames ++ t!"hundred" :: scaleNames ++ [t!"and"]

/-- The last word of a text. -/
def lastWord (x : Str) : Str := (words x).getLast?.getD []

/-- A word and its plural. -/
def plurals (w : Str) : List Str := [w, w ++ t!"s", w ++ t!"es", w.dropLast ++ t!"ies", t!"feet"]

/-- The words for tens in the plural, as in nineteen eighties. -/
def decades : List Str := (t!"ten" :: t!"fourty" :: tyNames).flatMap fun w => [w ++ t!"s", w.dropLast ++ t!"ies"]

/-- Ordinal numbers, also such as fiveth. -/
def ordinals : List Str := numberNames.flatMap fun w => [w ++ t!"th", ordinalWord w]

/-- Words that are read together with numbers, or in addresses. -/
def keyWords : List Str :=
  [t!"minus", t!"negative", t!"point", t!"plus", t!"double", t!"triple", t!"oh", t!"dot", t!"past", t!"quarter", t!"half",
   t!"era", t!"hundreds", t!"thousands", t!"hours", t!"clock", t!"oclock", t!"o'clock", t!"cent", t!"cents"]

/-- A letter. -/
def Letter (c : Char) : Prop := 'a' ≤ c ∧ c ≤ 'z' ∨ 'A' ≤ c ∧ c ≤ 'Z'

instance (c : Char) : Decidable (Letter c) := by unfold Letter; infer_instance

/-- Words that may make something else of the number beside them: single letters, key words, ordinal numbers, decades,
months, what follows the hour, larger powers of 1000, and the last words of units and currencies. -/
def Known (w : Str) : Prop :=
  (∃ c, w = [c] ∧ Letter c) ∨ w ∈ keyWords ∨ w ∈ ordinals ∨ w ∈ decades ∨ (∃ e ∈ months, w = e.1) ∨
    (∃ e ∈ timeSuffix, w = lastWord e.1) ∨ (∃ e ∈ thousands, w = e.1 ∧ w ∉ scaleNames) ∨
    ∃ e ∈ measurements ++ currency, w ∈ plurals (lastWord e.2)

/-- An ordinary word: no punctuation, not known, and not a number. -/
structure Ordinary (w : Str) : Prop where
  ne : w ≠ []
  chars : ∀ c ∈ w, Wordy c ∧ ¬ Mark c
  unknown : ¬ Known w
  noNumber : w ∈ numberNames → w = t!"and"

/-- A part of a text: a word, or the name of a number, with or without "and" after "hundred". -/
inductive Part where
  | word (w : Str)
  | number (british : Bool) (n : Nat)

/-- The words of a part. -/
def Part.words : Part → List Str
  | .word w => [w]
  | .number british n => numberWords british n

/-- The word "and" and names of numbers: no two of them may stand beside each other. -/
def Part.Binds : Part → Prop
  | .word w => w = t!"and"
  | .number _ _ => True

/-- The number is `m` times a million, a billion and so on (`s`), and is called so without "and". -/
def Short (british : Bool) (n m : Nat) (s : Str) : Prop :=
  ∃ k, scaleNames[k]? = some s ∧ 0 < k ∧ n = m * 1000 ^ (k + 1) ∧ 0 < m ∧ m < 1000 ∧ t!"and" ∉ below1000 british m

/-- What is to be written for a part: words as they are; numbers up to twelve in words, a number of millions, billions
and so on with the word for it, other numbers in digits. -/
inductive Part.Written : Part → Str → Prop
  | word {w} : Ordinary w → Written (.word w) w
  | kept {b n} : n ≤ 12 → Written (.number b n) (english b n)
  | short {b n m s} : Short b n m s → n < 10 ^ 24 → Written (.number b n) (Nat.toDigits 10 m ++ ' ' :: s)
  | digits {b n} : 12 < n → n < 10 ^ 24 → (¬ ∃ m s, Short b n m s) → Written (.number b n) (Nat.toDigits 10 n)

/-- A text of words and names of numbers, and what is to be written for it. No words in a row are a phrase of the
whitelist. -/
structure Text (ps : List Part) (x z : Str) : Prop where
  ne : ps ≠ []
  apart : ps.IsChain fun p q => ¬ (p.Binds ∧ q.Binds)
  noPhrase : ∀ e ∈ whitelist ++ whitelistW, ¬ words e.2 <:+: ps.flatMap Part.words
  text : x = join (ps.flatMap Part.words)
  written : ∃ ys, List.Forall₂ Part.Written ps ys ∧ z = join ys

end Verif.EnItn.Spec
