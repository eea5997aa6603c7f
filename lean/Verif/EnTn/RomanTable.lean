import Verif.EnTn.Roman
import Verif.EnTn.RomanSpec

/-
The table of Roman numerals.
-/

namespace Verif.EnTn

open Verif.Wfst
open Spec
open Verif.EnItn.Spec (english)

/-- The table has the numerals from one to two thousand with their names, in order. -/
theorem roman_table : romanToSpoken = (List.range 2000).map fun i => (roman (i + 1), spoken (i + 1)) := by decide +kernel

theorem mem_table {r s : Str} : (r, s) ∈ romanToSpoken ↔ ∃ n, 1 ≤ n ∧ n ≤ 2000 ∧ r = roman n ∧ s = spoken n := by
  rw [roman_table, List.mem_map]
  constructor
  · rintro ⟨i, hi, h⟩
    have := List.mem_range.1 hi
    obtain ⟨rfl, rfl⟩ := Prod.mk.inj h
    exact ⟨i + 1, by omega, by omega, rfl, rfl⟩
  · rintro ⟨n, h1, h2, rfl, rfl⟩
    exact ⟨n - 1, List.mem_range.2 (by omega), by rw [Nat.sub_add_cancel h1]⟩

theorem take_table (k : Nat) (hk : k ≤ 2000) (j : Nat) {r : Str} : r ∈ ((romanToSpoken.take k).drop j).map Prod.fst ↔
    ∃ n, j + 1 ≤ n ∧ n ≤ k ∧ r = roman n := by
  have : (romanToSpoken.take k).drop j = ((List.range k).drop j).map fun i => (roman (i + 1), spoken (i + 1)) := by
    rw [roman_table, ← List.map_take, ← List.map_drop, List.take_range, Nat.min_eq_left hk]
  rw [this, List.map_map, List.mem_map]
  constructor
  · rintro ⟨i, hi, rfl⟩
    obtain ⟨m, hm, rfl⟩ := List.mem_drop_iff_getElem.1 hi
    rw [List.length_range] at hm
    exact ⟨_, by rw [List.getElem_range]; omega, by rw [List.getElem_range]; omega, rfl⟩
  · rintro ⟨n, h1, h2, rfl⟩
    refine ⟨n - 1, List.mem_drop_iff_getElem.2 ⟨n - 1 - j, by rw [List.length_range]; omega, by rw [List.getElem_range]; omega⟩, ?_⟩
    show roman (n - 1 + 1) = _
    rw [Nat.sub_add_cancel (by omega)]

/-- The value of the numeral of a number is the number. -/
theorem value_roman : ∀ n, n ≤ 2000 → romanValue (roman n) = n := by
  have : ∀ n, n < 2001 → romanValue (roman n) = n := by decide +kernel
  exact fun n h => this n (by omega)

theorem roman_inj {n m : Nat} (hn : n ≤ 2000) (hm : m ≤ 2000) (h : roman n = roman m) : n = m := by
  have h1 := value_roman n hn
  rw [h, value_roman m hm] at h1
  omega

/-- No quotation mark. -/
def Unquoted (s : Str) : Prop := ∀ c ∈ s, vchar c = true ∧ c ≠ '"'

theorem table_chars : ∀ e ∈ romanToSpoken, e.1 ≠ [] ∧ (∀ c ∈ e.1, isAlpha c = true ∧ vchar c = true ∧ c ≠ '"' ∧ c ≠ '\\') ∧
    ∀ c ∈ e.2, vchar c = true ∧ c ≠ '"' := by decide +kernel

theorem roman_chars {n : Nat} (h1 : 1 ≤ n) (h2 : n ≤ 2000) :
    roman n ≠ [] ∧ (∀ c ∈ roman n, isAlpha c = true ∧ vchar c = true ∧ c ≠ '"' ∧ c ≠ '\\') ∧ Unquoted (spoken n) :=
  table_chars _ (mem_table.2 ⟨n, h1, h2, rfl, rfl⟩)

theorem key_chars : ∀ k ∈ romanKeys, k ≠ [] ∧ ∀ c ∈ k, vchar c = true ∧ c ≠ '"' ∧ c ≠ '\\' := by decide +kernel

theorem spoken_small {n : Nat} (h : n ≤ 19) : spoken n = english false n := by
  unfold spoken
  rw [if_neg (by omega)]

end Verif.EnTn
