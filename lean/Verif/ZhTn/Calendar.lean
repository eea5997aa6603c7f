import Verif.ZhTn.Spell

/-
The tables of months, days, hours, minutes and seconds against the numbers they stand for.
-/

namespace Verif.ZhTn

open Verif.Wfst Spec

/-- The half-width digits. -/
def tenDigits : List Char := ['0', '1', '2', '3', '4', '5', '6', '7', '8', '9']

/-- All texts of one or two half-width digits. -/
def shorts : List Str := tenDigits.flatMap fun a => [a] :: tenDigits.map fun b => [a, b]

theorem mem_tenDigits {c : Char} (h : c.isDigit = true) : c ∈ tenDigits := by
  rw [Char.isDigit, Bool.and_eq_true, decide_eq_true_eq, decide_eq_true_eq] at h
  have h1 : 48 ≤ c.val.toNat := UInt32.le_iff_toNat_le.1 h.1
  have h2 : c.val.toNat ≤ 57 := UInt32.le_iff_toNat_le.1 h.2
  have key : ∀ n : Nat, 48 ≤ n → n ≤ 57 → c.val.toNat = n → c ∈ tenDigits := by
    intro n h1 h2 e
    have hc : c = Char.ofNat n := by
      rw [← e]; exact (Char.ofNat_toNat c).symm
    rw [hc]
    interval_cases n <;> decide
  exact key _ h1 h2 rfl

theorem mem_shorts {x : Str} : x ∈ shorts ↔ Short x := by
  constructor
  · intro h
    have : ∀ x ∈ shorts, Short x := by decide +kernel
    exact this x h
  · rintro ⟨hl, hd⟩
    unfold shorts
    rcases hl with hl | hl
    · obtain ⟨a, rfl⟩ := List.length_eq_one_iff.1 hl
      exact List.mem_flatMap.2 ⟨a, mem_tenDigits (hd a (by simp)), by simp⟩
    · obtain ⟨a, b, rfl⟩ := List.length_eq_two.1 hl
      refine List.mem_flatMap.2 ⟨a, mem_tenDigits (hd a (by simp)), List.mem_cons_of_mem _ ?_⟩
      exact List.mem_map.2 ⟨b, mem_tenDigits (hd b (by simp)), rfl⟩

/-- What a table of short texts accepts. -/
theorem table_domain {t : List (Str × Str)} {p : Str → Bool} (h1 : ∀ e ∈ t, e.1 ∈ shorts ∧ p e.1 = true)
    (h2 : ∀ x ∈ shorts, p x = true → ∃ e ∈ t, e.1 = x) {x : Str} :
    (∃ y w, (G.tab t).den x y w) ↔ Short x ∧ p x = true := by
  constructor
  · rintro ⟨y, w, h, _⟩
    exact ⟨mem_shorts.1 (h1 _ h).1, (h1 _ h).2⟩
  · rintro ⟨hs, hp⟩
    obtain ⟨⟨a, b⟩, he, rfl⟩ := h2 x (mem_shorts.2 hs) hp
    exact ⟨b, 0, he, rfl⟩

theorem den_month {x y w} : month.den x y w ↔ (G.tab (dateM ++ dateMM)).den x y w := by
  show ((x, y) ∈ dateM ∧ w = 0) ∨ ((x, y) ∈ dateMM ∧ w = 0) ↔ _
  rw [den_tab, List.mem_append, or_and_right]

theorem den_day {x y w} : day.den x y w ↔ (G.tab (dateD ++ dateDD)).den x y w := by
  show ((x, y) ∈ dateD ∧ w = 0) ∨ ((x, y) ∈ dateDD ∧ w = 0) ↔ _
  rw [den_tab, List.mem_append, or_and_right]

/-- A table gives each text one output. -/
theorem table_functional {t : List (Str × Str)} (h : ∀ e ∈ t, ∀ e' ∈ t, e.1 = e'.1 → e.2 = e'.2) :
    Functional (.tab t) := by
  rintro x y w y' w' ⟨hm, rfl⟩ ⟨hm', rfl⟩
  exact ⟨h _ hm _ hm' rfl, rfl⟩

end Verif.ZhTn
