import Verif.Wfst.Lemmas
import Mathlib.Data.List.Induction

/-
Showing that a grammar has an output, and written numbers as texts of digits.
-/

namespace Verif.Wfst

/-- `g` turns `x` into `y` at some cost. -/
def Turns (g : G) (x y : Str) : Prop := ∃ w, g.den x y w

theorem Turns.left {a b : G} {x y} (h : Turns a x y) : Turns (a ||| b) x y := h.imp fun _ h => Or.inl h
theorem Turns.right {a b : G} {x y} (h : Turns b x y) : Turns (a ||| b) x y := h.imp fun _ h => Or.inr h
theorem Turns.wt {a : G} {v : W} {x y} (h : Turns a x y) : Turns (G.wt a v) x y := by
  obtain ⟨w, h⟩ := h; exact ⟨_, w, h, rfl⟩
theorem Turns.add {a b : G} {x y x' y'} (h : Turns a x y) (h' : Turns b x' y') :
    Turns (a + b) (x ++ x') (y ++ y') := by
  obtain ⟨w, h⟩ := h; obtain ⟨w', h'⟩ := h'
  exact ⟨_, _, _, _, _, _, _, h, h', rfl, rfl, rfl⟩
theorem Turns.comp {a b : G} {x y z} (h : Turns a x y) (h' : Turns b y z) : Turns (.comp a b) x z := by
  obtain ⟨w, h⟩ := h; obtain ⟨w', h'⟩ := h'
  exact ⟨_, _, _, _, h, h', rfl⟩
theorem Turns.ques {a : G} {x y} (h : Turns a x y) : Turns a.ques x y := h.imp fun _ h => Or.inr h
theorem turns_ques (a : G) : Turns a.ques [] [] := ⟨0, Or.inl ⟨rfl, rfl, rfl⟩⟩
theorem turns_del (s : Str) : Turns (del s) s [] := ⟨0, den_del.2 ⟨rfl, rfl, rfl⟩⟩
theorem turns_insert (s : Str) : Turns (insert s) [] s := ⟨0, den_insert.2 ⟨rfl, rfl, rfl⟩⟩
theorem turns_lit (s : Str) : Turns (.lit s) s s := ⟨0, rfl, rfl, rfl⟩
theorem turns_crossS (s t : Str) : Turns (crossS s t) s t := ⟨0, den_crossS.2 ⟨rfl, rfl, rfl⟩⟩
theorem turns_tab {t : List (Str × Str)} {x y : Str} (h : (x, y) ∈ t) : Turns (.tab t) x y := ⟨0, h, rfl⟩
theorem Turns.cast {g : G} {x y x' y'} (h : Turns g x y) (hx : x = x') (hy : y = y') : Turns g x' y' := by
  rwa [← hx, ← hy]
theorem turns_star_nil (a : G) : Turns (.star a) [] [] := ⟨0, .nil⟩
theorem Turns.star_cons {a : G} {x y x' y'} (h : Turns a x y) (h' : Turns (.star a) x' y') :
    Turns (.star a) (x ++ x') (y ++ y') := by
  obtain ⟨w, h⟩ := h; obtain ⟨w', h'⟩ := h'
  exact ⟨_, .cons h h'⟩

/-! ### Written numbers -/

/-- `y` consists of digits and denotes `n`. -/
def Digs (y : Str) (n : Nat) : Prop := (∀ c ∈ y, c.isDigit = true) ∧ Nat.ofDigitChars 10 y 0 = n

instance (y : Str) (n : Nat) : Decidable (Digs y n) := by unfold Digs; infer_instance

theorem Digs.append {y y' : Str} {n n' : Nat} (h : Digs y n) (h' : Digs y' n') :
    Digs (y ++ y') (n * 10 ^ y'.length + n') := by
  refine ⟨?_, ?_⟩
  · intro c hc
    rcases List.mem_append.1 hc with hc | hc
    · exact h.1 c hc
    · exact h'.1 c hc
  · rw [Nat.ofDigitChars_append, h.2, Nat.ofDigitChars_eq_ofDigitChars_zero, h'.2, Nat.mul_comm]

theorem isDigit_digitChar {c : Char} (h : c.isDigit = true) : ∃ d < 10, c = Nat.digitChar d := by
  have h1 : 48 ≤ c.val.toNat ∧ c.val.toNat ≤ 57 := by
    simp only [Char.isDigit, Bool.and_eq_true, decide_eq_true_eq] at h
    exact ⟨by have := h.1; rw [ge_iff_le, UInt32.le_iff_toNat_le] at this; simpa using this,
      by have := h.2; rw [UInt32.le_iff_toNat_le] at this; simpa using this⟩
  refine ⟨c.val.toNat - 48, by omega, ?_⟩
  have key : ∀ d < 10, (Nat.digitChar d).val.toNat = d + 48 := by decide
  apply Char.ext
  apply UInt32.toNat.inj
  rw [key _ (by omega)]
  omega

theorem digs_digit {d : Nat} (h : d < 10) : Digs [Nat.digitChar d] d := by
  have key : ∀ d < 10, Digs [Nat.digitChar d] d := by decide
  exact key d h

/-- A text of digits that does not begin with zero is how the number is written. -/
theorem Digs.canonical {y : Str} {n : Nat} (h : Digs y n) (hne : y ≠ []) (h0 : y.head? ≠ some '0') :
    y = Nat.toDigits 10 n := by
  induction y using List.reverseRecOn generalizing n with
  | nil => exact absurd rfl hne
  | append_singleton l c ih =>
    obtain ⟨d, hd, rfl⟩ := isDigit_digitChar (h.1 c (by simp))
    have hl : Digs l (Nat.ofDigitChars 10 l 0) := ⟨fun c hc => h.1 c (by simp [hc]), rfl⟩
    have e := (hl.append (digs_digit hd)).2.symm.trans h.2
    cases l with
    | nil =>
      have : n = d := by rw [← e]; simp [Nat.ofDigitChars]
      rw [this, Nat.toDigits_of_lt_base hd]; rfl
    | cons a l =>
      have hl' := ih hl (by simp) (by simpa using h0)
      have hpos : 0 < Nat.ofDigitChars 10 (a :: l) 0 := by
        rcases Nat.eq_zero_or_pos (Nat.ofDigitChars 10 (a :: l) 0) with hz | hz
        · rw [hz, Nat.toDigits_zero] at hl'
          rw [hl'] at h0
          simp at h0
        · exact hz
      rw [← e, hl', Nat.ofDigitChars_toDigits (by decide) (by decide), ← Nat.toDigits_of_lt_base hd,
        Nat.toDigits_append_toDigits (by decide) hpos hd]
      simp [Nat.mul_comm, Nat.toDigits_of_lt_base hd]

theorem digs_toDigits (n : Nat) : Digs (Nat.toDigits 10 n) n :=
  ⟨fun _ hc => Nat.isDigit_of_mem_toDigits (by decide) (by decide) hc, Nat.ofDigitChars_toDigits (by decide) (by decide)⟩

end Verif.Wfst
