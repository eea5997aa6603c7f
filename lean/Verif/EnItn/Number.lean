import Verif.EnItn.Model
import Verif.EnItn.Spec
import Verif.Wfst.Turns

/-
The cardinal grammar of English ITN writes the number the spoken words name (soundness).
-/

namespace Verif.EnItn

open Verif.Wfst Spec

/-! ### Words -/

theorem wordsFrom_append_space (cur x y : Str) :
    wordsFrom cur (x ++ ' ' :: y) = wordsFrom cur x ++ words y := by
  induction x generalizing cur with
  | nil => simp [wordsFrom, words]
  | cons c x ih =>
    simp only [List.cons_append, wordsFrom]
    by_cases h : c = ' '
    · rw [if_pos h, if_pos h, ih]; rfl
    · rw [if_neg h, if_neg h, ih]

theorem words_append_space (x y : Str) : words (x ++ ' ' :: y) = words x ++ words y :=
  wordsFrom_append_space [] x y

/-- The words after the first: what `y` adds when it is empty or begins with a space. -/
def more (y : Str) : List Str := (words y).tail

theorem more_nil : more [] = [] := rfl
theorem more_space (y : Str) : more (' ' :: y) = words y := rfl

/-- Empty or begins with a space. -/
def Sep (y : Str) : Prop := y = [] ∨ ∃ y', y = ' ' :: y'

theorem words_append {x y : Str} (h : Sep y) : words (x ++ y) = words x ++ more y := by
  rcases h with rfl | ⟨y', rfl⟩
  · simp [more_nil]
  · exact words_append_space x y'

theorem more_append {x y : Str} (hx : Sep x) (h : Sep y) : more (x ++ y) = more x ++ more y := by
  rcases hx with rfl | ⟨x', rfl⟩
  · simp [more_nil]
  · exact words_append h

theorem Sep.append {x y : Str} (hx : Sep x) (h : Sep y) : Sep (x ++ y) := by
  rcases hx with rfl | ⟨x', rfl⟩
  · exact h
  · exact Or.inr ⟨x' ++ y, rfl⟩

theorem run_append (s : St) (ws vs : List Str) : run s (ws ++ vs) = (run s ws).bind fun s' => run s' vs := by
  induction ws generalizing s with
  | nil => rfl
  | cons w ws ih =>
    simp only [List.cons_append, run]
    cases step s w with
    | none => rfl
    | some s' => exact ih s'

/-! ### Phrases -/

/-- Reading the words of `x` takes the current group from `c` to `c'`. -/
def Ph (x : Str) (c c' : Nat) : Prop := ∀ t, run ⟨t, c⟩ (words x) = some ⟨t, c'⟩

theorem Ph.app {x y : Str} {c c' c'' : Nat} (h : Ph x c c') (h' : Ph y c' c'') : Ph (x ++ ' ' :: y) c c'' := by
  intro t
  rw [words_append_space, run_append, h t]
  exact h' t

theorem Ph.one {w : Str} {c c' : Nat} (hw : words w = [w]) (h : ∀ t, step ⟨t, c⟩ w = some ⟨t, c'⟩) : Ph w c c' := by
  intro t
  rw [hw]
  simp only [run, h t]

theorem digit_entry : ∀ e ∈ digit, words e.1 = [e.1] ∧ e.2.length = 1 ∧
    ∃ n < 10, 0 < n ∧ unit e.1 = some n ∧ Digs e.2 n := by decide +kernel
theorem teen_entry : ∀ e ∈ teen, words e.1 = [e.1] ∧ e.2.length = 2 ∧ unit e.1 = none ∧
    ∃ n < 20, 10 ≤ n ∧ tens e.1 = some n ∧ Digs e.2 n := by decide +kernel
theorem ties_entry : ∀ e ∈ ties, words e.1 = [e.1] ∧ e.2.length = 1 ∧ unit e.1 = none ∧
    ∃ n < 10, 1 < n ∧ tens e.1 = some (10 * n) ∧ Digs e.2 n := by decide +kernel

theorem den_ds {x y : Str} {w : W} : ds.den x y w ↔ x = [' '] ∧ y = [] ∧ w = 0 := den_del

theorem digit_reads {x y : Str} {w : W} (h : digitG.den x y w) :
    ∃ n, 0 < n ∧ n < 10 ∧ Digs y n ∧ y.length = 1 ∧ ∀ c, c % 10 = 0 → c % 100 ≠ 10 → Ph x c (c + n) := by
  obtain ⟨hm, -⟩ := h
  obtain ⟨h1, h2, n, h3, h4, h5, h6⟩ := digit_entry _ hm
  refine ⟨n, h4, h3, h6, h2, fun c hc hc' => Ph.one h1 fun t => ?_⟩
  simp only [step, h5]
  rw [if_pos ⟨hc, hc'⟩]

theorem teen_reads {x y : Str} {w : W} (h : teenG.den x y w) :
    ∃ n, 10 ≤ n ∧ n < 20 ∧ Digs y n ∧ y.length = 2 ∧ ∀ c, c % 100 = 0 → Ph x c (c + n) := by
  obtain ⟨hm, -⟩ := h
  obtain ⟨h1, h2, h3, n, h4, h5, h6, h7⟩ := teen_entry _ hm
  refine ⟨n, h5, h4, h7, h2, fun c hc => Ph.one h1 fun t => ?_⟩
  simp only [step, h3, h6]
  rw [if_pos hc]

theorem ties_reads {x y : Str} {w : W} (h : tiesG.den x y w) :
    ∃ n, 2 ≤ n ∧ n < 10 ∧ Digs y n ∧ y.length = 1 ∧ ∀ c, c % 100 = 0 → Ph x c (c + 10 * n) := by
  obtain ⟨hm, -⟩ := h
  obtain ⟨h1, h2, h3, n, h4, h5, h6, h7⟩ := ties_entry _ hm
  refine ⟨n, h5, h4, h7, h2, fun c hc => Ph.one h1 fun t => ?_⟩
  simp only [step, h3, h6]
  rw [if_pos hc]

theorem digs_zeros : Digs t!"0" 0 ∧ Digs t!"00" 0 ∧ Digs t!"000" 0 := by decide +kernel

/-- `ties + ds + digit`. -/
theorem tiesDigit_reads {x y : Str} {w : W} (h : (tiesG + (ds + digitG)).den x y w) :
    ∃ n, 20 ≤ n ∧ n < 100 ∧ Digs y n ∧ y.length = 2 ∧ ∀ c, c % 100 = 0 → Ph x c (c + n) := by
  obtain ⟨x1, y1, w1, x2, y2, w2, h1, h2, rfl, rfl, rfl⟩ := h
  obtain ⟨x3, y3, w3, x4, y4, w4, h3, h4, rfl, rfl, rfl⟩ := h2
  obtain ⟨rfl, rfl, rfl⟩ := den_ds.1 h3
  obtain ⟨a, a1, a2, a3, a4, a5⟩ := ties_reads h1
  obtain ⟨b, b1, b2, b3, b4, b5⟩ := digit_reads h4
  refine ⟨a * 10 + b, by omega, by omega, ?_, by simp [a4, b4], fun c hc => ?_⟩
  · have := a3.append b3
    rwa [b4, Nat.pow_one] at this
  · have := (a5 c hc).app (b5 (c + 10 * a) (by omega) (by omega))
    rw [show c + (a * 10 + b) = c + 10 * a + b by omega]
    exact this

theorem twoDigit_reads {x y : Str} {w : W} (h : twoDigit.den x y w) :
    ∃ n, 10 ≤ n ∧ n < 100 ∧ Digs y n ∧ y.length = 2 ∧ ∀ c, c % 100 = 0 → Ph x c (c + n) := by
  rcases h with h | h
  · obtain ⟨n, h1, h2, h3⟩ := teen_reads h
    exact ⟨n, h1, by omega, h3⟩
  · obtain ⟨x1, y1, w1, x2, y2, w2, h1, h2, rfl, rfl, rfl⟩ := h
    rcases h2 with h2 | h2
    · obtain ⟨n, a1, a2, a3⟩ := tiesDigit_reads ⟨x1, y1, w1, x2, y2, w2, h1, h2, rfl, rfl, rfl⟩
      exact ⟨n, by omega, a2, a3⟩
    · obtain ⟨w0, h2, rfl⟩ := h2
      obtain ⟨rfl, rfl, rfl⟩ := den_insert.1 h2
      obtain ⟨a, a1, a2, a3, a4, a5⟩ := ties_reads h1
      refine ⟨10 * a, by omega, by omega, ?_, by simp [a4], fun c hc => ?_⟩
      · have := a3.append digs_zeros.1
        simpa [Nat.mul_comm] using this
      · rw [List.append_nil]; exact a5 c hc

/-- What follows "hundred" adds a number below 100 and two digits. -/
theorem afterHundred_reads {x y : Str} {w : W} (h : afterHundred.den x y w) :
    ∃ n, n < 100 ∧ Digs y n ∧ y.length = 2 ∧
      (x = [] ∧ n = 0 ∨ ∃ x', x = ' ' :: x' ∧ ∀ c, c % 100 = 0 → Ph x' c (c + n)) := by
  rcases h with (h | h) | h
  · obtain ⟨x1, y1, w1, x2, y2, w2, h1, h2, rfl, rfl, rfl⟩ := h
    obtain ⟨rfl, rfl, rfl⟩ := den_ds.1 h1
    obtain ⟨n, a1, a2, a3, a4, a5⟩ := twoDigit_reads h2
    exact ⟨n, a2, a3, a4, Or.inr ⟨x2, rfl, a5⟩⟩
  · obtain ⟨x1, y1, w1, x2, y2, w2, h1, h2, rfl, rfl, rfl⟩ := h
    obtain ⟨x3, y3, w3, x4, y4, w4, h3, h4, rfl, rfl, rfl⟩ := h1
    obtain ⟨rfl, rfl, rfl⟩ := den_ds.1 h3
    obtain ⟨rfl, rfl, rfl⟩ := den_insert.1 h4
    obtain ⟨n, a1, a2, a3, a4, a5⟩ := digit_reads h2
    refine ⟨n, by omega, ?_, by simp [a4], Or.inr ⟨x2, rfl, fun c hc => a5 c (by omega) (by omega)⟩⟩
    simpa using digs_zeros.1.append a3
  · obtain ⟨rfl, rfl, rfl⟩ := den_insert.1 h
    exact ⟨0, by omega, digs_zeros.2.1, rfl, Or.inl ⟨rfl, rfl⟩⟩

/-- `a + ds + delete("hundred") + …` for a number `a` below 100. -/
theorem hundred_reads {x1 y1 x y : Str} {w : W} {a : Nat} (ha : 0 < a) (ha' : a < 100) (hd : Digs y1 a)
    (hp : Ph x1 0 a) (h : afterHundred.den x y w) :
    ∃ n, a * 100 ≤ n ∧ n < a * 100 + 100 ∧ Digs (y1 ++ y) n ∧
      Ph (x1 ++ (' ' :: (t!"hundred" ++ x))) 0 n := by
  obtain ⟨n, h1, h2, h3, h4⟩ := afterHundred_reads h
  refine ⟨a * 100 + n, by omega, by omega, ?_, ?_⟩
  · have := hd.append h2
    rwa [h3] at this
  · have hh : Ph t!"hundred" a (a * 100) := by
      refine Ph.one (by decide +kernel) fun t => ?_
      have e1 : unit t!"hundred" = none := by decide +kernel
      have e2 : tens t!"hundred" = none := by decide +kernel
      simp only [step, e1, e2]
      rw [if_pos trivial, if_pos ⟨ha, ha'⟩]
    rcases h4 with ⟨rfl, rfl⟩ | ⟨x', rfl, h5⟩
    · rw [List.append_nil, Nat.add_zero]
      exact hp.app hh
    · exact hp.app (hh.app (h5 (a * 100) (by omega)))

theorem hundreds_reads {x y : Str} {w : W} (h : hundreds.den x y w) :
    ∃ n, 100 ≤ n ∧ n < 1000 ∧ Digs y n ∧ y.length = 3 ∧ Ph x 0 n := by
  obtain ⟨x1, y1, w1, x2, y2, w2, h1, h2, rfl, rfl, rfl⟩ := h
  obtain ⟨x3, y3, w3, x4, y4, w4, h3, h4, rfl, rfl, rfl⟩ := h1
  obtain ⟨rfl, rfl, rfl⟩ := den_del.1 h4
  obtain ⟨x5, y5, w5, x6, y6, w6, h5, h6, rfl, rfl, rfl⟩ := h3
  obtain ⟨rfl, rfl, rfl⟩ := den_ds.1 h6
  obtain ⟨a, a1, a2, a3, a4, a5⟩ := digit_reads h5
  have hp := a5 0 rfl (by omega)
  rw [Nat.zero_add] at hp
  obtain ⟨n, b1, b2, b3, b4⟩ := hundred_reads a1 (by omega) a3 hp h2
  obtain ⟨_, _, _, c3, _⟩ := afterHundred_reads h2
  refine ⟨n, by omega, by omega, by simpa using b3, by simp [a4, c3], ?_⟩
  simpa using b4

theorem hundredsAsThousand_reads {x y : Str} {w : W} (h : hundredsAsThousand.den x y w) :
    ∃ n, Digs y n ∧ y ≠ [] ∧ Ph x 0 n := by
  obtain ⟨x1, y1, w1, x2, y2, w2, h1, h2, rfl, rfl, rfl⟩ := h
  obtain ⟨x3, y3, w3, x4, y4, w4, h3, h4, rfl, rfl, rfl⟩ := h1
  obtain ⟨rfl, rfl, rfl⟩ := den_del.1 h4
  obtain ⟨x5, y5, w5, x6, y6, w6, h5, h6, rfl, rfl, rfl⟩ := h3
  obtain ⟨rfl, rfl, rfl⟩ := den_ds.1 h6
  have key : ∃ a, 10 ≤ a ∧ a < 100 ∧ Digs y5 a ∧ y5.length = 2 ∧ Ph x5 0 a := by
    rcases h5 with h5 | h5
    · obtain ⟨a, a1, a2, a3, a4, a5⟩ := teen_reads h5
      exact ⟨a, a1, by omega, a3, a4, by simpa using a5 0 rfl⟩
    · obtain ⟨x7, y7, w7, x8, y8, w8, h7, h8, rfl, rfl, rfl⟩ := h5
      obtain ⟨x9, y9, w9, x0, y0, w0, h9, h0, rfl, rfl, rfl⟩ := h7
      obtain ⟨a, a1, a2, a3, a4, a5⟩ := tiesDigit_reads
        ⟨x9, y9, w9, x0 ++ x8, y0 ++ y8, w0 + w8, h9, ⟨x0, y0, w0, x8, y8, w8, h0, h8, rfl, rfl, rfl⟩, rfl, rfl, rfl⟩
      refine ⟨a, by omega, a2, by simpa using a3, by simpa using a4, ?_⟩
      simpa using a5 0 rfl
  obtain ⟨a, a1, a2, a3, a4, a5⟩ := key
  obtain ⟨n, b1, b2, b3, b4⟩ := hundred_reads (by omega) a2 a3 a5 h2
  refine ⟨n, by simpa using b3, ?_, by simpa using b4⟩
  intro h0
  simp only [List.append_nil, List.append_eq_nil_iff] at h0
  rw [h0.1] at a4; simp at a4

theorem upTo999_reads {x y : Str} {w : W} (h : upTo999.den x y w) :
    ∃ n, 0 < n ∧ n < 1000 ∧ Digs y n ∧ y ≠ [] ∧ Ph x 0 n := by
  rcases h with (h | h) | h
  · obtain ⟨n, a1, a2, a3, a4, a5⟩ := digit_reads h
    exact ⟨n, a1, by omega, a3, by rintro rfl; simp at a4, by simpa using a5 0 rfl (by omega)⟩
  · obtain ⟨n, a1, a2, a3, a4, a5⟩ := twoDigit_reads h
    exact ⟨n, by omega, by omega, a3, by rintro rfl; simp at a4, by simpa using a5 0 rfl⟩
  · obtain ⟨n, a1, a2, a3, a4, a5⟩ := hundreds_reads h
    exact ⟨n, by omega, a2, a3, by rintro rfl; simp at a4, a5⟩

theorem padded_reads {x y : Str} {w : W} (h : padded.den x y w) :
    ∃ n, 0 < n ∧ n < 1000 ∧ Digs y n ∧ y.length = 3 ∧ Ph x 0 n := by
  rcases h with (h | h) | h
  · obtain ⟨n, a1, a2, a3⟩ := hundreds_reads h
    exact ⟨n, by omega, a2, a3⟩
  · obtain ⟨x1, y1, w1, x2, y2, w2, h1, h2, rfl, rfl, rfl⟩ := h
    obtain ⟨rfl, rfl, rfl⟩ := den_insert.1 h1
    obtain ⟨n, a1, a2, a3, a4, a5⟩ := twoDigit_reads h2
    exact ⟨n, by omega, by omega, by simpa using digs_zeros.1.append a3, by simp [a4], by simpa using a5 0 rfl⟩
  · obtain ⟨x1, y1, w1, x2, y2, w2, h1, h2, rfl, rfl, rfl⟩ := h
    obtain ⟨rfl, rfl, rfl⟩ := den_insert.1 h1
    obtain ⟨n, a1, a2, a3, a4, a5⟩ := digit_reads h2
    exact ⟨n, by omega, by omega, by simpa using digs_zeros.2.1.append a3, by simp [a4],
      by simpa using a5 0 rfl (by omega)⟩

/-! ### Scale words -/

/-- The scale words of the list stand for the powers of 1000 down to 1000. -/
def Scales : List Str → Prop
  | [] => True
  | name :: names => (words name = [name] ∧ unit name = none ∧ tens name = none ∧ name ≠ t!"hundred" ∧
      scale name = some (1000 ^ (names.length + 1))) ∧ Scales names

theorem scales_mags : Scales mags := by
  simp only [mags, Scales, and_true]
  decide +kernel

theorem step_scale {name : Str} {k t c : Nat} (h1 : unit name = none) (h2 : tens name = none)
    (h3 : name ≠ t!"hundred") (h4 : scale name = some (1000 ^ k)) (hc : 0 < c) (hc' : c < 1000)
    (ht : t % 1000 ^ (k + 1) = 0) : step ⟨t, c⟩ name = some ⟨t + c * 1000 ^ k, 0⟩ := by
  have e : t % (1000 * 1000 ^ k) = 0 := by rwa [Nat.mul_comm, ← Nat.pow_succ]
  simp only [step, h1, h2, h4]
  rw [if_neg h3, if_pos ⟨hc, hc', e⟩]

/-- `a + ds + delete(name)`. -/
theorem mag_run {x name : Str} {k t c : Nat} (hw : words name = [name]) (h1 : unit name = none) (h2 : tens name = none)
    (h3 : name ≠ t!"hundred") (h4 : scale name = some (1000 ^ k)) (hc : 0 < c) (hc' : c < 1000)
    (hp : Ph x 0 c) (ht : t % 1000 ^ (k + 1) = 0) :
    run ⟨t, 0⟩ (words (x ++ ' ' :: name)) = some ⟨t + c * 1000 ^ k, 0⟩ := by
  rw [words_append_space, run_append, hp t, hw]
  simp only [Option.bind_some, run]
  rw [step_scale h1 h2 h3 h4 hc hc' ht]

theorem lower_reads {names : List Str} (hs : Scales names) {x y : Str} {w : W} (h : (lower names).den x y w) :
    ∃ n, n < 1000 ^ (names.length + 1) ∧ Digs y n ∧ y.length = 3 * (names.length + 1) ∧ Sep x ∧
      ∀ t, t % 1000 ^ (names.length + 1) = 0 →
        ∃ s, run ⟨t, 0⟩ (more x) = some s ∧ s.total + s.cur = t + n := by
  induction names generalizing x y w with
  | nil =>
    rcases h with h | h
    · obtain ⟨x1, y1, w1, x2, y2, w2, h1, h2, rfl, rfl, rfl⟩ := h
      obtain ⟨rfl, rfl, rfl⟩ := den_ds.1 h1
      obtain ⟨n, a1, a2, a3, a4, a5⟩ := padded_reads h2
      exact ⟨n, by simpa using a2, a3, a4, Or.inr ⟨x2, rfl⟩, fun t _ => ⟨⟨t, n⟩, a5 t, rfl⟩⟩
    · obtain ⟨rfl, rfl, rfl⟩ := den_insert.1 h
      exact ⟨0, by simp, digs_zeros.2.2, rfl, Or.inl rfl, fun t _ => ⟨⟨t, 0⟩, rfl, rfl⟩⟩
  | cons name names ih =>
    obtain ⟨⟨s0, s1, s2, s3, s4⟩, hs'⟩ := hs
    obtain ⟨x1, y1, w1, x2, y2, w2, h1, h2, rfl, rfl, rfl⟩ := h
    obtain ⟨n, a1, a2, a3, a4, a5⟩ := ih hs' h2
    have hk : (1000 : Nat) ^ (names.length + 1 + 1) = 1000 ^ (names.length + 1) * 1000 := Nat.pow_succ _ _
    have hlen : (10 : Nat) ^ (3 * (names.length + 1)) = 1000 ^ (names.length + 1) := by
      rw [Nat.pow_mul]
    simp only [List.length_cons]
    rcases h1 with h1 | h1
    · obtain ⟨x3, y3, w3, x4, y4, w4, h3, h4, rfl, rfl, rfl⟩ := h1
      obtain ⟨rfl, rfl, rfl⟩ := den_ds.1 h3
      obtain ⟨x5, y5, w5, x6, y6, w6, h5, h6, rfl, rfl, rfl⟩ := h4
      obtain ⟨rfl, rfl, rfl⟩ := den_del.1 h6
      obtain ⟨x7, y7, w7, x8, y8, w8, h7, h8, rfl, rfl, rfl⟩ := h5
      obtain ⟨rfl, rfl, rfl⟩ := den_ds.1 h8
      obtain ⟨m, b1, b2, b3, b4, b5⟩ := padded_reads h7
      refine ⟨m * 1000 ^ (names.length + 1) + n, ?_, ?_, ?_, ?_, ?_⟩
      · have := Nat.mul_le_mul_right (1000 ^ (names.length + 1)) (show m + 1 ≤ 1000 by omega)
        rw [Nat.add_mul] at this
        rw [hk]; omega
      · have := b3.append a2
        rw [a3, hlen] at this
        simpa using this
      · simp [b4, a3]; omega
      · exact Or.inr ⟨_, rfl⟩
      · intro t ht
        have e : ([' '] ++ (x7 ++ [' '] ++ x6) ++ x2 : Str) = (' ' :: (x7 ++ ' ' :: x6)) ++ x2 := by simp
        have ht' : (t + m * 1000 ^ (names.length + 1)) % 1000 ^ (names.length + 1) = 0 := by
          rw [Nat.add_mul_mod_self_right]
          exact Nat.mod_eq_zero_of_dvd (Nat.dvd_trans ⟨1000, hk⟩ (Nat.dvd_of_mod_eq_zero ht))
        obtain ⟨s, r1, r2⟩ := a5 _ ht'
        refine ⟨s, ?_, by omega⟩
        rw [e, more_append (Or.inr ⟨_, rfl⟩) a4, more_space, run_append, mag_run s0 s1 s2 s3 s4 b1 b2 b5 ht]
        exact r1
    · obtain ⟨rfl, rfl, rfl⟩ := den_insert.1 h1
      refine ⟨n, ?_, ?_, by simp [a3]; omega, by simpa using a4, fun t ht => ?_⟩
      · rw [hk]; omega
      · simpa using digs_zeros.2.2.append a2
      · exact a5 t (Nat.mod_eq_zero_of_dvd (Nat.dvd_trans ⟨1000, hk⟩ (Nat.dvd_of_mod_eq_zero ht)))

/-- What the phrase `x` means when its words are taken as they are. -/
def Names (x : Str) (n : Nat) : Prop :=
  (words x = [t!"zero"] ∧ n = 0) ∨ ∃ s, run ⟨0, 0⟩ (words x) = some s ∧ s.total + s.cur = n

theorem Ph.names {x : Str} {n : Nat} (h : Ph x 0 n) : Names x n := Or.inr ⟨_, h 0, Nat.zero_add n⟩

theorem bigs_reads {names : List Str} (hs : Scales names) {x y : Str} {w : W} (h : (bigs names).den x y w) :
    ∃ n, Digs y n ∧ y ≠ [] ∧ Names x n := by
  induction names generalizing x y w with
  | nil =>
    rcases h with (h | h) | h
    · have hz : ∀ e ∈ zero, words e.1 = [t!"zero"] ∧ Digs e.2 0 ∧ e.2 ≠ [] := by decide +kernel
      obtain ⟨z1, z2, z3⟩ := hz _ h.1
      exact ⟨0, z2, z3, Or.inl ⟨z1, rfl⟩⟩
    · obtain ⟨n, a1, a2, a3, a4, a5⟩ := upTo999_reads h
      exact ⟨n, a3, a4, a5.names⟩
    · obtain ⟨n, a1, a2, a3⟩ := hundredsAsThousand_reads h
      exact ⟨n, a1, a2, a3.names⟩
  | cons name names ih =>
    obtain ⟨⟨s0, s1, s2, s3, s4⟩, hs'⟩ := hs
    rcases h with h | h
    · exact ih hs' h
    · obtain ⟨x1, y1, w1, x2, y2, w2, h1, h2, rfl, rfl, rfl⟩ := h
      obtain ⟨n, a1, a2, a3, a4, a5⟩ := lower_reads hs' h2
      obtain ⟨x5, y5, w5, x6, y6, w6, h5, h6, rfl, rfl, rfl⟩ := h1
      obtain ⟨rfl, rfl, rfl⟩ := den_del.1 h6
      obtain ⟨x7, y7, w7, x8, y8, w8, h7, h8, rfl, rfl, rfl⟩ := h5
      obtain ⟨rfl, rfl, rfl⟩ := den_ds.1 h8
      obtain ⟨m, b1, b2, b3, b4, b5⟩ := upTo999_reads h7
      have hlen : (10 : Nat) ^ (3 * (names.length + 1)) = 1000 ^ (names.length + 1) := by
        rw [Nat.pow_mul]
      refine ⟨m * 1000 ^ (names.length + 1) + n, ?_, by simp [b4], Or.inr ?_⟩
      · have := b3.append a2
        rw [a3, hlen] at this
        simpa using this
      · obtain ⟨s, r1, r2⟩ := a5 (0 + m * 1000 ^ (names.length + 1)) (by simp)
        refine ⟨s, ?_, by omega⟩
        have e : (x7 ++ [' '] ++ x6 ++ x2 : Str) = (x7 ++ ' ' :: x6) ++ x2 := by simp
        rw [e, words_append a4, run_append, mag_run s0 s1 s2 s3 s4 b1 b2 b5 (by simp)]
        exact r1

/-! ### Leading zeros and "and" -/

theorem digs_strip {z y : Str} {n : Nat} {w : W} (hz : (G.star (.lit t!"0")).den z z w) (h : Digs (z ++ y) n) : Digs y n := by
  have key : ∀ {z' z : Str} {w : W}, Star (G.lit t!"0").den z z' w → Digs (z ++ y) n → Digs y n := by
    intro z' z w hz h
    induction hz with
    | nil => exact h
    | cons h1 h2 ih =>
      obtain ⟨rfl, rfl, rfl⟩ := h1
      refine ih ⟨fun c hc => h.1 c (by simp only [List.append_assoc]; exact List.mem_append_right _ hc), ?_⟩
      have := h.2
      simpa [Nat.ofDigitChars] using this
  exact key hz h

theorem stripZeros_digs {y z : Str} {w : W} {n : Nat} (hd : Digs y n) (h : stripZeros.den y z w) :
    z = Nat.toDigits 10 n := by
  rcases h with h | h
  · obtain ⟨x1, y1, w1, x2, y2, w2, h1, h2, rfl, rfl, rfl⟩ := h
    obtain ⟨x3, y3, w3, x4, y4, w4, h3, h4, rfl, rfl, rfl⟩ := h1
    obtain ⟨rfl, h3⟩ := h3
    obtain ⟨c, hc, rfl, rfl, rfl⟩ := h4
    have hid : ∀ {u v : Str} {w : W}, Star DIGIT.den u v w → v = u := by
      intro u v w h
      induction h with
      | nil => rfl
      | cons h1 h2 ih =>
        obtain ⟨d, _, rfl, rfl, _⟩ := h1
        rw [ih]
    obtain rfl := hid h2
    have hd' : Digs ([c] ++ y2) n := digs_strip h3 (by simpa using hd)
    simp only [Bool.and_eq_true, bne_iff_ne, ne_eq] at hc
    exact hd'.canonical (by simp) (by simpa using hc.2)
  · obtain ⟨rfl, rfl, -⟩ := h
    have : n = 0 := by rw [← hd.2]; decide
    subst this; decide

/-- The words that are heard. -/
def heard (ws : List Str) : List Str := ws.filter (· ≠ t!"and")

theorem run_heard {s s' : St} {ws : List Str} (h : run s ws = some s') : heard ws = ws := by
  induction ws generalizing s with
  | nil => rfl
  | cons w ws ih =>
    simp only [run] at h
    cases hs : step s w with
    | none => rw [hs] at h; cases h
    | some s1 =>
      rw [hs] at h
      have hw : w ≠ t!"and" := by
        rintro rfl
        have e1 : unit t!"and" = none := by decide +kernel
        have e2 : tens t!"and" = none := by decide +kernel
        have e3 : scale t!"and" = none := by decide +kernel
        simp only [step, e1, e2, e3] at hs
        rw [if_neg (by decide)] at hs
        cases hs
      have := ih h
      unfold heard at this ⊢
      rw [List.filter_cons_of_pos (by simpa using hw), this]

theorem Names.heard {x : Str} {n : Nat} (h : Names x n) : heard (words x) = words x := by
  rcases h with ⟨h, -⟩ | ⟨s, h, -⟩
  · rw [h]; decide
  · exact run_heard h

theorem Names.value {x m : Str} {n : Nat} (h : Names m n) (he : EnItn.heard (words x) = EnItn.heard (words m)) :
    value x = some n := by
  have e : (words x).filter (· ≠ t!"and") = words m := he.trans h.heard
  simp only [Spec.value]
  rw [e]
  rcases h with ⟨h, rfl⟩ | ⟨s, h, rfl⟩
  · rw [if_pos h]
  · by_cases hz : words m = [t!"zero"]
    · rw [hz] at h
      have : run ⟨0, 0⟩ [t!"zero"] = none := by decide +kernel
      rw [this] at h; cases h
    · rw [if_neg hz, h]; rfl

/-- Deleting "and " changes no word that is heard. -/
theorem deleteAnd_heard {pre x y : Str} {w : W} (p cur : Str) (hp : pre = p ++ cur) (hcur : ' ' ∉ cur)
    (hr : Rewrites (del t!"and ").den (.chr (· = ' ')) (.chr isAlpha) pre x y w) :
    heard (wordsFrom cur x) = heard (wordsFrom cur y) := by
  induction hr generalizing p cur with
  | done => rfl
  | @keep pre c x y w hn h ih =>
    simp only [wordsFrom]
    by_cases hc : c = ' '
    · rw [if_pos hc, if_pos hc]
      have := ih (pre ++ [c]) [] (by simp) (by simp)
      unfold heard at this ⊢
      simp only [List.filter_cons, this]
    · rw [if_neg hc, if_neg hc]
      exact ih p (cur ++ [c]) (by rw [hp]; simp) (by simp; exact ⟨hcur, fun e => hc e.symm⟩)
  | @change pre u v w t y w' hl hu hR hr h ih =>
    obtain ⟨rfl, rfl, rfl⟩ := den_del.1 hR
    have hcur0 : cur = [] := by
      rcases List.eq_nil_or_concat cur with rfl | ⟨cs, c, rfl⟩
      · rfl
      · subst hp
        have e : (p ++ cs.concat c).getLast? = some c := by simp
        simp only [Ctx.left, e, Option.any_some, decide_eq_true_eq] at hl
        exact absurd (by simp [hl]) hcur
    subst hcur0
    rw [List.nil_append]
    have := ih p [] (by simpa using hp) (by simp)
    rw [← this]
    rfl

theorem deleteAnd_words {x m : Str} {w : W} (h : deleteAnd.den x m w) : heard (words x) = heard (words m) :=
  deleteAnd_heard [] [] rfl (by simp) h.2

/-- The cardinal grammar writes the number the phrase names. -/
theorem cardinal_value {x y : Str} {w : W} (h : cardinal.den x y w) :
    ∃ n, value x = some n ∧ y = Nat.toDigits 10 n := by
  obtain ⟨m, w1, w2, h1, h2, rfl⟩ := h
  obtain ⟨y', w3, w4, h3, h4, rfl⟩ := h2
  obtain ⟨n, a1, a2, a3⟩ := bigs_reads scales_mags h3
  exact ⟨n, a3.value (deleteAnd_words h1), stripZeros_digs a1 h4⟩

end Verif.EnItn
