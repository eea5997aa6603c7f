import Verif.JaTn.Model
import Verif.JaTn.NumberSpec
import Verif.Wfst.Lemmas

/-
The integers of the Japanese number grammar: which texts it reads and what it writes.
-/

namespace Verif.JaTn

open Verif.Wfst Spec

/-- Digits with optional commas: the list says before which digits a comma may stand. -/
inductive Commas : List Bool → Str → List Nat → Prop
  | nil : Commas [] [] []
  | digit {b : Bool} {m : List Bool} {c : Char} {d : Nat} {x : Str} {ds : List Nat} : digitVal c = some d →
      Commas m x ds → Commas (b :: m) (c :: x) (d :: ds)
  | comma {m : List Bool} {c : Char} {d : Nat} {x : Str} {ds : List Nat} : digitVal c = some d →
      Commas m x ds → Commas (true :: m) (',' :: c :: x) (d :: ds)

theorem Commas.length {m x ds} (h : Commas m x ds) : ds.length = m.length := by
  induction h <;> simp_all

theorem Commas.append {m x ds m' x' ds'} (h : Commas m x ds) (h' : Commas m' x' ds') :
    Commas (m ++ m') (x ++ x') (ds ++ ds') := by
  induction h with
  | nil => exact h'
  | digit hc _ ih => exact .digit hc ih
  | comma hc _ ih => exact .comma hc ih

theorem Commas.split {m m' x ds} (h : Commas (m ++ m') x ds) : ∃ x₁ x₂, x = x₁ ++ x₂ ∧
    Commas m x₁ (ds.take m.length) ∧ Commas m' x₂ (ds.drop m.length) := by
  induction m generalizing x ds with
  | nil => exact ⟨[], x, rfl, by simpa using .nil, by simpa using h⟩
  | cons b m ih =>
    cases h with
    | digit hc h =>
      obtain ⟨x₁, x₂, rfl, h1, h2⟩ := ih h
      exact ⟨_ :: x₁, x₂, rfl, .digit hc h1, h2⟩
    | comma hc h =>
      obtain ⟨x₁, x₂, rfl, h1, h2⟩ := ih h
      exact ⟨',' :: _ :: x₁, x₂, rfl, .comma hc h1, h2⟩

theorem Commas.loosen {m x ds} (h : Commas (false :: m) x ds) : Commas (true :: m) x ds := by
  cases h with
  | digit hc h => exact .digit hc h

theorem commas_true {m x ds} : Commas (true :: m) x ds ↔
    Commas (false :: m) x ds ∨ ∃ x', x = ',' :: x' ∧ Commas (false :: m) x' ds := by
  constructor
  · intro h
    cases h with
    | digit hc h => exact .inl (.digit hc h)
    | comma hc h => exact .inr ⟨_, rfl, .digit hc h⟩
  · rintro (h | ⟨x', rfl, h⟩)
    · exact h.loosen
    · cases h with
      | digit hc h => exact .comma hc h

/-- A grammar that reads exactly the texts of digits, with commas as in `m`, whose values satisfy `P`, and
writes `f` of them. -/
def Reads (g : G) (m : List Bool) (P : List Nat → Bool) (f : List Nat → Str) : Prop :=
  ∀ x y w, g.den x y w ↔ ∃ ds, Commas m x ds ∧ P ds ∧ y = f ds ∧ w = 0

theorem Reads.congr {g m P f P' f'} (h : Reads g m P f) (hP : ∀ ds, ds.length = m.length → P ds = P' ds)
    (hf : ∀ ds, ds.length = m.length → P' ds → f ds = f' ds) : Reads g m P' f' := by
  intro x y w
  rw [h x y w]
  constructor
  · rintro ⟨ds, h1, h2, rfl, rfl⟩
    have h2' := (hP ds h1.length).symm.trans h2
    exact ⟨ds, h1, h2', hf ds h1.length h2', rfl⟩
  · rintro ⟨ds, h1, h2, rfl, rfl⟩
    exact ⟨ds, h1, (hP ds h1.length).trans h2, (hf ds h1.length h2).symm, rfl⟩

theorem Reads.alt {a b m P f Q g} (h : Reads a m P f) (h' : Reads b m Q g)
    (hd : ∀ ds, ds.length = m.length → P ds → Q ds → f ds = g ds) :
    Reads (a ||| b) m (fun ds => P ds || Q ds) (fun ds => if P ds then f ds else g ds) := by
  intro x y w
  rw [den_or, h x y w, h' x y w]
  constructor
  · rintro (⟨ds, h1, h2, rfl, rfl⟩ | ⟨ds, h1, h2, rfl, rfl⟩)
    · exact ⟨ds, h1, by simp [h2], by simp [h2], rfl⟩
    · refine ⟨ds, h1, by simp [h2], ?_, rfl⟩
      by_cases hp : P ds = true
      · simp only [hp, if_true]; exact (hd ds h1.length hp h2).symm
      · simp [hp]
  · rintro ⟨ds, h1, h2, rfl, rfl⟩
    by_cases hp : P ds = true
    · exact Or.inl ⟨ds, h1, hp, by simp [hp], rfl⟩
    · exact Or.inr ⟨ds, h1, by simpa [hp] using h2, by simp [hp], rfl⟩

theorem Reads.cat {a b m m' P f Q g} (h : Reads a m P f) (h' : Reads b m' Q g) :
    Reads (a + b) (m ++ m') (fun ds => P (ds.take m.length) && Q (ds.drop m.length))
      (fun ds => f (ds.take m.length) ++ g (ds.drop m.length)) := by
  intro x y w
  constructor
  · rintro ⟨x₁, y₁, w₁, x₂, y₂, w₂, h1, h2, rfl, rfl, rfl⟩
    obtain ⟨ds, v1, p1, rfl, rfl⟩ := (h _ _ _).1 h1
    obtain ⟨es, v2, p2, rfl, rfl⟩ := (h' _ _ _).1 h2
    have e := v1.length
    exact ⟨ds ++ es, v1.append v2, by simp [← e, p1, p2], by simp [← e], by simp⟩
  · rintro ⟨ds, v, p, rfl, rfl⟩
    simp only [Bool.and_eq_true] at p
    obtain ⟨x₁, x₂, rfl, v1, v2⟩ := v.split
    exact ⟨x₁, _, 0, x₂, _, 0, (h _ _ _).2 ⟨_, v1, p.1, rfl, rfl⟩,
      (h' _ _ _).2 ⟨_, v2, p.2, rfl, rfl⟩, rfl, rfl, rfl⟩

theorem add_assoc {a b c : G} {x y w} : ((a + b) + c).den x y w ↔ (a + (b + c)).den x y w := by
  constructor
  · rintro ⟨_, _, _, x₃, y₃, w₃, ⟨x₁, y₁, w₁, x₂, y₂, w₂, h1, h2, rfl, rfl, rfl⟩, h3, rfl, rfl, rfl⟩
    exact ⟨x₁, y₁, w₁, _, _, _, h1, ⟨x₂, y₂, w₂, x₃, y₃, w₃, h2, h3, rfl, rfl, rfl⟩, by simp, by simp,
      Int.add_assoc _ _ _⟩
  · rintro ⟨x₁, y₁, w₁, _, _, _, h1, ⟨x₂, y₂, w₂, x₃, y₃, w₃, h2, h3, rfl, rfl, rfl⟩, rfl, rfl, rfl⟩
    exact ⟨_, _, _, x₃, y₃, w₃, ⟨x₁, y₁, w₁, x₂, y₂, w₂, h1, h2, rfl, rfl, rfl⟩, h3, by simp, by simp,
      (Int.add_assoc _ _ _).symm⟩

theorem Reads.assoc {a b c m P f} (h : Reads (a + (b + c)) m P f) : Reads ((a + b) + c) m P f :=
  fun x y w => add_assoc.trans (h x y w)

theorem Reads.after {b m P f} (h : Reads b (false :: m) P f) : Reads (rmpunct + b) (true :: m) P f := by
  intro x y w
  constructor
  · rintro ⟨x₁, y₁, w₁, x₂, y₂, w₂, h1, h2, rfl, rfl, rfl⟩
    obtain ⟨ds, v, p, rfl, rfl⟩ := (h _ _ _).1 h2
    rcases den_ques.1 h1 with ⟨rfl, rfl, rfl⟩ | h1
    · exact ⟨ds, v.loosen, p, rfl, rfl⟩
    · obtain ⟨rfl, rfl, rfl⟩ := den_del.1 h1
      exact ⟨ds, commas_true.2 (.inr ⟨_, rfl, v⟩), p, rfl, rfl⟩
  · rintro ⟨ds, v, p, rfl, rfl⟩
    rcases commas_true.1 v with v' | ⟨x', rfl, v'⟩
    · exact ⟨[], [], 0, x, _, 0, .inl ⟨rfl, rfl, rfl⟩, (h _ _ _).2 ⟨ds, v', p, rfl, rfl⟩, rfl, rfl, rfl⟩
    · exact ⟨[','], [], 0, x', _, 0, .inr (den_del.2 ⟨rfl, rfl, rfl⟩), (h _ _ _).2 ⟨ds, v', p, rfl, rfl⟩, rfl, rfl, rfl⟩

/-- Two parts with an optional comma between them. -/
theorem Reads.comma {a b m m' P f Q g} (h : Reads a m P f) (h' : Reads b (false :: m') Q g) :
    Reads ((a + rmpunct) + b) (m ++ true :: m') (fun ds => P (ds.take m.length) && Q (ds.drop m.length))
      (fun ds => f (ds.take m.length) ++ g (ds.drop m.length)) :=
  (h.cat h'.after).assoc

theorem reads_insert (v : Str) : Reads (Wfst.insert v) [] (fun _ => true) (fun _ => v) := by
  intro x y w
  rw [den_insert]
  constructor
  · rintro ⟨rfl, rfl, rfl⟩; exact ⟨[], .nil, rfl, rfl, rfl⟩
  · rintro ⟨ds, h1, _, rfl, rfl⟩
    cases h1
    exact ⟨rfl, rfl, rfl⟩

theorem reads_pow_zero {a : G} : Reads (a.pow 0) [] (fun _ => true) (fun _ => []) := by
  intro x y w
  rw [← reads_insert [] x y w, den_insert]; rfl

theorem commas_singleton {x : Str} {d : Nat} : Commas [false] x [d] ↔ ∃ c, x = [c] ∧ digitVal c = some d := by
  constructor
  · intro h
    cases h with
    | digit hc h => cases h; exact ⟨_, rfl, hc⟩
  · rintro ⟨c, rfl, h⟩; exact .digit h .nil

/-- A table of single digits. -/
theorem reads_tab {t : List (Str × Str)} {p : Nat → Bool} {f : Nat → Str}
    (h : ∀ e ∈ t, ∃ c d, e.1 = [c] ∧ digitVal c = some d ∧ p d = true ∧ e.2 = f d)
    (h' : ∀ e ∈ digitTable, p e.2 = true → ([e.1], f e.2) ∈ t) :
    Reads (.tab t) [false] (fun ds => p (ds.headD 0)) (fun ds => f (ds.headD 0)) := by
  intro x y w
  rw [den_tab]
  constructor
  · rintro ⟨hm, rfl⟩
    obtain ⟨c, d, h1, h2, h3, h4⟩ := h _ hm
    dsimp only at h1 h4
    subst h1 h4
    exact ⟨[d], commas_singleton.2 ⟨c, rfl, h2⟩, h3, rfl, rfl⟩
  · rintro ⟨ds, h1, h2, rfl, rfl⟩
    obtain ⟨d, rfl⟩ := List.length_eq_one_iff.1 h1.length
    obtain ⟨c, rfl, hc⟩ := commas_singleton.1 h1
    have hm : (c, d) ∈ digitTable := by
      obtain ⟨l₁, l₂, h, _⟩ := List.lookup_eq_some_iff.1 hc
      rw [h]; simp
    exact ⟨h' _ hm h2, rfl⟩

/-- The table of a function of the digit. -/
theorem reads_table {t : List (Str × Str)} (p : Nat → Bool) (f : Nat → Str)
    (h : ∀ e ∈ t, ∃ c ∈ digitTable, e.1 = [c.1] ∧ digitVal c.1 = some c.2 ∧ p c.2 = true ∧ e.2 = f c.2)
    (h' : ∀ e ∈ digitTable, p e.2 = true → ([e.1], f e.2) ∈ t) :
    Reads (.tab t) [false] (fun ds => p (ds.headD 0)) (fun ds => f (ds.headD 0)) := by
  refine reads_tab ?_ h'
  intro e he
  obtain ⟨c, _, h⟩ := h e he
  exact ⟨_, _, h⟩

/-- What is said for the digit of a unit. -/
def mul (d : Nat) : Str := if d = 1 then [] else [digitName d]

theorem reads_digit : Reads digitG [false] (fun ds => ds.headD 0 != 0) (fun ds => [digitName (ds.headD 0)]) :=
  reads_table (fun d => d != 0) (fun d => [digitName d]) (by decide +kernel) (by decide +kernel)

theorem reads_zero : Reads zeroG [false] (fun ds => ds.headD 0 == 0) (fun _ => ['〇']) :=
  reads_table (fun d => d == 0) (fun _ => ['〇']) (by decide +kernel) (by decide +kernel)

theorem reads_teen : Reads teenG [false] (fun ds => ds.headD 0 != 0) (fun ds => mul (ds.headD 0)) :=
  reads_table (fun d => d != 0) mul (by decide +kernel) (by decide +kernel)

theorem reads_rmzero : Reads rmzero [false] (fun ds => ds.headD 0 == 0) (fun _ => []) := by
  have := reads_table (t := [(t!"0", []), (t!"０", [])]) (fun d => d == 0) (fun _ => []) (by decide +kernel) (by decide +kernel)
  intro x y w
  rw [← this x y w, rmzero, den_or, den_del, den_del, den_tab]
  simp; tauto

theorem len1 {ds : List Nat} (h : ds.length = 1) : ∃ a, ds = [a] := List.length_eq_one_iff.1 h
theorem len2 {ds : List Nat} (h : ds.length = 2) : ∃ a b, ds = [a, b] := List.length_eq_two.1 h
theorem len3 {ds : List Nat} (h : ds.length = 3) : ∃ a b c, ds = [a, b, c] := List.length_eq_three.1 h
theorem len4 {ds : List Nat} (h : ds.length = 4) : ∃ a b c d, ds = [a, b, c, d] := by
  match ds, h with
  | [a, b, c, d], _ => exact ⟨a, b, c, d, rfl⟩

/-- Functions of two, three and four digits. -/
def on2 {α} [Inhabited α] (f : Nat → Nat → α) : List Nat → α | [a, b] => f a b | _ => default
def on3 {α} [Inhabited α] (f : Nat → Nat → Nat → α) : List Nat → α | [a, b, c] => f a b c | _ => default
def on4 {α} [Inhabited α] (f : Nat → Nat → Nat → Nat → α) : List Nat → α
  | [a, b, c, d] => f a b c d | _ => default

theorem reads_digits : Reads digits [false] (fun _ => true) (fun ds => [digitName (ds.headD 0)]) := by
  refine (reads_zero.alt reads_digit ?_).congr ?_ ?_
  · intro ds _ h1 h2; simp at h1 h2; exact absurd h1 h2
  · intro ds h; obtain ⟨a, rfl⟩ := len1 h; by_cases h : a = 0 <;> simp [h]
  · intro ds h _; obtain ⟨a, rfl⟩ := len1 h; by_cases h : a = 0 <;> simp [h, digitName]

theorem reads_one : Reads (digitG ||| rmzero) [false] (fun _ => true) (fun ds => full [] (ds.headD 0)) := by
  refine (reads_digit.alt reads_rmzero ?_).congr ?_ ?_
  all_goals intro ds h; obtain ⟨a, rfl⟩ := len1 h; by_cases h : a = 0 <;> simp [h, full]

/-- Two, three and four digits. -/
def say2 (a b : Nat) : Str := place '十' a ++ full [] b
def say3 (a b c : Nat) : Str := place '百' a ++ say2 b c
def say4 (a b c d : Nat) : Str := place '千' a ++ say3 b c d
def say4' (a b c d : Nat) : Str := full ['千'] a ++ say3 b c d

theorem mul_place {d : Nat} (u : Char) (h : d ≠ 0) : mul d ++ [u] = place u d := by
  unfold mul place
  by_cases h1 : d = 1 <;> simp [h, h1]

theorem reads_ten : Reads ten [false, false] (on2 fun a _ => a != 0) (on2 say2) := by
  refine ((reads_teen.cat (reads_insert _)).cat reads_one).congr ?_ ?_
  · intro ds h; obtain ⟨a, b, rfl⟩ := len2 h; simp [on2]
  · intro ds h p; obtain ⟨a, b, rfl⟩ := len2 h
    have ha : a ≠ 0 := by simpa [on2] using p
    simp [on2, say2, ← mul_place '十' ha]

theorem reads_rmzero2 : Reads (rmzero.pow 2) [false, false] (on2 fun a b => a == 0 && b == 0) (fun _ => []) := by
  refine (reads_rmzero.cat (reads_rmzero.cat reads_pow_zero)).congr ?_ ?_
  · intro ds h; obtain ⟨a, b, rfl⟩ := len2 h; simp [on2]
  · intro ds h _; rfl

theorem reads_rmzero3 : Reads (rmzero.pow 3) [false, false, false] (on3 fun a b c => a == 0 && b == 0 && c == 0) (fun _ => []) := by
  refine (reads_rmzero.cat reads_rmzero2).congr ?_ ?_
  · intro ds h; obtain ⟨a, b, c, rfl⟩ := len3 h; simp [on2, on3, Bool.and_assoc]
  · intro ds h _; rfl

theorem reads_zero_digit : Reads (rmzero + digitG) [false, false] (on2 fun a b => a == 0 && b != 0)
    (on2 fun _ b => [digitName b]) := by
  refine (reads_rmzero.cat reads_digit).congr ?_ ?_
  · intro ds h; obtain ⟨a, b, rfl⟩ := len2 h; simp [on2]
  · intro ds h _; obtain ⟨a, b, rfl⟩ := len2 h; simp [on2]

theorem reads_two : Reads (ten ||| (rmzero + digitG) ||| rmzero.pow 2) [false, false] (fun _ => true) (on2 say2) := by
  refine ((reads_ten.alt reads_zero_digit ?_).alt reads_rmzero2 ?_).congr ?_ ?_
  all_goals
    intro ds h; obtain ⟨a, b, rfl⟩ := len2 h
    by_cases ha : a = 0 <;> by_cases hb : b = 0 <;> simp [on2, say2, place, full, ha, hb]

theorem reads_hundred : Reads hundred [false, false, false] (on3 fun a _ _ => a != 0) (on3 say3) := by
  refine ((reads_teen.cat (reads_insert _)).cat reads_two).congr ?_ ?_
  · intro ds h; obtain ⟨a, b, c, rfl⟩ := len3 h; simp [on3]
  · intro ds h p; obtain ⟨a, b, c, rfl⟩ := len3 h
    have ha : a ≠ 0 := by simpa [on3] using p
    simp [on2, on3, say3, ← mul_place '百' ha]

theorem reads_hundredPrefix : Reads hundredPrefix [false, true, false] (on3 fun a _ _ => a != 0) (on3 say3) := by
  refine ((reads_teen.cat (reads_insert _)).comma reads_two).congr ?_ ?_
  · intro ds h; obtain ⟨a, b, c, rfl⟩ := len3 h; simp [on3]
  · intro ds h p; obtain ⟨a, b, c, rfl⟩ := len3 h
    have ha : a ≠ 0 := by simpa [on3] using p
    simp [on2, on3, say3, ← mul_place '百' ha]

theorem reads_zero_ten : Reads (rmzero + ten) [false, false, false] (on3 fun a b _ => a == 0 && b != 0)
    (on3 fun _ b c => say2 b c) := by
  refine (reads_rmzero.cat reads_ten).congr ?_ ?_
  · intro ds h; obtain ⟨a, b, c, rfl⟩ := len3 h; simp [on2, on3]
  · intro ds h _; obtain ⟨a, b, c, rfl⟩ := len3 h; simp [on2, on3]

theorem reads_zeros_digit : Reads (rmzero.pow 2 + digitG) [false, false, false]
    (on3 fun a b c => a == 0 && b == 0 && c != 0) (on3 fun _ _ c => [digitName c]) := by
  refine (reads_rmzero2.cat reads_digit).congr ?_ ?_
  · intro ds h; obtain ⟨a, b, c, rfl⟩ := len3 h; simp [on2, on3]
  · intro ds h _; obtain ⟨a, b, c, rfl⟩ := len3 h; simp [on3]

theorem reads_three : Reads (hundred ||| (rmzero + ten) ||| (rmzero.pow 2 + digitG) ||| rmzero.pow 3)
    [false, false, false] (fun _ => true) (on3 say3) := by
  refine (((reads_hundred.alt reads_zero_ten ?_).alt reads_zeros_digit ?_).alt reads_rmzero3 ?_).congr ?_ ?_
  all_goals
    intro ds h; obtain ⟨a, b, c, rfl⟩ := len3 h
    by_cases ha : a = 0 <;> by_cases hb : b = 0 <;> by_cases hc : c = 0 <;>
      simp [on3, say3, say2, place, full, ha, hb, hc]

theorem reads_thousand : Reads thousand [false, true, false, false] (on4 fun a _ _ _ => a != 0) (on4 say4) := by
  refine ((reads_teen.cat (reads_insert _)).comma reads_three).congr ?_ ?_
  · intro ds h; obtain ⟨a, b, c, d, rfl⟩ := len4 h; simp [on4]
  · intro ds h p; obtain ⟨a, b, c, d, rfl⟩ := len4 h
    have ha : a ≠ 0 := by simpa [on4] using p
    simp [on3, on4, say4, ← mul_place '千' ha]

theorem reads_thousandPrefix : Reads thousandPrefix [false, false, true, false] (on4 fun a _ _ _ => a != 0)
    (on4 say4') := by
  have h1 : Reads (rmzero + rmpunct + ten) [false, true, false] (on3 fun a b _ => a == 0 && b != 0)
      (on3 fun _ b c => say2 b c) := by
    refine (reads_rmzero.comma reads_ten).congr ?_ ?_
    · intro ds h; obtain ⟨a, b, c, rfl⟩ := len3 h; simp [on2, on3]
    · intro ds h _; obtain ⟨a, b, c, rfl⟩ := len3 h; simp [on2, on3]
  have h2 : Reads (rmzero + rmpunct + rmzero + digitG) [false, true, false]
      (on3 fun a b c => a == 0 && b == 0 && c != 0) (on3 fun _ _ c => [digitName c]) := by
    refine ((reads_rmzero.comma reads_rmzero).cat reads_digit).congr ?_ ?_
    · intro ds h; obtain ⟨a, b, c, rfl⟩ := len3 h; simp [on3]
    · intro ds h _; obtain ⟨a, b, c, rfl⟩ := len3 h; simp [on3]
  have h3 : Reads (rmzero + rmpunct + rmzero.pow 2) [false, true, false]
      (on3 fun a b c => a == 0 && b == 0 && c == 0) (fun _ => []) := by
    refine (reads_rmzero.comma reads_rmzero2).congr ?_ ?_
    · intro ds h; obtain ⟨a, b, c, rfl⟩ := len3 h; simp [on2, on3, Bool.and_assoc]
    · intro ds h _; rfl
  have h4 : Reads (hundredPrefix ||| (rmzero + rmpunct + ten) ||| (rmzero + rmpunct + rmzero + digitG) |||
      (rmzero + rmpunct + rmzero.pow 2)) [false, true, false] (fun _ => true) (on3 say3) := by
    refine (((reads_hundredPrefix.alt h1 ?_).alt h2 ?_).alt h3 ?_).congr ?_ ?_
    all_goals
      intro ds h; obtain ⟨a, b, c, rfl⟩ := len3 h
      by_cases ha : a = 0 <;> by_cases hb : b = 0 <;> by_cases hc : c = 0 <;>
        simp [on3, say3, say2, place, full, ha, hb, hc]
  refine ((reads_digit.cat (reads_insert _)).cat h4).congr ?_ ?_
  · intro ds h; obtain ⟨a, b, c, d, rfl⟩ := len4 h; simp [on4]
  · intro ds h p; obtain ⟨a, b, c, d, rfl⟩ := len4 h
    have ha : a ≠ 0 := by simpa [on4] using p
    simp [on3, on4, say4', full, ha]

theorem reads_tail : Reads tail [false, true, false, false] (fun _ => true) (on4 say4) := by
  have h1 : Reads (rmzero + rmpunct + hundred) [false, true, false, false] (on4 fun a b _ _ => a == 0 && b != 0)
      (on4 fun _ b c d => say3 b c d) := by
    refine (reads_rmzero.comma reads_hundred).congr ?_ ?_
    · intro ds h; obtain ⟨a, b, c, d, rfl⟩ := len4 h; simp [on3, on4]
    · intro ds h _; obtain ⟨a, b, c, d, rfl⟩ := len4 h; simp [on3, on4]
  have h2 : Reads (rmzero + rmpunct + rmzero + ten) [false, true, false, false]
      (on4 fun a b c _ => a == 0 && b == 0 && c != 0) (on4 fun _ _ c d => say2 c d) := by
    refine ((reads_rmzero.comma reads_rmzero).cat reads_ten).congr ?_ ?_
    · intro ds h; obtain ⟨a, b, c, d, rfl⟩ := len4 h; simp [on2, on4]
    · intro ds h _; obtain ⟨a, b, c, d, rfl⟩ := len4 h; simp [on2, on4]
  have h3 : Reads (rmzero + rmpunct + rmzero + rmzero + digitG) [false, true, false, false]
      (on4 fun a b c d => a == 0 && b == 0 && c == 0 && d != 0) (on4 fun _ _ _ d => [digitName d]) := by
    refine (((reads_rmzero.comma reads_rmzero).cat reads_rmzero).cat reads_digit).congr ?_ ?_
    · intro ds h; obtain ⟨a, b, c, d, rfl⟩ := len4 h; simp [on4]
    · intro ds h _; obtain ⟨a, b, c, d, rfl⟩ := len4 h; simp [on4]
  have h4 : Reads (rmzero + rmpunct + rmzero.pow 3) [false, true, false, false]
      (on4 fun a b c d => a == 0 && b == 0 && c == 0 && d == 0) (fun _ => []) := by
    refine (reads_rmzero.comma reads_rmzero3).congr ?_ ?_
    · intro ds h; obtain ⟨a, b, c, d, rfl⟩ := len4 h; simp [on3, on4, Bool.and_assoc]
    · intro ds h _; rfl
  refine ((((reads_thousand.alt h1 ?_).alt h2 ?_).alt h3 ?_).alt h4 ?_).congr ?_ ?_
  all_goals
    intro ds h; obtain ⟨a, b, c, d, rfl⟩ := len4 h
    by_cases ha : a = 0 <;> by_cases hb : b = 0 <;> by_cases hc : c = 0 <;> by_cases hd : d = 0 <;>
      simp [on4, say4, say3, say2, place, full, ha, hb, hc, hd]

/-! ### Numbers of several lengths -/

/-- Before which digits of the first section a comma may stand: before the last two of three or four. -/
def headMask : Nat → List Bool
  | 3 => [false, true, false]
  | 4 => [false, false, true, false]
  | k => List.replicate k false

/-- What is said for the first section. -/
def sayHead : List Nat → Str
  | [a] => [digitName a]
  | [a, b] => say2 a b
  | [a, b, c] => say3 a b c
  | [a, b, c, d] => say4' a b c d
  | _ => []

/-- One to four digits, the first not zero. -/
def HeadOk (ds : List Nat) : Prop := 1 ≤ ds.length ∧ ds.length ≤ 4 ∧ ds.headD 0 ≠ 0

theorem den_head {x y : Str} {w : W} : head.den x y w ↔
    ∃ ds, HeadOk ds ∧ Commas (headMask ds.length) x ds ∧ y = sayHead ds ∧ w = 0 := by
  unfold head
  rw [den_or, den_or, den_or, reads_thousandPrefix x y w, reads_hundredPrefix x y w, reads_ten x y w,
    reads_digit x y w]
  constructor
  · rintro (((⟨ds, v, p, rfl, rfl⟩ | ⟨ds, v, p, rfl, rfl⟩) | ⟨ds, v, p, rfl, rfl⟩) | ⟨ds, v, p, rfl, rfl⟩)
    · obtain ⟨a, b, c, d, rfl⟩ := len4 v.length
      exact ⟨[a, b, c, d], ⟨by simp, by simp, by simpa [on4] using p⟩, v, rfl, rfl⟩
    · obtain ⟨a, b, c, rfl⟩ := len3 v.length
      exact ⟨[a, b, c], ⟨by simp, by simp, by simpa [on3] using p⟩, v, rfl, rfl⟩
    · obtain ⟨a, b, rfl⟩ := len2 v.length
      exact ⟨[a, b], ⟨by simp, by simp, by simpa [on2] using p⟩, v, rfl, rfl⟩
    · obtain ⟨a, rfl⟩ := len1 v.length
      exact ⟨[a], ⟨by simp, by simp, by simpa using p⟩, v, rfl, rfl⟩
  · rintro ⟨ds, ⟨h1, h4, hz⟩, v, rfl, rfl⟩
    match ds, h1, h4, hz, v with
    | [a], _, _, hz, v => exact .inr ⟨_, v, by simpa using hz, rfl, rfl⟩
    | [a, b], _, _, hz, v => exact .inl (.inr ⟨_, v, by simpa [on2] using hz, rfl, rfl⟩)
    | [a, b, c], _, _, hz, v => exact .inl (.inl (.inr ⟨_, v, by simpa [on3] using hz, rfl, rfl⟩))
    | [a, b, c, d], _, _, hz, v => exact .inl (.inl (.inl ⟨_, v, by simpa [on4] using hz, rfl, rfl⟩))

theorem den_tenThousand {x y : Str} {w : W} : tenThousand.den x y w ↔
    ∃ hs ts, HeadOk hs ∧ ts.length = 4 ∧ Commas (headMask hs.length ++ [false, true, false, false]) x (hs ++ ts) ∧
      y = sayHead hs ++ '万' :: on4 say4 ts ∧ w = 0 := by
  unfold tenThousand
  constructor
  · rintro ⟨_, _, _, x₂, y₂, w₂, h1, h2, rfl, rfl, rfl⟩
    obtain ⟨y₁, rfl, h1'⟩ := den_add_insert.1 h1
    obtain ⟨hs, ho, v1, rfl, rfl⟩ := den_head.1 h1'
    obtain ⟨ts, v2, _, rfl, rfl⟩ := (reads_tail _ _ _).1 h2
    exact ⟨hs, ts, ho, v2.length, v1.append v2, by simp, by simp⟩
  · rintro ⟨hs, ts, ho, ht, v, rfl, rfl⟩
    obtain ⟨x₁, x₂, rfl, v1, v2⟩ := v.split
    have hl : (headMask hs.length).length = hs.length := by
      unfold headMask
      split <;> simp_all
    rw [hl] at v1 v2
    simp only [List.take_left', List.drop_left'] at v1 v2
    exact ⟨x₁, _, 0, x₂, _, 0, den_add_insert.2 ⟨_, rfl, den_head.2 ⟨hs, ho, v1, rfl, rfl⟩⟩,
      (reads_tail _ _ _).2 ⟨ts, v2, rfl, rfl, rfl⟩, rfl, by simp, rfl⟩

theorem reads_tail8 : Reads (rmzero.pow 2 + (rmpunct + (rmzero.pow 2 + tail)))
    [false, false, true, false, false, true, false, false]
    (fun ds => on4 (fun a b c d => a == 0 && b == 0 && c == 0 && d == 0) (ds.take 4))
    (fun ds => on4 say4 (ds.drop 4)) := by
  refine (reads_rmzero2.cat (reads_rmzero2.cat reads_tail).after).congr ?_ ?_
  · intro ds h
    match ds, h with
    | [a, b, c, d, e, f, g, i], _ => simp [on2, on4, Bool.and_assoc]
  · intro ds h _
    match ds, h with
    | [a, b, c, d, e, f, g, i], _ => simp [on4]

theorem den_hundredMillion {x y : Str} {w : W} : hundredMillion.den x y w ↔
    ∃ hs ts, HeadOk hs ∧ ts.length = 4 ∧
      Commas (headMask hs.length ++ [false, false, true, false, false, true, false, false]) x
        (hs ++ ([0, 0, 0, 0] ++ ts)) ∧
      y = sayHead hs ++ '億' :: on4 say4 ts ∧ w = 0 := by
  unfold hundredMillion
  rw [add_assoc, add_assoc, add_assoc]
  constructor
  · rintro ⟨_, _, _, x₂, y₂, w₂, h1, h2, rfl, rfl, rfl⟩
    obtain ⟨y₁, rfl, h1'⟩ := den_add_insert.1 h1
    obtain ⟨hs, ho, v1, rfl, rfl⟩ := den_head.1 h1'
    obtain ⟨es, v2, p, rfl, rfl⟩ := (reads_tail8 _ _ _).1 h2
    match es, v2.length, v2, p with
    | [a, b, c, d, e, f, g, i], _, v2, p =>
      have : a = 0 ∧ b = 0 ∧ c = 0 ∧ d = 0 := by simpa [on4, and_assoc] using p
      obtain ⟨rfl, rfl, rfl, rfl⟩ := this
      exact ⟨hs, [e, f, g, i], ho, rfl, v1.append v2, by simp, by simp⟩
  · rintro ⟨hs, ts, ho, ht, v, rfl, rfl⟩
    obtain ⟨x₁, x₂, rfl, v1, v2⟩ := v.split
    have hl : (headMask hs.length).length = hs.length := by
      unfold headMask
      split <;> simp_all
    rw [hl] at v1 v2
    simp only [List.take_left', List.drop_left'] at v1 v2
    exact ⟨x₁, _, 0, x₂, _, 0, den_add_insert.2 ⟨_, rfl, den_head.2 ⟨hs, ho, v1, rfl, rfl⟩⟩,
      (reads_tail8 _ _ _).2 ⟨_, v2, by simp [on4], rfl, rfl⟩, rfl, by simp, rfl⟩

end Verif.JaTn
