import Verif.ZhTn.Model
import Verif.ZhTn.Spec
import Verif.Wfst.Lemmas

/-
The integers of the Chinese number grammar: which digit strings it reads and what it writes.
-/

namespace Verif.ZhTn

open Verif.Wfst Spec

/-- The values of the digits of a text. -/
def Vals (x : Str) (ds : List Nat) : Prop := x.map digitVal = ds.map some

theorem Vals.length {x ds} (h : Vals x ds) : x.length = ds.length := by
  simpa using congrArg List.length h

theorem Vals.append {x ds x' ds'} (h : Vals x ds) (h' : Vals x' ds') : Vals (x ++ x') (ds ++ ds') := by
  simp only [Vals, List.map_append] at *; rw [h, h']

theorem Vals.take {x ds} (h : Vals x ds) (k : Nat) : Vals (x.take k) (ds.take k) := by
  simp only [Vals, List.map_take] at *; rw [h]

theorem Vals.drop {x ds} (h : Vals x ds) (k : Nat) : Vals (x.drop k) (ds.drop k) := by
  simp only [Vals, List.map_drop] at *; rw [h]

theorem Vals.unique {x ds ds'} (h : Vals x ds) (h' : Vals x ds') : ds = ds' := by
  have := h.symm.trans h'
  exact List.map_injective_iff.2 (fun _ _ h => Option.some.inj h) this

theorem vals_singleton {x : Str} {d : Nat} : Vals x [d] ↔ ∃ c, x = [c] ∧ digitVal c = some d := by
  constructor
  · intro h
    obtain ⟨c, rfl⟩ := List.length_eq_one_iff.1 h.length
    exact ⟨c, rfl, by simpa [Vals] using h⟩
  · rintro ⟨c, rfl, h⟩; simpa [Vals] using h

theorem vals_nil {x : Str} : Vals x [] ↔ x = [] := by simp [Vals]

/-- A grammar that reads exactly the texts of `k` digits whose values satisfy `P` and writes `f` of them. -/
def Reads (g : G) (k : Nat) (P : List Nat → Bool) (f : List Nat → Str) : Prop :=
  ∀ x y w, g.den x y w ↔ ∃ ds, Vals x ds ∧ ds.length = k ∧ P ds ∧ y = f ds ∧ w = 0

theorem Reads.congr {g k P f P' f'} (h : Reads g k P f) (hP : ∀ ds, ds.length = k → P ds = P' ds)
    (hf : ∀ ds, ds.length = k → P' ds → f ds = f' ds) : Reads g k P' f' := by
  intro x y w
  rw [h x y w]
  constructor
  · rintro ⟨ds, h1, hk, h2, rfl, rfl⟩
    have h2' := (hP ds hk).symm.trans h2
    exact ⟨ds, h1, hk, h2', hf ds hk h2', rfl⟩
  · rintro ⟨ds, h1, hk, h2, rfl, rfl⟩
    exact ⟨ds, h1, hk, (hP ds hk).trans h2, (hf ds hk h2).symm, rfl⟩

theorem Reads.alt {a b k P f Q g} (h : Reads a k P f) (h' : Reads b k Q g)
    (hd : ∀ ds, ds.length = k → P ds → Q ds → f ds = g ds) :
    Reads (a ||| b) k (fun ds => P ds || Q ds) (fun ds => if P ds then f ds else g ds) := by
  intro x y w
  rw [den_or, h x y w, h' x y w]
  constructor
  · rintro (⟨ds, h1, hk, h2, rfl, rfl⟩ | ⟨ds, h1, hk, h2, rfl, rfl⟩)
    · exact ⟨ds, h1, hk, by simp [h2], by simp [h2], rfl⟩
    · refine ⟨ds, h1, hk, by simp [h2], ?_, rfl⟩
      by_cases hp : P ds = true
      · simp only [hp, if_true]; exact (hd ds hk hp h2).symm
      · simp [hp]
  · rintro ⟨ds, h1, hk, h2, rfl, rfl⟩
    by_cases hp : P ds = true
    · exact Or.inl ⟨ds, h1, hk, hp, by simp [hp], rfl⟩
    · exact Or.inr ⟨ds, h1, hk, by simpa [hp] using h2, by simp [hp], rfl⟩

theorem Reads.cat {a b k l P f Q g} (h : Reads a k P f) (h' : Reads b l Q g) :
    Reads (a + b) (k + l) (fun ds => P (ds.take k) && Q (ds.drop k))
      (fun ds => f (ds.take k) ++ g (ds.drop k)) := by
  intro x y w
  constructor
  · rintro ⟨x₁, y₁, w₁, x₂, y₂, w₂, h1, h2, rfl, rfl, rfl⟩
    obtain ⟨ds, v1, rfl, p1, rfl, rfl⟩ := (h _ _ _).1 h1
    obtain ⟨es, v2, rfl, p2, rfl, rfl⟩ := (h' _ _ _).1 h2
    exact ⟨ds ++ es, v1.append v2, by simp, by simp [p1, p2], by simp, by simp⟩
  · rintro ⟨ds, v, hk, p, rfl, rfl⟩
    simp only [Bool.and_eq_true] at p
    exact ⟨x.take k, _, 0, x.drop k, _, 0, (h _ _ _).2 ⟨_, v.take _, by simp [hk], p.1, rfl, rfl⟩,
      (h' _ _ _).2 ⟨_, v.drop _, by simp [hk], p.2, rfl, rfl⟩, by simp, rfl, rfl⟩

theorem reads_insert (v : Str) : Reads (insert v) 0 (fun _ => true) (fun _ => v) := by
  intro x y w
  rw [den_insert]
  constructor
  · rintro ⟨rfl, rfl, rfl⟩; exact ⟨[], vals_nil.2 rfl, rfl, rfl, rfl, rfl⟩
  · rintro ⟨ds, h1, h0, _, rfl, rfl⟩
    have : ds = [] := by simpa using h0
    subst this
    exact ⟨vals_nil.1 h1, rfl, rfl⟩

theorem reads_pow_zero {a : G} : Reads (a.pow 0) 0 (fun _ => true) (fun _ => []) := by
  intro x y w
  rw [← reads_insert [] x y w, den_insert]; rfl

/-- The spoken form of a digit. -/
def num : Nat → Char
  | 0 => '零' | 1 => '一' | 2 => '二' | 3 => '三' | 4 => '四' | 5 => '五' | 6 => '六' | 7 => '七' | 8 => '八'
  | _ => '九'

/-- A table of single digits. -/
theorem reads_tab {t : List (Str × Str)} {p : Nat → Bool} {f : Nat → Str}
    (h : ∀ e ∈ t, ∃ c d, e.1 = [c] ∧ digitVal c = some d ∧ p d = true ∧ e.2 = f d)
    (h' : ∀ e ∈ digitTable, p e.2 = true → ([e.1], f e.2) ∈ t) :
    Reads (.tab t) 1 (fun ds => p (ds.headD 0)) (fun ds => f (ds.headD 0)) := by
  intro x y w
  rw [den_tab]
  constructor
  · rintro ⟨hm, rfl⟩
    obtain ⟨c, d, h1, h2, h3, h4⟩ := h _ hm
    dsimp only at h1 h4
    subst h1 h4
    exact ⟨[d], vals_singleton.2 ⟨c, rfl, h2⟩, rfl, h3, rfl, rfl⟩
  · rintro ⟨ds, h1, hk, h2, rfl, rfl⟩
    match ds, hk, h1, h2 with
    | [d], _, h1, h2 =>
      obtain ⟨c, rfl, hc⟩ := vals_singleton.1 h1
      have hm : (c, d) ∈ digitTable := by
        obtain ⟨l₁, l₂, h, _⟩ := List.lookup_eq_some_iff.1 hc
        rw [h]; simp
      exact ⟨h' _ hm h2, rfl⟩

theorem reads_digit : Reads digitG 1 (fun ds => ds.headD 0 != 0) (fun ds => [num (ds.headD 0)]) := by
  refine reads_tab (p := fun d => d != 0) (f := fun d => [num d]) ?_ ?_
  · have : ∀ e ∈ digit, ∃ c ∈ digitTable, e.1 = [c.1] ∧ digitVal c.1 = some c.2 ∧ (c.2 != 0) = true ∧
        e.2 = [num c.2] := by decide +kernel
    intro e he
    obtain ⟨c, _, h⟩ := this e he
    exact ⟨_, _, h⟩
  · decide +kernel

theorem reads_zero : Reads zeroG 1 (fun ds => ds.headD 0 == 0) (fun _ => ['零']) := by
  refine reads_tab (p := fun d => d == 0) (f := fun _ => ['零']) ?_ ?_
  · have : ∀ e ∈ zero, ∃ c ∈ digitTable, e.1 = [c.1] ∧ digitVal c.1 = some c.2 ∧ (c.2 == 0) = true ∧
        e.2 = ['零'] := by decide +kernel
    intro e he
    obtain ⟨c, _, h⟩ := this e he
    exact ⟨_, _, h⟩
  · decide +kernel

theorem reads_teen : Reads teenG 1 (fun ds => ds.headD 0 != 0)
    (fun ds => if ds.headD 0 = 1 then [] else [num (ds.headD 0)]) := by
  refine reads_tab (p := fun d => d != 0) (f := fun d => if d = 1 then [] else [num d]) ?_ ?_
  · have : ∀ e ∈ teen, ∃ c ∈ digitTable, e.1 = [c.1] ∧ digitVal c.1 = some c.2 ∧ (c.2 != 0) = true ∧
        e.2 = if c.2 = 1 then [] else [num c.2] := by decide +kernel
    intro e he
    obtain ⟨c, _, h⟩ := this e he
    exact ⟨_, _, h⟩
  · decide +kernel

theorem reads_rmzero : Reads rmzero 1 (fun ds => ds.headD 0 == 0) (fun _ => []) := by
  have := reads_tab (t := [(t!"0", []), (t!"０", [])]) (p := fun d => d == 0) (f := fun _ => []) ?_ ?_
  · intro x y w
    rw [← this x y w, rmzero, den_or, den_del, den_del, den_tab]
    simp; tauto
  · have : ∀ e ∈ [(t!"0", ([] : Str)), (t!"０", [])], ∃ c ∈ digitTable, e.1 = [c.1] ∧
        digitVal c.1 = some c.2 ∧ (c.2 == 0) = true ∧ e.2 = [] := by decide +kernel
    intro e he
    obtain ⟨c, _, h⟩ := this e he
    exact ⟨_, _, h⟩
  · decide +kernel

theorem reads_digits : Reads digits 1 (fun _ => true) (fun ds => [num (ds.headD 0)]) := by
  refine (reads_zero.alt reads_digit ?_).congr ?_ ?_
  · intro ds _ h1 h2; simp at h1 h2; exact absurd h1 h2
  · intro ds h; obtain ⟨a, rfl⟩ := List.length_eq_one_iff.1 h; by_cases h : a = 0 <;> simp [h]
  · intro ds h _; obtain ⟨a, rfl⟩ := List.length_eq_one_iff.1 h; by_cases h : a = 0 <;> simp [h, num]

/-! What is written after a unit, by the number of digits that follow. -/

def tail1 (c : Nat) : Str := if c = 0 then [] else [num c]
def say2 (b c : Nat) : Str := num b :: '十' :: tail1 c
def tail2 (b c : Nat) : Str := if b ≠ 0 then say2 b c else if c ≠ 0 then ['零', num c] else []
def say3 (a b c : Nat) : Str := num a :: '百' :: tail2 b c
def tail3 (a b c : Nat) : Str :=
  if a ≠ 0 then say3 a b c else if b ≠ 0 then '零' :: say2 b c else if c ≠ 0 then ['零', num c] else []
def say4 (a b c d : Nat) : Str := num a :: '千' :: tail3 b c d
def tail4 (a b c d : Nat) : Str :=
  if a ≠ 0 then say4 a b c d else if b ≠ 0 then '零' :: say3 b c d else if c ≠ 0 then '零' :: say2 c d
  else if d ≠ 0 then ['零', num d] else []

/-- Functions of two, three and four digits. -/
def on2 {α} [Inhabited α] (f : Nat → Nat → α) : List Nat → α | [a, b] => f a b | _ => default
def on3 {α} [Inhabited α] (f : Nat → Nat → Nat → α) : List Nat → α | [a, b, c] => f a b c | _ => default
def on4 {α} [Inhabited α] (f : Nat → Nat → Nat → Nat → α) : List Nat → α
  | [a, b, c, d] => f a b c d | _ => default

theorem reads_tail1 : Reads (digitG ||| rmzero) 1 (fun _ => true) (fun ds => tail1 (ds.headD 0)) := by
  refine (reads_digit.alt reads_rmzero ?_).congr ?_ ?_
  · intro ds _ h1 h2; simp at h1 h2; exact absurd h2 h1
  · intro ds h; obtain ⟨a, rfl⟩ := List.length_eq_one_iff.1 h; by_cases h : a = 0 <;> simp [h]
  · intro ds h _; obtain ⟨a, rfl⟩ := List.length_eq_one_iff.1 h; by_cases h : a = 0 <;> simp [h, tail1]

theorem len2 {ds : List Nat} (h : ds.length = 2) : ∃ a b, ds = [a, b] := List.length_eq_two.1 h
theorem len3 {ds : List Nat} (h : ds.length = 3) : ∃ a b c, ds = [a, b, c] := List.length_eq_three.1 h
theorem len4 {ds : List Nat} (h : ds.length = 4) : ∃ a b c d, ds = [a, b, c, d] := by
  match ds, h with
  | [a, b, c, d], _ => exact ⟨a, b, c, d, rfl⟩

theorem reads_tens : Reads tens 2 (on2 fun a _ => a != 0) (on2 say2) := by
  refine ((reads_digit.cat (reads_insert _)).cat reads_tail1).congr ?_ ?_
  · intro ds h; obtain ⟨a, b, rfl⟩ := len2 h; simp [on2]
  · intro ds h _; obtain ⟨a, b, rfl⟩ := len2 h; simp [on2, say2]

theorem reads_ten : Reads ten 2 (on2 fun a _ => a != 0)
    (on2 fun a b => (if a = 1 then [] else [num a]) ++ '十' :: tail1 b) := by
  refine ((reads_teen.cat (reads_insert _)).cat reads_tail1).congr ?_ ?_
  · intro ds h; obtain ⟨a, b, rfl⟩ := len2 h; simp [on2]
  · intro ds h _; obtain ⟨a, b, rfl⟩ := len2 h; simp [on2]

theorem reads_rmzero2 : Reads (rmzero.pow 2) 2 (on2 fun a b => a == 0 && b == 0) (fun _ => []) := by
  refine (reads_rmzero.cat (reads_rmzero.cat reads_pow_zero)).congr ?_ ?_
  · intro ds h; obtain ⟨a, b, rfl⟩ := len2 h; simp [on2]
  · intro ds h _; rfl

theorem reads_rmzero3 : Reads (rmzero.pow 3) 3 (on3 fun a b c => a == 0 && b == 0 && c == 0) (fun _ => []) := by
  refine (reads_rmzero.cat reads_rmzero2).congr ?_ ?_
  · intro ds h; obtain ⟨a, b, c, rfl⟩ := len3 h; simp [on2, on3, Bool.and_assoc]
  · intro ds h _; rfl

theorem reads_rmzero4 : Reads (rmzero.pow 4) 4
    (on4 fun a b c d => a == 0 && b == 0 && c == 0 && d == 0) (fun _ => []) := by
  refine (reads_rmzero.cat reads_rmzero3).congr ?_ ?_
  · intro ds h; obtain ⟨a, b, c, d, rfl⟩ := len4 h; simp [on3, on4, Bool.and_assoc]
  · intro ds h _; rfl

theorem reads_zero_digit : Reads (zeroG + digitG) 2 (on2 fun a b => a == 0 && b != 0)
    (on2 fun _ b => ['零', num b]) := by
  refine (reads_zero.cat reads_digit).congr ?_ ?_
  · intro ds h; obtain ⟨a, b, rfl⟩ := len2 h; simp [on2]
  · intro ds h _; obtain ⟨a, b, rfl⟩ := len2 h; simp [on2]

theorem reads_hundred : Reads hundred 3 (on3 fun a _ _ => a != 0) (on3 say3) := by
  have h2 : Reads (tens ||| (zeroG + digitG) ||| rmzero.pow 2) 2 (fun _ => true) (on2 tail2) := by
    refine ((reads_tens.alt reads_zero_digit ?_).alt reads_rmzero2 ?_).congr ?_ ?_
    all_goals
      intro ds h; obtain ⟨a, b, rfl⟩ := len2 h
      by_cases ha : a = 0 <;> by_cases hb : b = 0 <;> simp [on2, tail2, ha, hb]
  refine ((reads_digit.cat (reads_insert _)).cat h2).congr ?_ ?_
  · intro ds h; obtain ⟨a, b, c, rfl⟩ := len3 h; simp [on3]
  · intro ds h _; obtain ⟨a, b, c, rfl⟩ := len3 h; simp [on2, on3, say3]

theorem reads_zero_tens : Reads (zeroG + tens) 3 (on3 fun a b _ => a == 0 && b != 0)
    (on3 fun _ b c => '零' :: say2 b c) := by
  refine (reads_zero.cat reads_tens).congr ?_ ?_
  · intro ds h; obtain ⟨a, b, c, rfl⟩ := len3 h; simp [on3, on2]
  · intro ds h _; obtain ⟨a, b, c, rfl⟩ := len3 h; simp [on3, on2]

theorem reads_zero_zero_digit : Reads (rmzero + zeroG + digitG) 3
    (on3 fun a b c => a == 0 && b == 0 && c != 0) (on3 fun _ _ c => ['零', num c]) := by
  refine ((reads_rmzero.cat reads_zero).cat reads_digit).congr ?_ ?_
  · intro ds h; obtain ⟨a, b, c, rfl⟩ := len3 h; simp [on3]
  · intro ds h _; obtain ⟨a, b, c, rfl⟩ := len3 h; simp [on3]

theorem reads_thousand : Reads thousand 4 (on4 fun a _ _ _ => a != 0) (on4 say4) := by
  have h3 : Reads (hundred ||| (zeroG + tens) ||| (rmzero + zeroG + digitG) ||| rmzero.pow 3) 3
      (fun _ => true) (on3 tail3) := by
    refine (((reads_hundred.alt reads_zero_tens ?_).alt reads_zero_zero_digit ?_).alt
      reads_rmzero3 ?_).congr ?_ ?_
    all_goals
      intro ds h; obtain ⟨a, b, c, rfl⟩ := len3 h
      by_cases ha : a = 0 <;> by_cases hb : b = 0 <;> by_cases hc : c = 0 <;>
        simp [on3, tail3, ha, hb, hc]
  refine ((reads_digit.cat (reads_insert _)).cat h3).congr ?_ ?_
  · intro ds h; obtain ⟨a, b, c, d, rfl⟩ := len4 h; simp [on4]
  · intro ds h _; obtain ⟨a, b, c, d, rfl⟩ := len4 h; simp [on3, on4, say4]

theorem reads_zero_hundred : Reads (zeroG + hundred) 4 (on4 fun a b _ _ => a == 0 && b != 0)
    (on4 fun _ b c d => '零' :: say3 b c d) := by
  refine (reads_zero.cat reads_hundred).congr ?_ ?_
  · intro ds h; obtain ⟨a, b, c, d, rfl⟩ := len4 h; simp [on3, on4]
  · intro ds h _; obtain ⟨a, b, c, d, rfl⟩ := len4 h; simp [on3, on4]

theorem reads_zero_zero_tens : Reads (rmzero + zeroG + tens) 4
    (on4 fun a b c _ => a == 0 && b == 0 && c != 0) (on4 fun _ _ c d => '零' :: say2 c d) := by
  refine ((reads_rmzero.cat reads_zero).cat reads_tens).congr ?_ ?_
  · intro ds h; obtain ⟨a, b, c, d, rfl⟩ := len4 h; simp [on2, on4]
  · intro ds h _; obtain ⟨a, b, c, d, rfl⟩ := len4 h; simp [on2, on4]

theorem reads_zeros_digit : Reads (rmzero.pow 2 + zeroG + digitG) 4
    (on4 fun a b c d => a == 0 && b == 0 && c == 0 && d != 0) (on4 fun _ _ _ d => ['零', num d]) := by
  refine ((reads_rmzero2.cat reads_zero).cat reads_digit).congr ?_ ?_
  · intro ds h; obtain ⟨a, b, c, d, rfl⟩ := len4 h; simp [on2, on4]
  · intro ds h _; obtain ⟨a, b, c, d, rfl⟩ := len4 h; simp [on4]

theorem reads_fourNonzero : Reads fourNonzero 4
    (on4 fun a b c d => a != 0 || b != 0 || c != 0 || d != 0) (on4 tail4) := by
  refine (((reads_thousand.alt reads_zero_hundred ?_).alt reads_zero_zero_tens ?_).alt
    reads_zeros_digit ?_).congr ?_ ?_
  all_goals
    intro ds h; obtain ⟨a, b, c, d, rfl⟩ := len4 h
    by_cases ha : a = 0 <;> by_cases hb : b = 0 <;> by_cases hc : c = 0 <;> by_cases hd : d = 0 <;>
      simp [on4, tail4, ha, hb, hc, hd, bne, beq_eq_false_iff_ne.2]

theorem reads_fourAny : Reads fourAny 4 (fun _ => true) (on4 tail4) := by
  refine (reads_fourNonzero.alt reads_rmzero4 ?_).congr ?_ ?_
  all_goals
    intro ds h; obtain ⟨a, b, c, d, rfl⟩ := len4 h
    by_cases ha : a = 0 <;> by_cases hb : b = 0 <;> by_cases hc : c = 0 <;> by_cases hd : d = 0 <;>
      simp [on4, tail4, ha, hb, hc, hd]

end Verif.ZhTn
