import Verif.JaItn.Model
import Verif.JaItn.NumberSpec
import Verif.Wfst.Run
import Verif.Wfst.Shun

/-
What the Japanese inverse grammar writes for the names of numbers. Below a thousand every name is run through the
grammars; above, the units 千, 万 and 億 say where a name is cut.
-/

namespace Verif.JaItn

open Verif.Wfst
open Verif.JaItn.Spec
open Verif.JaTn.Spec (place full below big japanese digitName)

/-! ### One result or none -/

/-- `y` is the only thing that is written for `x`. -/
def Exactly (g : G) (x y : Str) : Prop := ∀ y' w, g.den x y' w ↔ y' = y ∧ w = 0
/-- Nothing is written for `x`. -/
def Never (g : G) (x : Str) : Prop := ∀ y w, ¬ g.den x y w

theorem Exactly.left {a b : G} {x y : Str} (ha : Exactly a x y) (hb : Never b x) : Exactly (a ||| b) x y := by
  intro y' w
  rw [den_or, ha]
  exact ⟨fun h => h.elim id fun h => (hb _ _ h).elim, .inl⟩

theorem Exactly.right {a b : G} {x y : Str} (ha : Never a x) (hb : Exactly b x y) : Exactly (a ||| b) x y := by
  intro y' w
  rw [den_or, hb]
  exact ⟨fun h => h.elim (fun h => (ha _ _ h).elim) id, .inr⟩

theorem Never.or {a b : G} {x : Str} (ha : Never a x) (hb : Never b x) : Never (a ||| b) x :=
  fun _ _ h => h.elim (ha _ _) (hb _ _)

theorem never_shuns {g : G} {q x : Str} (h : shuns q g = true) {c : Char} (hc : c ∈ x) (hq : c ∈ q) : Never g x :=
  fun _ _ hd => shuns_den h hd c hc hq

theorem never_must {g : G} {q x : Str} (h : must q g = true) (hx : ∀ c ∈ x, c ∉ q) : Never g x := fun _ _ hd => by
  obtain ⟨c, hc, hq⟩ := must_den h hd
  exact hx c hc hq

/-- The check by running. -/
def runsTo (g : G) (x y : Str) : Bool := !(g.outputs x).isEmpty && (g.outputs x).all fun e => e.1 == y && e.2 == 0

theorem exactly_run {g : G} (hok : g.ok = true) {x y : Str} (h : runsTo g x y = true) : Exactly g x y := by
  simp only [runsTo, Bool.and_eq_true, Bool.not_eq_true', List.all_eq_true, beq_iff_eq] at h
  intro y' w
  rw [← mem_outputs hok]
  constructor
  · intro hm; exact h.2 _ hm
  · rintro ⟨rfl, rfl⟩
    cases e : g.outputs x with
    | nil => rw [e] at h; cases h.1
    | cons a l =>
      have := h.2 a (by rw [e]; simp)
      obtain ⟨h1, h2⟩ := this
      obtain ⟨a1, a2⟩ := a
      simp only at h1 h2
      subst h1 h2
      simp

theorem never_run {g : G} (hok : g.ok = true) {x : Str} (h : (g.outputs x).isEmpty = true) : Never g x := by
  intro y w hd
  rw [← mem_outputs hok, List.isEmpty_iff.1 h] at hd
  cases hd

/-! ### Cutting at a unit -/

theorem cut_at {c : Char} {u v u' v' : Str} (hu : c ∉ u) (hu' : c ∉ u') (h : u ++ c :: v = u' ++ c :: v') :
    u = u' ∧ v = v' := by
  induction u generalizing u' with
  | nil =>
    cases u' with
    | nil => exact ⟨rfl, (List.cons.inj h).2⟩
    | cons a u' => exact absurd (List.cons.inj h).1 (fun e => hu' (by simp [e]))
  | cons a u ih =>
    cases u' with
    | nil => exact absurd (List.cons.inj h).1 (fun e => hu (by simp [e]))
    | cons b u' =>
      obtain ⟨rfl, e⟩ := List.cons.inj h
      obtain ⟨rfl, rfl⟩ := ih (fun h => hu (by simp [h])) (fun h => hu' (by simp [h])) e
      exact ⟨rfl, rfl⟩

/-- A unit between two parts. -/
theorem exactly_unit {a s b : G} {c : Char} {t u v y z : Str} (ha : shuns [c] a = true) (hu : c ∉ u)
    (hs : ∀ x y' w, s.den x y' w ↔ x = [c] ∧ y' = t ∧ w = 0) (h1 : Exactly a u y) (h2 : Exactly b v z) :
    Exactly (a + s + b) (u ++ c :: v) (y ++ t ++ z) := by
  intro y' w
  constructor
  · rintro ⟨_, _, _, x₃, y₃, w₃, ⟨x₁, y₁, w₁, x₂, y₂, w₂, g1, g2, rfl, rfl, rfl⟩, g3, e, rfl, rfl⟩
    obtain ⟨rfl, rfl, rfl⟩ := (hs _ _ _).1 g2
    have hx : c ∉ x₁ := fun hc => shuns_den ha g1 c hc (by simp)
    obtain ⟨rfl, rfl⟩ := cut_at hu hx (by simpa using e)
    obtain ⟨rfl, rfl⟩ := (h1 _ _).1 g1
    obtain ⟨rfl, rfl⟩ := (h2 _ _).1 g3
    exact ⟨rfl, rfl⟩
  · rintro ⟨rfl, rfl⟩
    exact ⟨_, _, _, _, _, _, ⟨_, _, _, _, _, _, (h1 y 0).2 ⟨rfl, rfl⟩, (hs _ _ _).2 ⟨rfl, rfl, rfl⟩, rfl, rfl, rfl⟩,
      (h2 z 0).2 ⟨rfl, rfl⟩, by simp, rfl, rfl⟩

theorem never_unit {a s b : G} {c : Char} {t u v : Str} (ha : shuns [c] a = true) (hu : c ∉ u)
    (hs : ∀ x y' w, s.den x y' w ↔ x = [c] ∧ y' = t ∧ w = 0) (h1 : Never a u) : Never (a + s + b) (u ++ c :: v) := by
  rintro y' w ⟨_, _, _, x₃, y₃, w₃, ⟨x₁, y₁, w₁, x₂, y₂, w₂, g1, g2, rfl, rfl, rfl⟩, g3, e, rfl, rfl⟩
  obtain ⟨rfl, rfl, rfl⟩ := (hs _ _ _).1 g2
  have hx : c ∉ x₁ := fun hc => shuns_den ha g1 c hc (by simp)
  obtain ⟨rfl, rfl⟩ := cut_at hu hx (by simpa using e)
  exact h1 _ _ g1

/-! ### Digits -/

theorem toDigits_snoc {n d : Nat} (hn : 0 < n) (hd : d < 10) :
    Nat.toDigits 10 n ++ [Nat.digitChar d] = Nat.toDigits 10 (10 * n + d) := by
  rw [← Nat.toDigits_append_toDigits (by decide) hn hd, Nat.toDigits_of_lt_base hd]

/-- The last `k` digits. -/
def pad : Nat → Nat → Str
  | 0, _ => []
  | k + 1, n => Nat.digitChar (n / 10 ^ k % 10) :: pad k n

theorem pad_mod (k n : Nat) : pad k (n % 10 ^ k) = pad k n := by
  have : ∀ j k, k ≤ j → pad k (n % 10 ^ j) = pad k n := by
    intro j k
    induction k with
    | zero => intro _; rfl
    | succ k ih =>
      intro h
      rw [pad, pad, ih (by omega)]
      congr 2
      obtain ⟨i, rfl⟩ : ∃ i, j = k + (i + 1) := ⟨j - k - 1, by omega⟩
      rw [Nat.pow_add, Nat.mod_mul_right_div_self, Nat.pow_succ, Nat.mod_mul_left_mod]
  exact this k k (Nat.le_refl _)

theorem toDigits_pad {k b n : Nat} (hb : 0 < b) (hn : n < 10 ^ k) :
    Nat.toDigits 10 b ++ pad k n = Nat.toDigits 10 (10 ^ k * b + n) := by
  induction k generalizing b n with
  | zero =>
    obtain rfl : n = 0 := by simpa using hn
    simp [pad]
  | succ k ih =>
    have hpos : 0 < 10 ^ k := Nat.pow_pos (by decide)
    rw [pad, show Nat.toDigits 10 b ++ Nat.digitChar (n / 10 ^ k % 10) :: pad k n =
      (Nat.toDigits 10 b ++ [Nat.digitChar (n / 10 ^ k % 10)]) ++ pad k n by simp, toDigits_snoc hb (Nat.mod_lt _ (by decide)),
      ← pad_mod, ih (by omega) (Nat.mod_lt _ hpos)]
    congr 1
    have h1 : n / 10 ^ k < 10 := by
      rw [Nat.div_lt_iff_lt_mul hpos, Nat.mul_comm]
      rwa [Nat.pow_succ] at hn
    have h2 := Nat.div_add_mod n (10 ^ k)
    rw [Nat.mod_eq_of_lt h1, Nat.mul_add, Nat.pow_succ, ← Nat.mul_assoc, Nat.add_assoc, h2]

/-- A number with `k + 1` digits. -/
theorem pad_all {k n : Nat} (h1 : 10 ^ k ≤ n) (h2 : n < 10 ^ (k + 1)) : pad (k + 1) n = Nat.toDigits 10 n := by
  have hpos : 0 < 10 ^ k := Nat.pow_pos (by decide)
  have h3 : n / 10 ^ k < 10 := by
    rw [Nat.div_lt_iff_lt_mul hpos, Nat.mul_comm]
    rwa [Nat.pow_succ] at h2
  have h4 : 0 < n / 10 ^ k := Nat.div_pos h1 hpos
  rw [pad, Nat.mod_eq_of_lt h3, ← List.singleton_append, ← Nat.toDigits_of_lt_base h3, ← pad_mod, toDigits_pad h4 (Nat.mod_lt _ hpos),
    Nat.div_add_mod]

/-! ### Below a hundred -/

/-- The name of a number below a hundred; zero has none. -/
def lo2 (n : Nat) : Str := place '十' (n / 10 % 10) ++ full [] (n % 10)

/-- The numbers below a hundred. -/
def two : G := teenG ||| tens ||| digits
/-- What follows 千 without those of 百. -/
def rest3 : G := (addzero + tens) ||| (addzero + teenG) ||| (addzero.pow 2 + digits) ||| addzero.pow 3
/-- What follows 万 without those of 百 and 千. -/
def rest4 : G := (addzero.pow 2 + tens) ||| (addzero.pow 2 + teenG) ||| (addzero.pow 3 + digits) ||| addzero.pow 4

theorem run_two : ∀ n < 100, n = 0 ∨ runsTo two (lo2 n) (Nat.toDigits 10 n) = true := by decide +kernel
theorem run_tail2 : ∀ n < 100, runsTo hundredTail (lo2 n) (pad 2 n) = true := by decide +kernel
theorem run_rest3 : ∀ n < 100, runsTo rest3 (lo2 n) (pad 3 n) = true := by decide +kernel
theorem run_rest4 : ∀ n < 100, runsTo rest4 (lo2 n) (pad 4 n) = true := by decide +kernel
theorem lo2_chars : ∀ n < 100, ∀ c ∈ lo2 n, c ∈ t!"一二三四五六七八九十" := by decide +kernel

/-! ### Hundreds and thousands -/

/-- The digit before a unit, if it is said. -/
def lead (one : Bool) (d : Nat) : Str := if d = 1 ∧ one = false then [] else [digitName d]

theorem digit_char {d : Nat} (h1 : 1 ≤ d) (h2 : d < 10) : digitName d ∈ t!"一二三四五六七八九" := by
  have : ∀ d < 10, d = 0 ∨ digitName d ∈ t!"一二三四五六七八九" := by decide
  rcases this d h2 with h | h
  · omega
  · exact h

/-- A digit, a unit and the rest. -/
theorem exactly_lead {h t : G} {c : Char} {one : Bool} {d : Nat} {v z : Str} (hc : c ∉ t!"一二三四五六七八九") (hs : shuns [c] h = true)
    (hd1 : 1 ≤ d) (hd2 : d < 10) (hd : Exactly h [digitName d] [Nat.digitChar d]) (hn : Never h []) (ht : Exactly t v z) :
    Exactly ((h + del [c] + t) ||| (crossS [c] t!"1" + t)) (lead one d ++ c :: v) (Nat.digitChar d :: z) := by
  have hdel : ∀ x y' w, (del [c]).den x y' w ↔ x = [c] ∧ y' = [] ∧ w = 0 := fun _ _ _ => den_del
  have hname : c ≠ digitName d := fun e => hc (e ▸ digit_char hd1 hd2)
  unfold lead
  split
  · rename_i e
    obtain ⟨rfl, _⟩ := e
    refine Exactly.right (never_unit (t := []) hs (by simp) hdel hn) ?_
    intro y' w
    constructor
    · rintro ⟨x₁, y₁, w₁, x₂, y₂, w₂, g1, g2, e, rfl, rfl⟩
      obtain ⟨rfl, rfl, rfl⟩ := den_crossS.1 g1
      obtain rfl : x₂ = v := by simpa using e.symm
      obtain ⟨rfl, rfl⟩ := (ht _ _).1 g2
      exact ⟨rfl, rfl⟩
    · rintro ⟨rfl, rfl⟩
      exact ⟨_, _, _, _, _, _, den_crossS.2 ⟨rfl, rfl, rfl⟩, (ht z 0).2 ⟨rfl, rfl⟩, rfl, rfl, rfl⟩
  · refine Exactly.left ?_ ?_
    · have := exactly_unit (t := []) hs (by simpa using hname) hdel hd ht
      simpa using this
    · rintro y' w ⟨x₁, y₁, w₁, x₂, y₂, w₂, g1, g2, e, rfl, rfl⟩
      obtain ⟨rfl, rfl, rfl⟩ := den_crossS.1 g1
      exact hname (List.cons.inj e).1.symm

/-- The name of a number below a thousand; zero has none. -/
def lo3 (n : Nat) : Str := if n < 100 then lo2 n else lead false (n / 100) ++ '百' :: lo2 (n % 100)

theorem place_lead {u : Char} {d : Nat} (h : 1 ≤ d) : place u d = lead false d ++ [u] := by
  unfold place lead
  by_cases h1 : d = 1
  · simp [h1]
  · rw [if_neg (by omega), if_neg h1, if_neg (by simp [h1])]; rfl

theorem lead_chars {one : Bool} {d : Nat} (h1 : 1 ≤ d) (h2 : d < 10) : ∀ c ∈ lead one d, c ∈ t!"一二三四五六七八九" := by
  unfold lead
  split
  · intro c hc; cases hc
  · intro c hc
    rw [List.mem_singleton.1 hc]
    exact digit_char h1 h2

theorem lo3_chars {n : Nat} (h : n < 1000) : ∀ c ∈ lo3 n, c ∈ t!"一二三四五六七八九十百" := by
  have up : ∀ c ∈ t!"一二三四五六七八九十", c ∈ t!"一二三四五六七八九十百" := by decide
  have up' : ∀ c ∈ t!"一二三四五六七八九", c ∈ t!"一二三四五六七八九十百" := by decide
  unfold lo3
  split
  · rename_i h1; exact fun c hc => up c (lo2_chars n h1 c hc)
  · intro c hc
    rcases List.mem_append.1 hc with hc | hc
    · exact up' c (lead_chars (by omega) (by omega) c hc)
    · rcases List.mem_cons.1 hc with rfl | hc
      · decide
      · exact up c (lo2_chars _ (by omega) c hc)

theorem exactly_two {n : Nat} (h0 : n ≠ 0) (h : n < 100) : Exactly two (lo2 n) (Nat.toDigits 10 n) :=
  exactly_run (by decide +kernel) ((run_two n h).resolve_left h0)

theorem exactly_hundred {n : Nat} (h1 : 100 ≤ n) (h2 : n < 1000) : Exactly hundred (lo3 n) (Nat.toDigits 10 n) := by
  have ht := exactly_run (g := hundredTail) (by decide +kernel) (run_tail2 (n % 100) (by omega))
  have hd : Exactly digitG [digitName (n / 100)] [Nat.digitChar (n / 100)] := by
    have : ∀ d < 10, d = 0 ∨ runsTo digitG [digitName d] [Nat.digitChar d] = true := by decide +kernel
    exact exactly_run (by decide +kernel) ((this _ (by omega)).resolve_left (by omega))
  have key := exactly_lead (one := false) (c := '百') (by decide) (by decide +kernel) (by omega) (by omega) hd
    (never_run (by decide +kernel) (by decide +kernel)) ht
  have e : Nat.digitChar (n / 100) :: pad 2 (n % 100) = Nat.toDigits 10 n := by
    rw [← List.singleton_append, ← Nat.toDigits_of_lt_base (show n / 100 < 10 by omega), toDigits_pad (by omega) (by omega)]
    congr 1; omega
  rw [e] at key
  have e' : lo3 n = lead false (n / 100) ++ '百' :: lo2 (n % 100) := by unfold lo3; rw [if_neg (by omega)]
  rw [← e'] at key
  intro y w
  constructor
  · rintro (h | h)
    · exact (key y w).1 h
    · -- the table of 百一 to 百九
      obtain ⟨hm, rfl⟩ := den_tab.1 h
      have ht : ∀ e ∈ hundredDigit, ((digitG + del t!"百" + hundredTail) ||| (crossS t!"百" t!"1" + hundredTail)).outputs e.1 =
          [(e.2, 0)] := by decide +kernel
      have h2 := ht _ hm
      have h3 : (y, (0 : W)) ∈ ((digitG + del t!"百" + hundredTail) ||| (crossS t!"百" t!"1" + hundredTail)).outputs (lo3 n) := by
        simp only at h2
        rw [h2]; simp
      exact (key y 0).1 ((mem_outputs (by decide +kernel)).1 h3)
  · intro h; exact .inl ((key y w).2 h)

theorem mem_hundred {n : Nat} (h1 : 100 ≤ n) : '百' ∈ lo3 n := by
  unfold lo3
  rw [if_neg (by omega)]; simp

theorem never_hundred {n : Nat} (h : n < 100) : Never hundred (lo3 n) := by
  refine never_must (q := t!"百") (by decide +kernel) fun c hc hq => ?_
  unfold lo3 at hc
  rw [if_pos h] at hc
  have : ∀ c ∈ t!"一二三四五六七八九十", c ∉ t!"百" := by decide
  exact this c (lo2_chars n h c hc) hq

theorem lo3_small {n : Nat} (h : n < 100) : lo3 n = lo2 n := by unfold lo3; rw [if_pos h]

/-- The numbers below a thousand. -/
theorem exactly_three {n : Nat} (h0 : n ≠ 0) (h : n < 1000) : Exactly (two ||| hundred) (lo3 n) (Nat.toDigits 10 n) := by
  by_cases h1 : n < 100
  · exact Exactly.left (by rw [lo3_small h1]; exact exactly_two h0 h1) (never_hundred h1)
  · exact Exactly.right (never_shuns (q := t!"百") (by decide +kernel) (mem_hundred (by omega)) (by simp)) (exactly_hundred (by omega) h)

/-- Any two grammars with the same alternatives. -/
theorem Exactly.congr {a b : G} {x y : Str} (h : Exactly a x y) (e : ∀ y w, b.den x y w ↔ a.den x y w) : Exactly b x y :=
  fun y' w => (e y' w).trans (h y' w)

theorem exactly_tail3 {n : Nat} (h : n < 1000) : Exactly thousandTail (lo3 n) (pad 3 n) := by
  have : Exactly (hundred ||| rest3) (lo3 n) (pad 3 n) := by
    by_cases h1 : n < 100
    · exact Exactly.right (never_hundred h1) (by rw [lo3_small h1]; exact exactly_run (by decide +kernel) (run_rest3 n h1))
    · refine Exactly.left ?_ (never_shuns (q := t!"百") (by decide +kernel) (mem_hundred (by omega)) (by simp))
      rw [pad_all (k := 2) (by omega) (by omega)]
      exact exactly_hundred (by omega) h
  refine this.congr fun y w => ?_
  simp only [thousandTail, rest3, den_or, or_assoc]

/-! ### Below ten thousand -/

/-- The name of a number below ten thousand; zero has none. -/
def lo4 (one : Bool) (n : Nat) : Str := if n < 1000 then lo3 n else lead one (n / 1000) ++ '千' :: lo3 (n % 1000)

theorem lo4_below {one : Bool} {n : Nat} (h : n < 10 ^ 4) : below one n = lo4 one n := by
  have l3 : ∀ m, m < 1000 → place '百' (m / 100 % 10) ++ (place '十' (m / 10 % 10) ++ full [] (m % 10)) = lo3 m := by
    intro m hm
    unfold lo3 lo2
    split
    · rw [show m / 100 % 10 = 0 by omega]; simp [place]
    · rw [place_lead (by omega), show m / 100 % 10 = m / 100 by omega, show m % 100 / 10 % 10 = m / 10 % 10 by omega,
        show m % 100 % 10 = m % 10 by omega]
      simp
  unfold below lo4
  rw [List.append_assoc, List.append_assoc]
  split_ifs with h1 h2 h2
  · rw [l3 n h2, show n / 1000 = 0 by omega]; simp [full]
  · rw [show n / 100 % 10 = n % 1000 / 100 % 10 by omega, show n / 10 % 10 = n % 1000 / 10 % 10 by omega,
      show n % 10 = n % 1000 % 10 by omega, l3 _ (by omega)]
    simp only [full, lead, h1]
    rw [if_neg (by omega), if_neg (by simp)]
    simp
  · rw [l3 n h2, show n / 1000 = 0 by omega]; simp [place]
  · rw [show n / 100 % 10 = n % 1000 / 100 % 10 by omega, show n / 10 % 10 = n % 1000 / 10 % 10 by omega,
      show n % 10 = n % 1000 % 10 by omega, l3 _ (by omega), place_lead (by omega)]
    have : one = false := by simpa using h1
    rw [this]
    simp

theorem lo4_chars {one : Bool} {n : Nat} (h : n < 10 ^ 4) : ∀ c ∈ lo4 one n, c ∈ t!"一二三四五六七八九十百千" := by
  have up : ∀ c ∈ t!"一二三四五六七八九十百", c ∈ t!"一二三四五六七八九十百千" := by decide
  have up' : ∀ c ∈ t!"一二三四五六七八九", c ∈ t!"一二三四五六七八九十百千" := by decide
  unfold lo4
  split
  · rename_i h1; exact fun c hc => up c (lo3_chars h1 c hc)
  · intro c hc
    rcases List.mem_append.1 hc with hc | hc
    · exact up' c (lead_chars (by omega) (by omega) c hc)
    · rcases List.mem_cons.1 hc with rfl | hc
      · decide
      · exact up c (lo3_chars (by omega) c hc)

theorem mem_thousand {one : Bool} {n : Nat} (h1 : 1000 ≤ n) : '千' ∈ lo4 one n := by
  unfold lo4
  rw [if_neg (by omega)]; simp

theorem exactly_thousand {one : Bool} {n : Nat} (h1 : 1000 ≤ n) (h2 : n < 10 ^ 4) :
    Exactly thousand (lo4 one n) (Nat.toDigits 10 n) := by
  have hd : Exactly (hundred ||| teenG ||| tens ||| digits) [digitName (n / 1000)] [Nat.digitChar (n / 1000)] := by
    have : ∀ d < 10, d = 0 ∨ runsTo (hundred ||| teenG ||| tens ||| digits) [digitName d] [Nat.digitChar d] = true := by decide +kernel
    exact exactly_run (by decide +kernel) ((this _ (by omega)).resolve_left (by omega))
  have key := exactly_lead (one := one) (c := '千') (by decide) (by decide +kernel) (by omega) (by omega) hd
    (never_run (by decide +kernel) (by decide +kernel)) (exactly_tail3 (n := n % 1000) (by omega))
  have e : Nat.digitChar (n / 1000) :: pad 3 (n % 1000) = Nat.toDigits 10 n := by
    rw [← List.singleton_append, ← Nat.toDigits_of_lt_base (show n / 1000 < 10 by omega), toDigits_pad (by omega) (by omega)]
    congr 1; omega
  rw [e] at key
  unfold lo4
  rw [if_neg (by omega)]
  exact key

theorem never_thousand {one : Bool} {n : Nat} (h : n < 1000) : Never thousand (lo4 one n) := by
  refine never_must (q := t!"千") (by decide +kernel) fun c hc hq => ?_
  unfold lo4 at hc
  rw [if_pos h] at hc
  have : ∀ c ∈ t!"一二三四五六七八九十百", c ∉ t!"千" := by decide
  exact this c (lo3_chars h c hc) hq

theorem lo4_small {one : Bool} {n : Nat} (h : n < 1000) : lo4 one n = lo3 n := by unfold lo4; rw [if_pos h]

/-- The numbers below ten thousand. -/
theorem exactly_four {one : Bool} {n : Nat} (h0 : n ≠ 0) (h : n < 10 ^ 4) :
    Exactly ((two ||| hundred) ||| thousand) (lo4 one n) (Nat.toDigits 10 n) := by
  by_cases h1 : n < 1000
  · exact Exactly.left (by rw [lo4_small h1]; exact exactly_three h0 h1) (never_thousand h1)
  · exact Exactly.right (never_shuns (q := t!"千") (by decide +kernel) (mem_thousand (by omega)) (by simp)) (exactly_thousand (by omega) h)

theorem exactly_minus {one : Bool} {n : Nat} (h0 : n ≠ 0) (h : n < 10 ^ 4) :
    Exactly tenThousandMinus (lo4 one n) (Nat.toDigits 10 n) := by
  refine (exactly_four h0 h).congr fun y w => ?_
  simp only [tenThousandMinus, two, den_or]
  tauto

theorem exactly_tail4 {n : Nat} (h : n < 10 ^ 4) : Exactly tenThousandTail (lo4 false n) (pad 4 n) := by
  have : Exactly (thousand ||| ((addzero + hundred) ||| rest4)) (lo4 false n) (pad 4 n) := by
    by_cases h1 : n < 1000
    · refine Exactly.right (never_thousand h1) ?_
      rw [lo4_small h1]
      by_cases h2 : n < 100
      · refine Exactly.right ?_ (by rw [lo3_small h2]; exact exactly_run (by decide +kernel) (run_rest4 n h2))
        rintro y w ⟨x₁, y₁, w₁, x₂, y₂, w₂, g1, g2, e, _⟩
        obtain ⟨rfl, _⟩ := den_insert.1 g1
        rw [List.nil_append] at e
        rw [← e] at g2
        exact never_hundred h2 _ _ g2
      · refine Exactly.left ?_ (never_shuns (q := t!"百") (by decide +kernel) (mem_hundred (by omega)) (by simp))
        have e : pad 4 n = '0' :: Nat.toDigits 10 n := by
          rw [← pad_all (k := 2) (by omega) (by omega), pad, show n / 10 ^ 3 % 10 = 0 by omega]; rfl
        rw [e]
        intro y w
        constructor
        · rintro ⟨x₁, y₁, w₁, x₂, y₂, w₂, g1, g2, e, rfl, rfl⟩
          obtain ⟨rfl, rfl, rfl⟩ := den_insert.1 g1
          rw [List.nil_append] at e
          rw [← e] at g2
          obtain ⟨rfl, rfl⟩ := (exactly_hundred (by omega) h1 _ _).1 g2
          exact ⟨rfl, rfl⟩
        · rintro ⟨rfl, rfl⟩
          exact ⟨_, _, _, _, _, _, den_insert.2 ⟨rfl, rfl, rfl⟩, (exactly_hundred (by omega) h1 _ 0).2 ⟨rfl, rfl⟩, rfl, rfl, rfl⟩
    · refine Exactly.left ?_ (never_shuns (q := t!"千") (by decide +kernel) (mem_thousand (by omega)) (by simp))
      rw [pad_all (k := 3) (by omega) (by omega)]
      exact exactly_thousand (by omega) h
  refine this.congr fun y w => ?_
  simp only [tenThousandTail, rest4, den_or, or_assoc]

end Verif.JaItn
