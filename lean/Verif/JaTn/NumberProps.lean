import Verif.JaTn.Integer
import Verif.JaTn.Post
import Verif.Wfst.Turns
import Verif.Wfst.Run

/-
Property C80: what the Japanese normalizer says for numbers.
-/

namespace Verif.JaTn

open Verif.Wfst Spec

/-! ### Integers -/

/-- **C80.** The integers that are read are the sequences of digits, with commas at some places, that
`Readable` describes, and each is said by its Japanese name. -/
theorem C80_integer (x y : Str) (w : W) : integer.den x y w ↔
    ∃ ds, Writes x ds ∧ Readable ds ∧ y = japanese (valOf ds) ∧ w = 0 := den_integer

theorem commas_value_lt {m : List Bool} {x : Str} {ds : List Nat} (h : Commas m x ds) : valOf ds < 10 ^ ds.length := by
  have hs := h.small
  clear h
  induction ds with
  | nil => decide
  | cons d ds ih =>
    have h1 := ih fun d hd => hs d (by simp [hd])
    have h2 := hs d (by simp)
    have h3 : valOf [d] = d := by simp [valOf]
    rw [show d :: ds = [d] ++ ds from rfl, valOf_append, h3, List.length_append, List.length_singleton,
      Nat.add_comm 1, Nat.pow_succ]
    have : d * 10 ^ ds.length ≤ 9 * 10 ^ ds.length := Nat.mul_le_mul_right _ (by omega)
    omega

theorem writes_lt {x : Str} {ds : List Nat} (h : Writes x ds) (h0 : 1 ≤ ds.length) (h12 : ds.length ≤ 12) :
    valOf ds < 10 ^ 12 := by
  have := commas_value_lt ((writes_iff (k := ds.length - 1) (by omega)).1 h)
  exact Nat.lt_of_lt_of_le this (Nat.pow_le_pow_right (by decide) h12)

/-- **C80.** What is said means the number that the digits write. -/
theorem C80_value (x y : Str) (w : W) (h : integer.den x y w) :
    ∃ ds, Writes x ds ∧ value y = some (valOf ds) ∧ w = 0 := by
  obtain ⟨ds, hw, hr, rfl, rfl⟩ := den_integer.1 h
  exact ⟨ds, hw, value_japanese (writes_lt hw hr.1 hr.2.1), rfl⟩

/-- **C80.** A text writes at most one sequence of digits, so it has at most one reading; and texts with the
same reading write the same number. -/
theorem C80_unique (x x' y y' : Str) (w w' : W) (h : integer.den x y w) :
    (integer.den x y' w' → y = y' ∧ w = w') ∧
    (integer.den x' y w' → ∃ ds ds', Writes x ds ∧ Writes x' ds' ∧ valOf ds = valOf ds') := by
  obtain ⟨ds, hw, hr, rfl, rfl⟩ := den_integer.1 h
  constructor
  · intro h'
    obtain ⟨ds', hw', _, rfl, rfl⟩ := den_integer.1 h'
    rw [puts_unique hw.1 hw'.1]
    exact ⟨rfl, rfl⟩
  · intro h'
    obtain ⟨ds', hw', hr', e, rfl⟩ := den_integer.1 h'
    refine ⟨ds, ds', hw, hw', ?_⟩
    have h1 := value_japanese (writes_lt hw hr.1 hr.2.1)
    rw [e, value_japanese (writes_lt hw' hr'.1 hr'.2.1)] at h1
    exact (Option.some.inj h1).symm

/-! ### Numbers as they are usually written -/

/-- The values of the digits of a text. -/
def digitVals (x : Str) : List Nat := x.map fun c => (digitVal c).getD 0

theorem isDigit_val {c : Char} (h : c.isDigit = true) : digitVal c = some (c.toNat - 48) := by
  have key : ∀ d < 10, digitVal (Nat.digitChar d) = some ((Nat.digitChar d).toNat - 48) := by decide
  obtain ⟨d, hd, rfl⟩ := isDigit_digitChar h
  exact key d hd

theorem puts_digits {marks : List Nat} {g r : Str} {rs : List Nat} (hg : ∀ c ∈ g, c.isDigit = true)
    (h : Puts marks r rs) : Puts marks (g ++ r) (digitVals g ++ rs) := by
  induction g with
  | nil => exact h
  | cons c g ih =>
    refine .digit ?_ (ih fun c hc => hg c (by simp [hc]))
    simp [isDigit_val (hg c (by simp))]

theorem puts_group {marks : List Nat} {g r : Str} {rs : List Nat} (hg : ∀ c ∈ g, c.isDigit = true) (hne : g ≠ [])
    (hm : g.length + rs.length ∈ marks) (h : Puts marks r rs) :
    Puts marks (',' :: (g ++ r)) (digitVals g ++ rs) := by
  cases g with
  | nil => exact absurd rfl hne
  | cons c g =>
    refine .comma ?_ ?_ (puts_digits (fun c hc => hg c (by simp [hc])) h)
    · have e : (digitVals g ++ rs).length + 1 = (c :: g).length + rs.length := by simp [digitVals]; omega
      exact e ▸ hm
    · simp [isDigit_val (hg c (by simp))]

theorem valOf_digits {x : Str} (hx : ∀ c ∈ x, c.isDigit = true) : valOf (digitVals x) = Nat.ofDigitChars 10 x 0 := by
  have key : ∀ (l : Str) (a : Nat), (∀ c ∈ l, c.isDigit = true) →
      (digitVals l).foldl (fun n d => 10 * n + d) a = Nat.ofDigitChars 10 l a := by
    intro l
    induction l with
    | nil => intro a _; rfl
    | cons c l ih =>
      intro a h
      rw [Nat.ofDigitChars_cons, ← ih _ fun c hc => h c (by simp [hc])]
      simp [digitVals, isDigit_val (h c (by simp))]
  exact key x 0 hx

theorem toDigits_first {n : Nat} (h : 0 < n) : (Nat.toDigits 10 n).head? ≠ some '0' := by
  induction n using Nat.strong_induction_on with
  | _ n ih =>
    by_cases hn : n < 10
    · have key : ∀ n < 10, 0 < n → (Nat.toDigits 10 n).head? ≠ some '0' := by decide
      exact key n hn h
    · have e : Nat.toDigits 10 n = Nat.toDigits 10 (n / 10) ++ [Nat.digitChar (n % 10)] :=
        Nat.toDigits_of_base_le (by decide) (by omega)
      have := ih (n / 10) (by omega) (by omega)
      rw [e]
      cases hx : Nat.toDigits 10 (n / 10) with
      | nil => exact absurd hx Nat.toDigits_ne_nil
      | cons c s => rw [hx] at this; simpa using this

/-- The digits of a number are readable as long as there are at most eight of them, or the places of 万 are
zero. -/
theorem readable_toDigits {n : Nat} (h : n < 10 ^ 8 ∨ n < 10 ^ 12 ∧ n / 10 ^ 4 % 10 ^ 4 = 0) :
    Readable (digitVals (Nat.toDigits 10 n)) ∧ valOf (digitVals (Nat.toDigits 10 n)) = n := by
  have hd : ∀ c ∈ Nat.toDigits 10 n, c.isDigit = true := fun c hc =>
    Nat.isDigit_of_mem_toDigits (by decide) (by decide) hc
  have hv : valOf (digitVals (Nat.toDigits 10 n)) = n := by
    rw [valOf_digits hd]; exact Nat.ofDigitChars_toDigits (by decide) (by decide)
  refine ⟨⟨?_, ?_, ?_, ?_⟩, hv⟩
  · have : 0 < (Nat.toDigits 10 n).length := List.length_pos_iff.2 Nat.toDigits_ne_nil
    simp only [digitVals, List.length_map]; omega
  · have : n < 10 ^ 12 := by rcases h with h | h <;> omega
    simpa [digitVals] using (Nat.length_toDigits_le_iff (by decide) (by decide)).2 this
  · rcases Nat.eq_zero_or_pos n with rfl | hp
    · left; decide
    · right
      have h1 := toDigits_first hp
      cases hx : Nat.toDigits 10 n with
      | nil => exact absurd hx Nat.toDigits_ne_nil
      | cons c s =>
        rw [hx] at h1 hd
        obtain ⟨d, hd', rfl⟩ := isDigit_digitChar (hd c (by simp))
        have key : ∀ d < 10, Nat.digitChar d ≠ '0' → (digitVal (Nat.digitChar d)).getD 0 ≠ 0 := by decide
        exact key d hd' (by simpa using h1)
  · rcases h with h | h
    · left
      simpa [digitVals] using (Nat.length_toDigits_le_iff (by decide) (by decide)).2 h
    · right; rw [hv]; exact h.2

theorem writes_toDigits (n : Nat) : Writes (Nat.toDigits 10 n) (digitVals (Nat.toDigits 10 n)) := by
  have hd : ∀ c ∈ Nat.toDigits 10 n, c.isDigit = true := fun c hc =>
    Nat.isDigit_of_mem_toDigits (by decide) (by decide) hc
  refine ⟨by simpa using puts_digits hd .nil, ?_⟩
  intro e
  cases hx : Nat.toDigits 10 n with
  | nil => rw [hx] at e; cases e
  | cons c s =>
    rw [hx] at e hd
    have h1 := hd c (by simp)
    cases e
    revert h1; decide

theorem writes_numeral {x : Str} {n : Nat} (h : Numeral x n) (hn : n < 10 ^ 8) :
    Writes x (digitVals (Nat.toDigits 10 n)) := by
  rcases h with rfl | ⟨g, gs, hg, hg3, hgs, rfl, e⟩
  · exact writes_toDigits n
  have hd : ∀ c ∈ Nat.toDigits 10 n, c.isDigit = true := fun c hc =>
    Nat.isDigit_of_mem_toDigits (by decide) (by decide) hc
  have hlen : (Nat.toDigits 10 n).length ≤ 8 := (Nat.length_toDigits_le_iff (by decide) (by decide)).2 hn
  have hw := (writes_toDigits n).2
  rw [← e] at hd hlen hw ⊢
  refine ⟨?_, ?_⟩
  swap
  · cases g with
    | nil => exact absurd rfl hg
    | cons c g => simpa using hw
  match gs, hgs, hlen, hd with
  | [], _, _, hd => simpa using puts_digits (marks := [3, 6, 10]) (by simpa using hd) .nil
  | [a], ha, _, hd =>
    have ha3 := ha a (by simp)
    have h1 := puts_group (marks := [3, 6, 10]) (g := a) (rs := []) (fun c hc => hd c (by simp [hc]))
      (by rintro rfl; simp at ha3) (by simp [ha3]) .nil
    simpa [digitVals] using puts_digits (g := g) (fun c hc => hd c (by simp [hc])) h1
  | [a, b], ha, _, hd =>
    have ha3 := ha a (by simp)
    have hb3 := ha b (by simp)
    have h1 := puts_group (marks := [3, 6, 10]) (g := b) (rs := []) (fun c hc => hd c (by simp [hc]))
      (by rintro rfl; simp at hb3) (by simp [hb3]) .nil
    have h2 := puts_group (marks := [3, 6, 10]) (g := a) (fun c hc => hd c (by simp [hc]))
      (by rintro rfl; simp at ha3) (by simp [digitVals, ha3, hb3]) h1
    simpa [digitVals] using puts_digits (g := g) (fun c hc => hd c (by simp [hc])) h2
  | a :: b :: c :: gs, ha, hlen, _ =>
    have ha3 := ha a (by simp)
    have hb3 := ha b (by simp)
    have hc3 := ha c (by simp)
    simp at hlen
    omega

/-- **C80.** Every number below 10^8, in plain digits or with commas between groups of three, is read by its
name; so is, in plain digits, every number below 10^12 whose places of 万 are zero. -/
theorem C80_every (n : Nat) : (n < 10 ^ 8 → ∀ x, Numeral x n → integer.den x (japanese n) 0) ∧
    (n < 10 ^ 12 → n / 10 ^ 4 % 10 ^ 4 = 0 → integer.den (Nat.toDigits 10 n) (japanese n) 0) := by
  constructor
  · intro hn x hx
    obtain ⟨h1, h2⟩ := readable_toDigits (.inl hn)
    exact den_integer.2 ⟨_, writes_numeral hx hn, h1, by rw [h2], rfl⟩
  · intro hn h4
    obtain ⟨h1, h2⟩ := readable_toDigits (.inr ⟨hn, h4⟩)
    exact den_integer.2 ⟨_, writes_toDigits n, h1, by rw [h2], rfl⟩

/-- **C80.** No other number is read: not in plain digits, and from a billion on not with commas. -/
theorem C80_beyond (n : Nat) (y : Str) (w : W) :
    (¬ (n < 10 ^ 8 ∨ n < 10 ^ 12 ∧ n / 10 ^ 4 % 10 ^ 4 = 0) → ¬ integer.den (Nat.toDigits 10 n) y w) ∧
    ¬ integer.den t!"1,000,000,000" y w := by
  constructor
  · intro hn h
    obtain ⟨ds, hw, hr, _, _⟩ := den_integer.1 h
    have e : ds = digitVals (Nat.toDigits 10 n) := puts_unique hw.1 (writes_toDigits n).1
    subst e
    have hd : ∀ c ∈ Nat.toDigits 10 n, c.isDigit = true := fun c hc =>
      Nat.isDigit_of_mem_toDigits (by decide) (by decide) hc
    have hv : valOf (digitVals (Nat.toDigits 10 n)) = n := by
      rw [valOf_digits hd]; exact Nat.ofDigitChars_toDigits (by decide) (by decide)
    obtain ⟨_, h12, _, h8⟩ := hr
    rw [hv] at h8
    have h12' : n < 10 ^ 12 := (Nat.length_toDigits_le_iff (by decide) (by decide)).1 (by simpa [digitVals] using h12)
    rcases h8 with h8 | h8
    · exact hn (.inl ((Nat.length_toDigits_le_iff (by decide) (by decide)).1 (by simpa [digitVals] using h8)))
    · exact hn (.inr ⟨h12', h8⟩)
  · intro h
    have := (mem_outputs (by decide)).2 h
    rw [show integer.outputs t!"1,000,000,000" = [] by decide +kernel] at this
    cases this

example : Numeral t!"10,203,040" 10203040 ∧ japanese 10203040 = t!"一千二十万三千四十" ∧
    integer.outputs t!"10,203,040" = [(t!"一千二十万三千四十", 0)] ∧
    value t!"一千二十万三千四十" = some 10203040 :=
  ⟨.inr ⟨t!"10", [t!"203", t!"040"], by decide, by decide, by decide, by decide, by decide⟩, by decide +kernel,
    by decide +kernel, by decide +kernel⟩

example : Nat.toDigits 10 400000000015 = t!"400000000015" ∧ 400000000015 / 10 ^ 4 % 10 ^ 4 = 0 ∧
    integer.outputs t!"400000000015" = [(t!"四千億十五", 0)] ∧
    ¬ (123456789 < 10 ^ 8 ∨ 123456789 < 10 ^ 12 ∧ 123456789 / 10 ^ 4 % 10 ^ 4 = 0) := by decide +kernel

/-! ### Signed decimals -/

theorem den_digits_star {x y w} : Star digits.den x y w ↔
    ∃ es : List Nat, x.map digitVal = es.map some ∧ y = es.map digitName ∧ w = 0 := by
  constructor
  · intro h
    induction h with
    | nil => exact ⟨[], rfl, rfl, rfl⟩
    | cons hr _ ih =>
      obtain ⟨ds, v, _, rfl, rfl⟩ := (reads_digits _ _ _).1 hr
      obtain ⟨a, rfl⟩ := len1 v.length
      obtain ⟨c, rfl, hc⟩ := commas_singleton.1 v
      obtain ⟨es, v', rfl, rfl⟩ := ih
      exact ⟨a :: es, by simp [hc, v'], rfl, rfl⟩
  · rintro ⟨es, v, rfl, rfl⟩
    induction es generalizing x with
    | nil => simp at v; subst v; exact .nil
    | cons e es ih =>
      cases x with
      | nil => cases v
      | cons c x =>
        obtain ⟨hc, v'⟩ := List.cons.inj v
        exact Star.cons (x := [c]) (y := [digitName e]) (w := 0)
          ((reads_digits _ _ _).2 ⟨[e], commas_singleton.2 ⟨c, rfl, hc⟩, rfl, rfl, rfl⟩) (ih v')

theorem den_digits_plus {x y w} : digits.plus.den x y w ↔
    ∃ es : List Nat, es ≠ [] ∧ x.map digitVal = es.map some ∧ y = es.map digitName ∧ w = 0 := by
  constructor
  · rintro ⟨x₁, y₁, w₁, x₂, y₂, w₂, h1, h2, rfl, rfl, rfl⟩
    obtain ⟨ds, v, _, rfl, rfl⟩ := (reads_digits _ _ _).1 h1
    obtain ⟨a, rfl⟩ := len1 v.length
    obtain ⟨c, rfl, hc⟩ := commas_singleton.1 v
    obtain ⟨es, v', rfl, rfl⟩ := den_digits_star.1 h2
    exact ⟨a :: es, by simp, by simp [hc, v'], rfl, rfl⟩
  · rintro ⟨es, hne, v, rfl, rfl⟩
    match es, hne, x, v with
    | e :: es, _, c :: x, v =>
      obtain ⟨hc, v'⟩ := List.cons.inj v
      exact ⟨[c], [digitName e], 0, x, es.map digitName, 0,
        (reads_digits _ _ _).2 ⟨[e], commas_singleton.2 ⟨c, rfl, hc⟩, rfl, rfl, rfl⟩,
        den_digits_star.2 ⟨es, v', rfl, rfl⟩, rfl, rfl, rfl⟩

theorem den_sign {x y w} : signG.ques.den x y w ↔ (x, y) ∈ signs ∧ w = 0 := by
  unfold signG
  rw [den_ques, den_tab]
  simp only [sign, signs, List.mem_cons, List.not_mem_nil, or_false, Prod.mk.injEq]
  tauto

/-- **C80.** A signed decimal is said as sign, name of the integer and digits after the point. -/
theorem C80_decimal (x y : Str) (w : W) : signed.den x y w ↔ Decimal x y ∧ w = 0 := by
  unfold signed
  constructor
  · rintro ⟨_, _, _, x₃, y₃, w₃, ⟨x₁, y₁, w₁, x₂, y₂, w₂, h1, h2, rfl, rfl, rfl⟩, h3, rfl, rfl, rfl⟩
    obtain ⟨hs, rfl⟩ := den_sign.1 h1
    obtain ⟨ds, hw, hr, rfl, rfl⟩ := den_integer.1 h2
    rcases den_ques.1 h3 with ⟨rfl, rfl, rfl⟩ | h3
    · exact ⟨by simpa using .whole hs hw hr, by simp⟩
    · obtain ⟨x₁, y₁, w₁, x₂, y₂, w₂, h1, h2, rfl, rfl, rfl⟩ := h3
      obtain ⟨he, rfl⟩ := den_tab.1 h1
      simp only [dot, List.mem_singleton, Prod.mk.injEq] at he
      obtain ⟨rfl, rfl⟩ := he
      obtain ⟨es, hne, v, rfl, rfl⟩ := den_digits_plus.1 h2
      exact ⟨.point hs hw hr hne v, by simp⟩
  · rintro ⟨h, rfl⟩
    cases h with
    | @whole s t x ds hs hw hr =>
      refine ⟨s ++ x, t ++ japanese (valOf ds), 0, [], [], 0, ⟨s, t, 0, x, _, 0, den_sign.2 ⟨hs, rfl⟩,
        den_integer.2 ⟨ds, hw, hr, rfl, rfl⟩, rfl, rfl, rfl⟩, den_ques.2 (.inl ⟨rfl, rfl, rfl⟩), by simp, by simp, rfl⟩
    | @point s t x z ds es hs hw hr hne v =>
      refine ⟨s ++ x, t ++ japanese (valOf ds), 0, '.' :: z, '点' :: es.map digitName, 0,
        ⟨s, t, 0, x, _, 0, den_sign.2 ⟨hs, rfl⟩, den_integer.2 ⟨ds, hw, hr, rfl, rfl⟩, rfl, rfl, rfl⟩,
        den_ques.2 (.inr ⟨['.'], ['点'], 0, z, es.map digitName, 0, den_tab.2 ⟨by simp [dot], rfl⟩,
          den_digits_plus.2 ⟨es, hne, v, rfl, rfl⟩, rfl, rfl, rfl⟩), rfl, rfl, rfl⟩

theorem puts_chars {marks : List Nat} {x : Str} {ds : List Nat} (h : Puts marks x ds) :
    ∀ c ∈ x, c = ',' ∨ (digitVal c).isSome = true := by
  induction h with
  | nil => simp
  | digit hc _ ih => simpa [hc] using ih
  | comma _ hc _ ih => simpa [hc] using ih

theorem writes_first {x : Str} {ds : List Nat} (h : Writes x ds) (hr : Readable ds) :
    ∃ c r, x = c :: r ∧ (digitVal c).isSome = true := by
  cases x with
  | nil =>
    have := hr.1
    cases h.1
    simp at this
  | cons c r =>
    refine ⟨c, r, rfl, (puts_chars h.1 c (by simp)).resolve_left ?_⟩
    rintro rfl
    exact h.2 rfl

theorem sign_split {s t s' t' x x' : Str} (hs : (s, t) ∈ signs) (hs' : (s', t') ∈ signs)
    (hx : ∃ c r, x = c :: r ∧ (digitVal c).isSome = true) (hx' : ∃ c r, x' = c :: r ∧ (digitVal c).isSome = true)
    (e : s ++ x = s' ++ x') : t = t' ∧ x = x' := by
  obtain ⟨c, r, rfl, hc⟩ := hx
  obtain ⟨c', r', rfl, hc'⟩ := hx'
  have hno : ∀ d, d = '+' ∨ d = '-' ∨ d = '±' → digitVal d = none := by
    rintro d (rfl | rfl | rfl) <;> decide
  have k : ∀ d, (digitVal d).isSome = true → d ≠ '+' ∧ d ≠ '-' ∧ d ≠ '±' := by
    intro d hd
    refine ⟨?_, ?_, ?_⟩ <;> rintro rfl <;> rw [hno _ (by simp)] at hd <;> cases hd
  have k1 := k c hc
  have k2 := k c' hc'
  simp only [signs, List.mem_cons, List.not_mem_nil, or_false, Prod.mk.injEq] at hs hs'
  rcases hs with ⟨rfl, rfl⟩ | ⟨rfl, rfl⟩ | ⟨rfl, rfl⟩ | ⟨rfl, rfl⟩ <;>
    rcases hs' with ⟨rfl, rfl⟩ | ⟨rfl, rfl⟩ | ⟨rfl, rfl⟩ | ⟨rfl, rfl⟩ <;>
    simp only [List.nil_append, List.cons_append, List.cons.injEq] at e <;>
    first
      | exact ⟨rfl, by simpa using e⟩
      | (exfalso; obtain ⟨e1, e2⟩ := e; subst e1; simp at k1 k2; done)
      | (exfalso; revert e; decide)
      | (exfalso; simp at e; done)

theorem point_split {x x' z z' : Str} (hx : '.' ∉ x) (hx' : '.' ∉ x') (e : x ++ '.' :: z = x' ++ '.' :: z') :
    x = x' ∧ z = z' := by
  induction x generalizing x' with
  | nil =>
    cases x' with
    | nil => simpa using e
    | cons c x' => simp at e; simp [← e.1] at hx'
  | cons c x ih =>
    cases x' with
    | nil => simp at e; simp [e.1] at hx
    | cons c' x' =>
      simp only [List.cons_append, List.cons.injEq] at e
      simp only [List.mem_cons, not_or] at hx hx'
      obtain ⟨rfl, rfl⟩ := ih hx.2 hx'.2 e.2
      exact ⟨by rw [e.1], rfl⟩

theorem writes_no_point {x : Str} {ds : List Nat} (h : Writes x ds) : '.' ∉ x := by
  intro hc
  rcases puts_chars h.1 _ hc with h | h
  · revert h; decide
  · revert h; decide

theorem decimal_unique {x y y' : Str} (h : Decimal x y) (h' : Decimal x y') : y = y' := by
  have head : ∀ {x ds} {z : Str}, Writes x ds → Readable ds → ∃ c r, x ++ z = c :: r ∧ (digitVal c).isSome = true := by
    intro x ds z hw hr
    obtain ⟨c, r, rfl, hc⟩ := writes_first hw hr
    exact ⟨c, r ++ z, rfl, hc⟩
  cases h with
  | @whole s t x ds hs hw hr =>
    generalize hX : s ++ x = X at h'
    cases h' with
    | @whole s' t' x' ds' hs' hw' hr' =>
      obtain ⟨rfl, rfl⟩ := sign_split hs hs' (writes_first hw hr) (writes_first hw' hr') hX
      rw [puts_unique hw.1 hw'.1]
    | @point s' t' x' z' ds' es' hs' hw' hr' hne v =>
      rw [List.append_assoc] at hX
      obtain ⟨rfl, rfl⟩ := sign_split hs hs' (writes_first hw hr) (head hw' hr') hX
      exact absurd (by simp) (writes_no_point hw)
  | @point s t x z ds es hs hw hr hne v =>
    generalize hX : s ++ x ++ '.' :: z = X at h'
    rw [List.append_assoc] at hX
    cases h' with
    | @whole s' t' x' ds' hs' hw' hr' =>
      obtain ⟨rfl, rfl⟩ := sign_split hs hs' (head hw hr) (writes_first hw' hr') hX
      exact absurd (by simp) (writes_no_point hw')
    | @point s' t' x' z' ds' es' hs' hw' hr' hne' v' =>
      rw [List.append_assoc] at hX
      obtain ⟨rfl, e⟩ := sign_split hs hs' (head hw hr) (head hw' hr') hX
      obtain ⟨rfl, rfl⟩ := point_split (writes_no_point hw) (writes_no_point hw') e
      rw [puts_unique hw.1 hw'.1]
      rw [v] at v'
      rw [List.map_injective_iff.2 (fun _ _ => Option.some.inj) v']

/-- **C80.** The number grammar the other rules use: the text is made half-width if the switch says so, and it
has at most one reading. -/
theorem C80_number (h : Bool) (x y : Str) (w : W) :
    ((number h).den x y w ↔ VText x ∧ Decimal (x.map (half h)) y ∧ w = 0) ∧
    ∀ y' w', (number h).den x y w → (number h).den x y' w' → y = y' ∧ w = w' := by
  have key : ∀ y w, (number h).den x y w ↔ VText x ∧ Decimal (x.map (half h)) y ∧ w = 0 := by
    intro y w
    unfold number
    rw [den_pre, C80_decimal]
  refine ⟨key y w, fun y' w' h1 h2 => ?_⟩
  obtain ⟨_, d1, rfl⟩ := (key _ _).1 h1
  obtain ⟨_, d2, rfl⟩ := (key _ _).1 h2
  exact ⟨decimal_unique d1 d2, rfl⟩

example : Decimal t!"-1,234.50" t!"マイナス千二百三十四点五〇" :=
  .point (s := t!"-") (t := t!"マイナス") (x := t!"1,234") (z := t!"50") (ds := [1, 2, 3, 4]) (es := [5, 0])
    (by decide)
    ⟨.digit (by decide) (.comma (by decide) (by decide) (.digit (by decide) (.digit (by decide) .nil))), by decide⟩
    (by decide) (by decide) (by decide)

example : (number true).outputs t!"－１2.5" = [(t!"マイナス十二点五", 0)] ∧
    (number false).outputs t!"－１2.5" = [] := by decide +kernel

/-- **C80.** A year is a number of four digits, the first not zero, with a comma allowed after it; it is said
as a number before 年. -/
theorem C80_year (h : Bool) (x y : Str) (w : W) : (year h).den x y w ↔
    VText x ∧ ∃ ds, ds.length = 4 ∧ ds.headD 0 ≠ 0 ∧ Writes (x.map (half h)) ds ∧
      y = japanese (valOf ds) ++ "年".toList ∧ w = 0 := by
  have hy : "年".toList = t!"年" := by decide
  have key : ∀ x y w, thousand.den x y w ↔ ∃ ds, ds.length = 4 ∧ ds.headD 0 ≠ 0 ∧ Writes x ds ∧
      y = japanese (valOf ds) ∧ w = 0 := by
    intro x y w
    rw [reads_thousand x y w]
    have say : ∀ {m : List Bool} {ds : List Nat}, Commas m x ds → ds.length = 4 → ds.headD 0 ≠ 0 →
        on4 say4 ds = japanese (valOf ds) := by
      intro m ds v hl h0
      have hb := on4_below hl v.small
      rw [hb.1, japanese_small _ hb.2]
      have := (sayHead_below ⟨by omega, by omega, h0⟩ v.small).2.1
      exact this
    constructor
    · rintro ⟨ds, v, p, rfl, rfl⟩
      have hl : ds.length = 4 := v.length
      have h0 : ds.headD 0 ≠ 0 := by
        obtain ⟨a, b, c, d, rfl⟩ := len4 hl
        simpa [on4] using p
      exact ⟨ds, hl, h0, (writes_iff hl).2 v, say v hl h0, rfl⟩
    · rintro ⟨ds, hl, h0, hw, rfl, rfl⟩
      have v : Commas (mask 3) x ds := (writes_iff hl).1 hw
      refine ⟨ds, v, ?_, (say v hl h0).symm, rfl⟩
      obtain ⟨a, b, c, d, rfl⟩ := len4 hl
      simpa [on4] using h0
  unfold year
  rw [den_add_insert, hy]
  constructor
  · rintro ⟨y, rfl, h1⟩
    obtain ⟨hv, h2⟩ := den_pre.1 h1
    obtain ⟨ds, a, b, c, rfl, rfl⟩ := (key _ _ _).1 h2
    exact ⟨hv, ds, a, b, c, rfl, rfl⟩
  · rintro ⟨hv, ds, a, b, c, rfl, rfl⟩
    exact ⟨_, rfl, den_pre.2 ⟨hv, (key _ _ _).2 ⟨ds, a, b, c, rfl, rfl⟩⟩⟩

example : (year true).outputs t!"2024" = [(t!"二千二十四年", 0)] ∧
    (year true).outputs t!"2,024" = [(t!"二千二十四年", 0)] ∧ (year true).outputs t!"0024" = [] := by decide +kernel

end Verif.JaTn
