import Verif.ZhItn.Names
import Verif.ZhItn.NumberProps
import Verif.Wfst.Must
import Verif.Wfst.Bars
import Verif.Wfst.Outs

/-
What the Chinese inverse grammar of cardinals reads in pieces of names, and for how much.
-/

namespace Verif.ZhItn

open Verif.Wfst

/-! ### Pieces of names -/

/-- The characters are those of names, and they come together as in names. -/
def shaped (x : Str) : Bool := (x.all fun c => numc.contains c) && decide (x.IsChain adj)

theorem shaped_infix {u x : Str} (hu : u <:+: x) (h : shaped x = true) : shaped u = true := by
  simp only [shaped, Bool.and_eq_true, List.all_eq_true, decide_eq_true_eq] at h ⊢
  exact ⟨fun c hc => h.1 c (hu.mem hc), h.2.infix hu⟩

/-- A grammar that needs other texts does not read names. -/
theorem Numeral.never {m : Bool} {x : Str} (h : Numeral m x) {g : G} (hg : bars shaped g = true) {y : Str} {w : W}
    (hd : g.den x y w) : False := by
  have h1 : shaped x = true := by
    simp only [shaped, Bool.and_eq_true, List.all_eq_true, decide_eq_true_eq]
    exact ⟨fun c hc => by simpa using h.chars c hc, h.chain⟩
  rw [bars_den (fun _ _ => shaped_infix) hg hd] at h1
  cases h1

theorem digits_char {x y : Str} {w : W} (h : digits.den x y w) : ∃ c ∈ t!"零洞一幺壹二两贰三叁四肆五伍六陆七柒拐八捌九玖", x = [c] := by
  have h1 : ((zero ++ digit).all fun e => match e.1 with
    | [c] => t!"零洞一幺壹二两贰三叁四肆五伍六陆七柒拐八捌九玖".contains c
    | _ => false) = true := by decide +kernel
  have h2 : ∃ y, (x, y) ∈ zero ++ digit := by
    rcases h with h | h
    · exact ⟨y, List.mem_append_left _ h.1⟩
    · exact ⟨y, List.mem_append_right _ h.1⟩
  obtain ⟨y, h2⟩ := h2
  have := List.all_eq_true.1 h1 _ h2
  match x, this with
  | [c], h => exact ⟨c, by simpa using h, rfl⟩

theorem digits_pow {n : Nat} {x y : Str} {w : W} (h : (digits.pow (n + 1)).den x y w) :
    ∃ c ∈ t!"零洞一幺壹二两贰三叁四肆五伍六陆七柒拐八捌九玖", ∃ r y' w', x = c :: r ∧ (digits.pow n).den r y' w' := by
  obtain ⟨x₁, y₁, w₁, x₂, y₂, w₂, h1, h2, rfl, _, _⟩ := h
  obtain ⟨c, hc, rfl⟩ := digits_char h1
  exact ⟨c, hc, x₂, y₂, w₂, rfl, h2⟩

/-- Three digits do not follow each other in a name. -/
theorem Numeral.row {m : Bool} {x r : Str} (h : Numeral m (x ++ r)) {n : Nat} {y : Str} {w : W}
    (hd : (digits.pow (n + 3)).den x y w) : False := by
  obtain ⟨a, ha, u, _, _, rfl, h1⟩ := digits_pow hd
  obtain ⟨b, hb, v, _, _, rfl, h2⟩ := digits_pow h1
  obtain ⟨c, hc, z, _, _, rfl, _⟩ := digits_pow h2
  have key : ∀ c ∈ t!"零洞一幺壹二两贰三叁四肆五伍六陆七柒拐八捌九玖", c ∈ numc → c = '零' ∨ c ∈ '两' :: nine := by decide
  have up : ∀ c ∈ nine, c ∈ '零' :: nine := by decide
  have hch := h.chain
  rw [List.cons_append, List.cons_append, List.cons_append, List.isChain_cons_cons, List.isChain_cons_cons] at hch
  have ka := key a ha (h.chars _ (by simp))
  have kb := key b hb (h.chars _ (by simp))
  have kc := key c hc (h.chars _ (by simp))
  have two : ∀ {a b : Char}, adj a b → a ∈ '两' :: nine → b = '零' ∨ b ∈ '两' :: nine → False := by
    rintro a b ⟨h1, h2, _⟩ ha (rfl | hb)
    · exact h2 ⟨ha, by simp⟩
    · rcases List.mem_cons.1 hb with rfl | hb
      · exact h1 rfl
      · exact h2 ⟨ha, up b hb⟩
  rcases ka with rfl | ka
  · rcases kb with rfl | kb
    · exact hch.1.2.2 ⟨rfl, rfl⟩
    · exact two hch.2.1 kb kc
  · exact two hch.1 ka kb

theorem Numeral.dashes {m : Bool} {x y : Str} {w : W} (h : Numeral m x) (hd : dashes.den x y w) : False := by
  rcases hd with hd | hd
  · exact h.never (g := (crossS t!"十" t!"1" + dash) ||| (digitG + del t!"十" + dash) ||| (digitG + del t!"百" + dash)) (by decide +kernel) hd
  · obtain ⟨_, _, _, _, _, _, h1, h2, rfl, _, _⟩ := hd
    obtain ⟨rfl, _, _⟩ := den_insert.1 h2
    obtain ⟨_, _, _, v, _, _, h1, h2, rfl, _, _⟩ := h1
    obtain ⟨_, _, _, _, _, _, h1, h3, rfl, _, _⟩ := h1
    obtain ⟨rfl, _, _⟩ := den_insert.1 h3
    obtain ⟨p, _, _, u, _, _, h1, h3, rfl, _, _⟩ := h1
    obtain ⟨a, ha, rfl⟩ : ∃ c ∈ t!"一幺壹二两贰三叁四肆五伍六陆七柒拐八捌九玖", u = [c] := by
      have h5 : (digit.all fun e => match e.1 with
        | [c] => t!"一幺壹二两贰三叁四肆五伍六陆七柒拐八捌九玖".contains c
        | _ => false) = true := by decide +kernel
      have := List.all_eq_true.1 h5 _ h3.1
      match u, this with
      | [c], h => exact ⟨c, by simpa using h, rfl⟩
    obtain ⟨b, hb, rfl⟩ := digits_char (.inr h2)
    have hin : [a, b] <:+: p ++ [a] ++ [] ++ [b] ++ [] := ⟨p, [], by simp⟩
    have hch := h.chain.infix hin
    rw [List.isChain_pair] at hch
    have key : (t!"一幺壹二两贰三叁四肆五伍六陆七柒拐八捌九玖".all fun a => t!"零洞一幺壹二两贰三叁四肆五伍六陆七柒拐八捌九玖".all fun b =>
      !(numc.contains a && numc.contains b) || !(decide (adj a b))) = true := by decide +kernel
    have := List.all_eq_true.1 (List.all_eq_true.1 key a ha) b hb
    have ha' : a ∈ numc := h.chars a (hin.mem (by simp))
    have hb' : b ∈ numc := h.chars b (hin.mem (by simp))
    simp [ha', hb', hch] at this

/-! ### Cardinals -/

theorem Numeral.ques {m : Bool} {x y : Str} {w : W} (h : Numeral m x) {g : G} (hg : bars shaped g = true)
    (hd : g.ques.den x y w) : x = [] ∧ y = [] ∧ w = 0 := by
  rcases den_ques.1 hd with hd | hd
  · exact hd
  · exact (h.never hg hd).elim

/-- A part that names do not have is left out before the rest. -/
theorem Numeral.skip {m : Bool} {x y : Str} {w : W} (h : Numeral m x) {g r : G} (hg : bars shaped g = true)
    (hd : (g.ques + r).den x y w) : r.den x y w := by
  obtain ⟨x₁, y₁, w₁, x₂, y₂, w₂, g1, g2, rfl, rfl, rfl⟩ := hd
  obtain ⟨rfl, rfl, rfl⟩ := (h.infix (List.prefix_append _ _).isInfix).ques hg g1
  rw [List.nil_append, List.nil_append, show (0 : W) + w₂ = w₂ from Int.zero_add _]
  exact g2

/-- A part that names do not have is left out after the rest. -/
theorem Numeral.drop {m : Bool} {x y : Str} {w : W} (h : Numeral m x) {g r : G} (hg : bars shaped g = true)
    (hd : (r + g.ques).den x y w) : r.den x y w := by
  obtain ⟨x₁, y₁, w₁, x₂, y₂, w₂, g1, g2, rfl, rfl, rfl⟩ := hd
  obtain ⟨rfl, rfl, rfl⟩ := (h.infix (List.suffix_append _ _).isInfix).ques hg g2
  rw [List.append_nil, List.append_nil, show w₁ + (0 : W) = w₁ from Int.add_zero _]
  exact g1

theorem Numeral.parts {m : Bool} {x y : Str} {w : W} (h : Numeral m x) {a b r : G} (ha : bars shaped a = true)
    (hb : bars shaped b = true) (hd : (a.ques + b.ques + r).den x y w) : r.den x y w := by
  have : (a.ques + (b.ques + r)).den x y w := add_assoc_den.1 hd
  exact h.skip hb (h.skip ha this)

theorem Numeral.number {m : Bool} {x y : Str} {w : W} (h : Numeral m x) (hd : (number m).den x y w) : (small m).den x y w := by
  have m1 : ∀ m, bars shaped (small m + .lit t!"兆" + rmzero) = true := by decide +kernel
  have m2 : ∀ m, bars shaped (small m + .lit t!"亿" + rmzero) = true := by decide +kernel
  rcases hd with (hd | hd) | hd
  · have h1 := h.drop (by decide +kernel) hd
    exact h.parts (m1 m) (m2 m) (h.skip (by decide +kernel) h1)
  · exact (h.never (g := tilde) (by decide +kernel) hd).elim
  · exact (h.dashes hd).elim

theorem Numeral.bigNumber {m : Bool} {x y : Str} {w : W} (h : Numeral m x) (hd : (bigNumber m).den x y w) : (bigSmall m).den x y w := by
  have m1 : ∀ m, bars shaped ((bigSmall m ||| digits) + .lit t!"兆" + rmzero) = true := by decide +kernel
  have m2 : ∀ m, bars shaped ((bigSmall m ||| digits) + .lit t!"亿" + rmzero) = true := by decide +kernel
  have m3 : ∀ m, bars shaped ((bigInteger m ||| digits) + (dotG + digits.plus).plus) = true := by decide +kernel
  rcases h.skip (by decide +kernel) hd with ((hd | hd) | hd) | hd
  · exact h.parts (m1 m) (m2 m) hd
  · exact (h.never (m3 m) hd).elim
  · exact (h.never (g := tilde) (by decide +kernel) hd).elim
  · obtain ⟨_, hd, _⟩ := hd
    exact (h.dashes hd).elim

/-- The weighed grammar reads what the others read in names. -/
theorem small_true {m : Bool} {x y : Str} {w : W} (h : Numeral m x) (hd : (small m).den x y w) : (small true).den x y w := by
  cases m with
  | true => exact hd
  | false =>
    rcases hd with hd | hd
    · exact .inl hd
    · rcases hd with hd | hd
      · obtain ⟨x₁, y₁, w₁, x₂, y₂, w₂, g1, g2, rfl, rfl, rfl⟩ := hd
        obtain ⟨x₃, y₃, w₃, x₄, y₄, w₄, g3, g4, rfl, rfl, rfl⟩ := g1
        refine .inr ⟨_, _, _, _, _, _, ⟨_, _, _, _, _, _, ?_, g4, rfl, rfl, rfl⟩, g2, rfl, rfl, rfl⟩
        rcases g3 with (g3 | g3) | g3
        · exact .inl (.inl (.inr g3))
        · exact .inl (.inr g3)
        · exact .inr g3
      · exfalso
        obtain ⟨_, _, _, r, _, _, h1, _, rfl, _, _⟩ := hd
        obtain ⟨_, _, _, s, _, _, h1, _, rfl, _, _⟩ := h1
        obtain ⟨a, _, _, _, _, _, h1, h2, rfl, _, _⟩ := h1
        obtain ⟨rfl, _, _⟩ := h2
        obtain ⟨c, hc, hq⟩ := must_den (q := t!"百千") (by decide +kernel) h1
        have hl := h.low.resolve_left (by decide)
        exact hl a (s ++ r) (by simp) c hc hq

theorem small_big {m : Bool} {x y : Str} {w : W} (h : (bigSmall m).den x y w) : (small m).den x y w := by
  rcases h with (((h | h) | h) | h) | h
  · exact .inl (.inl (.inl (.inl (.inr h))))
  · exact .inl (.inl (.inl (.inr h)))
  · exact .inl (.inl (.inr h))
  · exact .inl (.inr h)
  · exact .inr h

theorem Numeral.base {k : Config} {x y : Str} {w : W} (h : Numeral k.million x) (hd : (cardinalBase k).den x y w) :
    k.standalone = true ∧ (measureNumber k).den x y (toll x) ∧ (small true).den x y (toll x) ∧ w = toll x + 10000 := by
  have fixed : ∀ {z v}, ¬ ((digits.plus + (dotG + digits.plus).plus) ||| (ZhItn.number k.million + dotG + digits.plus) |||
    (digits.pow 3 ||| digits.pow 4 ||| digits.pow 5 ||| digits.pow 11 ||| (digits.pow 17 + idLast) |||
      digits.pow 18) ||| (digits.plus + .tab repeatDigit + digits.star)).den x z v := by
    intro z v hd
    have m1 : ∀ m, bars shaped ((digits.plus + (dotG + digits.plus).plus) ||| (ZhItn.number m + dotG + digits.plus)) = true := by
      decide +kernel
    have nil : Numeral k.million (x ++ []) := by simpa using h
    rcases hd with (hd | hd) | hd
    · exact h.never (m1 _) hd
    · rcases hd with ((((hd | hd) | hd) | hd) | hd) | hd
      · exact nil.row (n := 0) hd
      · exact nil.row (n := 1) hd
      · exact nil.row (n := 2) hd
      · exact nil.row (n := 8) hd
      · obtain ⟨_, _, _, _, _, _, h1, _, rfl, _, _⟩ := hd
        exact h.row (n := 14) h1
      · exact nil.row (n := 15) hd
    · exact h.never (g := digits.plus + .tab repeatDigit + digits.star) (by decide +kernel) hd
  unfold cardinalBase at hd
  simp only at hd
  split at hd
  · rename_i hs
    rcases hd with hd | hd
    · exact (fixed hd).elim
    · obtain ⟨v, hd, rfl⟩ := hd
      have h1 : (small true).den x y v := by
        split at hd
        · exact small_true h (h.number hd)
        · exact small_true h (small_big (h.bigNumber hd))
      obtain rfl := small_toll h1
      exact ⟨hs, hd, h1, rfl⟩
  · exact (fixed hd).elim

theorem Numeral.many {k : Config} {x y : Str} {w : W} (h : Numeral k.million x)
    (hd : Star (Wfst.insert t!" " + cardinalBase k).den x y w) : toll x ≤ w ∧ (w < toll x + 10000 → x = [] ∧ w = 0) := by
  induction hd with
  | nil => exact ⟨by decide, fun _ => ⟨rfl, rfl⟩⟩
  | @cons x₁ y₁ w₁ x₂ y₂ w₂ g1 g2 ih =>
    have h1 := ih (h.infix (List.suffix_append _ _).isInfix)
    obtain ⟨_, _, _, x₁, _, _, g3, g4, rfl, _, rfl⟩ := g1
    obtain ⟨rfl, _, rfl⟩ := den_insert.1 g3
    obtain ⟨_, _, _, rfl⟩ := (h.infix (by rw [List.nil_append]; exact (List.prefix_append _ _).isInfix)).base g4
    have h2 := toll_append x₁ x₂
    rw [List.nil_append]
    have key : ∀ a b c d : Int, c ≤ a + b → b ≤ d → c + 10000 ≤ 0 + (a + 10000) + d := by intros; omega
    have h3 := key _ _ _ _ h2 h1.1
    exact ⟨Int.le_trans (by omega) h3, fun h => absurd h (not_lt.2 h3)⟩

/-- In names the grammar of cardinals reads numbers as a whole, or for more. -/
theorem Numeral.cardinal {k : Config} {x y : Str} {w : W} (h : Numeral k.million x) (hd : (cardinal k).den x y w) :
    k.standalone = true ∧ (toll x + 10000 < w ∨
      (measureNumber k).den x y (toll x) ∧ (small true).den x y (toll x) ∧ w = toll x + 10000) := by
  rcases hd with hd | ⟨v, hd, rfl⟩
  · obtain ⟨h1, h2⟩ := h.base hd
    exact ⟨h1, .inr h2⟩
  · obtain ⟨x₁, y₁, w₁, x₂, y₂, w₂, g1, g2, rfl, _, rfl⟩ := hd
    obtain ⟨h1, _, _, rfl⟩ := (h.infix (List.prefix_append _ _).isInfix).base g1
    obtain ⟨x₃, y₃, w₃, x₄, y₄, w₄, g3, g4, rfl, _, rfl⟩ := g2
    have h2 := ((h.infix (List.suffix_append _ _).isInfix).many (.cons g3 g4)).1
    have h3 := toll_append x₁ (x₃ ++ x₄)
    have key : ∀ a b c d : Int, c ≤ a + b → b ≤ d → c + 10000 < a + 10000 + d + 10000 := by intros; omega
    exact ⟨h1, .inl (key _ _ _ _ h3 h2)⟩

/-! ### Names of numbers -/

open Verif.ZhItn.Spec (written spoken Wr asciiVal)
open Verif.ZhTn.Spec (chinese)

theorem wr_digits {y : Str} (h : ∀ c ∈ y, c.isDigit = true) (s : Wr) :
    s.run y = some { s with cur := Nat.ofDigitChars 10 y s.cur } := by
  induction y generalizing s with
  | nil => rfl
  | cons c y ih =>
    have h1 : s.step c = some { s with cur := 10 * s.cur + (c.toNat - '0'.toNat) } := by
      unfold Wr.step asciiVal
      rw [if_pos (h c (by simp))]
    rw [Wr.run, h1, Option.bind_some, ih fun d hd => h d (by simp [hd])]
    rfl

theorem written_digits {y : Str} (h : ∀ c ∈ y, c.isDigit = true) : written y = some (Nat.ofDigitChars 10 y 0) := by
  unfold written
  rw [wr_digits h]
  simp

/-- What is written for a number below 10^8 are its digits. -/
theorem small_digits {x y : Str} {w : W} (h : (small true).den x y w) {n : Nat} (hn : spoken x = some n) :
    y = Nat.toDigits 10 n := by
  obtain ⟨w', h1⟩ := integer_of_small ⟨w, h⟩
  obtain ⟨n', h2, h3⟩ := C56_value true x y w' h1 (.inl rfl)
  obtain rfl : n = n' := Option.some.inj (hn.symm.trans h2)
  have hd : ∀ c ∈ y, c.isDigit = true := onlyOut_den (p := Char.isDigit) (g := small true) (by decide +kernel) h
  rw [written_digits hd] at h3
  have hv : Digs y n := ⟨hd, Option.some.inj h3⟩
  have lead : (digitG ||| bigSmall true).den x y w → y = Nat.toDigits 10 n := by
    intro h
    obtain ⟨c, r, rfl, hc⟩ := leadOut_den (p := fun c => c != '0') (by decide +kernel) h
    exact hv.canonical (by simp) (by simpa using hc)
  rcases h with ((((h | h) | h) | h) | h) | h
  · rcases h with h | h
    · obtain ⟨_, rfl⟩ := den_zero h
      obtain rfl : 0 = n := hv.2
      rfl
    · exact lead (.inl h)
  · exact lead (.inr (.inl (.inl (.inl (.inl h)))))
  · exact lead (.inr (.inl (.inl (.inl (.inr h)))))
  · exact lead (.inr (.inl (.inl (.inr h))))
  · exact lead (.inr (.inl (.inr h)))
  · exact lead (.inr (.inr h))

section
variable {k : Config} {n : Nat}

theorem spoken_chinese (hn : n < 10 ^ 12) : spoken (chinese n) = some n := spoken_of_value (ZhTn.C83_value n hn)

theorem den_small {m : Bool} (hn : n < 10 ^ 6 ∨ m = true ∧ n < 10 ^ 8) :
    ∃ w, (small m).den (chinese n) (Nat.toDigits 10 n) w := by
  have h0 := (ZhTn.C83_integer n (by omega) (chinese n) 0).2 ⟨rfl, rfl⟩
  obtain ⟨w, h⟩ := C56_digits m n _ _ hn h0
  have m1 : ∀ m, bars shaped (small m + .lit t!"兆" + rmzero) = true := by decide +kernel
  have m2 : ∀ m, bars shaped (small m + .lit t!"亿" + rmzero) = true := by decide +kernel
  exact ⟨w, (numeral_chinese hn).parts (m1 m) (m2 m) h⟩

theorem nil_ques {a g : G} {x y : Str} {w : W} (h : g.den x y w) : (a.ques + g).den x y w :=
  ⟨[], [], 0, x, y, w, .inl ⟨rfl, rfl, rfl⟩, h, rfl, rfl, (Int.zero_add _).symm⟩

theorem ques_nil {a g : G} {x y : Str} {w : W} (h : g.den x y w) : (g + a.ques).den x y w :=
  ⟨x, y, w, [], [], 0, h, .inl ⟨rfl, rfl, rfl⟩, by simp, by simp, (Int.add_zero _).symm⟩

theorem den_measureNumber (hz : k.zeroToNine = true ∨ 10 ≤ n) (hn : n < 10 ^ 6 ∨ k.million = true ∧ n < 10 ^ 8) :
    ∃ w, (measureNumber k).den (chinese n) (Nat.toDigits 10 n) w := by
  obtain ⟨w, h⟩ := den_small hn
  unfold measureNumber
  split
  · exact ⟨w, .inl (.inl (ques_nil (nil_ques (add_assoc_den.2 (nil_ques (nil_ques h))))))⟩
  · rename_i hz'
    have h10 := hz.resolve_left hz'
    refine ⟨w, nil_ques (.inl (.inl (.inl (add_assoc_den.2 (nil_ques (nil_ques ?_))))))⟩
    rcases h with ((((h | h) | h) | h) | h) | h
    · exfalso
      have h1 : ((zero ++ digit).all fun e => e.2.length == 1) = true := by decide +kernel
      have h2 : (Nat.toDigits 10 n).length = 1 := by
        have : ∃ x, (x, Nat.toDigits 10 n) ∈ zero ++ digit := by
          rcases h with h | h
          · exact ⟨_, List.mem_append_left _ h.1⟩
          · exact ⟨_, List.mem_append_right _ h.1⟩
        obtain ⟨x, h⟩ := this
        simpa using List.all_eq_true.1 h1 _ h
      have := (Nat.length_toDigits_le_iff (b := 10) (k := 1) (n := n) (by decide) (by decide)).1 (by omega)
      omega
    · exact .inl (.inl (.inl (.inl h)))
    · exact .inl (.inl (.inl (.inr h)))
    · exact .inl (.inl (.inr h))
    · exact .inl (.inr h)
    · exact .inr h

theorem den_whole (hs : k.standalone = true) (hz : k.zeroToNine = true ∨ 10 ≤ n) (hn : n < 10 ^ 6 ∨ k.million = true ∧ n < 10 ^ 8) :
    (cardinal k).den (chinese n) (Nat.toDigits 10 n) (toll (chinese n) + 10000) := by
  obtain ⟨w, h⟩ := den_measureNumber hz hn
  have h1 : (cardinalBase k).den (chinese n) (Nat.toDigits 10 n) (w + 10000) := by
    unfold cardinalBase
    simp only
    rw [if_pos hs]
    exact .inr ⟨w, h, rfl⟩
  obtain ⟨_, _, _, e⟩ := (numeral_chinese hn).base h1
  rw [← e]
  exact .inl h1

theorem whole_only (hn : n < 10 ^ 6 ∨ k.million = true ∧ n < 10 ^ 8) {y : Str} {w : W} (hd : (cardinal k).den (chinese n) y w) :
    toll (chinese n) + 10000 ≤ w ∧ (w = toll (chinese n) + 10000 → y = Nat.toDigits 10 n) := by
  obtain ⟨_, h | ⟨_, h, rfl⟩⟩ := (numeral_chinese hn).cardinal hd
  · refine ⟨Int.le_of_lt h, ?_⟩
    rintro rfl
    exact absurd h (lt_irrefl _)
  · exact ⟨Int.le_refl _, fun _ => small_digits h (spoken_chinese (by omega))⟩

end

example : (cardinal {}).den t!"两千零三十" t!"2030" (toll t!"两千零三十" + 10000) :=
  den_whole (k := {}) (n := 2030) rfl (.inr (by decide)) (.inl (by decide))

end Verif.ZhItn
