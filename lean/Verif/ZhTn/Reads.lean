import Verif.ZhTn.Dates

/-
How texts of digits and marks are read, and what the grammars for numbers and telephone numbers give for them.
-/

namespace Verif.ZhTn

open Verif.Wfst
open Verif.ZhTn.Spec hiding liang tens
open Verif.Token.Spec (esc write writeAll Tok Writable IsName)

/-! ### Amounts -/

theorem wrote_dig {x : Str} {ds : List Nat} (h : Wrote x ds) : ∀ c ∈ x, dig c = true := by
  intro c hc
  have : digitVal c ∈ x.map digitVal := List.mem_map_of_mem hc
  rw [h] at this
  obtain ⟨d, _, e⟩ := List.mem_map.1 this
  rw [← digit_dig, ← e]; rfl

theorem amount_parts {x y : Str} (h : Amount x y) : ∃ a f, x = a ++ f ∧ a ≠ [] ∧ (∀ c ∈ a, dig c = true) ∧
    (f = [] ∨ ∃ z, f = '.' :: z ∧ z ≠ [] ∧ ∀ c ∈ z, dig c = true) := by
  cases h with
  | @mk x f g ds h1 h2 h3 =>
    refine ⟨x, f, rfl, ?_, wrote_dig h1, ?_⟩
    · rintro rfl
      have : ds = [] := by simpa [Wrote] using h1.symm
      rw [this] at h2
      exact absurd h2.1 (by decide)
    · cases h3 with
      | none => exact .inl rfl
      | @some z es he hz =>
        refine .inr ⟨z, rfl, ?_, wrote_dig hz⟩
        rintro rfl
        exact he (by simpa [Wrote] using hz.symm)

theorem amount_decimal {x y : Str} (h : Amount x y) : Decimal x y := by
  cases h with
  | mk h1 h2 h3 => exact .bare h1 h2 h3

/-- Digits with one point at most. -/
def Point (x : Str) : Prop := (∀ c ∈ x, dig c = true ∨ c = '.') ∧ x.countP (fun c => !dig c) ≤ 1

theorem Point.append {x y : Str} (h : Point (x ++ y)) : Point x ∧ Point y := by
  have := h.2
  rw [List.countP_append] at this
  exact ⟨⟨fun c hc => h.1 c (by simp [hc]), by omega⟩, ⟨fun c hc => h.1 c (by simp [hc]), by omega⟩⟩

theorem amount_point {x y : Str} (h : Amount x y) : Point x := by
  obtain ⟨a, f, rfl, _, ha, rfl | ⟨z, rfl, _, hz⟩⟩ := amount_parts h
  · rw [List.append_nil]
    exact ⟨fun c hc => .inl (ha c hc), by rw [countP_dig ha]; exact Nat.zero_le _⟩
  · refine ⟨fun c hc => ?_, ?_⟩
    · simp only [List.mem_append, List.mem_cons] at hc
      rcases hc with hc | rfl | hc
      · exact .inl (ha c hc)
      · exact .inr rfl
      · exact .inl (hz c hc)
    · rw [List.countP_append, List.countP_cons, countP_dig ha, countP_dig hz]
      decide

theorem point_numc {x : Str} (h : Point x) : ∀ c ∈ x, numc c = true := by
  intro c hc
  rcases h.1 c hc with h | rfl
  · simp [numc, h]
  · decide

theorem dig_numc {x : Str} (h : ∀ c ∈ x, dig c = true) : ∀ c ∈ x, numc c = true := by
  intro c hc
  simp [numc, h c hc]

theorem amount_first {x y : Str} (h : Amount x y) : ∃ c r, x = c :: r ∧ dig c = true := by
  obtain ⟨a, f, rfl, hne, ha, _⟩ := amount_parts h
  cases a with
  | nil => exact absurd rfl hne
  | cons c a => exact ⟨c, _, rfl, ha c (by simp)⟩

theorem dig_last {x : Str} (hne : x ≠ []) (h : ∀ c ∈ x, dig c = true) : ∃ r c, x = r ++ [c] ∧ dig c = true :=
  ⟨x.dropLast, x.getLast hne, (List.dropLast_append_getLast hne).symm, h _ (List.getLast_mem hne)⟩

theorem amount_last {x y : Str} (h : Amount x y) : ∃ r c, x = r ++ [c] ∧ dig c = true := by
  obtain ⟨a, f, rfl, hne, ha, rfl | ⟨z, rfl, hz0, hz⟩⟩ := amount_parts h
  · rw [List.append_nil]; exact dig_last hne ha
  · obtain ⟨r, c, rfl, hc⟩ := dig_last hz0 hz
    exact ⟨a ++ '.' :: r, c, by simp, hc⟩

theorem number_amount {x y y' : Str} {w : W} (h : Amount x y) : number.den x y' w ↔ y' = y ∧ w = 0 := by
  have h1 : number.den x y 0 :=
    den_number.2 ⟨[], by decide, x, y, .inl ((C83_decimal _ _ _).2 ⟨amount_decimal h, rfl⟩), rfl, rfl⟩
  constructor
  · intro h2
    obtain ⟨rfl, rfl⟩ := number_functional h2 h1
    exact ⟨rfl, rfl⟩
  · rintro ⟨rfl, rfl⟩; exact h1

theorem point_no {x : Str} (hx : Point x) {q : Char → Bool} (hq : ∀ c, q c = true → dig c = false ∧ c ≠ '.') : x.countP q = 0 := by
  refine List.countP_eq_zero.2 fun c hc h => ?_
  obtain ⟨h1, h2⟩ := hq c h
  rcases hx.1 c hc with h3 | h3
  · rw [h1] at h3; cases h3
  · exact h2 h3

/-- The characters that are neither digits nor points. -/
def oper (c : Char) : Bool := !dig c && c != '.'

theorem oper_point {x : Str} (hx : Point x) : x.countP oper = 0 :=
  point_no hx fun c hc => by simpa [oper] using hc

theorem math_amount {x y y' : Str} {w : W} (h : Amount x y) : mathG.den x y' w ↔ y' = y ∧ w = 0 := by
  have hp := amount_point h
  constructor
  · rintro (⟨x₁, y₁, w₁, x₂, y₂, w₂, h1, h2, rfl, rfl, rfl⟩ | h2)
    · change Star _ _ _ _ at h2
      cases h2 with
      | nil =>
        rw [List.append_nil] at h
        rw [List.append_nil, show w₁ + (0 : W) = w₁ from Int.add_zero _]
        exact (number_amount h).1 h1
      | @cons u t v u' t' v' h3 h4 =>
        exfalso
        have h5 := atLeast_den (q := oper) h3
        have h6 : 1 ≤ atLeast oper ((del t!" ").ques + (.tab operator ||| symbols) + (del t!" ").ques + number) := by decide +kernel
        have := oper_point hp.append.2.append.1
        omega
    · exfalso
      have h5 := atLeast_den (q := oper) h2
      have h6 : 1 ≤ atLeast oper (.tab unambiguousOperator) := by decide +kernel
      have := oper_point hp
      omega
  · rintro ⟨rfl, rfl⟩
    exact .inl ⟨x, y', 0, [], [], 0, (number_amount h).2 ⟨rfl, rfl⟩, .nil, by simp, by simp, by decide⟩

/-! ### Cardinals -/

theorem spells_chars {v : Char → Option Nat} {o : List (Char × Str)} {x y : Str} (h : Spells v o x y) :
    ∀ c ∈ x, dig c = true ∨ ∃ e ∈ o, e.1 = c := by
  induction h with
  | nil => intro c hc; cases hc
  | digit h1 _ _ ih =>
    intro c hc
    rcases List.mem_cons.1 hc with rfl | hc
    · exact .inl (by rw [← digit_dig, h1]; rfl)
    · exact ih c hc
  | other h1 _ ih =>
    intro c hc
    rcases List.mem_cons.1 hc with rfl | hc
    · exact .inr ⟨_, h1, rfl⟩
    · exact ih c hc

theorem cardinal_percent {x y y' : Str} {w : W} (h : Amount x y) :
    cardinal.den (x ++ ['%']) y' w ↔ y' = t!"百分之" ++ y ∧ w = 0 := by
  have h0 : percent.den (x ++ ['%']) (t!"百分之" ++ y) 0 :=
    den_percent.2 ⟨x, y, (C83_decimal _ _ _).2 ⟨amount_decimal h, rfl⟩, rfl, rfl⟩
  rw [C55_cardinal]
  constructor
  · rintro (h1 | ⟨_, h1, _⟩ | ⟨_, h1, _⟩)
    · obtain ⟨rfl, rfl⟩ := percent_functional h1 h0
      exact ⟨rfl, rfl⟩
    · rcases spells_chars h1 '%' (by simp) with h | ⟨e, he, h⟩
      · exact absurd h (by decide)
      · exact absurd h ((by decide : ∀ e ∈ separators, e.1 ≠ '%') e he)
    · rcases spells_chars h1 '%' (by simp) with h | ⟨e, he, h⟩
      · exact absurd h (by decide)
      · exact absurd h ((by decide : ∀ e ∈ tailWords, e.1 ≠ '%') e he)
  · rintro ⟨rfl, rfl⟩
    exact .inl h0

theorem phone_dig {x : Str} (h : Service x ∨ Mobile x) : ∀ c ∈ x, dig c = true := by
  rcases h with ⟨n, _, rfl⟩ | h
  · exact digits_dig.1 (toDigits_digits n)
  · exact digits_dig.1 h.1

theorem phone_spells {x : Str} (h : ∀ c ∈ x, dig c = true) : Spells phoneVal tailWords x (x.map phoneName) := by
  induction x with
  | nil => exact .nil
  | cons c x ih =>
    have hc := h c (by simp)
    rw [← digit_dig] at hc
    obtain ⟨d, hd⟩ := Option.isSome_iff_exists.1 hc
    refine .digit hd ?_ (ih fun c hc => h c (by simp [hc]))
    have h1 : ∀ d, d < 10 → phoneVal (match some d with | some 1 => '幺' | some d => digitName d | none => ' ') = some d := by
      decide
    have h2 := h1 d (digitVal_lt hd)
    have : phoneName c = (match some d with | some 1 => '幺' | some d => digitName d | none => ' ') := by
      unfold phoneName
      rw [hd]
      split <;> simp_all
    rw [this]; exact h2

theorem not_phone {x : Str} (h : ∀ c ∈ x, dig c = true) : ¬ (Ip x ∨ Dashed x ∨ Landline x) := by
  rintro (⟨a, b, c, d, _, _, _, _, rfl⟩ | ⟨a, b, c, _, _, _, rfl⟩ | ⟨a, b, _, _, _, _, rfl⟩)
  · exact absurd (h '.' (by simp)) (by decide)
  · exact absurd (h '-' (by simp)) (by decide)
  · exact absurd (h '-' (by simp)) (by decide)

theorem not_percent {x y : Str} {w : W} (h : '%' ∉ x) : ¬ percent.den x y w := by
  intro hd
  obtain ⟨x₀, _, _, rfl, _⟩ := den_percent.1 hd
  simp at h

theorem cardinal_phone {x y : Str} {w : W} (h : Service x ∨ Mobile x) : cardinal.den x y w ↔ y = x.map phoneName ∧ w = -100000 := by
  have hd := phone_dig h
  rw [C55_cardinal]
  constructor
  · rintro (h1 | ⟨h1, _⟩ | ⟨_, h1, rfl⟩)
    · exact absurd h1 (not_percent fun hc => absurd (hd _ hc) (by decide))
    · exact absurd h1 (not_phone hd)
    · exact ⟨(C55_unique _ _ _).2 h1 (phone_spells hd), rfl⟩
  · rintro ⟨rfl, rfl⟩
    exact .inr (.inr ⟨h.elim .inl (fun h => .inr (.inl h)), phone_spells hd, rfl⟩)

/-! ### Readings -/

/-- How a text of digits and marks is read as one token. -/
inductive Reading (u t : Str) : W → Prop
  | date {fs : List (Str × Str)} {z : Str} : Dated u fs z → t = write ⟨t!"date", fs⟩ ++ t!" " → Reading u t 102000
  | dates {w : W} : ('-' ∈ u ∨ '~' ∈ u) → 3 ≤ u.countP (fun c => !dig c) → (102000 : Int) ≤ w → Reading u t w
  | fraction {w : W} : fractionRule.tagger.den u t w → '/' ∈ u → (0 : Int) ≤ w → Reading u t (w + 105000)
  | time {fs : List (Str × Str)} {z : Str} : Timed u fs z → t = write ⟨t!"time", fs⟩ ++ t!" " → Reading u t 105000
  | times {w : W} : ('-' ∈ u ∨ '~' ∈ u) → (105000 : Int) ≤ w → Reading u t w
  | percent {z : Str} : '%' ∈ u → cardinal.den u z 0 → t = write (valueTok t!"cardinal" u) ++ t!" " → Reading u t 106000
  | number {w : W} : (Ip u ∨ Dashed u ∨ Landline u) → (106000 : Int) ≤ w → Reading u t w
  | phone : Service u ∨ Mobile u → t = write (valueTok t!"cardinal" u) ++ t!" " → Reading u t 6000
  | math {z : Str} {w : W} : mathG.den u z w → t = write (valueTok t!"math" u) ++ t!" " → (0 : Int) ≤ w →
      Reading u t (w + 9000000)
  | char {w : W} : (10000000 : Int) ≤ w → Reading u t w

theorem value_token {n x : Str} : n ++ t!" { " ++ (t!"value" ++ t!": \"" ++ esc x ++ t!"\"") ++ t!" } " =
    write (valueTok n x) ++ t!" " := by
  rw [write_valueTok]; simp

theorem reading {k : Config} {u t : Str} {w : W} (hu : ∀ c ∈ u, numc c = true) (hd : (taggerU k.removeErhua).den u t w) :
    Reading u t w := by
  have over : ∀ {a b : Int}, 0 ≤ a → b ≤ a + b := by intros; omega
  cases token_kind hu hd with
  | @date w h =>
    rcases den_dateRule h with ⟨fs, z, h1, h2, rfl⟩ | ⟨h1, h2⟩
    · exact .date h1 h2
    · exact .dates h1 h2 (over (costs_den (by decide +kernel) h))
  | fraction h =>
    obtain ⟨c, hc, hq⟩ := must_den (q := t!"/") (by decide +kernel) h
    exact .fraction h (by rwa [← List.mem_singleton.1 hq]) (costs_den (by decide +kernel) h)
  | @time w h =>
    rcases den_timeRule hu h with ⟨fs, z, h1, h2, rfl⟩ | h1
    · exact .time h1 h2
    · exact .times h1 (over (costs_den (by decide +kernel) h))
  | @cardinal w h =>
    obtain ⟨m, rfl, h1⟩ := den_addTokens.1 h
    obtain ⟨rfl, _, z, h2⟩ := den_tagField.1 h1
    rcases (C55_cardinal _ _ _).1 h2 with g | ⟨g, _, rfl⟩ | ⟨g, _, rfl⟩
    · obtain ⟨x₀, y₀, h3, rfl, _⟩ := den_percent.1 g
      obtain ⟨_, rfl⟩ := (C83_decimal _ _ _).1 h3
      exact .percent (by simp) h2 value_token
    · exact .number g (by decide)
    · refine .phone ?_ value_token
      rcases g with g | g | ⟨p, d, hp, _, _, rfl⟩
      · exact .inl g
      · exact .inr g
      · exfalso
        have : ∀ p ∈ [['尾', '号'], ['尾', '号', '是'], ['尾', '号', '为']], '尾' ∈ p := by decide
        exact absurd (hu '尾' (List.mem_append_left _ (this p hp))) (by decide)
  | @math w h =>
    have hc : (0 : Int) ≤ w := costs_den (by decide +kernel) h
    obtain ⟨m, rfl, h1⟩ := den_addTokens.1 h
    obtain ⟨rfl, _, z, h2⟩ := den_tagField.1 h1
    exact .math h2 value_token hc
  | @char w h => exact .char (over (costs_den (by decide +kernel) h))

/-- Only telephone numbers are cheaper than dates. -/
theorem reading_light {u t : Str} {w : W} (h : Reading u t w) (hw : w ≤ (101999 : Int)) : Service u ∨ Mobile u := by
  have no : ∀ {a b : Int}, b ≤ a → 102000 ≤ b → a ≤ 101999 → False := by intros; omega
  have over : ∀ {a b : Int}, 0 ≤ a → b ≤ a + b := by intros; omega
  cases h with
  | date => exact absurd hw (by decide)
  | dates _ _ h => exact (no h (by decide) hw).elim
  | fraction _ _ h => exact (no (over h) (by decide) hw).elim
  | time => exact absurd hw (by decide)
  | times _ h => exact (no h (by decide) hw).elim
  | percent => exact absurd hw (by decide)
  | number _ h => exact (no h (by decide) hw).elim
  | phone h => exact h
  | math _ _ h => exact (no (over h) (by decide) hw).elim
  | char h => exact (no h (by decide) hw).elim

/-- A token with a character that is no digit is none of them. -/
theorem no_light {k : Config} {x : Str} (hx : ∀ c ∈ x, numc c = true) {c : Char} (hc : c ∈ x) (hd : dig c = false) {b : Int}
    (hb : b ≤ 107999) (t : Str) (w : W) : ¬ Star (fun u t w => (taggerU k.removeErhua).den u t w ∧ w + (6000 : Int) ≤ b) x t w := by
  intro h
  obtain ⟨u, t, w, ⟨h1, h2⟩, h3, h4⟩ := star_mem h hc
  have key : ∀ w b : Int, w + 6000 ≤ b → b ≤ 107999 → w ≤ 101999 := by intros; omega
  have := phone_dig (reading_light (reading (fun c hc => hx c (h4.mem hc)) h1) (key _ _ h2 hb)) c h3
  rw [hd] at this; cases this

/-- What a number with one point at most is read as. -/
theorem reading_point {u t : Str} {w : W} (hp : Point u) (h : Reading u t w) :
    Word u ∨ (∃ z w', mathG.den u z w' ∧ t = write (valueTok t!"math" u) ++ t!" " ∧ w = w' + (9000000 : Int) ∧ (0 : Int) ≤ w') ∨
      (10000000 : Int) ≤ w := by
  have no : ∀ {c : Char}, c ∈ u → dig c = false → c ≠ '.' → False := by
    intro c hc h1 h2
    rcases hp.1 c hc with h | h
    · rw [h1] at h; cases h
    · exact h2 h
  cases h with
  | date h _ => exact .inl (.inr (.inr ⟨_, date_dated.2 ⟨_, h⟩⟩))
  | dates _ h _ => have := hp.2; omega
  | fraction _ h _ => exact (no h (by decide) (by decide)).elim
  | time h _ =>
    obtain ⟨⟨c, hc, h1⟩, _⟩ := timed_chars h
    exact (no hc (colon_dig h1) (by rintro rfl; exact absurd h1 (by decide))).elim
  | times h _ => rcases h with h | h <;> exact (no h (by decide) (by decide)).elim
  | percent h _ _ => exact (no h (by decide) (by decide)).elim
  | number h _ =>
    rcases h with ⟨a, b, c, d, _, _, _, _, rfl⟩ | ⟨a, b, c, _, _, _, rfl⟩ | ⟨a, b, _, _, _, _, rfl⟩
    · have := hp.2
      simp only [List.countP_append, List.countP_cons, show (!dig '.') = true by decide, if_true] at this
      omega
    · exact (no (c := '-') (by simp) (by decide) (by decide)).elim
    · exact (no (c := '-') (by simp) (by decide) (by decide)).elim
  | phone h _ => exact .inl (h.elim .inl fun h => .inr (.inl h))
  | math h1 h2 h3 => exact .inr (.inl ⟨_, _, h1, h2, rfl, h3⟩)
  | char h => exact .inr (.inr h)

theorem star_row {k : Config} {b : Int} (hb : b ≤ 9000000) {x t : Str} {w : W} (hp : Point x)
    (h : Star (fun u t w => (taggerU k.removeErhua).den u t w ∧ w + (6000 : Int) ≤ b) x t w) : Row x := by
  induction h with
  | nil => exact .nil
  | @cons x₁ t₁ w₁ x₂ t₂ w₂ h1 h2 ih =>
    refine .cons ?_ (ih hp.append.2)
    rcases reading_point hp.append.1 (reading (point_numc hp.append.1) h1.1) with h | ⟨_, w', _, _, e, hw⟩ | h
    · exact h
    · have key : ∀ w w' b : Int, w = w' + 9000000 → 0 ≤ w' → b ≤ 9000000 → w + 6000 ≤ b → False := by intros; omega
      exact (key _ _ _ e hw hb h1.2).elim
    · have key : ∀ w b : Int, 10000000 ≤ w → b ≤ 9000000 → w + 6000 ≤ b → False := by intros; omega
      exact (key _ _ h hb h1.2).elim

end Verif.ZhTn
