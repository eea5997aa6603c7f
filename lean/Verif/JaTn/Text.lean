import Verif.JaTn.Words

/-
Japanese text with numbers in it: which tokens read a number, and what the verbalizer says for it.
-/

namespace Verif.JaTn

open Verif.Wfst
open Verif.JaTn.Spec
open Verif.Token.Spec (esc write writeAll Tok Writable IsName)
open Verif.NBest (Pipeline normalize)

/-! ### Numbers that stand by themselves -/

section
variable {x y : Str}

theorem digit_point {c : Char} (h : (digitVal c).isSome = true) : c ≠ '.' ∧ c ≠ ',' := by
  refine ⟨?_, ?_⟩ <;> rintro rfl <;> revert h <;> decide

theorem digits_some {z : Str} {es : List Nat} (h : z.map digitVal = es.map some) : ∀ c ∈ z, (digitVal c).isSome = true := by
  intro c hc
  have : digitVal c ∈ z.map digitVal := List.mem_map_of_mem hc
  rw [h] at this
  obtain ⟨d, _, e⟩ := List.mem_map.1 this
  rw [← e]; rfl

theorem Spec.Stands.numc (h : Stands x y) : ∀ c ∈ x, numc c = true := by
  have key : ∀ {x ds}, Writes x ds → ∀ c ∈ x, JaTn.numc c = true := by
    intro x ds hw c hc
    rcases puts_chars hw.1 c hc with rfl | h
    · decide
    · simp [JaTn.numc, h]
  cases h with
  | whole hw _ _ => exact key hw
  | point hw _ _ hz _ =>
    intro c hc
    rcases List.mem_append.1 hc with hc | hc
    · exact key hw c hc
    · rcases List.mem_cons.1 hc with rfl | hc
      · decide
      · simp [JaTn.numc, digits_some hz c hc]

theorem Spec.Stands.points (h : Stands x y) : x.countP (· == '.') ≤ 1 := by
  have no : ∀ {x : Str}, '.' ∉ x → x.countP (· == '.') = 0 := by
    intro x hx
    refine List.countP_eq_zero.2 fun c hc e => hx ?_
    rw [← beq_iff_eq.1 e]; exact hc
  cases h with
  | whole hw _ _ => rw [no (writes_no_point hw)]; exact Nat.zero_le _
  | point hw _ _ hz _ =>
    rw [List.countP_append, no (writes_no_point hw), List.countP_cons,
      no (fun hc => (digit_point (digits_some hz _ hc)).1 rfl)]
    decide

theorem puts_length {marks : List Nat} {x : Str} {ds : List Nat} (h : Puts marks x ds) (hc : ',' ∉ x) : x.length = ds.length := by
  induction h with
  | nil => rfl
  | digit _ _ ih => simp only [List.length_cons, ih fun h => hc (by simp [h])]
  | comma => exact absurd (by simp) hc

theorem Spec.Stands.short (h : Stands x y) (hp : '.' ∉ x) (hc : ',' ∉ x) : x.length ≤ 8 := by
  cases h with
  | whole hw _ hl => rw [puts_length hw.1 hc]; exact hl.resolve_right hc
  | point => exact absurd (by simp) hp

theorem Spec.Stands.decimal (h : Stands x y) : Decimal x y := by
  cases h with
  | whole hw hr _ => exact .whole (s := []) (t := []) (by simp [signs]) hw hr
  | point hw hr he hz _ => exact .point (s := []) (t := []) (by simp [signs]) hw hr he hz

theorem Spec.Stands.first (h : Stands x y) : ∃ c r, x = c :: r ∧ (digitVal c).isSome = true := by
  cases h with
  | whole hw hr _ => exact writes_first hw hr
  | point hw hr _ _ _ =>
    obtain ⟨c, r, rfl, hc⟩ := writes_first hw hr
    exact ⟨c, _, rfl, hc⟩

theorem puts_last {marks : List Nat} {x : Str} {ds : List Nat} (h : Puts marks x ds) (hd : ds ≠ []) :
    ∃ r c, x = r ++ [c] ∧ (digitVal c).isSome = true := by
  induction h with
  | nil => exact absurd rfl hd
  | @digit c d x ds hc hx ih =>
    by_cases he : ds = []
    · subst he; cases hx
      exact ⟨[], c, rfl, by simp [hc]⟩
    · obtain ⟨r, e, rfl, h⟩ := ih he
      exact ⟨c :: r, e, rfl, h⟩
  | @comma c d x ds _ hc hx ih =>
    by_cases he : ds = []
    · subst he; cases hx
      exact ⟨[','], c, rfl, by simp [hc]⟩
    · obtain ⟨r, e, rfl, h⟩ := ih he
      exact ⟨',' :: c :: r, e, rfl, h⟩

theorem Spec.Stands.last (h : Stands x y) : ∃ r c, x = r ++ [c] ∧ (digitVal c).isSome = true := by
  have ne : ∀ {ds : List Nat}, Readable ds → ds ≠ [] := by
    rintro _ hr rfl
    exact absurd hr.1 (by decide)
  cases h with
  | whole hw hr _ => exact puts_last hw.1 (ne hr)
  | @point x z ds es hw hr he hz _ =>
    have hn : z ≠ [] := by
      rintro rfl
      exact he (by simpa using hz.symm)
    refine ⟨x ++ '.' :: z.dropLast, z.getLast hn, ?_, digits_some hz _ (List.getLast_mem hn)⟩
    rw [List.append_assoc, List.cons_append, List.dropLast_append_getLast hn]

end

/-! ### Who reads them -/

theorem half_false (x : Str) : x.map (half false) = x := by
  have : half false = id := by funext c; rfl
  rw [this]; simp

/-- Of the parts of the cardinal rule, only the number reads it. -/
theorem stands_signed {x y y' : Str} {w : W} (h : Stands x y)
    (hd : (signed ||| percent ||| ip ||| phone ||| ordinal ||| room ||| others).den x y' w) : signed.den x y' w := by
  have hn : ∀ c ∈ x, numc (half false c) = true := h.numc
  have long : ∀ {g : G}, shuns t!",." g = true → 9 ≤ atLeast (fun _ => true) g → ¬ g.den x y' w := by
    intro g h1 h2 hd
    have hs := shuns_den h1 hd
    have h3 := atLeast_den (q := fun _ => true) hd
    have h4 := h.short (fun hc => hs _ hc (by simp)) (fun hc => hs _ hc (by simp))
    rw [List.countP_true] at h3
    omega
  rcases hd with (((((hd | hd) | hd) | hd) | hd) | hd) | hd
  · exact hd
  · exact (not_wordy (by decide +kernel) hn hd).elim
  · have := atLeast_den (q := (· == '.')) hd
    have h3 : 3 ≤ atLeast (· == '.') ip := by decide +kernel
    have := h.points
    omega
  · exfalso
    obtain ⟨x₁, y₁, w₁, x₂, y₂, w₂, h1, h2, rfl, rfl, rfl⟩ := hd
    rcases den_ques.1 h1 with ⟨rfl, rfl, rfl⟩ | h1
    · rcases h2 with h2 | h2
      · exact not_wordy (by decide +kernel) hn h2
      · rw [show (0 : W) + w₂ = w₂ from Int.zero_add _, List.nil_append] at *
        exact long (by decide +kernel) (by decide +kernel) h2
    · have hp : must t!"+" countryCode = true := by decide +kernel
      obtain ⟨c, hc, hq⟩ := must_den hp h1
      have := h.numc c (List.mem_append_left _ hc)
      rw [List.mem_singleton.1 hq] at this
      revert this; decide
  · exact (not_wordy (by decide +kernel) hn hd).elim
  · exact (not_wordy (by decide +kernel) hn hd).elim
  · exact (long (by decide +kernel) (by decide +kernel) hd).elim

theorem cardinal_stands {h : Bool} {x y y' : Str} {w : W} (hs : Stands (x.map (half h)) y) :
    (cardinal h).den x y' w ↔ VText x ∧ y' = y ∧ w = 0 := by
  unfold cardinal
  rw [den_pre]
  constructor
  · rintro ⟨hv, hd⟩
    obtain ⟨hd', rfl⟩ := (C80_decimal _ _ _).1 (stands_signed hs hd)
    exact ⟨hv, decimal_unique hd' hs.decimal, rfl⟩
  · rintro ⟨hv, rfl, rfl⟩
    exact ⟨hv, .inl (.inl (.inl (.inl (.inl (.inl ((C80_decimal _ _ _).2 ⟨hs.decimal, rfl⟩))))))⟩

/-- A mark in a date, as it is seen. -/
theorem den_dateSign {h : Bool} {x y : Str} {w : W} (hd : (dateSign h).den x y w) :
    x.map (half h) = t!"/" ∨ x.map (half h) = t!"-" ∨ x.map (half h) = t!"." := by
  obtain ⟨_, _, hd⟩ := den_add_insert.1 hd
  rcases (den_pre.1 hd).2 with (hd | hd) | hd
  · exact .inl (den_del.1 hd).1
  · exact .inr (.inl (den_del.1 hd).1)
  · exact .inr (.inr (den_del.1 hd).1)

/-- Two digits, the first of which is zero. -/
theorem den_monthTwo {h : Bool} {x y : Str} {w : W} (hd : (pre h (.tab dateMM)).den x y w) :
    ∃ c d, x.map (half h) = ['0', c] ∧ digitVal c = some d ∧ d ≠ 0 := by
  have hall : ∀ e ∈ dateMM, ∃ c d, e.1 = ['0', c] ∧ digitVal c = some d ∧ d ≠ 0 := by
    intro e he
    simp only [dateMM, List.mem_cons, List.not_mem_nil, or_false] at he
    rcases he with rfl | rfl | rfl | rfl | rfl | rfl | rfl | rfl | rfl
    all_goals exact ⟨_, _, rfl, rfl, by decide⟩
  exact hall _ (den_pre.1 hd).2.1

theorem stands_dateBody {h : Bool} {x y t : Str} {w : W} (hs : Stands (x.map (half h)) y) (hd : (dateBody h).den x t w) : False := by
  have sign : ∀ {a u b t w}, x = a ++ u ++ b → (dateSign h).den u t w → u.map (half h) = t!"." := by
    intro a u b t w e hd
    have hn := hs.numc
    rw [e, List.map_append, List.map_append] at hn
    rcases den_dateSign hd with h1 | h1 | h1
    · exact absurd (hn '/' (by rw [h1]; simp)) (by decide)
    · exact absurd (hn '-' (by rw [h1]; simp)) (by decide)
    · exact h1
  have two : ∀ {a u b v c t w t' w'}, x = a ++ u ++ b ++ v ++ c → (dateSign h).den u t w → (dateSign h).den v t' w' → False := by
    intro a u b v c t w t' w' e h1 h2
    have e1 := sign (a := a) (b := b ++ v ++ c) (by rw [e]; simp) h1
    have e2 := sign (a := a ++ u ++ b) e h2
    have := hs.points
    rw [e] at this
    simp only [List.map_append, List.countP_append, e1, e2] at this
    have one : t!".".countP (· == '.') = 1 := by decide
    omega
  have lead : ∀ {a u b t w t' w'}, x = a ++ u ++ b → (pre h (.tab dateMM)).den a t w → (dateSign h).den u t' w' → False := by
    intro a u b t w t' w' e h1 h2
    obtain ⟨c, d, h3, h4, _⟩ := den_monthTwo h1
    have e2 := sign e h2
    have hs' := hs
    rw [e, List.map_append, List.map_append, h3, e2] at hs'
    generalize hz : ['0', c] ++ t!"." ++ b.map (half h) = z at hs'
    have hc := (digit_point (c := c) (by rw [h4]; rfl)).1
    cases hs' with
    | whole hw _ _ => exact writes_no_point hw (by rw [← hz]; simp)
    | @point x' z' ds es hw hr _ _ _ =>
      obtain ⟨rfl, _⟩ := point_split (x := ['0', c]) (by simp [Ne.symm hc]) (writes_no_point hw) (by simpa using hz)
      have h5 : Puts [3, 6, 10] ['0', c] [0, d] := .digit (by decide) (.digit h4 .nil)
      rw [puts_unique hw.1 h5] at hr
      have := hr.2.2.1
      simp at this
  have month : ∀ {x t w}, (tagField t!"month" (pre h (.tab dateMM))).den x t w → ∃ t w, (pre h (.tab dateMM)).den x t w :=
    fun hd => let ⟨_, _, z, hd⟩ := den_tagField.1 hd; ⟨z, _, hd⟩
  rcases hd with (((hd | hd) | hd) | hd) | hd
  · obtain ⟨x₁, _, _, x₂, _, _, h1, _, rfl, _⟩ := hd
    obtain ⟨x₁, _, _, x₃, _, _, h1, h3, rfl, _⟩ := h1
    obtain ⟨x₁, _, _, x₄, _, _, h1, _, rfl, _⟩ := h1
    obtain ⟨x₁, _, _, x₅, _, _, _, h5, rfl, _⟩ := h1
    exact two rfl h5 h3
  · obtain ⟨x₁, _, _, x₂, _, _, h1, _, rfl, _⟩ := hd
    obtain ⟨x₁, _, _, x₃, _, _, h1, h3, rfl, _⟩ := h1
    obtain ⟨x₁, _, _, x₄, _, _, h1, _, rfl, _⟩ := h1
    obtain ⟨x₁, _, _, x₅, _, _, _, h5, rfl, _⟩ := h1
    exact two rfl h5 h3
  · obtain ⟨x₁, _, _, x₂, _, _, h1, h2, rfl, _⟩ := hd
    obtain ⟨x₁, _, _, x₃, _, _, h1, h3, rfl, _⟩ := h1
    obtain ⟨_, _, h2⟩ := month h2
    obtain ⟨_, _, _, h1⟩ := den_tagField.1 h1
    obtain ⟨_, ds, hl, h0, hw, _⟩ := (C80_year h _ _ _).1 h1
    obtain ⟨c, d, h4, h5, h6⟩ := den_monthTwo h2
    have e3 := sign rfl h3
    rw [List.map_append, List.map_append, e3, h4] at hs
    generalize hz : x₁.map (half h) ++ t!"." ++ ['0', c] = z at hs
    cases hs with
    | whole hw' _ _ => exact writes_no_point hw' (by rw [← hz]; simp)
    | @point x' z' ds' es hw' hr _ hzs hnd =>
      obtain ⟨rfl, rfl⟩ := point_split (writes_no_point hw) (writes_no_point hw') (by simpa using hz)
      rw [← puts_unique hw.1 hw'.1] at hnd
      refine hnd ⟨hl, d, h6, ?_⟩
      have : (es.map some) = [some 0, some d] := by rw [← hzs]; simp [h5]; decide
      exact List.map_injective_iff.2 (fun _ _ => Option.some.inj) (by simpa using this)
  · obtain ⟨x₁, _, _, x₂, _, _, h1, h2, rfl, _⟩ := hd
    obtain ⟨x₁, _, _, x₃, _, _, h1, h3, rfl, _⟩ := h1
    obtain ⟨_, _, h1⟩ := month h1
    exact lead rfl h1 h3
  · obtain ⟨x₁, _, _, x₂, _, _, h1, h2, rfl, _⟩ := hd
    obtain ⟨x₁, _, _, x₃, _, _, h1, h3, rfl, _⟩ := h1
    obtain ⟨_, _, h1⟩ := month h1
    exact lead rfl h1 h3

theorem seen_numc {h : Bool} {x y : Str} (hs : Stands (x.map (half h)) y) : ∀ c ∈ x, numc (half h c) = true :=
  fun _ hc => hs.numc _ (List.mem_map_of_mem hc)

theorem stands_date {h : Bool} {x y t : Str} {w : W} (hs : Stands (x.map (half h)) y) (hd : (dateRule h).tagger.den x t w) : False := by
  have hn := seen_numc hs
  have range : ∀ {a u b t w}, x = a ++ u ++ b → (rangeRule h).tagger.den u t w → False := by
    intro a u b t w e h1
    refine not_wordy (must_range h) (fun c hc => hn c ?_) h1
    rw [e]; simp [hc]
  rcases hd with hd | hd
  · obtain ⟨x₁, _, _, x₂, _, _, h1, h2, rfl, _⟩ := hd
    rcases den_ques.1 h2 with ⟨rfl, _⟩ | ⟨x₃, _, _, x₄, _, _, h3, _, rfl, _⟩
    · obtain ⟨m, _, h1⟩ := den_addTokens.1 h1
      rw [List.append_nil] at hs
      exact stands_dateBody hs h1
    · exact range (a := x₁) (b := x₄) (by simp) h3
  · obtain ⟨x₁, _, _, x₂, _, _, h1, h2, rfl, _⟩ := hd
    obtain ⟨x₁, _, _, x₃, _, _, _, h3, rfl, _⟩ := h1
    exact range rfl h3

/-- The token of a number. -/
def cardTok (x : Str) : Tok := valueTok t!"cardinal" x

theorem stands_only {k : Config} (hk : k.transliterate = false) {x y t : Str} {w : W}
    (hs : Stands (x.map (half k.fullToHalf)) y) (hd : (taggerU k).den x t w) (hw : w ≤ (106000 : Int)) :
    t = write (cardTok x) ++ t!" " ∧ w = (106000 : Int) := by
  obtain ⟨s, hm, j, w₀, hj, h1, rfl⟩ := ((tagger_union _).2 _ (taggerUnion_eq k) x t w).1 hd
  have hn := seen_numc hs
  have heavy : ∀ {j : Int} {g : G}, costs g = true → g.den x t w₀ → 106000 < j → w₀ + j ≤ 106000 → False := by
    intro j g h1 h2 h3 h4
    have h5 : (0 : Int) ≤ w₀ := costs_den h1 h2
    have key : ∀ a b : Int, 0 ≤ a → 106000 < b → a + b ≤ 106000 → False := by intros; omega
    exact key _ _ h5 h3 h4
  simp only [rules, hk, List.mem_append, List.mem_cons, List.not_mem_nil, or_false, Bool.false_eq_true, if_false] at hm
  rcases hm with rfl | rfl | rfl | rfl | rfl | rfl | rfl | rfl | rfl | rfl | rfl
  · cases hj
    obtain ⟨m, rfl, h2⟩ := den_addTokens.1 h1
    obtain ⟨rfl, _, z, h3⟩ := den_tagField.1 h2
    obtain ⟨_, _, rfl⟩ := (cardinal_stands hs).1 h3
    refine ⟨?_, by decide⟩
    rw [cardTok, write_valueTok]
    simp
  · cases hj
    exact (heavy (by decide +kernel) h1 (by decide) hw).elim
  · exact (stands_date hs h1).elim
  · exact (not_wordy (must_fraction _) hn h1).elim
  · cases hj
    have hc : ∀ h, costs (mathRule h).tagger = true := by decide +kernel
    exact (heavy (hc _) h1 (by decide) hw).elim
  · exact (not_wordy (must_measure _) hn h1).elim
  · exact (not_wordy (must_money _) hn h1).elim
  · exact (not_wordy (must_sport _) hn h1).elim
  · exact (not_wordy (must_time _) hn h1).elim
  · exact (not_wordy (must_whitelist _) hn h1).elim
  · cases hj

theorem stands_tag (k : Config) {x y : Str} (hv : VText x) (hs : Stands (x.map (half k.fullToHalf)) y) :
    (taggerU k).den x (write (cardTok x) ++ t!" ") 106000 := by
  have h1 : (cardinalRule k.fullToHalf).tagger.den x (write (cardTok x) ++ t!" ") 0 := by
    refine den_addTokens.2 ⟨_, ?_, den_tagField.2 ⟨rfl, hv, y, (cardinal_stands hs).2 ⟨hv, rfl, rfl⟩⟩⟩
    rw [cardTok, write_valueTok]
    simp
  exact tag_union (taggerUnion_eq k) (s := ⟨cardinalRule k.fullToHalf, some 106000, true⟩) (by simp [rules]) rfl h1

/-! ### What is said for them -/

/-- The characters of the names of numbers. -/
def numerals : Str := t!"〇一二三四五六七八九十百千万億点"

theorem digitName_mem (d : Nat) : digitName d ∈ numerals := by
  have : ∀ d, d < 10 → digitName d ∈ numerals := by decide
  by_cases h : d < 10
  · exact this d h
  · unfold digitName
    rw [List.getD_eq_getElem?_getD, List.getElem?_eq_none (by simp; omega)]
    decide

theorem japanese_mem (n : Nat) : ∀ c ∈ japanese n, c ∈ numerals := by
  have hplace : ∀ u d, u ∈ numerals → ∀ c ∈ place u d, c ∈ numerals := by
    intro u d hu c hc
    unfold place at hc
    split at hc
    · cases hc
    · split at hc
      · rwa [List.mem_singleton.1 hc]
      · simp only [List.mem_cons, List.not_mem_nil, or_false] at hc
        rcases hc with rfl | rfl
        · exact digitName_mem _
        · exact hu
  have hfull : ∀ us d, (∀ u ∈ us, u ∈ numerals) → ∀ c ∈ full us d, c ∈ numerals := by
    intro us d hu c hc
    unfold full at hc
    split at hc
    · cases hc
    · rcases List.mem_cons.1 hc with rfl | hc
      · exact digitName_mem _
      · exact hu c hc
  have hbelow : ∀ o n, ∀ c ∈ below o n, c ∈ numerals := by
    intro o n c hc
    unfold below at hc
    simp only [List.mem_append] at hc
    rcases hc with ((hc | hc) | hc) | hc
    · split at hc
      · exact hfull _ _ (by decide) c hc
      · exact hplace _ _ (by decide) c hc
    · exact hplace _ _ (by decide) c hc
    · exact hplace _ _ (by decide) c hc
    · exact hfull _ _ (by simp) c hc
  have hbig : ∀ u n, u ∈ numerals → ∀ c ∈ big u n, c ∈ numerals := by
    intro u n hu c hc
    unfold big at hc
    split at hc
    · cases hc
    · rcases List.mem_append.1 hc with hc | hc
      · exact hbelow _ _ c hc
      · rwa [List.mem_singleton.1 hc]
  intro c hc
  unfold japanese at hc
  split at hc
  · rw [List.mem_singleton.1 hc]; decide
  · simp only [List.mem_append] at hc
    rcases hc with (hc | hc) | hc
    · exact hbig _ _ (by decide) c hc
    · exact hbig _ _ (by decide) c hc
    · exact hbelow _ _ c hc

theorem Spec.Stands.said {x y : Str} (h : Stands x y) : ∀ c ∈ y, c ∈ numerals := by
  cases h with
  | whole => exact japanese_mem _
  | point =>
    intro c hc
    rcases List.mem_append.1 hc with hc | hc
    · exact japanese_mem _ c hc
    · rcases List.mem_cons.1 hc with rfl | hc
      · decide
      · obtain ⟨d, _, rfl⟩ := List.mem_map.1 hc
        exact digitName_mem d

/-- The character as the switches make it. -/
def out (k : Config) (c : Char) : Str :=
  let c := if k.fullToHalf then (fullToHalf.lookup c).getD c else c
  if k.removePuncts && (punctsJa.contains c || isPunct c) then []
  else if k.tagOov && !inCharset c then "<oov>".toList ++ c :: "</oov>".toList else [c]

theorem out_numeral {k : Config} (hk : k.tagOov = false) : ∀ c ∈ numerals, out k c = [c] := by
  have h1 : numerals.all (fun c => (fullToHalf.lookup c).getD c == c && !(punctsJa.contains c || isPunct c)) = true := by
    decide +kernel
  intro c hc
  have := List.all_eq_true.1 h1 c hc
  simp only [Bool.and_eq_true, beq_iff_eq, Bool.not_eq_true'] at this
  obtain ⟨h2, h3⟩ := this
  unfold out
  simp only [h2, ite_self, h3, hk, Bool.false_and, Bool.and_false, Bool.false_eq_true, if_false]

theorem flat_numerals {k : Config} (hk : k.tagOov = false) {y : Str} (h : ∀ c ∈ y, c ∈ numerals) : y.flatMap (out k) = y := by
  induction y with
  | nil => rfl
  | cons c y ih =>
    rw [List.flatMap_cons, out_numeral hk c (h c (by simp)), ih fun c hc => h c (by simp [hc])]
    rfl

theorem vtext_numerals {y : Str} (h : ∀ c ∈ y, c ∈ numerals) : VText y := by
  have : ∀ c ∈ numerals, vchar c = true := by decide
  exact fun c hc => this c (h c hc)

theorem numc_esc {h : Bool} {x : Str} (hx : ∀ c ∈ x, numc (half h c) = true) : esc x = x := by
  have key : ∀ h, numc (half h '"') = false ∧ numc (half h '\\') = false := by decide +kernel
  refine esc_bare (fun hc => ?_) (fun hc => ?_)
  · have := hx _ hc
    rw [(key h).1] at this; cases this
  · have := hx _ hc
    rw [(key h).2] at this; cases this

theorem verb_cardinal (k : Config) {x y : Str} {w : W} (hx : esc x = x) :
    (verbalizerU k).den (write (cardTok x)) y w ↔ (cardinal k.fullToHalf).den x y w := by
  have here : ∀ {m : Str} {g : G}, ' ' ∉ m → (deleteTokens m g).den (write (cardTok x)) y w → m = t!"cardinal" :=
    fun hm h => ((delete_write (by decide) hm).1 h).1
  have own : (cardinalRule k.fullToHalf).verbalizer.den (write (cardTok x)) y w ↔ (cardinal k.fullToHalf).den x y w := by
    refine (delete_write (by decide) (by decide)).trans ?_
    rw [List.flatMap_nil, List.append_nil]
    simp only [true_and]
    exact raw_value (n := t!"value") hx
  rw [(verbalizer_union _).2 _ (verbalizerUnion_eq k)]
  constructor
  · rintro ⟨s, hs, _, h1⟩
    rcases mem_rules hs with hs | rfl
    · simp only [rules, List.mem_append, List.mem_cons, List.not_mem_nil, or_false, Bool.false_eq_true,
        if_false] at hs
      rcases hs with rfl | rfl | rfl | rfl | rfl | rfl | rfl | rfl | rfl | rfl | rfl
      · exact own.1 h1
      all_goals exact absurd (here (by decide) h1) (by decide)
    · exact absurd (here (by decide) h1) (by decide)
  · intro h
    exact ⟨⟨cardinalRule k.fullToHalf, some 106000, true⟩, by simp [rules], rfl, own.2 h⟩

theorem spoken_one {vu : G} {k : Tok} {y : Str} {w : W} (h : Spoken vu [k] y w) : vu.den (write k) y w := by
  cases h with
  | @cons _ _ y z w v h1 h2 =>
    cases h2
    rw [List.append_nil, show w + (0 : W) = w from Int.add_zero _]
    exact h1

/-- A number by itself. -/
theorem winner_stands {k : Config} (hk : k.transliterate = false) {p : Pipeline W}
    (hp : Piped p tokenOrders (taggerU k) (.comp (verbalizerU k) (postprocessor k))) {x y z : Str} (hv : VText x)
    (hs : Stands (x.map (half k.fullToHalf)) y) : Winner p x z ↔ z = y.flatMap (out k) := by
  have hx : x ≠ [] := by
    rintro rfl
    obtain ⟨_, _, e, _⟩ := hs.first
    cases e
  have he := numc_esc (seen_numc hs)
  have hb : Best (taggerU k) x [cardTok x] 106000 :=
    best_single hx (a := 102000) (by decide) (by decide) (stands_tag k hv hs) (fun _ _ _ h => tag_ge k h)
      (fun _ _ h hw => stands_only hk hs h hw)
  have hwr : Writable (cardTok x) := writable_value (by decide)
  have hr : reord tokenOrders [cardTok x] = [cardTok x] := by
    simp only [reord, List.map_cons, List.map_nil]
    rw [Verif.Token.chosenFields_exempt hwr.2.2 (.inl (show tokenOrders t!"cardinal" = none by decide))]
  refine best_winner hp hx hb ?_ ?_ ?_ ?_
  · have : spaced [cardTok x] = t!"cardinal { value: \"" ++ x ++ t!"\" } " := by
      simp [spaced, cardTok, write_valueTok, he]
    rw [this]
    intro c hc
    simp only [List.mem_append] at hc
    rcases hc with (hc | hc) | hc
    · revert c; decide
    · exact hv c hc
    · revert c; decide
  · intro t ht
    rw [List.mem_singleton.1 ht]
    exact hwr
  · rw [hr]
    refine ⟨0 + 0, ?_⟩
    have : Spoken (.comp (verbalizerU k) (postprocessor k)) [cardTok x] (y.flatMap (out k) ++ []) (0 + 0) := by
      refine .cons ⟨y, 0, 0, (verb_cardinal k he).2 ((cardinal_stands hs).2 ⟨hv, rfl, rfl⟩), ?_, rfl⟩ .nil
      exact (C68_postprocess k y _ 0).2 ⟨vtext_numerals hs.said, rfl, rfl⟩
    rwa [List.append_nil] at this
  · rw [hr]
    intro z v h
    obtain ⟨m, w₁, w₂, h1, h2, _⟩ := spoken_one h
    obtain ⟨_, rfl, _⟩ := (cardinal_stands hs).1 ((verb_cardinal k he).1 h1)
    exact ((C68_postprocess k m z w₂).1 h2).2.2

end Verif.JaTn
