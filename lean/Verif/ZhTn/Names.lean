import Verif.ZhTn.NameSpec
import Verif.ZhTn.Decimal

/-
The Chinese grammar of numbers says the names of numbers.
-/

namespace Verif.ZhTn

open Verif.Wfst
open Verif.ZhTn.Spec (Readable Wrote Decimal digitName rest withUnit ones hundreds thousands wan yi shi name chinese numOf
  digitVal Places Sign)

theorem num_digitName {d : Nat} (h : d < 10) : num d = digitName d := by
  have : ∀ d < 10, num d = digitName d := by decide
  exact this d h

theorem withUnit_lt {head say : Nat → Str} {c : Char} {u n : Nat} (h : n < u) : withUnit head say c u n = say n := by
  rw [withUnit, if_pos h]

/-- A number as so many units and a rest. -/
theorem withUnit_add {head say : Nat → Str} {c : Char} {u a m : Nat} (ha : a ≠ 0) (hm : m < u) :
    withUnit head say c u (a * u + m) = head a ++ c :: rest say u m := by
  have hu : 0 < u := by omega
  have h1 : ¬ a * u + m < u := by
    have : u ≤ a * u := Nat.le_mul_of_pos_left u (Nat.pos_of_ne_zero ha)
    omega
  have h2 : (a * u + m) / u = a := by rw [Nat.mul_comm, Nat.mul_add_div hu, Nat.div_eq_of_lt hm, Nat.add_zero]
  have h3 : (a * u + m) % u = m := by rw [Nat.mul_comm, Nat.mul_add_mod, Nat.mod_eq_of_lt hm]
  rw [withUnit, if_neg h1, h2, h3]

section
variable {a b c d : Nat}

theorem ones_eq (hd : d < 10) : ones d = [num d] := by rw [ones, num_digitName hd]

theorem rest1 (hd : d < 10) : rest ones 10 d = tail1 d := by
  unfold rest tail1
  by_cases h : d = 0
  · rw [if_pos h, if_pos h]
  · rw [if_neg h, if_neg h, if_neg (by omega), ones_eq hd]

theorem tens_say (hc0 : c ≠ 0) (hc : c < 10) (hd : d < 10) : Spec.tens (10 * c + d) = say2 c d := by
  rw [show 10 * c + d = c * 10 + d by omega, Spec.tens, withUnit_add hc0 hd, ones_eq hc, rest1 hd]
  rfl

theorem tens_ones (hd : d < 10) : Spec.tens d = [num d] := by rw [Spec.tens, withUnit_lt hd, ones_eq hd]

theorem rest2 (hc : c < 10) (hd : d < 10) : rest Spec.tens 100 (10 * c + d) = tail2 c d := by
  unfold rest tail2
  by_cases h : c = 0
  · subst h
    by_cases h : d = 0
    · simp [h]
    · rw [if_neg (by omega), if_pos (by omega), if_neg (by simp), if_pos h, show 10 * 0 + d = d by omega, tens_ones hd]
  · rw [if_neg (by omega), if_neg (by omega), if_pos h, tens_say h hc hd]

theorem hundreds_say (hb0 : b ≠ 0) (hb : b < 10) (hc : c < 10) (hd : d < 10) :
    hundreds (100 * b + 10 * c + d) = say3 b c d := by
  rw [show 100 * b + 10 * c + d = b * 100 + (10 * c + d) by omega, hundreds, withUnit_add hb0 (by omega), ones_eq hb,
    rest2 hc hd]
  rfl

theorem rest3 (hb : b < 10) (hc : c < 10) (hd : d < 10) : rest hundreds 1000 (100 * b + 10 * c + d) = tail3 b c d := by
  unfold rest tail3
  by_cases h : b = 0
  · subst h
    rw [show 100 * 0 + 10 * c + d = 10 * c + d by omega, hundreds, withUnit_lt (by omega)]
    by_cases h : c = 0
    · subst h
      by_cases h : d = 0
      · simp [h]
      · rw [if_neg (by omega), if_pos (by omega), if_neg (by simp), if_neg (by simp), if_pos h,
          show 10 * 0 + d = d by omega, tens_ones hd]
    · rw [if_neg (by omega), if_pos (by omega), if_neg (by simp), if_pos h, tens_say h hc hd]
  · rw [if_neg (by omega), if_neg (by omega), if_pos h, hundreds_say h hb hc hd]

theorem thousands_say (ha0 : a ≠ 0) (ha : a < 10) (hb : b < 10) (hc : c < 10) (hd : d < 10) :
    thousands (1000 * a + 100 * b + 10 * c + d) = say4 a b c d := by
  rw [show 1000 * a + 100 * b + 10 * c + d = a * 1000 + (100 * b + 10 * c + d) by omega, thousands,
    withUnit_add ha0 (by omega), ones_eq ha, rest3 hb hc hd]
  rfl

theorem thousands_tail (ha : a < 10) (hb : b < 10) (hc : c < 10) (hd : d < 10)
    (h0 : 1000 * a + 100 * b + 10 * c + d ≠ 0) :
    tail4 a b c d = (if a = 0 then ['零'] else []) ++ thousands (1000 * a + 100 * b + 10 * c + d) := by
  unfold tail4
  by_cases h : a = 0
  · subst h
    rw [show 1000 * 0 + 100 * b + 10 * c + d = 100 * b + 10 * c + d by omega] at h0 ⊢
    rw [thousands, withUnit_lt (by omega)]
    by_cases h : b = 0
    · subst h
      rw [show 100 * 0 + 10 * c + d = 10 * c + d by omega] at h0 ⊢
      rw [hundreds, withUnit_lt (by omega)]
      by_cases h : c = 0
      · subst h
        rw [show 10 * 0 + d = d by omega] at h0 ⊢
        simp [h0, tens_ones hd]
      · simp [h, tens_say h hc hd]
    · simp [h, hundreds_say h hb hc hd]
  · simp [h, thousands_say h ha hb hc hd]

theorem rest4 (ha : a < 10) (hb : b < 10) (hc : c < 10) (hd : d < 10) :
    rest thousands (10 ^ 4) (1000 * a + 100 * b + 10 * c + d) = tail4 a b c d := by
  by_cases h0 : 1000 * a + 100 * b + 10 * c + d = 0
  · obtain ⟨rfl, rfl, rfl, rfl⟩ : a = 0 ∧ b = 0 ∧ c = 0 ∧ d = 0 := by omega
    rfl
  · rw [thousands_tail ha hb hc hd h0]
    unfold rest
    rw [if_neg h0]
    by_cases h : a = 0
    · rw [if_pos (by omega), if_pos h]; rfl
    · rw [if_neg (by omega), if_neg h]; rfl

end

theorem on4_rest {es : List Nat} (hl : es.length = 4) (hd : ∀ d ∈ es, d < 10) :
    on4 tail4 es = rest thousands (10 ^ 4) (valOf es) := by
  obtain ⟨a, b, c, d, rfl⟩ := len4 hl
  rw [valOf4, rest4 (hd a (by simp)) (hd b (by simp)) (hd c (by simp)) (hd d (by simp))]
  rfl

theorem tail8_rest {es : List Nat} (hl : es.length = 8) (hd : ∀ d ∈ es, d < 10) :
    tail8 es = rest wan (10 ^ 8) (valOf es) := by
  obtain ⟨a, b, c, d, h1⟩ := len4 (ds := es.take 4) (by simp [hl])
  obtain ⟨a', b', c', d', h2⟩ := len4 (ds := es.drop 4) (by simp [hl])
  have e : es = [a, b, c, d] ++ [a', b', c', d'] := by rw [← h1, ← h2, List.take_append_drop]
  have hd1 : ∀ x ∈ [a, b, c, d], x < 10 := fun x hx => hd x (by rw [e]; exact List.mem_append_left _ hx)
  have hd2 : ∀ x ∈ [a', b', c', d'], x < 10 := fun x hx => hd x (by rw [e]; exact List.mem_append_right _ hx)
  have ha := hd1 a (by simp)
  have hb := hd1 b (by simp)
  have hc := hd1 c (by simp)
  have hd' := hd1 d (by simp)
  have ha' := hd2 a' (by simp)
  have hb' := hd2 b' (by simp)
  have hc' := hd2 c' (by simp)
  have hd'' := hd2 d' (by simp)
  rw [tail8, h1, h2]
  have hv : valOf es = (1000 * a + 100 * b + 10 * c + d) * 10 ^ 4 + (1000 * a' + 100 * b' + 10 * c' + d') := by
    rw [e, valOf_append, valOf4, valOf4]; rfl
  rw [hv]
  by_cases h0 : 1000 * a + 100 * b + 10 * c + d = 0
  · obtain ⟨rfl, rfl, rfl, rfl⟩ : a = 0 ∧ b = 0 ∧ c = 0 ∧ d = 0 := by omega
    rw [if_neg (by decide)]
    have hs : 1000 * 0 + 100 * 0 + 10 * 0 + 0 = 0 := rfl
    rw [hs, Nat.zero_mul, Nat.zero_add]
    unfold rest
    by_cases hz : 1000 * a' + 100 * b' + 10 * c' + d' = 0
    · obtain ⟨rfl, rfl, rfl, rfl⟩ : a' = 0 ∧ b' = 0 ∧ c' = 0 ∧ d' = 0 := by omega
      rfl
    · rw [if_neg hz, if_pos (by omega), wan, withUnit_lt (by omega)]
      show (if a' ≠ 0 then '零' :: say4 a' b' c' d' else tail4 a' b' c' d') = _
      by_cases h : a' = 0
      · rw [if_neg (by simp [h]), thousands_tail ha' hb' hc' hd'' hz, if_pos h]; rfl
      · rw [if_pos h, thousands_say h ha' hb' hc' hd'']
  · have hany : [a, b, c, d].any (· != 0) = true := by
      simp only [List.any_cons, List.any_nil, Bool.or_false, Bool.or_eq_true, bne_iff_ne]
      omega
    rw [if_pos hany]
    show tail4 a b c d ++ '万' :: tail4 a' b' c' d' = _
    rw [thousands_tail ha hb hc hd' h0, ← rest4 ha' hb' hc' hd'']
    unfold rest
    rw [if_neg (c := _ * 10 ^ 4 + _ = 0) (by omega), wan, withUnit_add h0 (by omega)]
    unfold rest
    by_cases h : a = 0
    · rw [if_pos h, if_pos (c := _ * 10 ^ 4 + _ < _) (by omega)]; rfl
    · rw [if_neg h, if_neg (c := _ * 10 ^ 4 + _ < _) (by omega)]; rfl

/-- The first section, whatever follows. -/
theorem sayHead_shi {hs : List Nat} (h : headOk hs) (hd : ∀ d ∈ hs, d < 10) (t : Str) :
    sayHead hs ++ t = shi (thousands (valOf hs) ++ t) ∨ (hs.length = 1 ∧ sayHead hs = thousands (valOf hs)) := by
  obtain ⟨h1, h4, h0⟩ := h
  match hs, h1, h4, h0, hd with
  | [a], _, _, h0, hd =>
    have ha := hd a (by simp)
    refine .inr ⟨rfl, ?_⟩
    rw [show valOf [a] = a by simp [valOf], thousands, withUnit_lt (by omega), hundreds, withUnit_lt (by omega), tens_ones ha]
    rfl
  | [a, b], _, _, h0, hd =>
    have ha := hd a (by simp)
    have hb := hd b (by simp)
    simp only [List.headD_cons] at h0
    refine .inl ?_
    rw [show valOf [a, b] = 10 * a + b by simp [valOf], thousands, withUnit_lt (by omega), hundreds, withUnit_lt (by omega),
      tens_say h0 ha hb]
    have key : ∀ a < 10, a ≠ 0 → ∀ u : Str, (if a = 1 then [] else [num a]) ++ '十' :: u = shi (num a :: '十' :: u) := by
      intro a ha h0 u
      interval_cases a
      · exact absurd rfl h0
      all_goals rfl
    show ((if a = 1 then [] else [num a]) ++ '十' :: tail1 b) ++ t = shi (num a :: '十' :: (tail1 b ++ t))
    rw [← key a ha h0]; simp
  | [a, b, c], _, _, h0, hd =>
    have ha := hd a (by simp)
    have hb := hd b (by simp)
    have hc := hd c (by simp)
    simp only [List.headD_cons] at h0
    refine .inl ?_
    rw [show valOf [a, b, c] = 100 * a + 10 * b + c by simp [valOf]; ring, thousands, withUnit_lt (by omega),
      hundreds_say h0 ha hb hc]
    show num a :: '百' :: (tail2 b c ++ t) = shi (num a :: '百' :: (tail2 b c ++ t))
    simp [shi]
  | [a, b, c, d], _, _, h0, hd =>
    have ha := hd a (by simp)
    have hb := hd b (by simp)
    have hc := hd c (by simp)
    have hd' := hd d (by simp)
    simp only [List.headD_cons] at h0
    refine .inl ?_
    rw [valOf4, thousands_say h0 ha hb hc hd']
    show num a :: '千' :: (tail3 b c d ++ t) = shi (num a :: '千' :: (tail3 b c d ++ t))
    simp [shi]

theorem sayHead_unit {hs : List Nat} (h : headOk hs) (hd : ∀ d ∈ hs, d < 10) (u : Char) (hu : u ≠ '十') (t : Str) :
    sayHead hs ++ u :: t = shi (thousands (valOf hs) ++ u :: t) := by
  rcases sayHead_shi h hd (u :: t) with h1 | ⟨h1, h2⟩
  · exact h1
  · obtain ⟨a, rfl⟩ := List.length_eq_one_iff.1 h1
    rw [← h2]
    simp [sayHead, shi, hu]

theorem headOk_pos {hs : List Nat} (h : headOk hs) : valOf hs ≠ 0 := by
  obtain ⟨h1, h4, h0⟩ := h
  match hs, h1, h4, h0 with
  | [a], _, _, h0 => simp only [List.headD_cons] at h0; simp [valOf]; omega
  | [a, b], _, _, h0 => simp only [List.headD_cons] at h0; simp [valOf]; omega
  | [a, b, c], _, _, h0 => simp only [List.headD_cons] at h0; simp [valOf]; omega
  | [a, b, c, d], _, _, h0 => simp only [List.headD_cons] at h0; simp [valOf]; omega

theorem valOf_bound {ds : List Nat} (h : ∀ d ∈ ds, d < 10) : valOf ds < 10 ^ ds.length := by
  have : ∀ n, ds.foldl (fun n d => 10 * n + d) n < (n + 1) * 10 ^ ds.length := by
    induction ds with
    | nil => simp
    | cons d ds ih =>
      intro n
      have h9 := h d (by simp)
      refine lt_of_lt_of_le (ih (fun d hd => h d (by simp [hd])) (10 * n + d)) ?_
      rw [List.length_cons, Nat.pow_succ, Nat.mul_comm (10 ^ ds.length) 10, ← Nat.mul_assoc]
      exact Nat.mul_le_mul_right _ (by omega)
  have := this 0
  rwa [Nat.zero_add, Nat.one_mul] at this

/-- What the grammar says for an integer before 二 becomes 两. -/
theorem SayInt.name {ds : List Nat} {y : Str} (h : SayInt ds y) (hd : ∀ d ∈ ds, d < 10) : y = Spec.name (numOf ds) := by
  have small : ∀ n, n < 10 ^ 4 → yi n = thousands n := by
    intro n hn
    rw [yi, withUnit_lt (by omega), wan, withUnit_lt hn]
  show y = shi (yi (valOf ds))
  have bound : ∀ {ds : List Nat}, (∀ d ∈ ds, d < 10) → valOf ds < 10 ^ ds.length := valOf_bound
  rcases h with ⟨d, rfl, rfl⟩ | ⟨h, rfl⟩ | ⟨hs, es, rfl, h, hl, rfl⟩ | ⟨hs, es, rfl, h, hl, rfl⟩
  · have h9 := hd d (by simp)
    rw [show valOf [d] = d by simp [valOf], small _ (by omega), thousands, withUnit_lt (by omega), hundreds,
      withUnit_lt (by omega), tens_ones h9]
    simp [shi]
  · have hb := bound hd
    have h4 : valOf ds < 10 ^ 4 := lt_of_lt_of_le hb (Nat.pow_le_pow_right (by decide) h.2.1)
    rw [small _ h4]
    rcases sayHead_shi h hd [] with h1 | ⟨h1, h2⟩
    · simpa using h1
    · obtain ⟨a, rfl⟩ := List.length_eq_one_iff.1 h1
      rw [← h2]
      simp [sayHead, shi]
  · have hd1 : ∀ d ∈ hs, d < 10 := fun d h => hd d (by simp [h])
    have hd2 : ∀ d ∈ es, d < 10 := fun d h => hd d (by simp [h])
    have hb1 := lt_of_lt_of_le (bound hd1) (Nat.pow_le_pow_right (by decide) h.2.1)
    have hb2 := bound hd2
    rw [hl] at hb2
    rw [valOf_append, hl, yi, withUnit_lt (by omega), wan, withUnit_add (headOk_pos h) hb2, on4_rest hl hd2,
      sayHead_unit h hd1 '万' (by decide)]
  · have hd1 : ∀ d ∈ hs, d < 10 := fun d h => hd d (by simp [h])
    have hd2 : ∀ d ∈ es, d < 10 := fun d h => hd d (by simp [h])
    have hb2 := bound hd2
    rw [hl] at hb2
    rw [valOf_append, hl, yi, withUnit_add (headOk_pos h) hb2, tail8_rest hl hd2, sayHead_unit h hd1 '亿' (by decide)]

theorem frac_places {x y : Str} : Frac x y ↔ Places x y := by
  constructor
  · rintro (⟨rfl, rfl⟩ | ⟨z, es, hn, hv, rfl, rfl⟩)
    · exact .none
    · have : es.map num = es.map digitName := List.map_congr_left fun d hd => num_digitName (hv.lt d hd)
      rw [this]
      exact .some hn hv
  · rintro (_ | ⟨hn, hv⟩)
    · exact .inl ⟨rfl, rfl⟩
    · rename_i z es
      refine .inr ⟨z, es, hn, hv, rfl, ?_⟩
      rw [List.map_congr_left fun d hd => num_digitName (Vals.lt hv d hd)]

theorem places_head {f g : Str} (h : Places f g) : ∀ c ∈ g.head?, c ∉ numeralChars := by
  cases h with
  | none => intro c hc; cases hc
  | some =>
    intro c hc
    obtain rfl : '点' = c := by simpa using hc
    decide

theorem liangF_eq (y : Str) : liangF y = Spec.liang y := rfl

theorem SayInt.ne {ds : List Nat} {y : Str} (h : SayInt ds y) (hd : ∀ d ∈ ds, d < 10) : y ≠ [] :=
  (h.numeral hd).1

theorem readable_say {ds : List Nat} (hr : Readable ds) (hd : ∀ d ∈ ds, d < 10) : SayInt ds (Spec.name (numOf ds)) := by
  obtain ⟨y, h⟩ := sayInt_exists hr
  rwa [← h.name hd]

/-- The grammar of numbers reads exactly the signed decimals and says their names. -/
theorem plainNumber_decimal {x y : Str} {w : W} : plainNumber.den x y w ↔ Decimal x y ∧ w = 0 := by
  rw [den_plainNumber]
  refine and_congr_left fun _ => ?_
  constructor
  · rintro ⟨m, ⟨⟨s₁, s₂, hs, xi, ds, hv, yi, hi, xf, yf, hf, rfl, rfl⟩⟩, _, rfl⟩
    have hd := hv.lt
    have hf := frac_places.1 hf
    have hne := hi.ne hd
    have hr := hi.digits
    obtain rfl := hi.name hd
    obtain ⟨s, rfl, rfl⟩ := of_mem_sign hs
    by_cases hs : s = .none
    · subst hs
      show Decimal (xi ++ xf) (liangF (Spec.name (numOf ds) ++ yf))
      rw [liangF_append hne (places_head hf)]
      exact .bare hv hr hf
    · rw [liangF_spoken hs, ← List.append_assoc, ← List.append_assoc]
      exact .signed hs hv hr hf
  · have key : ∀ (s : Sign) {x f g : Str} {ds : List Nat}, Wrote x ds → Readable ds → Places f g →
        ∃ m, Nonempty (SayNum (s.written ++ (x ++ f)) m) ∧ VText m ∧ m = s.spoken ++ (Spec.name (numOf ds) ++ g) := by
      intro s x f g ds hw hr hf
      have n : SayNum (s.written ++ (x ++ f)) (s.spoken ++ (Spec.name (numOf ds) ++ g)) :=
        ⟨s.written, s.spoken, mem_sign s, x, ds, hw, Spec.name (numOf ds), readable_say hr (Vals.lt hw), f, g, frac_places.2 hf,
          rfl, rfl⟩
      exact ⟨_, ⟨n⟩, n.vtext, rfl⟩
    rintro (⟨hw, hr, hf⟩ | ⟨hs, hw, hr, hf⟩)
    · obtain ⟨m, hn, hv, rfl⟩ := key .none hw hr hf
      refine ⟨_, hn, hv, ?_⟩
      show _ = liangF (Spec.name _ ++ _)
      rw [liangF_append ((readable_say hr (Vals.lt hw)).ne (Vals.lt hw)) (places_head hf)]
      rfl
    · rename_i s _ _ _ _
      obtain ⟨m, hn, hv, rfl⟩ := key s hw hr hf
      refine ⟨_, by rw [List.append_assoc]; exact hn, hv, ?_⟩
      rw [liangF_spoken hs, ← List.append_assoc]

end Verif.ZhTn
