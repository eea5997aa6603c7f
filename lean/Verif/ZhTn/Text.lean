import Verif.ZhTn.Reads
import Verif.ZhTn.PostProps

/-
Chinese text with numbers, dates and times in it: which tokens read them, and what the verbalizer says for them.
-/

namespace Verif.ZhTn

open Verif.Wfst
open Verif.Token (chosenFields)
open Verif.ZhTn.Spec hiding liang tens
open Verif.Token.Spec (esc write writeAll Tok Writable IsName canonical)
open Verif.NBest (Pipeline normalize)

/-! ### Verbalizers -/

/-- The verbalizer of dates without the name. -/
abbrev dateV : G :=
  (del t!"year: \"" + year + del t!"\" ").ques + (del t!"month: \"" + month + del t!"\"") +
    (del t!" day: \"" + day + del t!"\"").ques

/-- The verbalizer of times without the name. -/
abbrev timeV : G :=
  (del t!"noon: \"" + .tab noon + del t!"\" ").ques + (del t!"hour: \"" + .tab hour + del t!"\" ") +
    (del t!"minute: \"" + .tab minute + del t!"\"") +
    (del t!" second: \"" + .tab second + del t!"\"").ques

/-- The verbalizer of fractions without the name. -/
abbrev fractionV : G :=
  (del t!"denominator: \"" + number + del t!"\" ") + Wfst.insert t!"分之" +
    (del t!"numerator: \"" + number + del t!"\"")

/-- The verbalizers that matter here. -/
inductive Own : Str → G → Prop
  | date : Own t!"date" dateV
  | time : Own t!"time" timeV
  | fraction : Own t!"fraction" fractionV
  | cardinal : Own t!"cardinal" (del t!"value: \"" + cardinal + del t!"\"")
  | math : Own t!"math" (del t!"value: \"" + mathG + del t!"\"")

theorem verb_own {k : Config} {n : Str} {g : G} (ho : Own n g) {f : Str × Str} {fs : List (Str × Str)} {y : Str} {w : W} :
    (verbalizerU k.removeErhua).den (write ⟨n, f :: fs⟩) y w ↔ g.den (fieldsT (f :: fs)) y w := by
  have hn : ' ' ∉ n := by cases ho <;> decide
  have here : ∀ {m : Str} {g : G}, ' ' ∉ m → (deleteTokens m g).den (write ⟨n, f :: fs⟩) y w → m = n :=
    fun hm h => ((delete_write hn hm).1 h).1
  have other : ∀ {m : Str} {g : G}, ' ' ∉ m → m ∉ [t!"date", t!"time", t!"fraction", t!"cardinal", t!"math"] →
      ¬ (deleteTokens m g).den (write ⟨n, f :: fs⟩) y w := by
    intro m g h1 h2 h3
    have := here h1 h3
    subst this
    cases ho <;> exact h2 (by decide)
  rw [(verbalizer_union _).2 _ (verbalizerUnion_eq k)]
  constructor
  · rintro ⟨s, hs, _, h1⟩
    simp only [rules, List.mem_cons, List.not_mem_nil, or_false] at hs
    rcases hs with rfl | rfl | rfl | rfl | rfl | rfl | rfl | rfl | rfl | rfl | rfl
    · obtain ⟨e, h2⟩ := (delete_write (m := t!"date") (g := dateV) hn (by decide)).1 h1
      cases ho <;> first | exact absurd e (by decide) | exact h2
    · rcases h1 with h1 | h1
      · exact absurd h1 (other (by decide) (by decide))
      · split at h1 <;> exact absurd h1 (other (by decide) (by decide))
    · exact absurd h1 (other (by decide) (by decide))
    · obtain ⟨e, h2⟩ := (delete_write (m := t!"fraction") (g := fractionV) hn (by decide)).1 h1
      cases ho <;> first | exact absurd e (by decide) | exact h2
    · rcases h1 with h1 | h1
      · exact absurd h1 (other (by decide) (by decide))
      · exact absurd h1 (other (by decide) (by decide))
    · exact absurd h1 (other (by decide) (by decide))
    · obtain ⟨e, h2⟩ := (delete_write (m := t!"time") (g := timeV) hn (by decide)).1 h1
      cases ho <;> first | exact absurd e (by decide) | exact h2
    · obtain ⟨e, h2⟩ := (delete_write (m := t!"cardinal") (g := del t!"value: \"" + cardinal + del t!"\"") hn (by decide)).1 h1
      cases ho <;> first | exact absurd e (by decide) | exact h2
    · obtain ⟨e, h2⟩ := (delete_write (m := t!"math") (g := del t!"value: \"" + mathG + del t!"\"") hn (by decide)).1 h1
      cases ho <;> first | exact absurd e (by decide) | exact h2
    · exact absurd h1 (other (by decide) (by decide))
    · exact absurd h1 (other (by decide) (by decide))
  · intro h
    have own : ∀ {v : G}, v = deleteTokens n g → v.den (write ⟨n, f :: fs⟩) y w := by
      rintro v rfl
      exact (delete_write hn hn).2 ⟨rfl, h⟩
    cases ho with
    | date => exact ⟨⟨dateRule, some 102000, true⟩, by simp [rules], rfl, own rfl⟩
    | time => exact ⟨⟨timeRule, some 105000, true⟩, by simp [rules], rfl, own rfl⟩
    | fraction => exact ⟨⟨fractionRule, some 105000, true⟩, by simp [rules], rfl, own rfl⟩
    | cardinal => exact ⟨⟨cardinalRule, some 106000, true⟩, by simp [rules], rfl, own rfl⟩
    | math => exact ⟨⟨mathRule, some 9000000, true⟩, by simp [rules], rfl, own rfl⟩

/-! ### Parts of tokens -/

theorem mem_split {c : Char} {a b r q : Str} (ha : c ∉ a) (hb : c ∉ b) (e : a ++ c :: r = b ++ c :: q) : a = b ∧ r = q := by
  induction a generalizing b with
  | nil =>
    cases b with
    | nil => exact ⟨rfl, (List.cons.inj e).2⟩
    | cons d b =>
      obtain ⟨rfl, _⟩ := List.cons.inj e
      exact absurd (by simp) hb
  | cons d a ih =>
    cases b with
    | nil =>
      obtain ⟨rfl, _⟩ := List.cons.inj e
      exact absurd (by simp) ha
    | cons d' b =>
      obtain ⟨rfl, e'⟩ := List.cons.inj e
      obtain ⟨rfl, h⟩ := ih (b := b) (fun h => ha (by simp [h])) (fun h => hb (by simp [h])) e'
      exact ⟨rfl, h⟩

theorem dig_quote {x : Str} (h : ∀ c ∈ x, dig c = true) : '"' ∉ x := fun hc => absurd (h _ hc) (by decide)

theorem numc_esc {x : Str} (h : ∀ c ∈ x, numc c = true) : esc x = x :=
  esc_bare (fun hc => absurd (h _ hc) (by decide)) (fun hc => absurd (h _ hc) (by decide))

theorem numc_vtext {x : Str} (h : ∀ c ∈ x, numc c = true) : VText x := by
  intro c hc
  by_contra hv
  have hz : c = '\x00' := by simpa [vchar] using hv
  have := h c hc
  rw [hz] at this
  revert this; decide

theorem field_dig {n x : Str} (h : ∀ c ∈ x, numc c = true) : fieldT (n, x) = n ++ t!": \"" ++ x ++ t!"\"" := by
  simp [fieldT, numc_esc h]

section
variable {P : Str → Prop} {f : Str → Str} {g : G}

theorem den_slot (hg : ∀ {x z w}, g.den x z w ↔ P x ∧ z = f x ∧ w = 0) {pre post u z : Str} {w : W} :
    (del pre + g + del post).den u z w ↔ ∃ v, u = pre ++ v ++ post ∧ P v ∧ z = f v ∧ w = 0 := by
  rw [den_add_del]
  constructor
  · rintro ⟨u, rfl, h⟩
    obtain ⟨v, rfl, h'⟩ := den_del_add.1 h
    exact ⟨v, rfl, hg.1 h'⟩
  · rintro ⟨v, rfl, h⟩
    exact ⟨_, rfl, den_del_add.2 ⟨_, rfl, hg.2 h⟩⟩

end

/-! ### Dates -/

/-- A part that may be missing. -/
def Slot (pre post : Str) (P : Str → Prop) (f : Str → Str) (u z : Str) : Prop :=
  (u = [] ∧ z = []) ∨ ∃ v, u = pre ++ v ++ post ∧ P v ∧ z = f v

theorem den_slots {P : Str → Prop} {f : Str → Str} {g : G} (hg : ∀ {x z w}, g.den x z w ↔ P x ∧ z = f x ∧ w = 0)
    {pre post u z : Str} {w : W} : (del pre + g + del post).ques.den u z w ↔ Slot pre post P f u z ∧ w = 0 := by
  rw [den_ques, den_slot hg]
  unfold Slot
  constructor
  · rintro (⟨h1, h2, h3⟩ | ⟨v, h1, h2, h3, h4⟩)
    · exact ⟨.inl ⟨h1, h2⟩, h3⟩
    · exact ⟨.inr ⟨v, h1, h2, h3⟩, h4⟩
  · rintro ⟨⟨h1, h2⟩ | ⟨v, h1, h2, h3⟩, h4⟩
    · exact .inl ⟨h1, h2, h4⟩
    · exact .inr ⟨v, h1, h2, h3, h4⟩

theorem den_dateV {u z : Str} {w : W} : dateV.den u z w ↔ ∃ a y m d e, Slot t!"year: \"" t!"\" " Year yearSaid a y ∧ Month m ∧
    Slot t!" day: \"" t!"\"" Day daySaid d e ∧ u = a ++ (t!"month: \"" ++ m ++ t!"\"") ++ d ∧ z = y ++ monthSaid m ++ e ∧ w = 0 := by
  constructor
  · rintro ⟨_, _, _, d, e, w₃, ⟨a, y, w₁, _, _, w₂, h1, h2, rfl, rfl, rfl⟩, h3, rfl, rfl, rfl⟩
    obtain ⟨h1', rfl⟩ := (den_slots den_yearS).1 h1
    obtain ⟨m, rfl, h2', rfl, rfl⟩ := (den_slot den_monthS).1 h2
    obtain ⟨h3', rfl⟩ := (den_slots den_dayS).1 h3
    exact ⟨a, y, m, d, e, h1', h2', h3', rfl, rfl, zeros3⟩
  · rintro ⟨a, y, m, d, e, h1, h2, h3, rfl, rfl, rfl⟩
    exact ⟨_, _, 0, d, e, 0, ⟨a, y, 0, _, _, 0, (den_slots den_yearS).2 ⟨h1, rfl⟩, (den_slot den_monthS).2 ⟨m, rfl, h2, rfl, rfl⟩,
      rfl, rfl, rfl⟩, (den_slots den_dayS).2 ⟨h3, rfl⟩, rfl, rfl, rfl⟩

theorem slot_year {a y a' y' : Str} (h : Slot t!"year: \"" t!"\" " Year yearSaid a y) (h' : Slot t!"year: \"" t!"\" " Year yearSaid a' y')
    {r r' : Str} (e : a ++ 'm' :: r = a' ++ 'm' :: r') : y = y' ∧ r = r' := by
  rcases h with ⟨rfl, rfl⟩ | ⟨v, rfl, h1, rfl⟩
  · rcases h' with ⟨rfl, rfl⟩ | ⟨v', rfl, h1', rfl⟩
    · exact ⟨rfl, by simpa using e⟩
    · simp at e
  · rcases h' with ⟨rfl, rfl⟩ | ⟨v', rfl, h1', rfl⟩
    · simp at e
    · have e' : v ++ '"' :: (' ' :: 'm' :: r) = v' ++ '"' :: (' ' :: 'm' :: r') := by simpa using e
      obtain ⟨rfl, e⟩ := mem_split (dig_quote h1.dig) (dig_quote h1'.dig) e'
      exact ⟨rfl, by simpa using e⟩

theorem slot_day {a y y' : Str} {pre post : Str} {P : Str → Prop} {f : Str → Str} (hpre : pre ≠ [])
    (h : Slot pre post P f a y) (h' : Slot pre post P f a y') : y = y' := by
  rcases h with ⟨rfl, rfl⟩ | ⟨v, rfl, h1, rfl⟩
  · rcases h' with ⟨_, rfl⟩ | ⟨v', e, h1', rfl⟩
    · rfl
    · simp [hpre] at e
  · rcases h' with ⟨e, rfl⟩ | ⟨v', e, h1', rfl⟩
    · simp [hpre] at e
    · have e := List.append_cancel_left (List.append_cancel_right e)
      rw [e]

theorem dateV_unique {u z z' : Str} {w w' : W} (h : dateV.den u z w) (h' : dateV.den u z' w') : z = z' := by
  obtain ⟨a, y, m, d, e, h1, h2, h3, rfl, rfl, _⟩ := den_dateV.1 h
  obtain ⟨a', y', m', d', e', h1', h2', h3', eq, rfl, _⟩ := den_dateV.1 h'
  obtain ⟨rfl, eq⟩ := slot_year h1 h1' (r := t!"onth: \"" ++ m ++ t!"\"" ++ d) (r' := t!"onth: \"" ++ m' ++ t!"\"" ++ d') (by simpa using eq)
  have eq' : m ++ '"' :: d = m' ++ '"' :: d' := by simpa using eq
  obtain ⟨rfl, rfl⟩ := mem_split (dig_quote h2.dig) (dig_quote h2'.dig) eq'
  rw [slot_day (by simp) h3 h3']

/-- What is said for the token of a date. -/
theorem dated_said {x : Str} {fs : List (Str × Str)} {z : Str} (h : Dated x fs z) :
    Writable ⟨t!"date", fs⟩ ∧ ∃ f gs, chosenFields tokenOrders ⟨t!"date", fs⟩ = f :: gs ∧
      ∀ z', (∃ w, dateV.den (fieldsT (f :: gs)) z' w) ↔ z' = z := by
  have one : ∀ {u : Str}, dateV.den u z 0 → ∀ z', (∃ w, dateV.den u z' w) ↔ z' = z :=
    fun h0 z' => ⟨fun ⟨_, h⟩ => dateV_unique h h0, fun e => ⟨0, e ▸ h0⟩⟩
  have ho : tokenOrders t!"date" = some [t!"year", t!"month", t!"day"] := by decide
  cases h with
  | @ymd y m d s t h1 h2 h3 h4 h5 =>
    have hw : Writable ⟨t!"date", [(t!"year", y), (t!"month", m), (t!"day", d)]⟩ := writable_of [t!"year", t!"month", t!"day"] rfl (by decide)
    refine ⟨hw, (t!"year", y), [(t!"month", m), (t!"day", d)], ?_, one ?_⟩
    · rw [Verif.Token.chosenFields_canonical hw.2.2 ho (by simp)]
      simp [canonical]
    · refine den_dateV.2 ⟨t!"year: \"" ++ y ++ t!"\" ", yearSaid y, m, t!" day: \"" ++ d ++ t!"\"", daySaid d, .inr ⟨y, rfl, h1, rfl⟩, h2,
        .inr ⟨d, rfl, h3, rfl⟩, ?_, rfl, rfl⟩
      simp [fieldsT, field_dig (dig_numc h1.dig), field_dig (dig_numc h2.dig), field_dig (dig_numc h3.dig)]
  | @dmy y m d s t h1 h2 h3 h4 h5 =>
    have hw : Writable ⟨t!"date", [(t!"day", d), (t!"month", m), (t!"year", y)]⟩ := writable_of [t!"day", t!"month", t!"year"] rfl (by decide)
    refine ⟨hw, (t!"year", y), [(t!"month", m), (t!"day", d)], ?_, one ?_⟩
    · rw [Verif.Token.chosenFields_canonical hw.2.2 ho (by simp)]
      simp [canonical]
    · refine den_dateV.2 ⟨t!"year: \"" ++ y ++ t!"\" ", yearSaid y, m, t!" day: \"" ++ d ++ t!"\"", daySaid d, .inr ⟨y, rfl, h1, rfl⟩, h2,
        .inr ⟨d, rfl, h3, rfl⟩, ?_, rfl, rfl⟩
      simp [fieldsT, field_dig (dig_numc h1.dig), field_dig (dig_numc h2.dig), field_dig (dig_numc h3.dig)]
  | @ym y m s h1 h2 _ h4 =>
    have hw : Writable ⟨t!"date", [(t!"year", y), (t!"month", m)]⟩ := writable_of [t!"year", t!"month"] rfl (by decide)
    refine ⟨hw, (t!"year", y), [(t!"month", m)], ?_, one ?_⟩
    · rw [Verif.Token.chosenFields_canonical hw.2.2 ho (by simp)]
      simp [canonical]
    · refine den_dateV.2 ⟨t!"year: \"" ++ y ++ t!"\" ", yearSaid y, m, [], [], .inr ⟨y, rfl, h1, rfl⟩, h2,
        .inl ⟨rfl, rfl⟩, ?_, by simp, rfl⟩
      simp [fieldsT, field_dig (dig_numc h1.dig), field_dig (dig_numc h2.dig)]
  | @my y m s h1 h2 _ h4 =>
    have hw : Writable ⟨t!"date", [(t!"month", m), (t!"year", y)]⟩ := writable_of [t!"month", t!"year"] rfl (by decide)
    refine ⟨hw, (t!"year", y), [(t!"month", m)], ?_, one ?_⟩
    · rw [Verif.Token.chosenFields_canonical hw.2.2 ho (by simp)]
      simp [canonical]
    · refine den_dateV.2 ⟨t!"year: \"" ++ y ++ t!"\" ", yearSaid y, m, [], [], .inr ⟨y, rfl, h1, rfl⟩, h2,
        .inl ⟨rfl, rfl⟩, ?_, by simp, rfl⟩
      simp [fieldsT, field_dig (dig_numc h1.dig), field_dig (dig_numc h2.dig)]
  | @md m d s h2 _ h3 h4 =>
    have hw : Writable ⟨t!"date", [(t!"month", m), (t!"day", d)]⟩ := writable_of [t!"month", t!"day"] rfl (by decide)
    refine ⟨hw, (t!"month", m), [(t!"day", d)], ?_, one ?_⟩
    · rw [Verif.Token.chosenFields_canonical hw.2.2 ho (by simp)]
      simp [canonical]
    · refine den_dateV.2 ⟨[], [], m, t!" day: \"" ++ d ++ t!"\"", daySaid d, .inl ⟨rfl, rfl⟩, h2,
        .inr ⟨d, rfl, h3, rfl⟩, ?_, by simp, rfl⟩
      simp [fieldsT, field_dig (dig_numc h2.dig), field_dig (dig_numc h3.dig)]

/-! ### Times -/

theorem den_timeV {u z : Str} {w : W} (h0 : u.head? = some 'h') : timeV.den u z w ↔ ∃ h m d e, Hour h ∧ Sixty m ∧
    Slot t!" second: \"" t!"\"" Sixty secondSaid d e ∧
    u = (t!"hour: \"" ++ h ++ t!"\" ") ++ (t!"minute: \"" ++ m ++ t!"\"") ++ d ∧ z = hourSaid h ++ minuteSaid m ++ e ∧ w = 0 := by
  constructor
  · rintro ⟨_, _, _, d, e, w₃, ⟨_, _, _, _, _, w₂, ⟨a, y, w₁, _, _, w₀, hn, h1, rfl, rfl, rfl⟩, h2, rfl, rfl, rfl⟩, h3, rfl, rfl, rfl⟩
    obtain ⟨h, rfl, h1', rfl, rfl⟩ := (den_slot den_hourS).1 h1
    obtain ⟨m, rfl, h2', rfl, rfl⟩ := (den_slot den_minuteS).1 h2
    obtain ⟨h3', rfl⟩ := (den_slots den_secondS).1 h3
    rcases den_ques.1 hn with ⟨rfl, rfl, rfl⟩ | hn
    · exact ⟨h, m, d, e, h1', h2', h3', by simp, by simp, by decide⟩
    · exfalso
      obtain ⟨a', rfl, hn1⟩ := den_add_del.1 hn
      obtain ⟨a'', rfl, hn2⟩ := den_del_add.1 hn1
      simp at h0
  · rintro ⟨h, m, d, e, h1, h2, h3, rfl, rfl, rfl⟩
    exact ⟨_, _, 0, d, e, 0, ⟨_, _, 0, _, _, 0, ⟨[], [], 0, _, _, 0, den_ques.2 (.inl ⟨rfl, rfl, rfl⟩),
      (den_slot den_hourS).2 ⟨h, rfl, h1, rfl, rfl⟩, rfl, rfl, rfl⟩, (den_slot den_minuteS).2 ⟨m, rfl, h2, rfl, rfl⟩,
      rfl, rfl, rfl⟩, (den_slots den_secondS).2 ⟨h3, rfl⟩, by simp, by simp, by decide⟩

theorem timeV_unique {u z z' : Str} {w w' : W} (h0 : u.head? = some 'h') (h : timeV.den u z w) (h' : timeV.den u z' w') : z = z' := by
  obtain ⟨a, m, d, e, h1, h2, h3, rfl, rfl, _⟩ := (den_timeV h0).1 h
  obtain ⟨a', m', d', e', h1', h2', h3', eq, rfl, _⟩ := (den_timeV h0).1 h'
  have eq1 : a ++ '"' :: (t!" minute: \"" ++ m ++ t!"\"" ++ d) = a' ++ '"' :: (t!" minute: \"" ++ m' ++ t!"\"" ++ d') := by simpa using eq
  obtain ⟨rfl, eq2⟩ := mem_split (dig_quote h1.dig) (dig_quote h1'.dig) eq1
  have eq' : m ++ '"' :: d = m' ++ '"' :: d' := by simpa using eq2
  obtain ⟨rfl, rfl⟩ := mem_split (dig_quote h2.dig) (dig_quote h2'.dig) eq'
  rw [slot_day (by simp) h3 h3']

theorem timed_said {x : Str} {fs : List (Str × Str)} {z : Str} (h : Timed x fs z) :
    Writable ⟨t!"time", fs⟩ ∧ ∃ f gs, chosenFields tokenOrders ⟨t!"time", fs⟩ = f :: gs ∧
      ∀ z', (∃ w, timeV.den (fieldsT (f :: gs)) z' w) ↔ z' = z := by
  have one : ∀ {u : Str}, u.head? = some 'h' → timeV.den u z 0 → ∀ z', (∃ w, timeV.den u z' w) ↔ z' = z :=
    fun hu h0 z' => ⟨fun ⟨_, h⟩ => timeV_unique hu h h0, fun e => ⟨0, e ▸ h0⟩⟩
  have ho : tokenOrders t!"time" = some [t!"noon", t!"hour", t!"minute", t!"second"] := by decide
  cases h with
  | @hm h m c h1 h2 h3 =>
    have hw : Writable ⟨t!"time", [(t!"hour", h), (t!"minute", m)]⟩ := writable_of [t!"hour", t!"minute"] rfl (by decide)
    refine ⟨hw, (t!"hour", h), [(t!"minute", m)], ?_, one (by simp [fieldsT, fieldT]) ?_⟩
    · rw [Verif.Token.chosenFields_canonical hw.2.2 ho (by simp)]
      simp [canonical]
    · refine (den_timeV (by simp [fieldsT, fieldT])).2 ⟨h, m, [], [], h1, h2, .inl ⟨rfl, rfl⟩, ?_, by simp, rfl⟩
      simp [fieldsT, field_dig (dig_numc h1.dig), field_dig (dig_numc h2.dig)]
  | @hms h m s c d h1 h2 h3 h4 h5 =>
    have hw : Writable ⟨t!"time", [(t!"hour", h), (t!"minute", m), (t!"second", s)]⟩ :=
      writable_of [t!"hour", t!"minute", t!"second"] rfl (by decide)
    refine ⟨hw, (t!"hour", h), [(t!"minute", m), (t!"second", s)], ?_, one (by simp [fieldsT, fieldT]) ?_⟩
    · rw [Verif.Token.chosenFields_canonical hw.2.2 ho (by simp)]
      simp [canonical]
    · refine (den_timeV (by simp [fieldsT, fieldT])).2 ⟨h, m, t!" second: \"" ++ s ++ t!"\"", secondSaid s, h1, h2,
        .inr ⟨s, rfl, h3, rfl⟩, ?_, rfl, rfl⟩
      simp [fieldsT, field_dig (dig_numc h1.dig), field_dig (dig_numc h2.dig), field_dig (dig_numc h3.dig)]

/-! ### Fractions -/

theorem number_bare {x y : Str} {w : W} (h : number.den x y w) : '"' ∉ x ∧ '/' ∉ x ∧ ' ' ∉ x := by
  have hs : shuns t!"\"/ " number = true := by decide +kernel
  have := shuns_den hs h
  exact ⟨fun hc => this _ hc (by simp), fun hc => this _ hc (by simp), fun hc => this _ hc (by simp)⟩

theorem fractionV_said {a b y z : Str} (ha : Amount a y) (hb : Amount b z) (z' : Str) :
    (∃ w, fractionV.den (fieldsT [(t!"denominator", b), (t!"numerator", a)]) z' w) ↔ z' = z ++ t!"分之" ++ y := by
  have e0 : fieldsT [(t!"denominator", b), (t!"numerator", a)] =
      (t!"denominator: \"" ++ b ++ t!"\" ") ++ (t!"numerator: \"" ++ a ++ t!"\"") := by
    simp [fieldsT, field_dig (point_numc (amount_point ha)), field_dig (point_numc (amount_point hb))]
  rw [e0]
  constructor
  · rintro ⟨_, _, _, _, u₂, y₂, w₂, h1, h2, e, rfl, rfl⟩
    obtain ⟨y₁, rfl, i1⟩ := den_add_insert.1 h1
    obtain ⟨u₁, rfl, i2⟩ := den_add_del.1 i1
    obtain ⟨v, rfl, i3⟩ := den_del_add.1 i2
    obtain ⟨u₂, rfl, j1⟩ := den_add_del.1 h2
    obtain ⟨v', rfl, j2⟩ := den_del_add.1 j1
    have e1 : b ++ '"' :: (t!" numerator: \"" ++ a ++ t!"\"") = v ++ '"' :: (t!" numerator: \"" ++ v' ++ t!"\"") := by simpa using e
    obtain ⟨rfl, e2⟩ := mem_split (number_bare ((number_amount hb).2 ⟨rfl, rfl⟩)).1 (number_bare i3).1 e1
    have e3 : a = v' := by simpa using e2
    subst e3
    rw [((number_amount hb).1 i3).1, ((number_amount ha).1 j2).1]
  · rintro rfl
    refine ⟨0 + 0, _, _, _, _, _, _, den_add_insert.2 ⟨z, rfl, den_add_del.2 ⟨_, rfl, den_del_add.2 ⟨b, rfl, (number_amount hb).2 ⟨rfl, rfl⟩⟩⟩⟩,
      den_add_del.2 ⟨_, rfl, den_del_add.2 ⟨a, rfl, (number_amount ha).2 ⟨rfl, rfl⟩⟩⟩, ?_, rfl, rfl⟩
    simp

/-- The fields of the token of a fraction. -/
def fractionFs (a b : Str) : List (Str × Str) := [(t!"numerator", a), (t!"denominator", b)]

theorem fraction_said {a b y z : Str} (ha : Amount a y) (hb : Amount b z) :
    Writable ⟨t!"fraction", fractionFs a b⟩ ∧ ∃ f gs, chosenFields tokenOrders ⟨t!"fraction", fractionFs a b⟩ = f :: gs ∧
      ∀ z', (∃ w, fractionV.den (fieldsT (f :: gs)) z' w) ↔ z' = z ++ t!"分之" ++ y := by
  have ho : tokenOrders t!"fraction" = some [t!"denominator", t!"numerator"] := by decide
  have hw : Writable ⟨t!"fraction", fractionFs a b⟩ := writable_of [t!"numerator", t!"denominator"] rfl (by decide)
  refine ⟨hw, (t!"denominator", b), [(t!"numerator", a)], ?_, fractionV_said ha hb⟩
  rw [Verif.Token.chosenFields_canonical hw.2.2 ho (by simp [fractionFs])]
  simp [canonical, fractionFs]

theorem fraction_tag {a b y z t : Str} {w : W} (ha : Amount a y) (hb : Amount b z) :
    fractionRule.tagger.den (a ++ '/' :: b) t w ↔ t = write ⟨t!"fraction", fractionFs a b⟩ ++ t!" " ∧ w = 0 := by
  have na := point_numc (amount_point ha)
  have nb := point_numc (amount_point hb)
  have e0 : write ⟨t!"fraction", fractionFs a b⟩ ++ t!" " = t!"fraction" ++ t!" { " ++
      ((t!"numerator" ++ t!": \"" ++ esc a ++ t!"\"") ++ t!" " ++ (t!"denominator" ++ t!": \"" ++ esc b ++ t!"\"")) ++ t!" } " := by
    rw [write_fieldsT (by simp [fractionFs])]
    simp [fieldsT, fractionFs, fieldT]
  have h1 := (number_amount ha (y' := y) (w := 0)).2 ⟨rfl, rfl⟩
  have h2 := (number_amount hb (y' := z) (w := 0)).2 ⟨rfl, rfl⟩
  have sp : ∀ {u v : Str} {w : W}, rmspace.den u v w → (∀ c ∈ u, c ≠ ' ') → u = [] ∧ v = [] ∧ w = 0 := by
    intro u v w h hu
    rcases den_ques.1 h with h | h
    · exact h
    · obtain ⟨rfl, _⟩ := den_del.1 h
      exact absurd rfl (hu ' ' (by simp))
  have hsp : ∀ c ∈ a ++ '/' :: b, c ≠ ' ' := by
    intro c hc
    simp only [List.mem_append, List.mem_cons] at hc
    rcases hc with hc | rfl | hc
    · rintro rfl; exact (number_bare h1).2.2 hc
    · decide
    · rintro rfl; exact (number_bare h2).2.2 hc
  rw [e0]
  constructor
  · intro h
    obtain ⟨m, rfl, h'⟩ := den_addTokens.1 h
    obtain ⟨x₁, t₁, w₁, x₂, t₂, w₂, g1, g2, ex, rfl, rfl⟩ := h'
    obtain ⟨t₃, rfl, g3⟩ := den_add_insert.1 g1
    obtain ⟨x₄, t₄, w₄, x₅, t₅, w₅, g4, g5, rfl, rfl, rfl⟩ := g3
    obtain ⟨x₆, rfl, g6⟩ := den_add_del.1 g4
    obtain ⟨x₇, t₇, w₇, x₈, t₈, w₈, g7, g8, rfl, rfl, rfl⟩ := g6
    rw [ex] at hsp
    obtain ⟨rfl, rfl, rfl⟩ := sp g5 fun c hc => hsp c (by simp [hc])
    obtain ⟨rfl, rfl, rfl⟩ := sp g8 fun c hc => hsp c (by simp [hc])
    obtain ⟨rfl, _, z₁, g9⟩ := den_tagField.1 g7
    obtain ⟨rfl, _, z₂, g10⟩ := den_tagField.1 g2
    have e1 : a ++ '/' :: b = x₇ ++ '/' :: x₂ := by simpa using ex
    obtain ⟨rfl, rfl⟩ := mem_split (number_bare h1).2.1 (number_bare g9).2.1 e1
    obtain ⟨_, rfl⟩ := (number_amount ha).1 g9
    obtain ⟨_, rfl⟩ := (number_amount hb).1 g10
    exact ⟨by simp, by decide⟩
  · rintro ⟨rfl, rfl⟩
    refine den_addTokens.2 ⟨_, rfl, ?_⟩
    refine ⟨_, _, 0, b, _, 0, den_add_insert.2 ⟨_, rfl, ⟨_, _, 0, [], [], 0, den_add_del.2 ⟨_, rfl, ⟨a, _, 0, [], [], 0,
      den_tagField.2 ⟨rfl, numc_vtext na, _, h1⟩, den_ques.2 (.inl ⟨rfl, rfl, rfl⟩), rfl, rfl, rfl⟩⟩,
      den_ques.2 (.inl ⟨rfl, rfl, rfl⟩), rfl, rfl, rfl⟩⟩, den_tagField.2 ⟨rfl, numc_vtext nb, _, h2⟩, ?_, ?_, rfl⟩
    · simp
    · simp

end Verif.ZhTn
