import Verif.ZhTn.Words

/-
The tokens of dates and times.
-/

namespace Verif.ZhTn

open Verif.Wfst
open Verif.ZhTn.Spec hiding liang tens
open Verif.Token.Spec (esc write writeAll Tok Writable IsName)

/-! ### The parts -/

theorem short_dig {x : Str} (h : Short x) : ∀ c ∈ x, dig c = true := by
  intro c hc
  have h1 := h.2 c hc
  have : ∀ c ∈ tenDigits, dig c = true := by decide
  exact this c (mem_tenDigits h1)

theorem dig_vtext {x : Str} (h : ∀ c ∈ x, dig c = true) : VText x := by
  intro c hc
  have := h c hc
  by_contra hv
  have hv : vchar c = false := by simpa using hv
  have hz : c = Char.ofNat 0 := by
    by_contra hne
    revert hv
    simp only [vchar]
    simpa using hne
  rw [hz] at this
  revert this; decide

theorem spells_year {x z : Str} (h : Spells syllableVal [] x z) : z = x.map yearName := by
  induction h with
  | nil => rfl
  | @digit c s d x y h1 h2 _ ih =>
    rw [List.map_cons, ← ih]
    congr 1
    have h3 := digitVal_lt h1
    have : yearName c = digitName d := by simp [yearName, h1]
    rw [this]
    have : syllableVal (digitName d) = some d := by
      have : ∀ d, d < 10 → syllableVal (digitName d) = some d := by decide
      exact this d h3
    exact syllableVal_inj _ _ _ h2 this
  | other h => cases h

theorem year_spells {x : Str} (h : Digits x) : Spells syllableVal [] x (x.map yearName) := by
  induction x with
  | nil => exact .nil
  | cons c x ih =>
    obtain ⟨d, hd⟩ := Option.isSome_iff_exists.1 (h c (by simp))
    refine .digit hd ?_ (ih fun c hc => h c (by simp [hc]))
    have : ∀ d, d < 10 → syllableVal (digitName d) = some d := by decide
    rw [show yearName c = digitName d by simp [yearName, hd]]
    exact this d (digitVal_lt hd)

theorem den_yearS {x z : Str} {w : W} : year.den x z w ↔ Year x ∧ z = yearSaid x ∧ w = 0 := by
  rw [C55_year]
  constructor
  · rintro ⟨h1, h2, h3, u, h4, rfl, rfl⟩
    exact ⟨⟨h1, h2, h3⟩, by rw [spells_year h4]; rfl, rfl⟩
  · rintro ⟨⟨h1, h2, h3⟩, rfl, rfl⟩
    exact ⟨h1, h2, h3, _, year_spells h1, rfl, rfl⟩

/-- A table that gives each text that it accepts one output. -/
theorem den_table {t : List (Str × Str)} {P : Str → Prop} {f : Str → Str} (h1 : ∀ e ∈ t, e.2 = f e.1)
    (h2 : ∀ x, (∃ y w, (G.tab t).den x y w) ↔ P x) {x z : Str} {w : W} :
    (G.tab t).den x z w ↔ P x ∧ z = f x ∧ w = 0 := by
  constructor
  · intro h
    exact ⟨(h2 x).1 ⟨_, _, h⟩, h1 _ h.1, h.2⟩
  · rintro ⟨h, rfl, rfl⟩
    obtain ⟨y, w, h⟩ := (h2 x).2 h
    rw [← h1 _ h.1]
    exact ⟨h.1, rfl⟩

theorem den_monthS {x z : Str} {w : W} : month.den x z w ↔ Month x ∧ z = monthSaid x ∧ w = 0 := by
  rw [den_month]
  refine den_table (P := Month) (f := monthSaid) (by decide +kernel) fun x => ?_
  have := (C57_month_day x).1
  simp only [den_month] at this
  exact this

theorem den_dayS {x z : Str} {w : W} : day.den x z w ↔ Day x ∧ z = daySaid x ∧ w = 0 := by
  rw [den_day]
  refine den_table (P := Day) (f := daySaid) (by decide +kernel) fun x => ?_
  have := (C57_month_day x).2.2.1
  simp only [den_day] at this
  exact this

theorem den_mm {x z : Str} {w : W} : (G.tab dateMM).den x z w ↔ (Month x ∧ x.length = 2) ∧ z = monthSaid x ∧ w = 0 := by
  refine den_table (P := fun x => Month x ∧ x.length = 2) (f := monthSaid) (by decide +kernel) fun x => ?_
  have hM : ∀ e ∈ dateMM, Month e.1 ∧ e.1.length = 2 := by decide +kernel
  constructor
  · rintro ⟨y, w, h⟩
    exact hM _ h.1
  · rintro ⟨h1, h2⟩
    obtain ⟨h, _⟩ := den_monthS.2 ⟨h1, rfl, rfl⟩ |> fun h => den_month.1 h
    have hs : ∀ e ∈ dateM ++ dateMM, e.1.length = 2 → (G.tab dateMM).den e.1 e.2 0 := by
      have : ∀ e ∈ dateM ++ dateMM, e.1.length = 2 → e ∈ dateMM := by decide +kernel
      exact fun e he hl => ⟨this e he hl, rfl⟩
    exact ⟨_, _, hs _ h h2⟩

theorem den_hourS {x z : Str} {w : W} : (G.tab hour).den x z w ↔ Hour x ∧ z = hourSaid x ∧ w = 0 :=
  den_table (by decide +kernel) fun x => (C57_hour x).1

theorem den_minuteS {x z : Str} {w : W} : (G.tab minute).den x z w ↔ Sixty x ∧ z = minuteSaid x ∧ w = 0 :=
  den_table (by decide +kernel) fun x => (C57_minute_second x).1

theorem den_secondS {x z : Str} {w : W} : (G.tab second).den x z w ↔ Sixty x ∧ z = secondSaid x ∧ w = 0 :=
  den_table (by decide +kernel) fun x => (C57_minute_second x).2.2.1

theorem Spec.Year.dig {x : Str} (h : Year x) : ∀ c ∈ x, dig c = true := digits_dig.1 h.1
theorem Spec.Month.dig {x : Str} (h : Month x) : ∀ c ∈ x, dig c = true := short_dig h.1
theorem Spec.Day.dig {x : Str} (h : Day x) : ∀ c ∈ x, dig c = true := short_dig h.1
theorem Spec.Hour.dig {x : Str} (h : Hour x) : ∀ c ∈ x, dig c = true := short_dig h.1
theorem Spec.Sixty.dig {x : Str} (h : Sixty x) : ∀ c ∈ x, dig c = true := short_dig h.1

theorem Spec.Month.length {x : Str} (h : Month x) : 1 ≤ x.length ∧ x.length ≤ 2 := by
  rcases h.1.1 with h | h <;> omega
theorem Spec.Day.length {x : Str} (h : Day x) : 1 ≤ x.length ∧ x.length ≤ 2 := by
  rcases h.1.1 with h | h <;> omega
theorem Spec.Hour.length {x : Str} (h : Hour x) : 1 ≤ x.length ∧ x.length ≤ 2 := by
  rcases h.1.1 with h | h <;> omega

/-- The field of a part of a token. -/
theorem tag_part {n : Str} {g : G} {P : Str → Prop} {f : Str → Str} (hg : ∀ {x z w}, g.den x z w ↔ P x ∧ z = f x ∧ w = 0)
    (hv : ∀ {x}, P x → ∀ c ∈ x, dig c = true) {x t : Str} {w : W} :
    (tagField n g).den x t w ↔ P x ∧ t = fieldT (n, x) ∧ w = 0 := by
  rw [den_tagField]
  constructor
  · rintro ⟨rfl, _, z, h⟩
    obtain ⟨h1, _, rfl⟩ := hg.1 h
    exact ⟨h1, rfl, rfl⟩
  · rintro ⟨h1, rfl, rfl⟩
    exact ⟨rfl, dig_vtext (hv h1), _, hg.2 ⟨h1, rfl, rfl⟩⟩

theorem den_dateSign {x t : Str} {w : W} : dateSign.den x t w ↔ ∃ c, Mark c ∧ x = [c] ∧ t = t!" " ∧ w = 0 := by
  unfold dateSign
  rw [den_add_insert]
  simp only [den_or, den_del]
  constructor
  · rintro ⟨y, rfl, (⟨rfl, rfl, rfl⟩ | ⟨rfl, rfl, rfl⟩) | ⟨rfl, rfl, rfl⟩⟩
    all_goals exact ⟨_, by decide, rfl, rfl, rfl⟩
  · rintro ⟨c, hc, rfl, rfl, rfl⟩
    refine ⟨[], rfl, ?_⟩
    simp only [Mark, List.mem_cons, List.not_mem_nil, or_false] at hc
    rcases hc with rfl | rfl | rfl
    · exact .inl (.inl ⟨rfl, rfl, rfl⟩)
    · exact .inl (.inr ⟨rfl, rfl, rfl⟩)
    · exact .inr ⟨rfl, rfl, rfl⟩

theorem den_colon {x t : Str} {w : W} : colon.den x t w ↔ ∃ c, Colon c ∧ x = [c] ∧ t = [] ∧ w = 0 := by
  unfold colon
  simp only [den_or, den_del]
  constructor
  · rintro (⟨rfl, rfl, rfl⟩ | ⟨rfl, rfl, rfl⟩)
    all_goals exact ⟨_, by decide, rfl, rfl, rfl⟩
  · rintro ⟨c, hc, rfl, rfl, rfl⟩
    simp only [Colon, List.mem_cons, List.not_mem_nil, or_false] at hc
    rcases hc with rfl | rfl
    · exact .inl ⟨rfl, rfl, rfl⟩
    · exact .inr ⟨rfl, rfl, rfl⟩

/-! ### Dates -/

/-- A date with the fields of its token, and what is said for it. -/
inductive Dated : Str → List (Str × Str) → Str → Prop
  | ymd {y m d : Str} {s t : Char} : Year y → Month m → Day d → Mark s → Mark t →
      Dated (y ++ s :: m ++ t :: d) [(t!"year", y), (t!"month", m), (t!"day", d)] (yearSaid y ++ monthSaid m ++ daySaid d)
  | dmy {y m d : Str} {s t : Char} : Year y → Month m → Day d → Mark s → Mark t →
      Dated (d ++ s :: m ++ t :: y) [(t!"day", d), (t!"month", m), (t!"year", y)] (yearSaid y ++ monthSaid m ++ daySaid d)
  | ym {y m : Str} {s : Char} : Year y → Month m → m.length = 2 → Mark s →
      Dated (y ++ s :: m) [(t!"year", y), (t!"month", m)] (yearSaid y ++ monthSaid m)
  | my {y m : Str} {s : Char} : Year y → Month m → m.length = 2 → Mark s →
      Dated (m ++ s :: y) [(t!"month", m), (t!"year", y)] (yearSaid y ++ monthSaid m)
  | md {m d : Str} {s : Char} : Month m → m.length = 2 → Day d → Mark s →
      Dated (m ++ s :: d) [(t!"month", m), (t!"day", d)] (monthSaid m ++ daySaid d)

theorem date_dated {x z : Str} : Date x z ↔ ∃ fs, Dated x fs z := by
  constructor
  · intro h
    cases h with
    | ymd h1 h2 h3 h4 h5 => exact ⟨_, .ymd h1 h2 h3 h4 h5⟩
    | dmy h1 h2 h3 h4 h5 => exact ⟨_, .dmy h1 h2 h3 h4 h5⟩
    | ym h1 h2 h3 h4 => exact ⟨_, .ym h1 h2 h3 h4⟩
    | my h1 h2 h3 h4 => exact ⟨_, .my h1 h2 h3 h4⟩
    | md h1 h2 h3 h4 => exact ⟨_, .md h1 h2 h3 h4⟩
  · rintro ⟨fs, h⟩
    cases h with
    | ymd h1 h2 h3 h4 h5 => exact .ymd h1 h2 h3 h4 h5
    | dmy h1 h2 h3 h4 h5 => exact .dmy h1 h2 h3 h4 h5
    | ym h1 h2 h3 h4 => exact .ym h1 h2 h3 h4
    | my h1 h2 h3 h4 => exact .my h1 h2 h3 h4
    | md h1 h2 h3 h4 => exact .md h1 h2 h3 h4

/-- The texts of the fields of a token. -/
def fieldsT : List (Str × Str) → Str
  | [] => []
  | f :: fs => fieldT f ++ fs.flatMap fun f => ' ' :: fieldT f

theorem zeros3 : (0 : W) + 0 + 0 = 0 := by decide

theorem den_dateBody {x t : Str} {w : W} : dateBody.den x t w ↔ ∃ fs z, Dated x fs z ∧ t = fieldsT fs ∧ w = 0 := by
  have hy : ∀ {x t w}, (tagField t!"year" year).den x t w ↔ _ := tag_part den_yearS Spec.Year.dig
  have hm : ∀ {x t w}, (tagField t!"month" month).den x t w ↔ _ := tag_part den_monthS Spec.Month.dig
  have hd : ∀ {x t w}, (tagField t!"day" day).den x t w ↔ _ := tag_part den_dayS Spec.Day.dig
  have hmm : ∀ {x t w}, (tagField t!"month" (.tab dateMM)).den x t w ↔ _ := tag_part den_mm fun h => h.1.dig
  have use : ∀ {x x' t : Str} {fs z} {w : W}, Dated x' fs z → x = x' → t = fieldsT fs → w = 0 →
      ∃ fs z, Dated x fs z ∧ t = fieldsT fs ∧ w = 0 := by
    rintro x _ t fs z w h rfl h1 h2
    exact ⟨fs, z, h, h1, h2⟩
  unfold dateBody
  simp only [den_or, den_add, hy, hm, hd, hmm, den_dateSign]
  constructor
  · rintro ((((h | h) | h) | h) | h)
    · obtain ⟨_, _, _, _, _, _, ⟨_, _, _, _, _, _, ⟨_, _, _, _, _, _, ⟨_, _, _, _, _, _, ⟨h1, rfl, rfl⟩, ⟨s, hs, rfl, rfl, rfl⟩, rfl, rfl, rfl⟩,
        ⟨h2, rfl, rfl⟩, rfl, rfl, rfl⟩, ⟨t, ht, rfl, rfl, rfl⟩, rfl, rfl, rfl⟩, ⟨h3, rfl, rfl⟩, rfl, rfl, rfl⟩ := h
      exact use (.ymd h1 h2 h3 hs ht) (by simp) (by simp [fieldsT]) (by decide)
    · obtain ⟨_, _, _, _, _, _, ⟨_, _, _, _, _, _, ⟨_, _, _, _, _, _, ⟨_, _, _, _, _, _, ⟨h1, rfl, rfl⟩, ⟨s, hs, rfl, rfl, rfl⟩, rfl, rfl, rfl⟩,
        ⟨h2, rfl, rfl⟩, rfl, rfl, rfl⟩, ⟨t, ht, rfl, rfl, rfl⟩, rfl, rfl, rfl⟩, ⟨h3, rfl, rfl⟩, rfl, rfl, rfl⟩ := h
      exact use (.dmy h3 h2 h1 hs ht) (by simp) (by simp [fieldsT]) (by decide)
    · obtain ⟨_, _, _, _, _, _, ⟨_, _, _, _, _, _, ⟨h1, rfl, rfl⟩, ⟨s, hs, rfl, rfl, rfl⟩, rfl, rfl, rfl⟩, ⟨⟨h2, h3⟩, rfl, rfl⟩, rfl, rfl, rfl⟩ := h
      exact use (.ym h1 h2 h3 hs) (by simp) (by simp [fieldsT]) (by decide)
    · obtain ⟨_, _, _, _, _, _, ⟨_, _, _, _, _, _, ⟨⟨h2, h3⟩, rfl, rfl⟩, ⟨s, hs, rfl, rfl, rfl⟩, rfl, rfl, rfl⟩, ⟨h1, rfl, rfl⟩, rfl, rfl, rfl⟩ := h
      exact use (.my h1 h2 h3 hs) (by simp) (by simp [fieldsT]) (by decide)
    · obtain ⟨_, _, _, _, _, _, ⟨_, _, _, _, _, _, ⟨⟨h2, h3⟩, rfl, rfl⟩, ⟨s, hs, rfl, rfl, rfl⟩, rfl, rfl, rfl⟩, ⟨h1, rfl, rfl⟩, rfl, rfl, rfl⟩ := h
      exact use (.md h2 h3 h1 hs) (by simp) (by simp [fieldsT]) (by decide)
  · rintro ⟨fs, z, h, rfl, rfl⟩
    cases h with
    | ymd h1 h2 h3 hs ht =>
      refine .inl (.inl (.inl (.inl ⟨_, _, 0, _, _, 0, ⟨_, _, 0, _, _, 0, ⟨_, _, 0, _, _, 0, ⟨_, _, 0, _, _, 0, ⟨h1, rfl, rfl⟩,
        ⟨_, hs, rfl, rfl, rfl⟩, rfl, rfl, rfl⟩, ⟨h2, rfl, rfl⟩, rfl, rfl, rfl⟩, ⟨_, ht, rfl, rfl, rfl⟩, rfl, rfl, rfl⟩, ⟨h3, rfl, rfl⟩, ?_, ?_, by decide⟩)))
      all_goals simp [fieldsT]
    | dmy h1 h2 h3 hs ht =>
      refine .inl (.inl (.inl (.inr ⟨_, _, 0, _, _, 0, ⟨_, _, 0, _, _, 0, ⟨_, _, 0, _, _, 0, ⟨_, _, 0, _, _, 0, ⟨h3, rfl, rfl⟩,
        ⟨_, hs, rfl, rfl, rfl⟩, rfl, rfl, rfl⟩, ⟨h2, rfl, rfl⟩, rfl, rfl, rfl⟩, ⟨_, ht, rfl, rfl, rfl⟩, rfl, rfl, rfl⟩, ⟨h1, rfl, rfl⟩, ?_, ?_, by decide⟩)))
      all_goals simp [fieldsT]
    | ym h1 h2 h3 hs =>
      refine .inl (.inl (.inr ⟨_, _, 0, _, _, 0, ⟨_, _, 0, _, _, 0, ⟨h1, rfl, rfl⟩, ⟨_, hs, rfl, rfl, rfl⟩, rfl, rfl, rfl⟩, ⟨⟨h2, h3⟩, rfl, rfl⟩, ?_, ?_, by decide⟩))
      all_goals simp [fieldsT]
    | my h1 h2 h3 hs =>
      refine .inl (.inr ⟨_, _, 0, _, _, 0, ⟨_, _, 0, _, _, 0, ⟨⟨h2, h3⟩, rfl, rfl⟩, ⟨_, hs, rfl, rfl, rfl⟩, rfl, rfl, rfl⟩, ⟨h1, rfl, rfl⟩, ?_, ?_, by decide⟩)
      all_goals simp [fieldsT]
    | md h1 h2 h3 hs =>
      refine .inr ⟨_, _, 0, _, _, 0, ⟨_, _, 0, _, _, 0, ⟨⟨h1, h2⟩, rfl, rfl⟩, ⟨_, hs, rfl, rfl, rfl⟩, rfl, rfl, rfl⟩, ⟨h3, rfl, rfl⟩, ?_, ?_, by decide⟩
      all_goals simp [fieldsT]

/-! ### One way to read a date -/

theorem mark_dig {c : Char} (h : Mark c) : dig c = false := by
  have : ∀ c ∈ ['/', '-', '.'], dig c = false := by decide
  exact this c h

theorem colon_dig {c : Char} (h : Colon c) : dig c = false := by
  have : ∀ c ∈ [':', '：'], dig c = false := by decide
  exact this c h

/-- Digits up to the first other character. -/
theorem dig_split {a b r q : Str} {s t : Char} (ha : ∀ c ∈ a, dig c = true) (hb : ∀ c ∈ b, dig c = true)
    (hs : dig s = false) (ht : dig t = false) (e : a ++ s :: r = b ++ t :: q) : a = b ∧ s = t ∧ r = q := by
  induction a generalizing b with
  | nil =>
    cases b with
    | nil => simpa using e
    | cons d b =>
      obtain ⟨rfl, _⟩ := List.cons.inj e
      rw [hb s (by simp)] at hs; cases hs
  | cons c a ih =>
    cases b with
    | nil =>
      obtain ⟨rfl, _⟩ := List.cons.inj e
      rw [ha c (by simp)] at ht; cases ht
    | cons d b =>
      obtain ⟨rfl, e'⟩ := List.cons.inj e
      obtain ⟨rfl, h⟩ := ih (fun c hc => ha c (by simp [hc])) (fun c hc => hb c (by simp [hc])) e'
      exact ⟨rfl, h⟩

theorem dig_two {a b p q : Str} {s t : Char} (ha : ∀ c ∈ a, dig c = true) (hp : ∀ c ∈ p, dig c = true)
    (hs : dig s = false) (ht : dig t = false) (e : a ++ s :: b = p ++ t :: q) : a = p ∧ b = q :=
  let ⟨h1, _, h2⟩ := dig_split ha hp hs ht e
  ⟨h1, h2⟩

theorem dig_three {a b c p q r : Str} {s t s' t' : Char} (ha : ∀ c ∈ a, dig c = true) (hp : ∀ c ∈ p, dig c = true)
    (hb : ∀ c ∈ b, dig c = true) (hq : ∀ c ∈ q, dig c = true) (hs : dig s = false) (ht : dig t = false)
    (hs' : dig s' = false) (ht' : dig t' = false) (e : a ++ s :: b ++ t :: c = p ++ s' :: q ++ t' :: r) :
    a = p ∧ b = q ∧ c = r := by
  rw [List.append_assoc, List.append_assoc] at e
  obtain ⟨h1, _, h2⟩ := dig_split ha hp hs hs' e
  exact ⟨h1, dig_two hb hq ht ht' h2⟩

theorem dig_not {a b p q r : Str} {s s' t' : Char} (ha : ∀ c ∈ a, dig c = true) (hp : ∀ c ∈ p, dig c = true)
    (hb : ∀ c ∈ b, dig c = true) (hs : dig s = false) (hs' : dig s' = false) (ht' : dig t' = false)
    (e : a ++ s :: b = p ++ s' :: q ++ t' :: r) : False := by
  rw [List.append_assoc] at e
  obtain ⟨_, _, rfl⟩ := dig_split ha hp hs hs' e
  have := hb t' (by simp)
  rw [ht'] at this; cases this

theorem dated_eq {x x' : Str} {fs gs : List (Str × Str)} {y z : Str} (h : Dated x fs y) (h' : Dated x' gs z) (hx : x = x') :
    fs = gs ∧ y = z := by
  cases h with
  | ymd a1 a2 a3 a4 a5 =>
    cases h' with
    | ymd b1 b2 b3 b4 b5 =>
      obtain ⟨rfl, rfl, rfl⟩ := dig_three a1.dig b1.dig a2.dig b2.dig (mark_dig a4) (mark_dig a5) (mark_dig b4) (mark_dig b5) hx
      exact ⟨rfl, rfl⟩
    | dmy b1 b2 b3 b4 b5 =>
      obtain ⟨rfl, rfl, rfl⟩ := dig_three a1.dig b3.dig a2.dig b2.dig (mark_dig a4) (mark_dig a5) (mark_dig b4) (mark_dig b5) hx
      have := a1.2.1; have := b3.length; omega
    | ym b1 b2 b3 b4 => exact (dig_not b1.dig a1.dig b2.dig (mark_dig b4) (mark_dig a4) (mark_dig a5) hx.symm).elim
    | my b1 b2 b3 b4 => exact (dig_not b2.dig a1.dig b1.dig (mark_dig b4) (mark_dig a4) (mark_dig a5) hx.symm).elim
    | md b1 b2 b3 b4 => exact (dig_not b1.dig a1.dig b3.dig (mark_dig b4) (mark_dig a4) (mark_dig a5) hx.symm).elim
  | dmy a1 a2 a3 a4 a5 =>
    cases h' with
    | ymd b1 b2 b3 b4 b5 =>
      obtain ⟨rfl, rfl, rfl⟩ := dig_three a3.dig b1.dig a2.dig b2.dig (mark_dig a4) (mark_dig a5) (mark_dig b4) (mark_dig b5) hx
      have := a3.length; have := b1.2.1; omega
    | dmy b1 b2 b3 b4 b5 =>
      obtain ⟨rfl, rfl, rfl⟩ := dig_three a3.dig b3.dig a2.dig b2.dig (mark_dig a4) (mark_dig a5) (mark_dig b4) (mark_dig b5) hx
      exact ⟨rfl, rfl⟩
    | ym b1 b2 b3 b4 => exact (dig_not b1.dig a3.dig b2.dig (mark_dig b4) (mark_dig a4) (mark_dig a5) hx.symm).elim
    | my b1 b2 b3 b4 => exact (dig_not b2.dig a3.dig b1.dig (mark_dig b4) (mark_dig a4) (mark_dig a5) hx.symm).elim
    | md b1 b2 b3 b4 => exact (dig_not b1.dig a3.dig b3.dig (mark_dig b4) (mark_dig a4) (mark_dig a5) hx.symm).elim
  | ym a1 a2 a3 a4 =>
    cases h' with
    | ymd b1 b2 b3 b4 b5 => exact (dig_not a1.dig b1.dig a2.dig (mark_dig a4) (mark_dig b4) (mark_dig b5) hx).elim
    | dmy b1 b2 b3 b4 b5 => exact (dig_not a1.dig b3.dig a2.dig (mark_dig a4) (mark_dig b4) (mark_dig b5) hx).elim
    | ym b1 b2 b3 b4 =>
      obtain ⟨rfl, rfl⟩ := dig_two a1.dig b1.dig (mark_dig a4) (mark_dig b4) hx
      exact ⟨rfl, rfl⟩
    | my b1 b2 b3 b4 =>
      obtain ⟨rfl, rfl⟩ := dig_two a1.dig b2.dig (mark_dig a4) (mark_dig b4) hx
      have := a1.2.1; have := b2.length; omega
    | md b1 b2 b3 b4 =>
      obtain ⟨rfl, rfl⟩ := dig_two a1.dig b1.dig (mark_dig a4) (mark_dig b4) hx
      have := a1.2.1; have := b1.length; omega
  | my a1 a2 a3 a4 =>
    cases h' with
    | ymd b1 b2 b3 b4 b5 => exact (dig_not a2.dig b1.dig a1.dig (mark_dig a4) (mark_dig b4) (mark_dig b5) hx).elim
    | dmy b1 b2 b3 b4 b5 => exact (dig_not a2.dig b3.dig a1.dig (mark_dig a4) (mark_dig b4) (mark_dig b5) hx).elim
    | ym b1 b2 b3 b4 =>
      obtain ⟨rfl, rfl⟩ := dig_two a2.dig b1.dig (mark_dig a4) (mark_dig b4) hx
      have := a2.length; have := b1.2.1; omega
    | my b1 b2 b3 b4 =>
      obtain ⟨rfl, rfl⟩ := dig_two a2.dig b2.dig (mark_dig a4) (mark_dig b4) hx
      exact ⟨rfl, rfl⟩
    | md b1 b2 b3 b4 =>
      obtain ⟨rfl, rfl⟩ := dig_two a2.dig b1.dig (mark_dig a4) (mark_dig b4) hx
      have := a1.2.1; have := b3.length; omega
  | md a1 a2 a3 a4 =>
    cases h' with
    | ymd b1 b2 b3 b4 b5 => exact (dig_not a1.dig b1.dig a3.dig (mark_dig a4) (mark_dig b4) (mark_dig b5) hx).elim
    | dmy b1 b2 b3 b4 b5 => exact (dig_not a1.dig b3.dig a3.dig (mark_dig a4) (mark_dig b4) (mark_dig b5) hx).elim
    | ym b1 b2 b3 b4 =>
      obtain ⟨rfl, rfl⟩ := dig_two a1.dig b1.dig (mark_dig a4) (mark_dig b4) hx
      have := b1.2.1; have := a1.length; omega
    | my b1 b2 b3 b4 =>
      obtain ⟨rfl, rfl⟩ := dig_two a1.dig b2.dig (mark_dig a4) (mark_dig b4) hx
      have := b1.2.1; have := a3.length; omega
    | md b1 b2 b3 b4 =>
      obtain ⟨rfl, rfl⟩ := dig_two a1.dig b1.dig (mark_dig a4) (mark_dig b4) hx
      exact ⟨rfl, rfl⟩

theorem dated_unique {x : Str} {fs gs : List (Str × Str)} {y z : Str} (h : Dated x fs y) (h' : Dated x gs z) : fs = gs ∧ y = z :=
  dated_eq h h' rfl

/-! ### Tokens of dates -/

theorem countP_dig {x : Str} (h : ∀ c ∈ x, dig c = true) : x.countP (fun c => !dig c) = 0 := by
  refine List.countP_eq_zero.2 fun c hc => ?_
  rw [h c hc]; decide

theorem dated_marks {x : Str} {fs : List (Str × Str)} {z : Str} (h : Dated x fs z) :
    1 ≤ x.countP (fun c => !dig c) ∧ x.countP (fun c => !dig c) ≤ 2 ∧ (∀ c ∈ x, dig c = true ∨ Mark c) ∧ fs ≠ [] := by
  cases h with
  | ymd h1 h2 h3 h4 h5 =>
    refine ⟨?_, ?_, ?_, by simp⟩
    · simp [countP_dig h1.dig, countP_dig h2.dig, countP_dig h3.dig, mark_dig h4, mark_dig h5]
    · simp [countP_dig h1.dig, countP_dig h2.dig, countP_dig h3.dig, mark_dig h4, mark_dig h5]
    · intro c hc
      simp only [List.mem_append, List.mem_cons] at hc
      rcases hc with (hc | rfl | hc) | rfl | hc
      exacts [.inl (h1.dig c hc), .inr h4, .inl (h2.dig c hc), .inr h5, .inl (h3.dig c hc)]
  | dmy h1 h2 h3 h4 h5 =>
    refine ⟨?_, ?_, ?_, by simp⟩
    · simp [countP_dig h1.dig, countP_dig h2.dig, countP_dig h3.dig, mark_dig h4, mark_dig h5]
    · simp [countP_dig h1.dig, countP_dig h2.dig, countP_dig h3.dig, mark_dig h4, mark_dig h5]
    · intro c hc
      simp only [List.mem_append, List.mem_cons] at hc
      rcases hc with (hc | rfl | hc) | rfl | hc
      exacts [.inl (h3.dig c hc), .inr h4, .inl (h2.dig c hc), .inr h5, .inl (h1.dig c hc)]
  | ym h1 h2 h3 h4 =>
    refine ⟨?_, ?_, ?_, by simp⟩
    · simp [countP_dig h1.dig, countP_dig h2.dig, mark_dig h4]
    · simp [countP_dig h1.dig, countP_dig h2.dig, mark_dig h4]
    · intro c hc
      simp only [List.mem_append, List.mem_cons] at hc
      rcases hc with hc | rfl | hc
      exacts [.inl (h1.dig c hc), .inr h4, .inl (h2.dig c hc)]
  | my h1 h2 h3 h4 =>
    refine ⟨?_, ?_, ?_, by simp⟩
    · simp [countP_dig h1.dig, countP_dig h2.dig, mark_dig h4]
    · simp [countP_dig h1.dig, countP_dig h2.dig, mark_dig h4]
    · intro c hc
      simp only [List.mem_append, List.mem_cons] at hc
      rcases hc with hc | rfl | hc
      exacts [.inl (h2.dig c hc), .inr h4, .inl (h1.dig c hc)]
  | md h1 h2 h3 h4 =>
    refine ⟨?_, ?_, ?_, by simp⟩
    · simp [countP_dig h1.dig, countP_dig h3.dig, mark_dig h4]
    · simp [countP_dig h1.dig, countP_dig h3.dig, mark_dig h4]
    · intro c hc
      simp only [List.mem_append, List.mem_cons] at hc
      rcases hc with hc | rfl | hc
      exacts [.inl (h1.dig c hc), .inr h4, .inl (h3.dig c hc)]

theorem write_fieldsT {n : Str} {fs : List (Str × Str)} (h : fs ≠ []) : write ⟨n, fs⟩ = n ++ t!" { " ++ fieldsT fs ++ t!" }" := by
  cases fs with
  | nil => exact absurd rfl h
  | cons f fs => rw [write_cons]; rfl

/-- What the date rule reads: a date, or two dates with a sign between. -/
theorem den_dateRule {x t : Str} {w : W} : dateRule.tagger.den x t w →
    (∃ fs z, Dated x fs z ∧ t = write ⟨t!"date", fs⟩ ++ t!" " ∧ w = 0) ∨
    (('-' ∈ x ∨ '~' ∈ x) ∧ 3 ≤ x.countP (fun c => !dig c)) := by
  rintro ⟨x₁, t₁, w₁, x₂, t₂, w₂, h1, h2, rfl, rfl, rfl⟩
  obtain ⟨m, rfl, h1'⟩ := den_addTokens.1 h1
  obtain ⟨fs, z, hd, rfl, rfl⟩ := den_dateBody.1 h1'
  rcases den_ques.1 h2 with ⟨rfl, rfl, rfl⟩ | ⟨x₃, _, _, x₄, _, _, h3, h4, rfl, _⟩
  · left
    rw [List.append_nil]
    refine ⟨fs, z, hd, ?_, by decide⟩
    rw [write_fieldsT (dated_marks hd).2.2.2]
    simp
  · right
    obtain ⟨m, _, h4⟩ := den_addTokens.1 h4
    obtain ⟨gs, z', hd', _, _⟩ := den_dateBody.1 h4
    obtain ⟨m, _, h3⟩ := den_addTokens.1 h3
    obtain ⟨_, _, z'', h3⟩ := den_tagField.1 h3
    have : x₃ = ['-'] ∨ x₃ = ['~'] := by
      rcases h3 with h3 | h3
      · exact .inl (den_crossS.1 h3).1
      · exact .inr (den_crossS.1 h3).1
    have h5 := (dated_marks hd).1
    have h6 := (dated_marks hd').1
    rcases this with rfl | rfl
    · refine ⟨.inl (by simp), ?_⟩
      rw [List.countP_append, List.countP_append]
      have : ['-'].countP (fun c => !dig c) = 1 := by decide
      omega
    · refine ⟨.inr (by simp), ?_⟩
      rw [List.countP_append, List.countP_append]
      have : ['~'].countP (fun c => !dig c) = 1 := by decide
      omega

theorem dated_tag {x : Str} {fs : List (Str × Str)} {z : Str} (h : Dated x fs z) :
    dateRule.tagger.den x (write ⟨t!"date", fs⟩ ++ t!" ") 0 := by
  refine ⟨x, _, 0, [], [], 0, den_addTokens.2 ⟨_, rfl, den_dateBody.2 ⟨fs, z, h, rfl, rfl⟩⟩, den_ques.2 (.inl ⟨rfl, rfl, rfl⟩),
    by simp, ?_, by decide⟩
  rw [write_fieldsT (dated_marks h).2.2.2]
  simp

/-! ### Times -/

/-- A time with the fields of its token, and what is said for it. -/
inductive Timed : Str → List (Str × Str) → Str → Prop
  | hm {h m : Str} {c : Char} : Hour h → Sixty m → Colon c → Timed (h ++ c :: m) [(t!"hour", h), (t!"minute", m)] (hourSaid h ++ minuteSaid m)
  | hms {h m s : Str} {c d : Char} : Hour h → Sixty m → Sixty s → Colon c → Colon d →
      Timed (h ++ c :: m ++ d :: s) [(t!"hour", h), (t!"minute", m), (t!"second", s)] (hourSaid h ++ minuteSaid m ++ secondSaid s)

theorem time_timed {x z : Str} : Time x z ↔ ∃ fs, Timed x fs z := by
  constructor
  · intro h
    cases h with
    | hm h1 h2 h3 => exact ⟨_, .hm h1 h2 h3⟩
    | hms h1 h2 h3 h4 h5 => exact ⟨_, .hms h1 h2 h3 h4 h5⟩
  · rintro ⟨fs, h⟩
    cases h with
    | hm h1 h2 h3 => exact .hm h1 h2 h3
    | hms h1 h2 h3 h4 h5 => exact .hms h1 h2 h3 h4 h5

theorem timed_eq {x x' : Str} {fs gs : List (Str × Str)} {y z : Str} (h : Timed x fs y) (h' : Timed x' gs z) (hx : x = x') :
    fs = gs ∧ y = z := by
  cases h with
  | hm a1 a2 a3 =>
    cases h' with
    | hm b1 b2 b3 =>
      obtain ⟨rfl, rfl⟩ := dig_two a1.dig b1.dig (colon_dig a3) (colon_dig b3) hx
      exact ⟨rfl, rfl⟩
    | hms b1 b2 b3 b4 b5 => exact (dig_not a1.dig b1.dig a2.dig (colon_dig a3) (colon_dig b4) (colon_dig b5) hx).elim
  | hms a1 a2 a3 a4 a5 =>
    cases h' with
    | hm b1 b2 b3 => exact (dig_not b1.dig a1.dig b2.dig (colon_dig b3) (colon_dig a4) (colon_dig a5) hx.symm).elim
    | hms b1 b2 b3 b4 b5 =>
      obtain ⟨rfl, rfl, rfl⟩ := dig_three a1.dig b1.dig a2.dig b2.dig (colon_dig a4) (colon_dig a5) (colon_dig b4) (colon_dig b5) hx
      exact ⟨rfl, rfl⟩

theorem timed_unique {x : Str} {fs gs : List (Str × Str)} {y z : Str} (h : Timed x fs y) (h' : Timed x gs z) : fs = gs ∧ y = z :=
  timed_eq h h' rfl

theorem timed_chars {x : Str} {fs : List (Str × Str)} {z : Str} (h : Timed x fs z) :
    (∃ c ∈ x, Colon c) ∧ (∀ c ∈ x, dig c = true ∨ Colon c) ∧ fs ≠ [] := by
  cases h with
  | hm h1 h2 h3 =>
    refine ⟨⟨_, by simp, h3⟩, ?_, by simp⟩
    intro c hc
    simp only [List.mem_append, List.mem_cons] at hc
    rcases hc with hc | rfl | hc
    exacts [.inl (h1.dig c hc), .inr h3, .inl (h2.dig c hc)]
  | hms h1 h2 h3 h4 h5 =>
    refine ⟨⟨_, by simp, h4⟩, ?_, by simp⟩
    intro c hc
    simp only [List.mem_append, List.mem_cons] at hc
    rcases hc with (hc | rfl | hc) | rfl | hc
    exacts [.inl (h1.dig c hc), .inr h4, .inl (h2.dig c hc), .inr h5, .inl (h3.dig c hc)]

/-- What the time rule reads of such texts: a time, or two times with a sign between. -/
theorem den_timeRule {x t : Str} {w : W} (hx : ∀ c ∈ x, numc c = true) : timeRule.tagger.den x t w →
    (∃ fs z, Timed x fs z ∧ t = write ⟨t!"time", fs⟩ ++ t!" " ∧ w = 0) ∨ '-' ∈ x ∨ '~' ∈ x := by
  rintro ⟨x₁, t₁, w₁, x₂, t₂, w₂, h1, h2, rfl, rfl, rfl⟩
  rcases den_ques.1 h2 with ⟨rfl, rfl, rfl⟩ | ⟨x₃, _, _, x₄, _, _, h3, h4, rfl, _⟩
  · left
    rw [List.append_nil] at hx ⊢
    obtain ⟨m, rfl, g0⟩ := den_addTokens.1 h1
    have hh : ∀ {x t w}, (tagField t!"hour" (.tab hour)).den x t w ↔ _ := tag_part den_hourS Spec.Hour.dig
    have hm : ∀ {x t w}, (tagField t!"minute" (.tab minute)).den x t w ↔ _ := tag_part den_minuteS Spec.Sixty.dig
    have hs : ∀ {x t w}, (tagField t!"second" (.tab second)).den x t w ↔ _ := tag_part den_secondS Spec.Sixty.dig
    clear h1
    obtain ⟨_, _, _, x₂, t₂, w₂, g1, g2, rfl, rfl, rfl⟩ := g0
    obtain ⟨_, _, _, x₃, t₃, w₃, g3, h3, rfl, rfl, rfl⟩ := g1
    obtain ⟨_, _, _, x₄, t₄, w₄, g4, h4, rfl, rfl, rfl⟩ := g3
    obtain ⟨_, _, _, x₅, t₅, w₅, g5, g5', rfl, rfl, rfl⟩ := g4
    obtain ⟨x₁, _, _, x₆, t₆, w₆, g6, g6', rfl, rfl, rfl⟩ := g5
    obtain ⟨t₁, rfl, g7⟩ := den_add_insert.1 g6
    obtain ⟨h1, rfl, rfl⟩ := hh.1 g7
    obtain ⟨c, hc, rfl, rfl, rfl⟩ := den_colon.1 g6'
    obtain ⟨h5, rfl, rfl⟩ := hm.1 g5'
    have e2 : x₂ = [] ∧ t₂ = [] ∧ w₂ = 0 := by
      rcases den_ques.1 g2 with h | h
      · exact h
      · exact (not_wordy (by decide +kernel) (fun c hc => hx c (by simp [hc])) h).elim
    obtain ⟨rfl, rfl, rfl⟩ := e2
    have e3 : x₃ = [] ∧ t₃ = [] ∧ w₃ = 0 := by
      rcases den_ques.1 h3 with h | h
      · exact h
      · obtain ⟨rfl, rfl, rfl⟩ := den_del.1 h
        exact absurd (hx ' ' (by simp)) (by decide)
    obtain ⟨rfl, rfl, rfl⟩ := e3
    rcases den_ques.1 h4 with ⟨rfl, rfl, rfl⟩ | h
    · refine ⟨[(t!"hour", x₁), (t!"minute", x₅)], hourSaid x₁ ++ minuteSaid x₅, ?_, ?_, by decide⟩
      · simpa using Timed.hm h1 h5 hc
      · rw [write_fieldsT (by simp)]
        simp [fieldsT]
    · obtain ⟨x₁', _, _, x₇, _, _, g8, g9, rfl, rfl, rfl⟩ := h
      obtain ⟨t₄, rfl, g10⟩ := den_add_insert.1 g8
      obtain ⟨d, hd, rfl, rfl, rfl⟩ := den_colon.1 g10
      obtain ⟨h7, rfl, rfl⟩ := hs.1 g9
      refine ⟨[(t!"hour", x₁), (t!"minute", x₅), (t!"second", x₇)], hourSaid x₁ ++ minuteSaid x₅ ++ secondSaid x₇, ?_, ?_, by decide⟩
      · simpa using Timed.hms h1 h5 h7 hc hd
      · rw [write_fieldsT (by simp)]
        simp [fieldsT]
  · right
    obtain ⟨m, _, h3⟩ := den_addTokens.1 h3
    obtain ⟨_, _, z'', h3⟩ := den_tagField.1 h3
    rcases h3 with h3 | h3
    · rw [(den_crossS.1 h3).1]; simp
    · rw [(den_crossS.1 h3).1]; simp

theorem timed_tag {x : Str} {fs : List (Str × Str)} {z : Str} (h : Timed x fs z) :
    timeRule.tagger.den x (write ⟨t!"time", fs⟩ ++ t!" ") 0 := by
  have hh : ∀ {x t w}, (tagField t!"hour" (.tab hour)).den x t w ↔ _ := tag_part den_hourS Spec.Hour.dig
  have hm : ∀ {x t w}, (tagField t!"minute" (.tab minute)).den x t w ↔ _ := tag_part den_minuteS Spec.Sixty.dig
  have hs : ∀ {x t w}, (tagField t!"second" (.tab second)).den x t w ↔ _ := tag_part den_secondS Spec.Sixty.dig
  have none : ∀ {g : G}, g.ques.den [] [] 0 := den_ques.2 (.inl ⟨rfl, rfl, rfl⟩)
  have body : timeBody.den x (fieldsT fs) 0 := by
    cases h with
    | @hm h m c h1 h2 h3 =>
      refine ⟨h ++ [c] ++ m, _, 0, [], [], 0, ⟨_, _, 0, [], [], 0, ⟨_, _, 0, [], [], 0, ⟨_, _, 0, m, _, 0, ⟨_, _, 0, [c], [], 0,
        den_add_insert.2 ⟨_, rfl, hh.2 ⟨h1, rfl, rfl⟩⟩, den_colon.2 ⟨c, h3, rfl, rfl, rfl⟩, rfl, rfl, rfl⟩, hm.2 ⟨h2, rfl, rfl⟩, rfl, rfl, rfl⟩,
        none, by rw [List.append_nil], rfl, rfl⟩, none, by rw [List.append_nil], rfl, rfl⟩, none, by simp, ?_, by decide⟩
      simp [fieldsT]
    | @hms h m s c d h1 h2 h3 h4 h5 =>
      refine ⟨h ++ [c] ++ m ++ ([d] ++ s), _, 0, [], [], 0, ⟨_, _, 0, [], [], 0, ⟨_, _, 0, [d] ++ s, _, 0, ⟨_, _, 0, m, _, 0, ⟨_, _, 0, [c], [], 0,
        den_add_insert.2 ⟨_, rfl, hh.2 ⟨h1, rfl, rfl⟩⟩, den_colon.2 ⟨c, h4, rfl, rfl, rfl⟩, rfl, rfl, rfl⟩, hm.2 ⟨h2, rfl, rfl⟩, rfl, rfl, rfl⟩,
        den_ques.2 (.inr ⟨_, _, 0, s, _, 0, den_add_insert.2 ⟨_, rfl, den_colon.2 ⟨d, h5, rfl, rfl, rfl⟩⟩, hs.2 ⟨h3, rfl, rfl⟩, rfl, rfl, by decide⟩), rfl, rfl, rfl⟩, none, by rw [List.append_nil], rfl, rfl⟩, none, by simp, ?_, by decide⟩
      simp [fieldsT]
  refine ⟨x, _, 0, [], [], 0, den_addTokens.2 ⟨_, rfl, body⟩, none, by simp, ?_, by decide⟩
  rw [write_fieldsT (timed_chars h).2.2]
  simp

end Verif.ZhTn
