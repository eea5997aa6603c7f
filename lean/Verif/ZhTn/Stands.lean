import Verif.ZhTn.Text
import Verif.ZhTn.PlainProps

/-
What the Chinese normalizer says for a number, date or time by itself.
-/

namespace Verif.ZhTn

open Verif.Wfst
open Verif.Token (chosenFields)
open Verif.ZhTn.Spec hiding liang tens
open Verif.Token.Spec (esc write writeAll Tok Writable IsName)
open Verif.NBest (Pipeline normalize)

/-! ### The characters that are said -/

/-- The characters that are said for numbers, dates and times. -/
def saidChars : Str := t!"零一二三四五六七八九十百千万亿两点年月日分秒之幺"

/-- Texts of those characters. -/
def Plainly (y : Str) : Prop := ∀ c ∈ y, c ∈ saidChars

theorem Plainly.append {x y : Str} (hx : Plainly x) (hy : Plainly y) : Plainly (x ++ y) := by
  intro c hc
  rcases List.mem_append.1 hc with hc | hc
  · exact hx c hc
  · exact hy c hc

theorem plainly_vtext {y : Str} (h : Plainly y) : VText y := by
  have : ∀ c ∈ saidChars, vchar c = true := by decide
  exact fun c hc => this c (h c hc)

theorem digitName_said (d : Nat) : digitName d ∈ saidChars := by
  have : ∀ d, d < 10 → digitName d ∈ saidChars := by decide
  by_cases h : d < 10
  · exact this d h
  · unfold digitName
    rw [List.getD_eq_getElem?_getD, List.getElem?_eq_none (by simp; omega)]
    decide

theorem withUnit_said {f g : Nat → Str} {u : Char} {n : Nat} (hf : ∀ n, Plainly (f n)) (hg : ∀ n, Plainly (g n)) (hu : u ∈ saidChars) (m : Nat) :
    Plainly (withUnit f g u n m) := by
  unfold withUnit
  split
  · exact hg m
  · refine (hf _).append ?_
    intro c hc
    rcases List.mem_cons.1 hc with rfl | hc
    · exact hu
    · unfold rest at hc
      split at hc
      · cases hc
      · split at hc
        · rcases List.mem_cons.1 hc with rfl | hc
          · decide
          · exact hg _ c hc
        · exact hg _ c hc

theorem name_said (n : Nat) : Plainly (name n) := by
  have h1 : ∀ n, Plainly (ones n) := fun n c hc => by rw [List.mem_singleton.1 hc]; exact digitName_said n
  have h2 : ∀ n, Plainly (Spec.tens n) := withUnit_said h1 h1 (by decide)
  have h3 : ∀ n, Plainly (hundreds n) := withUnit_said h1 h2 (by decide)
  have h4 : ∀ n, Plainly (thousands n) := withUnit_said h1 h3 (by decide)
  have h5 : ∀ n, Plainly (wan n) := withUnit_said h4 h4 (by decide)
  have h6 : ∀ n, Plainly (yi n) := withUnit_said h4 h5 (by decide)
  intro c hc
  unfold name shi at hc
  have := h6 n
  split at hc
  · rename_i e
    rw [e] at this
    exact this c (by simp only [List.mem_cons] at hc ⊢; tauto)
  · exact this c hc

theorem chinese_said (n : Nat) : Plainly (chinese n) := by
  intro c hc
  unfold chinese Spec.liang at hc
  have := name_said n
  split at hc
  · rename_i e
    rw [e] at this
    rcases List.mem_cons.1 hc with rfl | hc
    · split <;> decide
    · exact this c (by simp only [List.mem_cons] at hc ⊢; tauto)
  · exact this c hc

theorem amount_said {x y : Str} (h : Amount x y) : Plainly y := by
  cases h with
  | mk h1 h2 h3 =>
    refine (chinese_said _).append ?_
    cases h3 with
    | none => intro c hc; cases hc
    | some =>
      intro c hc
      rcases List.mem_cons.1 hc with rfl | hc
      · decide
      · obtain ⟨d, _, rfl⟩ := List.mem_map.1 hc
        exact digitName_said d

theorem one_said {c : Char} (h : c ∈ saidChars) : Plainly [c] := fun d hd => by rwa [List.mem_singleton.1 hd]

theorem year_said (y : Str) : Plainly (yearSaid y) := by
  refine Plainly.append (fun c hc => ?_) (one_said (by decide))
  obtain ⟨d, _, rfl⟩ := List.mem_map.1 hc
  exact digitName_said _

theorem month_said (y : Str) : Plainly (monthSaid y) := (name_said _).append (one_said (by decide))
theorem day_said (y : Str) : Plainly (daySaid y) := (name_said _).append (one_said (by decide))

theorem hour_said (y : Str) : Plainly (hourSaid y) := by
  unfold hourSaid
  refine Plainly.append ?_ (one_said (by decide))
  split
  · exact one_said (by decide)
  · exact name_said _

theorem minute_said (y : Str) : Plainly (minuteSaid y) := by
  unfold minuteSaid
  split
  · intro c hc; cases hc
  · refine Plainly.append (Plainly.append ?_ (name_said _)) (one_said (by decide))
    split
    · exact one_said (by decide)
    · intro c hc; cases hc

theorem second_said (y : Str) : Plainly (secondSaid y) := by
  unfold secondSaid
  split
  · intro c hc; cases hc
  · exact Plainly.append (name_said _) (one_said (by decide))

theorem phoneName_said {c : Char} (h : dig c = true) : phoneName c ∈ saidChars := by
  rw [← digit_dig] at h
  unfold phoneName
  split
  · decide
  · exact digitName_said _
  · rename_i e; rw [e] at h; cases h

theorem Spec.Stands.said {x y : Str} (h : Stands x y) : Plainly y := by
  cases h with
  | number h _ => exact amount_said h
  | percent h => exact Plainly.append (by unfold Plainly; decide) (amount_said h)
  | phone h =>
    intro c hc
    obtain ⟨d, hd, rfl⟩ := List.mem_map.1 hc
    exact phoneName_said (phone_dig h d hd)
  | date h =>
    cases h with
    | ymd => exact ((year_said _).append (month_said _)).append (day_said _)
    | dmy => exact ((year_said _).append (month_said _)).append (day_said _)
    | ym => exact (year_said _).append (month_said _)
    | my => exact (year_said _).append (month_said _)
    | md => exact (month_said _).append (day_said _)
  | time h =>
    cases h with
    | hm => exact (hour_said _).append (minute_said _)
    | hms => exact ((hour_said _).append (minute_said _)).append (second_said _)
  | fraction h1 h2 _ => exact ((amount_said h2).append (by unfold Plainly; decide)).append (amount_said h1)

/-! ### Their characters -/

theorem dated_chars {x : Str} {fs : List (Str × Str)} {z : Str} (h : Dated x fs z) :
    (∀ f ∈ fs, VText f.1 ∧ VText f.2) ∧ (∃ c r, x = c :: r ∧ dig c = true) ∧ ∃ r c, x = r ++ [c] ∧ dig c = true := by
  have first : ∀ {a b : Str}, a ≠ [] → (∀ c ∈ a, dig c = true) → ∃ c r, a ++ b = c :: r ∧ dig c = true := by
    intro a b hne ha
    cases a with
    | nil => exact absurd rfl hne
    | cons c a => exact ⟨c, _, rfl, ha c (by simp)⟩
  have last : ∀ {a b : Str}, b ≠ [] → (∀ c ∈ b, dig c = true) → ∃ r c, a ++ b = r ++ [c] ∧ dig c = true := by
    intro a b hne hb
    obtain ⟨r, c, rfl, hc⟩ := dig_last hne hb
    exact ⟨a ++ r, c, by simp, hc⟩
  have ney : ∀ {y : Str}, Year y → y ≠ [] := by rintro y h rfl; exact absurd h.2.1 (by decide)
  have nem : ∀ {y : Str}, Month y → y ≠ [] := by rintro y h rfl; exact absurd h.length.1 (by decide)
  have ned : ∀ {y : Str}, Day y → y ≠ [] := by rintro y h rfl; exact absurd h.length.1 (by decide)
  have vy : VText t!"year" := by unfold VText; decide
  have vm : VText t!"month" := by unfold VText; decide
  have vd : VText t!"day" := by unfold VText; decide
  cases h with
  | @ymd y m d s t h1 h2 h3 h4 h5 =>
    refine ⟨?_, ?_, ?_⟩
    · simp only [List.mem_cons, List.not_mem_nil, or_false, forall_eq_or_imp, forall_eq]
      exact ⟨⟨vy, dig_vtext h1.dig⟩, ⟨vm, dig_vtext h2.dig⟩, ⟨vd, dig_vtext h3.dig⟩⟩
    · rw [List.append_assoc]; exact first (ney h1) h1.dig
    · rw [show y ++ s :: m ++ t :: d = (y ++ s :: m ++ [t]) ++ d by simp]; exact last (ned h3) h3.dig
  | @dmy y m d s t h1 h2 h3 h4 h5 =>
    refine ⟨?_, ?_, ?_⟩
    · simp only [List.mem_cons, List.not_mem_nil, or_false, forall_eq_or_imp, forall_eq]
      exact ⟨⟨vd, dig_vtext h3.dig⟩, ⟨vm, dig_vtext h2.dig⟩, ⟨vy, dig_vtext h1.dig⟩⟩
    · rw [List.append_assoc]; exact first (ned h3) h3.dig
    · rw [show d ++ s :: m ++ t :: y = (d ++ s :: m ++ [t]) ++ y by simp]; exact last (ney h1) h1.dig
  | @ym y m s h1 h2 _ h4 =>
    refine ⟨?_, first (ney h1) h1.dig, ?_⟩
    · simp only [List.mem_cons, List.not_mem_nil, or_false, forall_eq_or_imp, forall_eq]
      exact ⟨⟨vy, dig_vtext h1.dig⟩, ⟨vm, dig_vtext h2.dig⟩⟩
    · rw [show y ++ s :: m = (y ++ [s]) ++ m by simp]; exact last (nem h2) h2.dig
  | @my y m s h1 h2 _ h4 =>
    refine ⟨?_, first (nem h2) h2.dig, ?_⟩
    · simp only [List.mem_cons, List.not_mem_nil, or_false, forall_eq_or_imp, forall_eq]
      exact ⟨⟨vm, dig_vtext h2.dig⟩, ⟨vy, dig_vtext h1.dig⟩⟩
    · rw [show m ++ s :: y = (m ++ [s]) ++ y by simp]; exact last (ney h1) h1.dig
  | @md m d s h2 _ h3 h4 =>
    refine ⟨?_, first (nem h2) h2.dig, ?_⟩
    · simp only [List.mem_cons, List.not_mem_nil, or_false, forall_eq_or_imp, forall_eq]
      exact ⟨⟨vm, dig_vtext h2.dig⟩, ⟨vd, dig_vtext h3.dig⟩⟩
    · rw [show m ++ s :: d = (m ++ [s]) ++ d by simp]; exact last (ned h3) h3.dig

theorem timed_ends {x : Str} {fs : List (Str × Str)} {z : Str} (h : Timed x fs z) :
    (∀ f ∈ fs, VText f.1 ∧ VText f.2) ∧ (∃ c r, x = c :: r ∧ dig c = true) ∧ ∃ r c, x = r ++ [c] ∧ dig c = true := by
  have first : ∀ {a b : Str}, Hour a → ∃ c r, a ++ b = c :: r ∧ dig c = true := by
    intro a b ha
    cases a with
    | nil => exact absurd ha.length.1 (by decide)
    | cons c a => exact ⟨c, _, rfl, ha.dig c (by simp)⟩
  have last : ∀ {a b : Str}, Sixty b → ∃ r c, a ++ b = r ++ [c] ∧ dig c = true := by
    intro a b hb
    obtain ⟨r, c, rfl, hc⟩ := dig_last (by rintro rfl; exact absurd hb.2.1 (by decide)) hb.dig
    exact ⟨a ++ r, c, by simp, hc⟩
  have vh : VText t!"hour" := by unfold VText; decide
  have vm : VText t!"minute" := by unfold VText; decide
  have vs : VText t!"second" := by unfold VText; decide
  cases h with
  | @hm h m c h1 h2 h3 =>
    refine ⟨?_, first h1, ?_⟩
    · simp only [List.mem_cons, List.not_mem_nil, or_false, forall_eq_or_imp, forall_eq]
      exact ⟨⟨vh, dig_vtext h1.dig⟩, ⟨vm, dig_vtext h2.dig⟩⟩
    · rw [show h ++ c :: m = (h ++ [c]) ++ m by simp]; exact last h2
  | @hms h m s c d h1 h2 h3 h4 h5 =>
    refine ⟨?_, ?_, ?_⟩
    · simp only [List.mem_cons, List.not_mem_nil, or_false, forall_eq_or_imp, forall_eq]
      exact ⟨⟨vh, dig_vtext h1.dig⟩, ⟨vm, dig_vtext h2.dig⟩, ⟨vs, dig_vtext h3.dig⟩⟩
    · rw [List.append_assoc]; exact first h1
    · rw [show h ++ c :: m ++ d :: s = (h ++ c :: m ++ [d]) ++ s by simp]; exact last h3

theorem phone_ne {x : Str} (h : Service x ∨ Mobile x) : x ≠ [] := by
  rintro rfl
  rcases h with ⟨n, hn, e⟩ | h
  · exact Nat.toDigits_ne_nil e.symm
  · exact absurd h.2 (by decide)

theorem Spec.Stands.first {x y : Str} (h : Stands x y) : ∃ c r, x = c :: r ∧ dig c = true := by
  cases h with
  | number h _ => exact amount_first h
  | percent h =>
    obtain ⟨c, r, rfl, hc⟩ := amount_first h
    exact ⟨c, _, rfl, hc⟩
  | phone h =>
    cases x with
    | nil => exact absurd rfl (phone_ne h)
    | cons c x => exact ⟨c, x, rfl, phone_dig h c (by simp)⟩
  | date h => obtain ⟨fs, h⟩ := date_dated.1 h; exact (dated_chars h).2.1
  | time h => obtain ⟨fs, h⟩ := time_timed.1 h; exact (timed_ends h).2.1
  | fraction h _ _ =>
    obtain ⟨c, r, rfl, hc⟩ := amount_first h
    exact ⟨c, _, rfl, hc⟩

theorem Spec.Stands.last {x y : Str} (h : Stands x y) : ∃ r c, x = r ++ [c] ∧ (dig c = true ∨ c = '%') := by
  have d : ∀ {x : Str}, (∃ r c, x = r ++ [c] ∧ dig c = true) → ∃ r c, x = r ++ [c] ∧ (dig c = true ∨ c = '%') :=
    fun ⟨r, c, e, h⟩ => ⟨r, c, e, .inl h⟩
  cases h with
  | number h _ => exact d (amount_last h)
  | percent h => exact ⟨_, '%', rfl, .inr rfl⟩
  | phone h => exact d (dig_last (phone_ne h) (phone_dig h))
  | date h => obtain ⟨fs, h⟩ := date_dated.1 h; exact d (dated_chars h).2.2
  | time h => obtain ⟨fs, h⟩ := time_timed.1 h; exact d (timed_ends h).2.2
  | @fraction a b _ _ _ h _ =>
    obtain ⟨r, c, rfl, hc⟩ := amount_last h
    exact ⟨a ++ '/' :: r, c, by simp, .inl hc⟩

/-! ### One token -/

/-- The character as the switches make it. -/
def out (k : Config) (c : Char) : Str :=
  let c := if k.traditionalToSimple then (traditionalToSimple.lookup c).getD c else c
  if k.removeInterjections && (c == '呃' || c == '啊') then []
  else if k.removePuncts && (punctsZh.contains c || isPunct c) then []
  else
    let c := if k.fullToHalf then (fullToHalf.lookup c).getD c else c
    if k.tagOov && !inCharset c then "<oov>".toList ++ c :: "</oov>".toList else [c]

theorem spoken_one {vu : G} {k : Tok} {y : Str} {w : W} (h : Spoken vu [k] y w) : vu.den (write k) y w := by
  cases h with
  | @cons _ _ y z w v h1 h2 =>
    cases h2
    rw [List.append_nil, show w + (0 : W) = w from Int.add_zero _]
    exact h1

/-- A text that is best read as one token. -/
theorem winner_token {k : Config} {p : Pipeline W}
    (hp : Piped p tokenOrders (taggerU k.removeErhua) (.comp (verbalizerU k.removeErhua) (postprocessor k))) {n : Str} {g : G}
    (ho : Own n g) {x y z : Str} (hx : x ≠ []) {fs gs : List (Str × Str)} {f : Str × Str} {b : Int}
    (hb : Best (taggerU k.removeErhua) x [⟨n, fs⟩] b) (hw : Writable ⟨n, fs⟩) (hf : ∀ f ∈ fs, VText f.1 ∧ VText f.2)
    (hc : chosenFields tokenOrders ⟨n, fs⟩ = f :: gs) (hs : ∀ z, (∃ w, g.den (fieldsT (f :: gs)) z w) ↔ z = y) (hy : Plainly y) :
    Winner p x z ↔ z = y.flatMap (out k) := by
  have hr : reord tokenOrders [⟨n, fs⟩] = [⟨n, f :: gs⟩] := by
    simp only [reord, List.map_cons, List.map_nil, hc]
  have hn : VText n := by cases ho <;> (unfold VText; decide)
  refine best_winner hp hx hb ?_ ?_ ?_ ?_
  · have := VText.of_write (k := ⟨n, fs⟩) hn hf
    intro c hc
    simp only [spaced, List.flatMap_cons, List.flatMap_nil, List.append_nil, List.mem_append, List.mem_singleton] at hc
    rcases hc with hc | rfl
    · exact this c hc
    · decide
  · intro t ht
    rw [List.mem_singleton.1 ht]
    exact hw
  · rw [hr]
    obtain ⟨w, hd⟩ := (hs y).2 rfl
    refine ⟨(w + 0) + 0, ?_⟩
    have : Spoken (.comp (verbalizerU k.removeErhua) (postprocessor k)) [⟨n, f :: gs⟩] (y.flatMap (out k) ++ []) ((w + 0) + 0) := by
      refine .cons ⟨y, w, 0, (verb_own ho).2 hd, ?_, rfl⟩ .nil
      exact (C59_postprocess k y _ 0).2 ⟨plainly_vtext hy, rfl, rfl⟩
    rwa [List.append_nil] at this
  · rw [hr]
    intro z v h
    obtain ⟨m, w₁, w₂, h1, h2, _⟩ := spoken_one h
    obtain rfl := (hs m).1 ⟨_, (verb_own ho).1 h1⟩
    exact ((C59_postprocess k m z w₂).1 h2).2.2

/-- The token with one value. -/
theorem winner_value {k : Config} {p : Pipeline W}
    (hp : Piped p tokenOrders (taggerU k.removeErhua) (.comp (verbalizerU k.removeErhua) (postprocessor k))) {n : Str} {g : G}
    (ho : Own n (del t!"value: \"" + g + del t!"\"")) (hn : tokenOrders n = none) {x y z : Str} (hx : x ≠ []) (hc : ∀ c ∈ x, numc c = true)
    {b : Int} (hb : Best (taggerU k.removeErhua) x [valueTok n x] b) (hs : ∀ z, (∃ w, g.den x z w) ↔ z = y) (hy : Plainly y) :
    Winner p x z ↔ z = y.flatMap (out k) := by
  have hw : Writable (valueTok n x) := writable_value (by cases ho <;> decide)
  refine winner_token hp ho (f := (t!"value", x)) (gs := []) hx hb hw ?_ ?_ ?_ hy
  · simp only [List.mem_singleton, forall_eq]
    exact ⟨by unfold VText; decide, numc_vtext hc⟩
  · rw [show (⟨n, [(t!"value", x)]⟩ : Tok) = valueTok n x from rfl, Verif.Token.chosenFields_exempt hw.2.2 (.inl hn)]
    rfl
  · intro z
    rw [← hs z]
    refine exists_congr fun w => ?_
    simp only [fieldsT, List.flatMap_nil, List.append_nil]
    exact raw_value (n := t!"value") (numc_esc hc)

section
variable {k : Config} {p : Pipeline W}

theorem winner_number (hp : Piped p tokenOrders (taggerU k.removeErhua) (.comp (verbalizerU k.removeErhua) (postprocessor k)))
    {x y z : Str} (h : Amount x y) (hr : ¬ Row x) : Winner p x z ↔ z = y.flatMap (out k) := by
  have hpt := amount_point h
  have hn := point_numc hpt
  have hx : x ≠ [] := by obtain ⟨c, r, rfl, _⟩ := amount_first h; simp
  have ht : (taggerU k.removeErhua).den x (write (valueTok t!"math" x) ++ t!" ") 9000000 := by
    refine tag_union (taggerUnion_eq k) (s := ⟨mathRule, some 9000000, true⟩) (by simp [rules]) rfl (w := 0) ?_
    exact den_addTokens.2 ⟨_, value_token.symm, den_tagField.2 ⟨rfl, numc_vtext hn, y, (math_amount h).2 ⟨rfl, rfl⟩⟩⟩
  refine winner_value hp .math (by decide) hx hn (b := 9000000) ?_ (fun z => ?_) (amount_said h)
  · refine best_alone hx (a := 6000) (by decide) ht (fun _ _ _ h => tag_ge k h) (fun t w hd => hr (star_row (Int.le_refl _) hpt hd)) ?_
    intro t w hd hw
    rcases reading_point hpt (reading hn hd) with h1 | ⟨z, w', h1, rfl, rfl, h2⟩ | h1
    · exfalso
      have := Row.cons h1 .nil
      rw [List.append_nil] at this
      exact hr this
    · obtain ⟨_, rfl⟩ := (math_amount h).1 h1
      exact ⟨rfl, by decide⟩
    · have key : ∀ w : Int, 10000000 ≤ w → w ≤ 9000000 → False := by intros; omega
      exact (key _ h1 hw).elim
  · exact ⟨fun ⟨_, h1⟩ => ((math_amount h).1 h1).1, fun e => ⟨0, (math_amount h).2 ⟨e, rfl⟩⟩⟩

theorem winner_percent (hp : Piped p tokenOrders (taggerU k.removeErhua) (.comp (verbalizerU k.removeErhua) (postprocessor k)))
    {x y z : Str} (h : Amount x y) : Winner p (x ++ ['%']) z ↔ z = (t!"百分之" ++ y).flatMap (out k) := by
  have hpt := amount_point h
  have hn : ∀ c ∈ x ++ ['%'], numc c = true := by
    intro c hc
    rcases List.mem_append.1 hc with hc | hc
    · exact point_numc hpt c hc
    · rw [List.mem_singleton.1 hc]; decide
  have chars : ∀ {c : Char}, c ∈ x ++ ['%'] → dig c = true ∨ c = '.' ∨ c = '%' := by
    intro c hc
    rcases List.mem_append.1 hc with hc | hc
    · rcases hpt.1 c hc with h | h
      · exact .inl h
      · exact .inr (.inl h)
    · exact .inr (.inr (List.mem_singleton.1 hc))
  have no : ∀ {c : Char}, c ∈ x ++ ['%'] → dig c = false → c ≠ '.' → c ≠ '%' → False := by
    intro c hc h1 h2 h3
    rcases chars hc with h | h | h
    · rw [h1] at h; cases h
    · exact h2 h
    · exact h3 h
  have hx : x ++ ['%'] ≠ [] := by simp
  have ht : (taggerU k.removeErhua).den (x ++ ['%']) (write (valueTok t!"cardinal" (x ++ ['%'])) ++ t!" ") 106000 := by
    refine tag_union (taggerUnion_eq k) (s := ⟨cardinalRule, some 106000, true⟩) (by simp [rules]) rfl (w := 0) ?_
    exact den_addTokens.2 ⟨_, value_token.symm, den_tagField.2 ⟨rfl, numc_vtext hn, _, (cardinal_percent h).2 ⟨rfl, rfl⟩⟩⟩
  refine winner_value hp .cardinal (by decide) hx hn (b := 106000) ?_ (fun z => ?_) (Stands.percent h).said
  · refine best_alone hx (a := 6000) (by decide) ht (fun _ _ _ h => tag_ge k h)
      (no_light hn (c := '%') (by simp) (by decide) (by decide)) ?_
    intro t w hd hw
    have big : ∀ {b : Int} {w : Int}, 106000 < b → b ≤ w → w ≤ 106000 → False := by intros; omega
    cases reading hn hd with
    | date h1 _ =>
      rcases (dated_marks h1).2.2.1 '%' (by simp) with h | h
      · exact absurd h (by decide)
      · exact absurd h (by decide)
    | dates h1 _ _ => rcases h1 with h1 | h1 <;> exact (no h1 (by decide) (by decide) (by decide)).elim
    | fraction _ h1 _ => exact (no h1 (by decide) (by decide) (by decide)).elim
    | time h1 _ =>
      rcases (timed_chars h1).2.1 '%' (by simp) with h | h
      · exact absurd h (by decide)
      · exact absurd h (by decide)
    | times h1 _ => rcases h1 with h1 | h1 <;> exact (no h1 (by decide) (by decide) (by decide)).elim
    | percent _ _ h1 => exact ⟨h1, rfl⟩
    | number h1 _ =>
      exfalso
      have dg : ∀ {a : Str}, Digits a → '%' ∉ a := fun ha hc => absurd (digits_dig.1 ha _ hc) (by decide)
      have hm : '%' ∈ x ++ ['%'] := by simp
      rcases h1 with ⟨a, b, c, d, h1, h2, h3, h4, e⟩ | ⟨a, b, c, h1, h2, h3, e⟩ | ⟨a, b, h1, h2, _, _, e⟩
      · rw [e] at hm
        simp [dg h1.2, dg h2.2, dg h3.2, dg h4.2] at hm
      · rw [e] at hm
        simp [dg h1.2, dg h2.2, dg h3.2] at hm
      · rw [e] at hm
        simp [dg h1, dg h2] at hm
    | phone h1 _ => exact absurd (phone_dig h1 '%' (by simp)) (by decide)
    | @math z w h1 h2 h3 =>
      have : ∀ w : Int, 0 ≤ w → w + 9000000 ≤ 106000 → False := by intros; omega
      exact (this _ h3 hw).elim
    | char h1 => exact (big (by decide) h1 hw).elim
  · exact ⟨fun ⟨_, h1⟩ => ((cardinal_percent h).1 h1).1, fun e => ⟨0, (cardinal_percent h).2 ⟨e, rfl⟩⟩⟩

theorem winner_phone (hp : Piped p tokenOrders (taggerU k.removeErhua) (.comp (verbalizerU k.removeErhua) (postprocessor k)))
    {x z : Str} (h : Service x ∨ Mobile x) : Winner p x z ↔ z = (x.map phoneName).flatMap (out k) := by
  have hn := dig_numc (phone_dig h)
  have hx := phone_ne h
  have ht : (taggerU k.removeErhua).den x (write (valueTok t!"cardinal" x) ++ t!" ") 6000 := by
    refine tag_union (taggerUnion_eq k) (s := ⟨cardinalRule, some 106000, true⟩) (by simp [rules]) rfl (w := -100000) ?_
    exact den_addTokens.2 ⟨_, value_token.symm, den_tagField.2 ⟨rfl, numc_vtext hn, _, (cardinal_phone h).2 ⟨rfl, rfl⟩⟩⟩
  refine winner_value hp .cardinal (by decide) hx hn (b := 6000) ?_ (fun z => ?_) (Stands.phone h).said
  · refine best_alone hx (a := 6000) (by decide) ht (fun _ _ _ h => tag_ge k h) ?_ ?_
    · intro t w hd
      generalize e : x = x' at hd
      cases hd with
      | nil => exact hx e
      | cons h1 _ =>
        have h2 := tag_ge k h1.1
        have key : ∀ w : Int, 6000 ≤ w → w + 6000 ≤ 6000 → False := by intros; omega
        exact key _ h2 h1.2
    · intro t w hd hw
      have big : ∀ {b : Int} {w : Int}, 6000 < b → b ≤ w → w ≤ 6000 → False := by intros; omega
      have over : ∀ {a b : Int}, 0 ≤ a → b ≤ a + b := by intros; omega
      cases reading hn hd with
      | date => exact absurd hw (by decide)
      | dates _ _ h1 => exact (big (by decide) h1 hw).elim
      | fraction _ _ h1 => exact (big (by decide) (over h1) hw).elim
      | time => exact absurd hw (by decide)
      | times _ h1 => exact (big (by decide) h1 hw).elim
      | percent => exact absurd hw (by decide)
      | number _ h1 => exact (big (by decide) h1 hw).elim
      | phone _ h1 => exact ⟨h1, rfl⟩
      | math _ _ h1 => exact (big (by decide) (over h1) hw).elim
      | char h1 => exact (big (by decide) h1 hw).elim
  · exact ⟨fun ⟨_, h1⟩ => ((cardinal_phone h).1 h1).1, fun e => ⟨_, (cardinal_phone h).2 ⟨e, rfl⟩⟩⟩

theorem winner_date (hp : Piped p tokenOrders (taggerU k.removeErhua) (.comp (verbalizerU k.removeErhua) (postprocessor k)))
    {x y z : Str} (h : Date x y) : Winner p x z ↔ z = y.flatMap (out k) := by
  have hy := (Stands.date h).said
  obtain ⟨fs, hd⟩ := date_dated.1 h
  obtain ⟨hm1, hm2, hm3, _⟩ := dated_marks hd
  obtain ⟨hf, ⟨c, r, rfl, _⟩, _⟩ := dated_chars hd
  generalize hxx : c :: r = x at *
  have hx : x ≠ [] := by rw [← hxx]; simp
  have hn : ∀ c ∈ x, numc c = true := by
    intro c hc
    rcases hm3 c hc with h | h
    · simp [numc, h]
    · have : ∀ c ∈ ['/', '-', '.'], numc c = true := by decide
      exact this c h
  obtain ⟨hw, f, gs, hc, hs⟩ := dated_said hd
  have ht : (taggerU k.removeErhua).den x (write ⟨t!"date", fs⟩ ++ t!" ") 102000 :=
    tag_union (taggerUnion_eq k) (s := ⟨dateRule, some 102000, true⟩) (by simp [rules]) rfl (w := 0) (dated_tag hd)
  refine winner_token hp .date hx (b := 102000) ?_ hw hf hc hs hy
  obtain ⟨c', hc', hc''⟩ : ∃ c ∈ x, dig c = false := by
    by_contra hno
    have : ∀ c ∈ x, dig c = true := fun c hc => by
      by_contra h
      exact hno ⟨c, hc, by simpa using h⟩
    rw [countP_dig this] at hm1
    exact absurd hm1 (by decide)
  refine best_alone hx (a := 6000) (by decide) ht (fun _ _ _ h => tag_ge k h) (no_light hn hc' hc'' (by decide)) ?_
  intro t w hd' hw'
  have big : ∀ {b : Int} {w : Int}, 102000 < b → b ≤ w → w ≤ 102000 → False := by intros; omega
  have over : ∀ {a b : Int}, 0 ≤ a → b ≤ a + b := by intros; omega
  cases reading hn hd' with
  | date h1 h2 =>
    obtain ⟨rfl, _⟩ := dated_unique hd h1
    exact ⟨h2, rfl⟩
  | dates _ h1 _ => omega
  | fraction _ _ h1 => exact (big (by decide) (over h1) hw').elim
  | time => exact absurd hw' (by decide)
  | times _ h1 => exact (big (by decide) h1 hw').elim
  | percent => exact absurd hw' (by decide)
  | number _ h1 => exact (big (by decide) h1 hw').elim
  | phone h1 _ =>
    have := phone_dig h1 c' hc'
    rw [hc''] at this; cases this
  | math _ _ h1 => exact (big (by decide) (over h1) hw').elim
  | char h1 => exact (big (by decide) h1 hw').elim

theorem winner_time (hp : Piped p tokenOrders (taggerU k.removeErhua) (.comp (verbalizerU k.removeErhua) (postprocessor k)))
    {x y z : Str} (h : Time x y) : Winner p x z ↔ z = y.flatMap (out k) := by
  have hy := (Stands.time h).said
  obtain ⟨fs, hd⟩ := time_timed.1 h
  obtain ⟨⟨c', hc', hcol⟩, hm3, _⟩ := timed_chars hd
  have hc'' := colon_dig hcol
  obtain ⟨hf, _, _⟩ := timed_ends hd
  have hx : x ≠ [] := by rintro rfl; cases hc'
  have hn : ∀ c ∈ x, numc c = true := by
    intro c hc
    rcases hm3 c hc with h | h
    · simp [numc, h]
    · have : ∀ c ∈ [':', '：'], numc c = true := by decide
      exact this c h
  have no : ∀ {c : Char}, c ∈ x → dig c = false → ¬ Colon c → False := by
    intro c hc h1 h2
    rcases hm3 c hc with h | h
    · rw [h1] at h; cases h
    · exact h2 h
  obtain ⟨hw, f, gs, hc, hs⟩ := timed_said hd
  have ht : (taggerU k.removeErhua).den x (write ⟨t!"time", fs⟩ ++ t!" ") 105000 :=
    tag_union (taggerUnion_eq k) (s := ⟨timeRule, some 105000, true⟩) (by simp [rules]) rfl (w := 0) (timed_tag hd)
  refine winner_token hp .time hx (b := 105000) ?_ hw hf hc hs hy
  refine best_alone hx (a := 6000) (by decide) ht (fun _ _ _ h => tag_ge k h) (no_light hn hc' hc'' (by decide)) ?_
  intro t w hd' hw'
  have big : ∀ {b : Int} {w : Int}, 105000 < b → b ≤ w → w ≤ 105000 → False := by intros; omega
  have over : ∀ {a b : Int}, 0 ≤ a → b ≤ a + b := by intros; omega
  cases reading hn hd' with
  | date h1 _ =>
    exfalso
    rcases (dated_marks h1).2.2.1 c' hc' with h | h
    · rw [hc''] at h; cases h
    · have : ∀ c ∈ [':', '：'], ¬ Mark c := by decide
      exact this c' hcol h
  | dates h1 _ _ => rcases h1 with h1 | h1 <;> exact (no h1 (by decide) (by decide)).elim
  | fraction _ h1 _ => exact (no h1 (by decide) (by decide)).elim
  | time h1 h2 =>
    obtain ⟨rfl, _⟩ := timed_unique hd h1
    exact ⟨h2, rfl⟩
  | times h1 _ => rcases h1 with h1 | h1 <;> exact (no h1 (by decide) (by decide)).elim
  | percent => exact absurd hw' (by decide)
  | number _ h1 => exact (big (by decide) h1 hw').elim
  | phone h1 _ =>
    have := phone_dig h1 c' hc'
    rw [hc''] at this; cases this
  | math _ _ h1 => exact (big (by decide) (over h1) hw').elim
  | char h1 => exact (big (by decide) h1 hw').elim

theorem winner_fraction (hp : Piped p tokenOrders (taggerU k.removeErhua) (.comp (verbalizerU k.removeErhua) (postprocessor k)))
    {a b y y' z : Str} (ha : Amount a y) (hb : Amount b y') (hno : ∀ u, ¬ Date (a ++ '/' :: b) u) :
    Winner p (a ++ '/' :: b) z ↔ z = (y' ++ t!"分之" ++ y).flatMap (out k) := by
  have hy := (Stands.fraction ha hb hno).said
  have hx : a ++ '/' :: b ≠ [] := by simp
  have chars : ∀ {c : Char}, c ∈ a ++ '/' :: b → dig c = true ∨ c = '.' ∨ c = '/' := by
    intro c hc
    simp only [List.mem_append, List.mem_cons] at hc
    rcases hc with hc | hc | hc
    · rcases (amount_point ha).1 c hc with h | h
      · exact .inl h
      · exact .inr (.inl h)
    · exact .inr (.inr hc)
    · rcases (amount_point hb).1 c hc with h | h
      · exact .inl h
      · exact .inr (.inl h)
  have hn : ∀ c ∈ a ++ '/' :: b, numc c = true := by
    intro c hc
    rcases chars hc with h | rfl | rfl
    · simp [numc, h]
    · decide
    · decide
  have no : ∀ {c : Char}, c ∈ a ++ '/' :: b → dig c = false → c ≠ '.' → c ≠ '/' → False := by
    intro c hc h1 h2 h3
    rcases chars hc with h | h | h
    · rw [h1] at h; cases h
    · exact h2 h
    · exact h3 h
  obtain ⟨hw, f, gs, hc, hs⟩ := fraction_said ha hb
  have ht : (taggerU k.removeErhua).den (a ++ '/' :: b) (write ⟨t!"fraction", fractionFs a b⟩ ++ t!" ") 105000 :=
    tag_union (taggerUnion_eq k) (s := ⟨fractionRule, some 105000, true⟩) (by simp [rules]) rfl (w := 0)
      ((fraction_tag ha hb).2 ⟨rfl, rfl⟩)
  refine winner_token hp .fraction hx (b := 105000) ?_ hw ?_ hc hs hy
  · refine best_alone hx (a := 6000) (by decide) ht (fun _ _ _ h => tag_ge k h)
      (no_light hn (c := '/') (by simp) (by decide) (by decide)) ?_
    intro t w hd' hw'
    have big : ∀ {b : Int} {w : Int}, 105000 < b → b ≤ w → w ≤ 105000 → False := by intros; omega
    have over : ∀ {a b : Int}, 0 ≤ a → b ≤ a + b := by intros; omega
    cases reading hn hd' with
    | date h1 _ => exact (hno _ (date_dated.2 ⟨_, h1⟩)).elim
    | dates h1 _ _ => rcases h1 with h1 | h1 <;> exact (no h1 (by decide) (by decide) (by decide)).elim
    | fraction h1 _ _ =>
      obtain ⟨rfl, rfl⟩ := (fraction_tag ha hb).1 h1
      exact ⟨rfl, by decide⟩
    | time h1 _ =>
      obtain ⟨⟨c, hc, hcol⟩, _⟩ := timed_chars h1
      have : ∀ c ∈ [':', '：'], c ≠ '.' ∧ c ≠ '/' := by decide
      exact (no hc (colon_dig hcol) (this c hcol).1 (this c hcol).2).elim
    | times h1 _ => rcases h1 with h1 | h1 <;> exact (no h1 (by decide) (by decide) (by decide)).elim
    | percent => exact absurd hw' (by decide)
    | number _ h1 => exact (big (by decide) h1 hw').elim
    | phone h1 _ => exact absurd (phone_dig h1 '/' (by simp)) (by decide)
    | math _ _ h1 => exact (big (by decide) (over h1) hw').elim
    | char h1 => exact (big (by decide) h1 hw').elim
  · simp only [fractionFs, List.mem_cons, List.not_mem_nil, or_false, forall_eq_or_imp, forall_eq]
    exact ⟨⟨by unfold VText; decide, numc_vtext (point_numc (amount_point ha))⟩,
      ⟨by unfold VText; decide, numc_vtext (point_numc (amount_point hb))⟩⟩

/-- What stands by itself. -/
theorem winner_stands (hp : Piped p tokenOrders (taggerU k.removeErhua) (.comp (verbalizerU k.removeErhua) (postprocessor k)))
    {x y z : Str} (h : Stands x y) : Winner p x z ↔ z = y.flatMap (out k) := by
  cases h with
  | number h hr => exact winner_number hp h hr
  | percent h => exact winner_percent hp h
  | phone h => exact winner_phone hp h
  | date h => exact winner_date hp h
  | time h => exact winner_time hp h
  | fraction h1 h2 h3 => exact winner_fraction hp h1 h2 h3

end

end Verif.ZhTn
