import Verif.ZhTn.Stands
import Verif.ZhTn.StreamProps

/-
Properties of the Chinese normalizer: what is said for a text with numbers, percentages, telephone numbers, dates,
times and fractions in it.
-/

namespace Verif.ZhTn

open Verif.Wfst
open Verif.ZhTn.Spec hiding liang tens Says
open Verif.NBest (Pipeline normalize)

/-- What the tokens look like. -/
theorem token_fits {k : Config} (b : Bool) {u t : Str} {w : W} (hd : (taggerU k.removeErhua).den u t w) :
    (∃ c, u = [c]) ∨ tokenS.Fits (u.map (pc b)) := by
  obtain ⟨s, hm, j, w₀, hj, h1, rfl⟩ := ((tagger_union _).2 _ (taggerUnion_eq k) u t w).1 hd
  simp only [rules, List.mem_cons, List.not_mem_nil, or_false] at hm
  rcases hm with rfl | rfl | rfl | rfl | rfl | rfl | rfl | rfl | rfl | rfl | rfl
  · exact .inr (edge_dateRule b _ _ _ h1)
  · exact .inr (edge_whitelistRule b _ _ _ _ h1)
  · exact .inr (edge_sportRule b _ _ _ h1)
  · exact .inr (edge_fractionRule b _ _ _ h1)
  · exact .inr (edge_measureRule b _ _ _ h1)
  · exact .inr (edge_moneyRule b _ _ _ h1)
  · exact .inr (edge_timeRule b _ _ _ h1)
  · exact .inr (edge_cardinalRule b _ _ _ h1)
  · exact .inr (edge_mathRule b _ _ _ h1)
  · obtain ⟨c, rfl, _⟩ := char_tagged h1
    exact .inl ⟨c, rfl⟩
  · cases hj

theorem unread_free {s : Str} (h : Unread s) : Free s := by
  intro c hc
  have h1 := h.chars c hc
  have h2 : ∀ n, n < 10 → Char.ofNat (48 + n) ∈ "0123456789０１２３４５６７８９×÷≥≤儿".toList ∧
      Char.ofNat (65296 + n) ∈ "0123456789０１２３４５６７８９×÷≥≤儿".toList := by decide
  by_contra hd
  have hd : dig c = true := by simpa using hd
  simp only [dig, Bool.or_eq_true, Bool.and_eq_true, decide_eq_true_eq] at hd
  rcases hd with hd | hd
  · have := (h2 (c.toNat - 48) (by omega)).1
    rw [show 48 + (c.toNat - 48) = c.toNat by omega, Char.ofNat_toNat] at this
    exact h1 this
  · have := (h2 (c.toNat - 65296) (by omega)).2
    rw [show 65296 + (c.toNat - 65296) = c.toNat by omega, Char.ofNat_toNat] at this
    exact h1 this

theorem leads_opener : ∀ w ∈ leads, w ≠ [] →
    ∃ v ∈ [t!"+", t!"±", t!"-", t!"约", t!"人均"], v <:+ w := by decide

theorem first_openers : ∀ v ∈ [t!"+", t!"±", t!"-", t!"约", t!"人均"], v ∈ openers := by
  intro v hv
  refine List.mem_append_left _ (List.mem_append_left _ ?_)
  revert v; decide

/-- Every word before a number ends like one of the listed ones. -/
theorem lead_opener {w : Str} (hw : w ∈ tokenS.lead) (hne : w ≠ []) : ∃ v ∈ openers, v <:+ w := by
  have lead : ∀ w ∈ leads, w ≠ [] → ∃ v ∈ openers, v <:+ w := fun w hw hne => by
    obtain ⟨v, hv, hs⟩ := leads_opener w hw hne
    exact ⟨v, first_openers v hv, hs⟩
  rcases List.mem_append.1 hw with hw | hw
  · exact lead w hw hne
  rcases List.mem_append.1 hw with hw | hw
  · exact ⟨w, hw, List.suffix_refl _⟩
  · simp only [Sum.pairs, List.mem_flatMap, List.mem_map] at hw
    obtain ⟨n, hn, v, ⟨s, hs, z, hz, rfl⟩, rfl⟩ := hw
    by_cases hzn : z = []
    · subst hzn
      simp only [List.mem_cons, List.not_mem_nil, or_false] at hs
      rcases hs with rfl | rfl
      · exact ⟨n, List.mem_append_left _ (List.mem_append_right _ hn), by simp⟩
      · exact ⟨n ++ t!" ", List.mem_append_right _ (List.mem_map.2 ⟨n, hn, rfl⟩), by simp⟩
    · obtain ⟨v, hv, hs'⟩ := lead z hz hzn
      exact ⟨v, hv, hs'.trans ((List.suffix_append _ _).trans (List.suffix_append _ _))⟩

/-- **C84.** The best results of a text with numbers, percentages, telephone numbers, dates, times and fractions are
the one that `Text` says, whatever the switches: each of them is read by itself, and the characters between go through
the switches one by one. -/
theorem C84_zh_tn (k : Config) (tg vg : G) (ht : tagger k = some tg) (hv : verbalizer k = some vg) (p : Pipeline W)
    (hr : Runs p tokenOrders tg vg) (t z : Str) (hx : VText t)
    (h : Text Unread (fun c =>
        let c := if k.traditionalToSimple then (traditionalToSimple.lookup c).getD c else c
        if k.removeInterjections && (c == '呃' || c == '啊') then []
        else if k.removePuncts && (punctsZh.contains c || isPunct c) then []
        else
          let c := if k.fullToHalf then (fullToHalf.lookup c).getD c else c
          if k.tagOov && !inCharset c then "<oov>".toList ++ c :: "</oov>".toList else [c]) t z) (z' : Str) :
    Says p t z' ↔ z' = z := by
  change Text Unread (out k) t z at h
  have hp := piped ht hv hr
  have plain : ∀ {s : Str}, Unread s → VText s → ∀ z, Says p s z ↔ z = s.flatMap (out k) := by
    intro s hs hx z
    by_cases hne : s = []
    · subst hne; simp [Says]
    · rw [says_cons hne]
      exact winner_plain hp (fallback k) (onlyChar k) hx hne (fun u hu t w hd => unread_tagger k (hs.infix hu) hd)
  induction h generalizing z' with
  | plain hs => exact plain hs hx z'
  | @number s x y r z hs ho hst hpt _ ih =>
    have hx1 : VText s := fun c hc => hx c (by simp [hc])
    have hx3 : VText r := fun c hc => hx c (by simp [hc])
    have hne : x ≠ [] := by
      rintro rfl
      obtain ⟨_, _, e, _⟩ := hst.first
      cases e
    have c1 : NoCross (taggerU k.removeErhua) s (x ++ r) := by
      obtain ⟨d, q, rfl, hd⟩ := hst.first
      refine noCross_open (f := pc false) (fun u t w hd => token_fits false hd) (dig_pc _ _ hd) ?_ ?_
      · rw [pc_false]; exact unread_free hs
      · intro w hw hne hsuf
        rw [pc_false] at hsuf
        obtain ⟨v, hv, hv'⟩ := lead_opener hw hne
        exact ho v hv (hv'.trans hsuf)
    have c2 : NoCross (taggerU k.removeErhua) x r := by
      cases r with
      | nil =>
        intro q s u v e hs e' t w hd
        have := congrArg List.length e'
        simp at this
        omega
      | cons b r =>
        obtain ⟨q, a, rfl, ha⟩ := hst.last
        have hb := hpt b (by simp)
        have hbp : b ≠ '%' := by
          rintro rfl
          exact hb.2 (List.mem_append_left _ (by decide))
        have e : pc true b = b := by simp [pc, hbp]
        refine noCross_close (f := pc true) (fun u t w hd => token_fits true hd) ?_ ?_ ?_
        · rcases ha with ha | rfl
          · exact dig_pc _ _ ha
          · decide
        · rw [e, ← digit_dig, hb.1]; rfl
        · rw [e]; exact hb.2
    rw [List.append_assoc, says_append hp c1]
    simp only [says_append hp c2, plain hs hx1, says_cons hne, winner_stands hp hst, ih hx3]
    constructor
    · rintro ⟨_, _, rfl, ⟨_, _, rfl, rfl, rfl⟩, rfl⟩; simp
    · rintro rfl
      exact ⟨_, _, rfl, ⟨_, _, rfl, rfl, rfl⟩, by simp⟩

/-- **C84.** With the default switches: every run of the normalizer on such a text gives its reading first, and there
is one. -/
theorem C84_zh_tn_normalize (tg vg : G) (ht : tagger {} = some tg) (hv : verbalizer {} = some vg)
    (p : Pipeline W) (hr : Runs p tokenOrders tg vg) (t z : Str) (hx : VText t) (hne : t ≠ [])
    (h : Text Unread (fun c =>
        let c := (traditionalToSimple.lookup c).getD c
        if c == '呃' || c == '啊' then [] else [(fullToHalf.lookup c).getD c]) t z) (n : Int) (hn : 1 ≤ n) :
    (∃ fuel out, normalize p fuel t (.int n) = some (.ok out)) ∧
    ∀ fuel out, normalize p fuel t (.int n) = some (.ok out) → out.toList.head? = some z := by
  refine ⟨C51_zh_tn {} tg vg ht hv p hr t hx hne n hn, fun fuel out hd => ?_⟩
  obtain ⟨z', h1, h2⟩ := says_first hne hd
  rw [h1, (C84_zh_tn {} tg vg ht hv p hr t z hx (by simpa using h) z').1 h2]

/-! ### Decimals that are dates -/

/-- **C84.** A decimal of a month in two digits and a day is never said as a number: `10.1` is a date. -/
theorem C84_decimal_date (k : Config) (tg vg : G) (ht : tagger k = some tg) (hv : verbalizer k = some vg) (p : Pipeline W)
    (hr : Runs p tokenOrders tg vg) (m d : Str) (hm : Month m) (h2 : m.length = 2) (hd : Day d) (z : Str) :
    Says p (m ++ '.' :: d) z ↔ z = (monthSaid m ++ daySaid d).flatMap (out k) := by
  rw [says_cons (by simp)]
  exact winner_stands (piped ht hv hr) (.date (.md hm h2 hd (by decide)))

theorem C84_decimal_date_example (tg vg : G) (ht : tagger {} = some tg) (hv : verbalizer {} = some vg) (p : Pipeline W)
    (hr : Runs p tokenOrders tg vg) (z : Str) : Says p t!"10.1" z ↔ z = t!"十月一日" := by
  have := C84_decimal_date {} tg vg ht hv p hr t!"10" t!"1" (by decide) (by decide) (by decide) z
  rwa [show (monthSaid t!"10" ++ daySaid t!"1").flatMap (out {}) = t!"十月一日" by decide +kernel] at this

/-! ### Examples -/

theorem date_length {x y : Str} (h : Date x y) : 4 ≤ x.length := by
  have ylen : ∀ {y : Str}, Year y → y.length = 4 := fun h => h.2.1
  have dlen : ∀ {d : Str}, Day d → 1 ≤ d.length := fun h => h.length.1
  cases h with
  | ymd h1 _ _ _ _ => have := ylen h1; simp only [List.length_append, List.length_cons]; omega
  | dmy h1 _ _ _ _ => have := ylen h1; simp only [List.length_append, List.length_cons]; omega
  | ym h1 _ _ _ => have := ylen h1; simp only [List.length_append, List.length_cons]; omega
  | my h1 _ _ _ => have := ylen h1; simp only [List.length_append, List.length_cons]; omega
  | md _ h2 h3 _ => have := dlen h3; simp only [List.length_append, List.length_cons]; omega

/-- One or two characters are no row of telephone numbers and dates. -/
theorem short_row {x : Str} (hx : x ≠ []) (hl : x.length ≤ 2) : ¬ Row x := by
  have word : ∀ {u : Str}, Word u → 3 ≤ u.length := by
    rintro u (⟨n, hn, rfl⟩ | h | ⟨y, h⟩)
    · have : ∀ n ∈ serviceNumbers, 3 ≤ (Nat.toDigits 10 n).length := by decide +kernel
      exact this n hn
    · rw [h.2]; decide
    · have := date_length h
      omega
  intro h
  cases h with
  | nil => exact hx rfl
  | cons h1 _ =>
    have := word h1
    rw [List.length_append] at hl
    omega

/-- The switches' default. -/
abbrev plainOut (c : Char) : Str :=
  let c := (traditionalToSimple.lookup c).getD c
  if c == '呃' || c == '啊' then [] else [(fullToHalf.lookup c).getD c]

theorem example_openers : ∀ s ∈ [t!"打", t!"在"], ∀ w ∈ openers, ¬ w <:+ s := by decide +kernel

theorem example_parted {c : Char} {r : Str} (hc : c ∈ t!"打！") : Parted (c :: r) := by
  have : ∀ c ∈ t!"打！", digitVal c = none ∧ c ∉ closers := by decide +kernel
  intro d hd
  cases hd
  exact this c hc

/-- For instance. -/
theorem text_example : Text Unread plainOut t!"在8:05打110！" t!"在八点零五分打幺幺零!" := by
  have h0 : Text Unread plainOut t!"！" (t!"！".flatMap plainOut) := .plain (by decide +kernel)
  have h1 := Text.number (s := t!"打") (by decide +kernel) (example_openers _ (by decide))
    (.phone (x := t!"110") (.inl ⟨110, by decide, by decide +kernel⟩)) (example_parted (by decide)) h0
  have h2 := Text.number (s := t!"在") (by decide +kernel) (example_openers _ (by decide))
    (.time (.hm (h := t!"8") (m := t!"05") (c := ':') (by decide) (by decide) (by decide)))
    (example_parted (by decide)) h1
  have e : ∀ {a b c d : Str}, Text Unread plainOut a c → a = b → c = d → Text Unread plainOut b d := by
    rintro a b c d h rfl rfl
    exact h
  exact e h2 rfl (by decide +kernel)

theorem amount_example : Amount t!"3.5" t!"三点五" :=
  .mk (x := t!"3") (f := t!".5") (ds := [3]) (by decide) (by decide) (.some (z := t!"5") (es := [5]) (by decide) (by decide))

example : Stands t!"12" t!"十二" :=
  .number (.mk (x := t!"12") (f := []) (g := []) (ds := [1, 2]) (by decide) (by decide) .none) (short_row (by decide) (by decide))
example : Stands t!"3.5%" t!"百分之三点五" := .percent amount_example
example : Stands t!"2024/5/1" t!"二零二四年五月一日" :=
  .date (.ymd (y := t!"2024") (m := t!"5") (d := t!"1") (s := '/') (t := '/') (by decide) (by decide) (by decide) (by decide) (by decide))
example : Stands t!"2/3" t!"三分之二" :=
  .fraction (.mk (x := t!"2") (f := []) (g := []) (ds := [2]) (by decide) (by decide) .none)
    (.mk (x := t!"3") (f := []) (g := []) (ds := [3]) (by decide) (by decide) .none)
    (fun u hu => absurd (date_length hu) (by decide))

end Verif.ZhTn
