import Verif.ZhItn.Text
import Verif.ZhItn.Edge

/-
Properties of the Chinese inverse normalizer: what is written for a text with names of numbers in it.
-/

namespace Verif.ZhItn

open Verif.Wfst
open Verif.ZhItn.Spec
open Verif.ZhTn.Spec (chinese)
open Verif.NBest (Pipeline normalize)

/-! ### Tokens that the summaries leave out -/

theorem before_eq (w : Str) : before w = w.takeWhile fun c => !triggers.contains c := rfl

theorem before_split {q r : Str} {d : Char} (hq : ∀ c ∈ q, c ∉ triggers) (hd : d ∈ triggers) : before (q ++ d :: r) = q := by
  rw [before_eq, List.takeWhile_append_of_pos (fun c hc => by simpa using hq c hc), List.takeWhile_cons_of_neg (by simpa using hd),
    List.append_nil]

theorem before_free {q : Str} (hq : ∀ c ∈ q, c ∉ triggers) : before q = q := by
  rw [before_eq]
  have := List.takeWhile_append_of_pos (l₂ := []) (fun c hc => (show (!triggers.contains c) = true by simpa using hq c hc))
  simpa using this

/-- The words of units. -/
theorem units_word {x y : Str} {w : W} (h : units.den x y w) :
    ∃ p ∈ [t!"", t!"万", t!"亿", t!"兆"], ∃ u ∈ t!"度" :: (unitsEn ++ unitsZh).map (fun e => e.1), x = p ++ u := by
  rcases h with ⟨p, _, _, u, _, _, h1, h2, rfl, _, _⟩ | ⟨p, _, _, u, _, _, h1, h2, rfl, _, _⟩
  · refine ⟨p, ?_, u, ?_, rfl⟩
    · rcases den_ques.1 h1 with ⟨rfl, _⟩ | ⟨_, (h1 | h1) | h1, _⟩
      · simp
      · obtain ⟨rfl, _⟩ := h1; simp
      · obtain ⟨rfl, _⟩ := h1; simp
      · obtain ⟨rfl, _⟩ := h1; simp
    · refine List.mem_cons_of_mem _ (List.mem_map.2 ⟨_, List.mem_append_right _ h2.1, rfl⟩)
  · refine ⟨p, ?_, u, ?_, rfl⟩
    · rcases den_ques.1 h1 with ⟨rfl, _⟩ | ⟨_, (h1 | h1) | h1, _⟩
      · simp
      · obtain ⟨rfl, _⟩ := den_crossS.1 h1; simp
      · obtain ⟨rfl, _⟩ := den_crossS.1 h1; simp
      · obtain ⟨rfl, _⟩ := den_crossS.1 h1; simp
    · obtain ⟨_, h2, _⟩ := h2
      rcases h2 with h2 | ⟨_, h2, _⟩
      · exact List.mem_cons_of_mem _ (List.mem_map.2 ⟨_, List.mem_append_left _ h2.1, rfl⟩)
      · obtain ⟨rfl, _⟩ := den_crossS.1 h2
        exact List.mem_cons_self

theorem each_mem {p u : Str} (hp : p ∈ [t!"", t!"万", t!"亿", t!"兆"]) (hu : u ∈ t!"度" :: (unitsEn ++ unitsZh).map (fun e => e.1)) :
    '每' :: before (p ++ u) ∈ each := by
  refine List.mem_flatMap.2 ⟨p, hp, List.mem_map.2 ⟨u, hu, ?_⟩⟩
  have h1 : ∀ p ∈ [t!"", t!"万", t!"亿", t!"兆"], ∀ c ∈ p, (!triggers.contains c) = true := by decide
  rw [before_eq (p ++ u), List.takeWhile_append_of_pos (h1 p hp)]
  rfl

/-- An amount for one of a unit. -/
theorem opens_each {k : Config} {x y : Str} {w : W}
    (h : (tagField t!"denominator" measureDenominator + Wfst.insert t!" " + tagField t!"numerator" (measure k)).den x y w)
    {q r : Str} {d : Char} (e : x = q ++ d :: r) (hq : ∀ c ∈ q, c ∉ triggers) (hd : d ∈ triggers) :
    ∃ v ∈ openers ++ each, v <:+ q := by
  obtain ⟨_, _, _, m, _, _, h1, h2, rfl, _, _⟩ := h
  obtain ⟨x', _, _, _, _, _, h1, h3, rfl, _, _⟩ := h1
  obtain ⟨rfl, _⟩ := den_insert.1 h3
  obtain ⟨_, _, _, h1⟩ := den_tagField.1 h1
  obtain ⟨_, _, _, h2⟩ := den_tagField.1 h2
  obtain ⟨_, _, _, v, _, _, h3, h4, rfl, _, _⟩ := h1
  obtain ⟨rfl, _⟩ := den_del.1 h3
  obtain ⟨p, hp, u, hu, rfl⟩ := units_word h4
  have key := each_mem hp hu
  rw [List.append_nil] at e
  rcases List.append_eq_append_iff.1 e with ⟨l, h5, h6⟩ | ⟨l, h5, h6⟩
  · -- the first number is in the amount
    have hv : ∀ c ∈ p ++ u, c ∉ triggers := fun c hc => hq c (by rw [h5]; simp at hc ⊢; tauto)
    rw [before_free hv] at key
    by_cases hl : l = []
    · subst hl
      exact ⟨_, List.mem_append_right _ key, by rw [h5]; simp⟩
    · obtain ⟨v, hv, h7⟩ := opens_measure k _ _ _ h2 l d r h6 (fun c hc => hq c (by rw [h5]; simp [hc])) hd hl
      exact ⟨v, List.mem_append_left _ hv, h7.trans (by rw [h5]; exact List.suffix_append _ _)⟩
  · cases l with
    | nil =>
      rw [List.append_nil] at h5
      have hv : ∀ c ∈ p ++ u, c ∉ triggers := fun c hc => hq c (by rw [← h5]; simp at hc ⊢; tauto)
      rw [before_free hv] at key
      exact ⟨_, List.mem_append_right _ key, by rw [← h5]; simp⟩
    | cons d' l =>
      obtain ⟨rfl, _⟩ := List.cons.inj h6
      have h5 : '每' :: (p ++ u) = q ++ d :: l := by simpa using h5
      cases q with
      | nil =>
        obtain ⟨rfl, _⟩ := List.cons.inj h5
        exact absurd hd (by decide)
      | cons c q =>
        obtain rfl : '每' = c := (List.cons.inj h5).1
        have h7 : p ++ u = q ++ d :: l := (List.cons.inj h5).2
        rw [h7, before_split (fun c hc => hq c (by simp [hc])) hd] at key
        exact ⟨_, List.mem_append_right _ key, List.suffix_refl _⟩

/-- The beginning of a plate before its first digit. -/
theorem letters_before {n : Nat} {x y : Str} {w : W} (h : ((G.cls isAlpha ||| digits).pow n).den x y w) {q r : Str} {d : Char}
    (e : x = q ++ d :: r) (hq : ∀ c ∈ q, c ∉ triggers) : ∀ c ∈ q, isAlpha c = true := by
  induction n generalizing x y w q with
  | zero => obtain ⟨rfl, _⟩ := h; simp at e
  | succ n ih =>
    obtain ⟨x₁, y₁, w₁, x₂, y₂, w₂, h1, h2, rfl, _, _⟩ := h
    cases q with
    | nil => simp
    | cons c q =>
      rcases h1 with h1 | h1
      · obtain ⟨a, ha, rfl, _⟩ := h1
        obtain ⟨rfl, e1⟩ := List.cons.inj e
        intro c hc
        rcases List.mem_cons.1 hc with rfl | hc
        · exact ha
        · exact ih h2 e1 (fun c hc => hq c (by simp [hc])) c hc
      · exfalso
        obtain ⟨b, hb, rfl⟩ := digits_char h1
        obtain ⟨rfl, _⟩ := List.cons.inj e
        have h3 : ∀ c ∈ t!"零洞一幺壹二两贰三叁四肆五伍六陆七柒拐八捌九玖", c ∈ triggers := by decide
        exact hq b (by simp) (h3 b hb)

/-- A plate begins with a province, and letters stand before its first digit. -/
theorem plate_before {x y : Str} {w : W} (h : plate.den x y w) :
    ∃ c r, x = c :: r ∧ c ∈ "京津沪渝冀豫云辽黑湘皖鲁新苏浙赣鄂桂甘晋蒙陕吉闽贵粤青藏川宁琼".toList ∧
      ∀ q d r', r = q ++ d :: r' → (∀ c ∈ q, c ∉ triggers) → d ∈ triggers →
        q ≠ [] ∧ ∀ l ∈ q, 'a' ≤ l ∧ l ≤ 'z' ∨ 'A' ≤ l ∧ l ≤ 'Z' := by
  have key : ∀ n x y w, ((.tab province + .cls isAlpha + (.cls isAlpha ||| digits).pow n) : G).den x y w →
      ∃ c r, x = c :: r ∧ c ∈ "京津沪渝冀豫云辽黑湘皖鲁新苏浙赣鄂桂甘晋蒙陕吉闽贵粤青藏川宁琼".toList ∧
        ∀ q d r', r = q ++ d :: r' → (∀ c ∈ q, c ∉ triggers) → d ∈ triggers →
          q ≠ [] ∧ ∀ l ∈ q, 'a' ≤ l ∧ l ≤ 'z' ∨ 'A' ≤ l ∧ l ≤ 'Z' := by
    intro n x y w h
    obtain ⟨_, _, _, ls, _, _, h1, h2, rfl, _, _⟩ := h
    obtain ⟨p, z, _, _, _, _, h3, h4, rfl, _, _⟩ := h1
    obtain ⟨l, hl, rfl, _⟩ := h4
    obtain ⟨c, rfl, hc⟩ : ∃ c, p = [c] ∧ c ∈ "京津沪渝冀豫云辽黑湘皖鲁新苏浙赣鄂桂甘晋蒙陕吉闽贵粤青藏川宁琼".toList := by
      obtain ⟨hm, _⟩ := h3
      have hall : province.all (fun e => match e.1 with
          | [c] => t!"京津沪渝冀豫云辽黑湘皖鲁新苏浙赣鄂桂甘晋蒙陕吉闽贵粤青藏川宁琼".contains c
          | _ => false) = true := by decide +kernel
      have := List.all_eq_true.1 hall _ hm
      match p, this with
      | [c], h => exact ⟨c, rfl, by simpa using h⟩
    refine ⟨c, l :: ls, rfl, hc, ?_⟩
    intro q d r' e hq hd
    have alpha : ∀ c, isAlpha c = true → 'a' ≤ c ∧ c ≤ 'z' ∨ 'A' ≤ c ∧ c ≤ 'Z' := by
      intro c hc
      simpa [isAlpha, isLower, isUpper] using hc
    cases q with
    | nil =>
      obtain ⟨rfl, _⟩ := List.cons.inj e
      have h5 : ∀ c ∈ triggers, isAlpha c = false := by decide
      rw [h5 _ hd] at hl; cases hl
    | cons a q =>
      obtain ⟨rfl, e1⟩ := List.cons.inj e
      refine ⟨by simp, ?_⟩
      intro c hc
      rcases List.mem_cons.1 hc with rfl | hc
      · exact alpha _ hl
      · exact alpha _ (letters_before h2 e1 (fun c hc => hq c (by simp [hc])) c hc)
  rcases h with h | h
  · exact key _ _ _ _ h
  · exact key _ _ _ _ h

/-! ### Where names stand by themselves -/

/-- Nothing is read across the place, if no token begins with an end of the first part and goes on. -/
theorem noCross_of {tu : G} {x : Str} {b : Char} {y : Str}
    (h : ∀ q u t w, q ≠ [] → q <:+ x → ¬ tu.den (q ++ b :: u) t w) : NoCross tu x (b :: y) := by
  intro a q u v he hq e t w hden
  by_contra hl
  obtain ⟨u', rfl, hu', e'⟩ := cut e (Nat.lt_of_not_le hl)
  cases u' with
  | nil => exact hu' rfl
  | cons c u' =>
    obtain ⟨rfl, _⟩ := List.cons.inj e'
    exact h q u' t w hq ⟨a, he.symm⟩ hden

/-- What stands in a token before its first number. -/
theorem token_opens {k : Config} {q u t : Str} {d : Char} {w : W} (h : (taggerU k).den (q ++ d :: u) t w)
    (hq : ∀ c ∈ q, c ∉ triggers) (hd : d ∈ triggers) (hne : q ≠ []) : (∃ v ∈ openers ++ each, v <:+ q) ∨ ¬ NoPlate q := by
  have one : ∀ {g : G}, Opens g → ∀ {y : Str} {w : W}, g.den (q ++ d :: u) y w → (∃ v ∈ openers ++ each, v <:+ q) ∨ ¬ NoPlate q := by
    intro g hg y w h
    obtain ⟨v, hv, h1⟩ := hg _ _ _ h q d u rfl hq hd hne
    exact .inl ⟨v, List.mem_append_left _ hv, h1⟩
  obtain ⟨s, hs, j, w₀, hj, h1, _⟩ := ((tagger_union _).2 _ (taggerUnion_eq k) _ t w).1 h
  simp only [rules, List.mem_cons, List.not_mem_nil, or_false] at hs
  rcases hs with rfl | rfl | rfl | rfl | rfl | rfl | rfl | rfl | rfl | rfl | rfl
  · exact one opens_date h1
  · exact one opens_whitelist h1
  · exact one (opens_fraction _) h1
  · obtain ⟨m, _, h2⟩ := den_addTokens.1 h1
    rcases h2 with h2 | h2
    · exact one (opens_tagField (opens_measureValue k)) h2
    · exact .inl (opens_each h2 rfl hq hd)
  · exact one (opens_money k) h1
  · exact one opens_time h1
  · exact one (opens_cardinal k) h1
  · exact one (opens_math _) h1
  · obtain ⟨m, rfl, h2⟩ := den_addTokens.1 h1
    obtain ⟨_, _, z, h3⟩ := den_tagField.1 h2
    obtain ⟨c, r, e, hc, h4⟩ := plate_before h3
    cases q with
    | nil => exact absurd rfl hne
    | cons a q =>
      obtain ⟨rfl, e1⟩ := List.cons.inj e
      obtain ⟨h5, h6⟩ := h4 q d u e1.symm (fun c hc => hq c (by simp [hc])) hd
      exact .inr fun h => h a q hc h5 h6 (List.suffix_refl _)
  · exact one opens_train h1
  · obtain ⟨c, e, _⟩ := char_tagged h1
    cases q with
    | nil => exact absurd rfl hne
    | cons a q => simp at e

/-- What comes in a token that begins with a number right after a number. -/
theorem token_closes {k : Config} {q u t : Str} {a b c : Char} {w : W} (h : (taggerU k).den (c :: q) t w) (hc : c ∈ numc)
    {l : Str} (e : c :: q = l ++ a :: b :: u) (ha : a ∈ numberChars) (hb : b ∉ numberChars) : b ∈ closers := by
  have one : ∀ {g : G}, Closes g → ∀ {y : Str} {w : W}, g.den (c :: q) y w → b ∈ closers :=
    fun hg _ _ h => hg _ _ _ h l a b u e ha hb
  obtain ⟨s, hs, j, w₀, hj, h1, _⟩ := ((tagger_union _).2 _ (taggerUnion_eq k) _ t w).1 h
  simp only [rules, List.mem_cons, List.not_mem_nil, or_false] at hs
  rcases hs with rfl | rfl | rfl | rfl | rfl | rfl | rfl | rfl | rfl | rfl | rfl
  · exact one closes_date h1
  · exact one closes_whitelist h1
  · exact one (closes_fraction _) h1
  · obtain ⟨m, _, h2⟩ := den_addTokens.1 h1
    rcases h2 with h2 | h2
    · exact one (closes_tagField (closes_measureValue k)) h2
    · exfalso
      obtain ⟨_, _, _, m, _, _, h1, _, e1, _, _⟩ := h2
      obtain ⟨x', _, _, _, _, _, h1, h3, rfl, _, _⟩ := h1
      obtain ⟨_, _, _, h1⟩ := den_tagField.1 h1
      obtain ⟨_, _, _, v, _, _, h3, h4, rfl, _, _⟩ := h1
      obtain ⟨rfl, _⟩ := den_del.1 h3
      have h5 : c = '每' := (List.cons.inj e1).1
      rw [h5] at hc
      exact absurd hc (by decide)
  · exact one (closes_money k) h1
  · exact one closes_time h1
  · exact one (closes_cardinal k) h1
  · exact one (closes_math _) h1
  · exfalso
    obtain ⟨m, rfl, h2⟩ := den_addTokens.1 h1
    obtain ⟨_, _, z, h3⟩ := den_tagField.1 h2
    obtain ⟨p, r, e1, hp, _⟩ := plate_before h3
    obtain ⟨rfl, _⟩ := List.cons.inj e1
    have h5 : ∀ c ∈ numc, c ∉ "京津沪渝冀豫云辽黑湘皖鲁新苏浙赣鄂桂甘晋蒙陕吉闽贵粤青藏川宁琼".toList := by decide
    exact h5 _ hc hp
  · exact one closes_train h1
  · obtain ⟨d, e1, _⟩ := char_tagged h1
    rw [e1] at e
    have := congrArg List.length e
    simp at this
    omega

theorem stands_name {s z m : Bool} {x y : Str} (h : Stands s z m x y) :
    ∃ n, x = chinese n ∧ (n < 10 ^ 6 ∨ m = true ∧ n < 10 ^ 8) := by
  cases h with
  | whole _ _ h => exact ⟨_, rfl, h⟩
  | kept _ h => exact ⟨_, rfl, h⟩

/-- Nothing is read across the beginning of a name. -/
theorem noCross_before {k : Config} {s x y r : Str} (hs : Unread s) (ho : ∀ w ∈ openers ++ each, ¬ w <:+ s) (hpl : NoPlate s)
    (hst : Stands k.standalone k.zeroToNine k.million x y) : NoCross (taggerU k) s (x ++ r) := by
  obtain ⟨n, rfl, hn⟩ := stands_name hst
  obtain ⟨d, x, e, hd⟩ := chinese_first (n := n) (by omega)
  have hd' : d ∈ triggers := by
    have : ∀ c ∈ '零' :: '十' :: '两' :: nine, c ∈ triggers := by decide
    exact this d hd
  rw [e, List.cons_append]
  refine noCross_of fun q u t w hne hq h => ?_
  rcases token_opens h (fun c hc => hs.chars c (hq.subset hc)) hd' hne with ⟨v, hv, h1⟩ | h1
  · exact ho v hv (h1.trans hq)
  · exact h1 fun c ls h2 h3 h4 h5 => hpl c ls h2 h3 h4 (h5.trans hq)

/-- Nothing is read across the end of a name. -/
theorem noCross_behind {k : Config} {x y r : Str} (hst : Stands k.standalone k.zeroToNine k.million x y)
    (hp : Parted r) : NoCross (taggerU k) x r := by
  cases r with
  | nil =>
    intro q s u v e hs e' t w hd
    have := congrArg List.length e'
    simp at this
    omega
  | cons b r =>
    obtain ⟨n, rfl, hn⟩ := stands_name hst
    have hc := (numeral_chinese (m := k.million) hn).chars
    have hb := hp b (by simp)
    refine noCross_of fun q u t w hne hq h => hb.2 ?_
    obtain ⟨q', a, rfl⟩ := List.eq_nil_or_concat q |>.resolve_left hne
    have hq' : ∀ c ∈ q' ++ [a], c ∈ numc := fun c h => hc c (hq.subset (by simpa using h))
    have sub : ∀ c ∈ numc, c ∈ numberChars := by decide
    have ha : a ∈ numberChars := sub a (hq' a (by simp))
    have e : (q'.concat a) ++ b :: u = q' ++ a :: b :: u := by simp
    rw [e] at h
    cases q' with
    | nil => exact token_closes h (hq' a (by simp)) (l := []) rfl ha hb.1
    | cons c q' => exact token_closes h (hq' c (by simp)) (l := c :: q') rfl ha hb.1

theorem kept_eq (b : Bool) (s : Str) : kept b s = s.flatMap fun c => if b && (c == '呃' || c == '啊') then [] else [c] := by
  unfold kept
  cases b with
  | false => simp
  | true =>
    induction s with
    | nil => rfl
    | cons c x ih =>
      rw [List.flatMap_cons, ← ih]
      by_cases h1 : c = '呃'
      · simp [h1]
      · by_cases h2 : c = '啊'
        · simp [h2]
        · simp [h1, h2]

/-- **C90.** The best results of a text with names of numbers are the one that `Text` says: each name is written in
digits, and the text between is left as it is, without its interjections if the switch says so. -/
theorem C90_zh_itn (k : Config) (tg vg : G) (ht : tagger k = some tg) (hv : verbalizer k = some vg) (p : Pipeline W)
    (hr : Runs p tokenOrders tg vg) (t z : Str) (hx : VText t)
    (h : Text k.removeInterjections k.standalone k.zeroToNine k.million Unread t z) (z' : Str) : Wfst.Says p t z' ↔ z' = z := by
  have hp := piped ht hv hr
  have plain : ∀ {s : Str}, Unread s → VText s → ∀ z, Wfst.Says p s z ↔ z = kept k.removeInterjections s := by
    intro s hs hx z
    rw [kept_eq]
    by_cases hne : s = []
    · subst hne; simp [Wfst.Says]
    · rw [says_cons hne]
      exact winner_plain hp (fallback k) (onlyChar k) hx hne (fun u hu t w hd => unread_tagger k (hs.infix hu) hd)
  induction h generalizing z' with
  | plain hs => exact plain hs hx z'
  | @number s x y r z hs ho hpl hst hpt htx ih =>
    have hx1 : VText s := fun c hc => hx c (by simp [hc])
    have hx3 : VText r := fun c hc => hx c (by simp [hc])
    have c1 := noCross_before (r := r) hs ho hpl hst
    have c2 := noCross_behind hst hpt
    have hne : x ≠ [] := by
      obtain ⟨n, rfl, hn⟩ := stands_name hst
      exact chinese_ne (n := n) (by omega)
    rw [List.append_assoc, says_append hp c1]
    simp only [says_append hp c2, plain hs hx1, says_cons hne, winner_stands hp hst, ih hx3]
    constructor
    · rintro ⟨_, _, rfl, ⟨_, _, rfl, rfl, rfl⟩, rfl⟩; simp
    · rintro rfl
      exact ⟨_, _, rfl, ⟨_, _, rfl, rfl, rfl⟩, by simp⟩

/-- **C90.** Every run of the normalizer on such a text gives what is to be written first, and there is one. -/
theorem C90_zh_itn_normalize (k : Config) (tg vg : G) (ht : tagger k = some tg) (hv : verbalizer k = some vg)
    (p : Pipeline W) (hr : Runs p tokenOrders tg vg) (t z : Str) (hx : VText t) (hne : t ≠ [])
    (h : Text k.removeInterjections k.standalone k.zeroToNine k.million Unread t z) (n : Int) (hn : 1 ≤ n) :
    (∃ fuel out, normalize p fuel t (.int n) = some (.ok out)) ∧
    ∀ fuel out, normalize p fuel t (.int n) = some (.ok out) → out.toList.head? = some z := by
  refine ⟨C51_zh_itn k tg vg ht hv p hr t hx hne n hn, fun fuel out hd => ?_⟩
  obtain ⟨z', h1, h2⟩ := says_first hne hd
  rw [h1, (C90_zh_itn k tg vg ht hv p hr t z hx h z').1 h2]

theorem noPlate_easy {s : Str} (h : ∀ c ∈ s, c ∉ "京津沪渝冀豫云辽黑湘皖鲁新苏浙赣鄂桂甘晋蒙陕吉闽贵粤青藏川宁琼".toList) : NoPlate s :=
  fun c _ hc _ _ hs => h c (hs.subset List.mem_cons_self) hc

theorem openers_easy {s : Str} (h : ∀ w ∈ openers, ¬ w <:+ s) (hs : '每' ∉ s) : ∀ w ∈ openers ++ each, ¬ w <:+ s := by
  intro w hw
  rcases List.mem_append.1 hw with hw | hw
  · exact h w hw
  · obtain ⟨p, _, hw⟩ := List.mem_flatMap.1 hw
    obtain ⟨u, _, rfl⟩ := List.mem_map.1 hw
    exact fun hk => hs (hk.subset List.mem_cons_self)

/-- For instance: 啊 is left out. -/
theorem text_example : Text true true false false Unread
    t!"他说啊，总数三千二百零五，明天十二啦" t!"他说，总数3205，明天12啦" := by
  have h1 : Text true true false false Unread t!"啦" (kept true t!"啦") := .plain (.easy (by decide +kernel))
  have h2 := Text.number (s := t!"，明天") (x := t!"十二") (y := t!"12") (interjections := true) (Plain := Unread)
    (standalone := true) (zeroToNine := false) (million := false)
    (.easy (by decide +kernel)) (openers_easy (by decide +kernel) (by decide +kernel)) (noPlate_easy (by decide +kernel))
    (.whole (n := 12) rfl (.inr (by decide)) (.inl (by decide)))
    (by intro c hc; revert c; decide +kernel) h1
  have h3 := Text.number (s := t!"他说啊，总数") (x := t!"三千二百零五") (y := t!"3205") (interjections := true) (Plain := Unread)
    (standalone := true) (zeroToNine := false) (million := false)
    (.easy (by decide +kernel)) (openers_easy (by decide +kernel) (by decide +kernel)) (noPlate_easy (by decide +kernel))
    (.whole (n := 3205) rfl (.inr (by decide)) (.inl (by decide)))
    (by intro c hc; revert c; decide +kernel) h2
  have e : ∀ a b : Str, a = b → Text true true false false Unread t!"他说啊，总数三千二百零五，明天十二啦" a →
    Text true true false false Unread t!"他说啊，总数三千二百零五，明天十二啦" b := fun a b e h => e ▸ h
  exact e _ _ (by decide +kernel) h3

end Verif.ZhItn
