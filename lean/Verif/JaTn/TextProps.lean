import Verif.JaTn.Text

/-
Properties of the Japanese normalizer: what is said for a text with numbers in it.
-/

namespace Verif.JaTn

open Verif.Wfst
open Verif.JaTn.Spec
open Verif.NBest (Pipeline normalize)

theorem digit_dig (c : Char) : (digitVal c).isSome = dig c := by
  have h1 : ∀ n, n < 10 → (digitVal (Char.ofNat (48 + n))).isSome = true ∧ (digitVal (Char.ofNat (65296 + n))).isSome = true := by
    decide
  cases h : dig c with
  | true =>
    simp only [dig, Bool.or_eq_true, Bool.and_eq_true, decide_eq_true_eq] at h
    rcases h with h | h
    · have := (h1 (c.toNat - 48) (by omega)).1
      rwa [show 48 + (c.toNat - 48) = c.toNat by omega, Char.ofNat_toNat] at this
    · have := (h1 (c.toNat - 65296) (by omega)).2
      rwa [show 65296 + (c.toNat - 65296) = c.toNat by omega, Char.ofNat_toNat] at this
  | false =>
    cases hv : digitVal c with
    | none => rfl
    | some d =>
      have h2 : digitTable.all (fun e => dig e.1) = true := by decide
      have hm : (c, d) ∈ digitTable := by
        obtain ⟨l₁, l₂, e, _⟩ := List.lookup_eq_some_iff.1 (show digitTable.lookup c = some d from hv)
        rw [e]; simp
      have := List.all_eq_true.1 h2 _ hm
      simp only at this
      rw [h] at this; cases this

/-- What the tokens look like. -/
theorem token_fits {k : Config} (hk : k.transliterate = false) {u t : Str} {w : W} (hd : (taggerU k).den u t w) :
    (∃ c, u = [c]) ∨ tokenS.Fits (u.map (half k.fullToHalf)) := by
  obtain ⟨s, hm, j, w₀, hj, h1, rfl⟩ := ((tagger_union _).2 _ (taggerUnion_eq k) u t w).1 hd
  simp only [rules, hk, List.mem_append, List.mem_cons, List.not_mem_nil, or_false, Bool.false_eq_true, if_false] at hm
  rcases hm with rfl | rfl | rfl | rfl | rfl | rfl | rfl | rfl | rfl | rfl | rfl
  · exact .inr (edge_cardinalRule _ _ _ _ h1)
  · obtain ⟨c, rfl, _⟩ := char_tagged h1
    exact .inl ⟨c, rfl⟩
  · exact .inr (edge_dateRule _ _ _ _ h1)
  · exact .inr (edge_fractionRule _ _ _ _ h1)
  · exact .inr (edge_mathRule _ _ _ _ h1)
  · exact .inr (edge_measureRule _ _ _ _ h1)
  · exact .inr (edge_moneyRule _ _ _ _ h1)
  · exact .inr (edge_sportRule _ _ _ _ h1)
  · exact .inr (edge_timeRule _ _ _ _ h1)
  · exact .inr (edge_whitelistRule _ _ _ _ h1)
  · cases hj

theorem unread_free {k : Config} {s : Str} (h : Unread k s) : Free s := by
  intro c hc
  have h1 := h.chars c hc
  have h2 : ∀ n, n < 10 → Char.ofNat (48 + n) ∈ "0123456789０１２３４５６７８９@＠".toList ∧
      Char.ofNat (65296 + n) ∈ "0123456789０１２３４５６７８９@＠".toList := by decide
  by_contra hd
  have hd : dig c = true := by simpa using hd
  simp only [dig, Bool.or_eq_true, Bool.and_eq_true, decide_eq_true_eq] at hd
  rcases hd with hd | hd
  · have := (h2 (c.toNat - 48) (by omega)).1
    rw [show 48 + (c.toNat - 48) = c.toNat by omega, Char.ofNat_toNat] at this
    exact h1 this
  · have := (h2 (c.toNat - 65296) (by omega)).2
    rw [show 65296 + (c.toNat - 65296) = c.toNat by omega, Char.ofNat_toNat] at this
    exact h1 this

/-- Every word before a number ends like one of the listed ones. -/
theorem lead_opener {w : Str} (hw : w ∈ tokenS.lead) (hne : w ≠ []) : ∃ v ∈ openers, v <:+ w := by
  rcases List.mem_cons.1 hw with rfl | hw
  · exact absurd rfl hne
  rcases List.mem_append.1 hw with hw | hw
  · exact ⟨w, hw, List.suffix_refl _⟩
  · simp only [Sum.pairs, List.mem_flatMap, List.mem_map, List.mem_cons, List.not_mem_nil, or_false] at hw
    obtain ⟨n, _, v, ⟨s, _, z, hz, rfl⟩, rfl⟩ := hw
    refine ⟨z, ?_, (List.suffix_append _ _).trans (List.suffix_append _ _)⟩
    rcases hz with rfl | rfl | rfl <;> decide

/-- **C82.** Without transliteration, the best results of a text with numbers are the one that `Text` says: each number
is said by its name, and the characters between go through the switches one by one. -/
theorem C82_ja_tn (k : Config) (hk : k.transliterate = false) (tg vg : G) (ht : tagger k = some tg)
    (hv : verbalizer k = some vg) (p : Pipeline W) (hr : Runs p tokenOrders tg vg) (t z : Str) (hx : VText t)
    (h : Text k.fullToHalf (Unread k) (fun c =>
        let c := if k.fullToHalf then (fullToHalf.lookup c).getD c else c
        if k.removePuncts && (punctsJa.contains c || isPunct c) then []
        else if k.tagOov && !inCharset c then "<oov>".toList ++ c :: "</oov>".toList else [c]) t z) (z' : Str) :
    Says p t z' ↔ z' = z := by
  change Text k.fullToHalf (Unread k) (out k) t z at h
  have hp := piped ht hv hr
  have plain : ∀ {s : Str}, Unread k s → VText s → ∀ z, Says p s z ↔ z = s.flatMap (out k) := by
    intro s hs hx z
    by_cases hne : s = []
    · subst hne; simp [Says]
    · rw [says_cons hne]
      exact winner_plain hp (fallback k) (onlyChar k) hx hne (fun u hu t w hd => unread_tagger k (hs.infix hu) hd)
  induction h generalizing z' with
  | plain hs => exact plain hs hx z'
  | @number s x y r z hs ho hst hpt _ ih =>
    rw [see_eq] at ho hst
    have hx1 : VText s := fun c hc => hx c (by simp [hc])
    have hx2 : VText x := fun c hc => hx c (by simp [hc])
    have hx3 : VText r := fun c hc => hx c (by simp [hc])
    have hne : x ≠ [] := by
      rintro rfl
      obtain ⟨_, _, e, _⟩ := hst.first
      cases e
    have c1 : NoCross (taggerU k) s (x ++ r) := by
      obtain ⟨c, q, e, hc⟩ := hst.first
      cases x with
      | nil => cases e
      | cons d x =>
        obtain ⟨e, _⟩ := List.cons.inj e
        refine noCross_open (f := half k.fullToHalf) (fun u t w hd => token_fits hk hd) ?_ ?_ ?_
        · rw [← digit_dig, e, hc]
        · intro c hc
          obtain ⟨c, hc', rfl⟩ := List.mem_map.1 hc
          rw [dig_half]; exact unread_free hs c hc'
        · intro w hw hne hsuf
          obtain ⟨v, hv, hv'⟩ := lead_opener hw hne
          exact ho v hv (hv'.trans hsuf)
    have c2 : NoCross (taggerU k) x r := by
      cases r with
      | nil =>
        intro q s u v e hs e' t w hd
        have := congrArg List.length e'
        simp at this
        omega
      | cons b r =>
        obtain ⟨q, c, e, hc⟩ := hst.last
        obtain ⟨x', a, rfl, rfl, e2⟩ : ∃ x' a, x = x' ++ [a] ∧ x'.map (half k.fullToHalf) = q ∧ half k.fullToHalf a = c := by
          obtain ⟨x', a', rfl, h1, h2⟩ := List.map_eq_append_iff.1 e
          obtain ⟨a, rfl, h3⟩ : ∃ a, a' = [a] ∧ half k.fullToHalf a = c := by
            cases a' with
            | nil => cases h2
            | cons a l =>
              cases l with
              | nil => exact ⟨a, rfl, by simpa using h2⟩
              | cons => simp at h2
          exact ⟨x', a, rfl, h1, h3⟩
        have hb := hpt (half k.fullToHalf b) (by rw [see_eq]; simp)
        refine noCross_close (f := half k.fullToHalf) (fun u t w hd => token_fits hk hd) ?_ ?_ hb.2
        · rw [← digit_dig, e2, hc]
        · rw [← digit_dig, hb.1]; rfl
    rw [List.append_assoc, says_append hp c1]
    simp only [says_append hp c2, plain hs hx1, says_cons hne, winner_stands hk hp hx2 hst, ih hx3]
    constructor
    · rintro ⟨_, _, rfl, ⟨_, _, rfl, rfl, rfl⟩, rfl⟩; simp
    · rintro rfl
      exact ⟨_, _, rfl, ⟨_, _, rfl, rfl, rfl⟩, by simp⟩

/-- **C82.** With the default switches: every run of the normalizer on such a text gives its reading first, and there
is one. -/
theorem C82_ja_tn_normalize (tg vg : G) (ht : tagger {} = some tg) (hv : verbalizer {} = some vg)
    (p : Pipeline W) (hr : Runs p tokenOrders tg vg) (t z : Str) (hx : VText t) (hne : t ≠ [])
    (h : Text true (Unread {}) (fun c => [(fullToHalf.lookup c).getD c]) t z) (n : Int) (hn : 1 ≤ n) :
    (∃ fuel out, normalize p fuel t (.int n) = some (.ok out)) ∧
    ∀ fuel out, normalize p fuel t (.int n) = some (.ok out) → out.toList.head? = some z := by
  refine ⟨C51_ja_tn {} tg vg ht hv p hr t hx hne n hn, fun fuel out hd => ?_⟩
  obtain ⟨z', h1, h2⟩ := says_first hne hd
  rw [h1, (C82_ja_tn {} rfl tg vg ht hv p hr t z hx (by simpa using h) z').1 h2]

/-- **C82.** The zero that the normalizer itself says is not in its character set: with the switch for marking
characters outside of it on, `0` comes back in marks. -/
theorem C82_zero_oov (tg vg : G) (ht : tagger { tagOov := true } = some tg) (hv : verbalizer { tagOov := true } = some vg)
    (p : Pipeline W) (hr : Runs p tokenOrders tg vg) (z : Str) : Says p t!"0" z ↔ z = t!"<oov>〇</oov>" := by
  rw [says_cons (by simp), winner_stands (k := { tagOov := true }) rfl (piped ht hv hr) (x := t!"0") (y := t!"〇") (by decide)
    (.whole (x := t!"0") (ds := [0]) ⟨.digit (by decide) .nil, by decide⟩ (by decide) (.inl (by decide)))]
  have : t!"〇".flatMap (out { tagOov := true }) = t!"<oov>〇</oov>" := by decide +kernel
  rw [this]

/-- For instance. -/
theorem text_example : Text true (Unread {}) (fun c => [(fullToHalf.lookup c).getD c])
    t!"今日は１2、明日は1,234.5です" t!"今日は十二、明日は千二百三十四点五です" := by
  have h1 : Text true (Unread {}) (fun c => [(fullToHalf.lookup c).getD c]) t!"です" (t!"です".flatMap fun c => [(fullToHalf.lookup c).getD c]) :=
    .plain ⟨by decide, by decide +kernel, fun h => by cases h⟩
  have h2 := Text.number (s := t!"、明日は") (x := t!"1,234.5") (r := t!"です") (fullWidth := true) (Plain := Unread {})
    (f := fun c => [(fullToHalf.lookup c).getD c]) ⟨by decide, by decide +kernel, fun h => by cases h⟩ (by decide +kernel)
    (.point (x := t!"1,234") (z := t!"5") (ds := [1, 2, 3, 4]) (es := [5])
      ⟨.digit (by decide) (.comma (by decide) (by decide) (.digit (by decide) (.digit (by decide) .nil))), by decide⟩
      (by decide) (by decide) (by decide) (fun h => by obtain ⟨_, _, _, h⟩ := h; cases h))
    (by intro c hc; revert c; decide +kernel) h1
  have h3 := Text.number (s := t!"今日は") (x := t!"１2") (fullWidth := true) (Plain := Unread {})
    (f := fun c => [(fullToHalf.lookup c).getD c]) ⟨by decide, by decide +kernel, fun h => by cases h⟩ (by decide +kernel)
    (.whole (x := t!"12") (ds := [1, 2]) ⟨.digit (by decide) (.digit (by decide) .nil), by decide⟩ (by decide) (.inl (by decide)))
    (by intro c hc; revert c; decide +kernel) h2
  have e : ∀ a b : Str, a = b → Text true (Unread {}) (fun c => [(fullToHalf.lookup c).getD c]) t!"今日は１2、明日は1,234.5です" a →
    Text true (Unread {}) (fun c => [(fullToHalf.lookup c).getD c]) t!"今日は１2、明日は1,234.5です" b := fun a b e h => e ▸ h
  exact e _ _ (by decide +kernel) h3

end Verif.JaTn
