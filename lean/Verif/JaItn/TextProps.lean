import Verif.JaItn.Text

/-
Properties of the Japanese inverse normalizer: what is written for a text with names of numbers in it.
-/

namespace Verif.JaItn

open Verif.Wfst
open Verif.JaItn.Spec
open Verif.NBest (Pipeline normalize)

/-- What the tokens look like. -/
theorem token_fits (b : Bool) {k : Config} {u t : Str} {w : W} (hd : (taggerU k).den u t w)
    (hc : Clear zeros (u.map (half k.fullToHalf))) :
    (∃ c, u = [c]) ∨ (tokenS b).Fits (u.map (mark (chars b) ∘ half k.fullToHalf)) := by
  rw [← List.map_map]
  obtain ⟨s, hm, j, w₀, hj, h1, rfl⟩ := ((tagger_union _).2 _ (taggerUnion_eq k) u t w).1 hd
  simp only [rules, List.mem_cons, List.not_mem_nil, or_false] at hm
  rcases hm with rfl | rfl | rfl | rfl | rfl | rfl | rfl | rfl | rfl | rfl
  · exact .inr (edge_cardinalRule _ _ _ _ _ h1 hc)
  · obtain ⟨m, rfl, h2⟩ := den_addTokens.1 h1
    obtain ⟨rfl, _, z, h3⟩ := den_tagField.1 h2
    obtain ⟨c, _, hc, _, rfl⟩ := (den_pre.1 h3).2
    obtain ⟨d, rfl, _⟩ := List.map_eq_singleton_iff.1 hc
    exact .inl ⟨d, rfl⟩
  · exact .inr (edge_dateRule _ _ _ _ _ h1 hc)
  · exact .inr (edge_fractionRule _ _ _ _ _ h1 hc)
  · exact .inr (edge_mathRule _ _ _ _ _ h1 hc)
  · exact .inr (edge_measureRule _ _ _ _ _ h1 hc)
  · exact .inr (edge_moneyRule _ _ _ _ _ h1 hc)
  · exact .inr (edge_ordinalRule _ _ _ _ _ h1 hc)
  · exact .inr (edge_timeRule _ _ _ _ _ h1 hc)
  · exact .inr (edge_whitelistRule _ _ _ _ _ h1 hc)

/-! ### Texts without the words for zero -/

theorem infix_split {w a b : Str} {c : Char} (h : w <:+: a ++ c :: b) (hc : c ∉ w) : w <:+: a ∨ w <:+: b := by
  obtain ⟨p, q, e⟩ := h
  rcases List.append_eq_append_iff.1 e with ⟨l, h1, h2⟩ | ⟨l, h1, h2⟩
  · exact .inl ⟨p, l, h1.symm⟩
  · cases l with
    | nil => exact .inl ⟨p, [], by simpa using h1⟩
    | cons d l =>
      obtain ⟨rfl, h2⟩ := List.cons.inj h2
      rcases List.append_eq_append_iff.1 h1 with ⟨m, h3, h4⟩ | ⟨m, h3, h4⟩
      · exact absurd (by rw [h4]; simp) hc
      · cases m with
        | nil =>
          rw [List.nil_append] at h4
          exact absurd (by rw [← h4]; simp) hc
        | cons d m =>
          obtain ⟨_, h4⟩ := List.cons.inj h4
          refine .inr ⟨m, q, ?_⟩
          have h2 : b = l ++ q := List.tail_eq_of_cons_eq h2
          rw [h2]
          exact congrArg (· ++ q) h4.symm

theorem zeros_ne : ∀ n ∈ zeros, n ≠ [] ∧ ∀ c ∈ n, c ∉ numc := by decide

theorem clear_before {x r : Str} (hx : ∀ c ∈ x, c ∈ numc) (hr : Clear zeros r) : Clear zeros (x ++ r) := by
  induction x with
  | nil => exact hr
  | cons c x ih =>
    intro n hn hi
    have h1 := zeros_ne n hn
    rcases infix_split (a := []) (c := c) (b := x ++ r) hi (fun hc => h1.2 c hc (hx c (by simp))) with h | h
    · exact h1.1 (List.eq_nil_of_infix_nil h)
    · exact ih (fun c hc => hx c (by simp [hc])) n hn h

theorem clear_between {a x r : Str} (ha : Clear zeros a) (hne : x ≠ []) (hx : ∀ c ∈ x, c ∈ numc) (hr : Clear zeros r) :
    Clear zeros (a ++ x ++ r) := by
  cases x with
  | nil => exact absurd rfl hne
  | cons c x =>
    intro n hn hi
    rw [List.append_assoc] at hi
    have h1 := zeros_ne n hn
    rcases infix_split (a := a) (c := c) (b := x ++ r) hi (fun hc => h1.2 c hc (hx c (by simp))) with h | h
    · exact ha n hn h
    · exact clear_before (fun c hc => hx c (by simp [hc])) hr n hn h

theorem Unread.clear {k : Config} {s : Str} (h : Unread k s) : Clear zeros (s.map (half k.fullToHalf)) := by
  obtain ⟨_, h1, h2⟩ := h
  rw [seen_eq] at h1 h2
  intro n hn
  simp only [zeros, List.mem_cons, List.not_mem_nil, or_false] at hn
  rcases hn with rfl | rfl
  · exact h1
  · exact h2

theorem stands_ne {s z m : Bool} {x y : Str} (h : Stands s z m x y) : x ≠ [] := by
  obtain ⟨c, r, rfl, _⟩ := h.first
  simp

theorem text_clear {k : Config} {s z m : Bool} {t y : Str} (h : Text k.fullToHalf s z m (Unread k) t y) :
    Clear zeros (t.map (half k.fullToHalf)) := by
  induction h with
  | plain hs => exact hs.clear
  | number hs _ hst _ _ ih =>
    rw [List.map_append, List.map_append, map_numc hst.numc]
    exact clear_between hs.clear (stands_ne hst) hst.numc ih

/-! ### Where names stand by themselves -/

/-- Every word before a number ends like one of the listed ones. -/
theorem lead_opener {w : Str} (hw : w ∈ openS.lead) (hne : w ≠ []) : ∃ v ∈ openers, v <:+ w := by
  have h1 : (openS.lead.all fun w => w.isEmpty || openers.any fun v => v.isSuffixOf w) = true := by decide +kernel
  have h2 := List.all_eq_true.1 h1 w hw
  rw [Bool.or_eq_true] at h2
  rcases h2 with h2 | h2
  · exact absurd (List.isEmpty_iff.1 h2) hne
  · obtain ⟨v, hv, h3⟩ := List.any_eq_true.1 h2
    exact ⟨v, hv, List.isSuffixOf_iff_suffix.1 h3⟩

theorem suffix_mark {l v s : Str} (hv : ∀ c ∈ v, c ≠ '0' ∧ c ≠ '#') (h : v <:+ s.map (mark l)) : v <:+ s := by
  obtain ⟨p, e⟩ := h
  obtain ⟨a, b, rfl, _, hb⟩ := List.map_eq_append_iff.1 e.symm
  have : b.map (mark l) = b.map id := by
    refine List.map_congr_left fun c hc => ?_
    have h1 := hv (mark l c) (by rw [← hb]; exact List.mem_map_of_mem hc)
    unfold mark at h1 ⊢
    split
    · rename_i h; rw [if_pos h] at h1; exact absurd rfl h1.1
    · rename_i h
      rw [if_neg h] at h1
      split
      · rename_i h'; rw [if_pos h'] at h1; exact absurd rfl h1.2
      · rfl
  rw [this, List.map_id] at hb
  rw [← hb]
  exact List.suffix_append _ _

theorem openers_marks : ∀ v ∈ openers, ∀ c ∈ v, c ≠ '0' ∧ c ≠ '#' := by decide +kernel

/-- Nothing is read across the beginning of a name. -/
theorem noCross_before {k : Config} {s x y r : Str} (hs : Unread k s) (ho : ∀ w ∈ openers, ¬ w <:+ see k.fullToHalf s)
    (hst : Stands k.standalone k.zeroToNine k.million x y) (hc : Clear zeros ((s ++ x ++ r).map (half k.fullToHalf))) :
    NoCross (taggerU k) s (x ++ r) := by
  rw [see_eq] at ho
  obtain ⟨d, x, rfl, hd⟩ := hst.first
  have hd' := half_numc k.fullToHalf d (hst.numc d (by simp))
  rw [List.cons_append]
  refine noCross_open_in (f := mark (chars false) ∘ half k.fullToHalf) (s := tokenS false) (fun u t w h hi => token_fits false h ?_) ?_ ?_ ?_
  · refine hc.infix (List.IsInfix.map _ ?_)
    simpa using hi
  · rw [Function.comp, dig_mark, hd']
    show heads.contains d = true
    simpa using hd
  · intro c hc
    rw [← List.map_map] at hc
    obtain ⟨c, hc', rfl⟩ := List.mem_map.1 hc
    rw [dig_mark]
    have h1 : c ∉ heads := hs.1 c (by rw [seen_eq]; exact hc')
    show heads.contains c = false
    simpa using h1
  · intro w hw hne hsuf
    obtain ⟨v, hv, hv'⟩ := lead_opener hw hne
    rw [← List.map_map] at hsuf
    exact ho v hv (suffix_mark (openers_marks v hv) (hv'.trans hsuf))

/-- Nothing is read across the end of a name. -/
theorem noCross_behind {k : Config} {x y r : Str} (hst : Stands k.standalone k.zeroToNine k.million x y)
    (hp : Parted k.fullToHalf r) (hc : Clear zeros ((x ++ r).map (half k.fullToHalf))) : NoCross (taggerU k) x r := by
  cases r with
  | nil =>
    intro q s u v e hs e' t w hd
    have := congrArg List.length e'
    simp at this
    omega
  | cons b r =>
    obtain ⟨x', a, rfl, ha⟩ := hst.last
    have ha' := half_numc k.fullToHalf a (hst.numc a (by simp))
    have hb := hp (half k.fullToHalf b) (by rw [see_eq]; simp)
    refine noCross_close_in (f := mark (chars true) ∘ half k.fullToHalf) (s := tokenS true) (fun u t w h hi => token_fits true h ?_) ?_ ?_ ?_
    · exact hc.infix (List.IsInfix.map _ hi)
    · rw [Function.comp, dig_mark, ha']
      show numberChars.contains a = true
      simpa using ha
    · rw [Function.comp, dig_mark]
      show numberChars.contains _ = false
      simpa using hb.1
    · show mark numberChars (half k.fullToHalf b) ∉ closers
      unfold mark
      rw [if_neg (by simpa using hb.1)]
      split
      · decide +kernel
      · exact hb.2

/-- **C88.** The best results of a text with names of numbers are the one that `Text` says: each name is written in
digits, and the characters between are made half-width if the switch says so. -/
theorem C88_ja_itn (k : Config) (tg vg : G) (ht : tagger k = some tg) (hv : verbalizer k = some vg) (p : Pipeline W)
    (hr : Runs p tokenOrders tg vg) (t z : Str) (hx : VText t)
    (h : Text k.fullToHalf k.standalone k.zeroToNine k.million (Unread k) t z) (z' : Str) : Says p t z' ↔ z' = z := by
  have hp := piped ht hv hr
  have plain : ∀ {s : Str}, Unread k s → VText s → ∀ z, Says p s z ↔ z = see k.fullToHalf s := by
    intro s hs hx z
    rw [see_eq]
    by_cases hne : s = []
    · subst hne; simp [Says]
    · rw [says_cons hne, List.map_eq_flatMap]
      exact winner_plain hp (fallback k) (onlyChar k) hx hne (fun u hu t w hd => unread_tagger k (hs.infix hu) hd)
  induction h generalizing z' with
  | plain hs => exact plain hs hx z'
  | @number s x y r z hs ho hst hpt htx ih =>
    have hx1 : VText s := fun c hc => hx c (by simp [hc])
    have hx3 : VText r := fun c hc => hx c (by simp [hc])
    have hcl := text_clear (.number hs ho hst hpt htx)
    have c1 := noCross_before hs ho hst hcl
    have c2 : NoCross (taggerU k) x r := by
      refine noCross_behind hst hpt (hcl.infix (List.IsInfix.map _ ?_))
      rw [List.append_assoc]
      exact (List.suffix_append _ _).isInfix
    rw [List.append_assoc, says_append hp c1]
    simp only [says_append hp c2, plain hs hx1, says_cons (stands_ne hst), winner_stands hp hst, ih hx3]
    constructor
    · rintro ⟨_, _, rfl, ⟨_, _, rfl, rfl, rfl⟩, rfl⟩; simp
    · rintro rfl
      exact ⟨_, _, rfl, ⟨_, _, rfl, rfl, rfl⟩, by simp⟩

/-- **C88.** Every run of the normalizer on such a text gives what is to be written first, and there is one. -/
theorem C88_ja_itn_normalize (k : Config) (tg vg : G) (ht : tagger k = some tg) (hv : verbalizer k = some vg)
    (p : Pipeline W) (hr : Runs p tokenOrders tg vg) (t z : Str) (hx : VText t) (hne : t ≠ [])
    (h : Text k.fullToHalf k.standalone k.zeroToNine k.million (Unread k) t z) (n : Int) (hn : 1 ≤ n) :
    (∃ fuel out, normalize p fuel t (.int n) = some (.ok out)) ∧
    ∀ fuel out, normalize p fuel t (.int n) = some (.ok out) → out.toList.head? = some z := by
  refine ⟨C51_ja_itn k tg vg ht hv p hr t hx hne n hn, fun fuel out hd => ?_⟩
  obtain ⟨z', h1, h2⟩ := says_first hne hd
  rw [h1, (C88_ja_itn k tg vg ht hv p hr t z hx h z').1 h2]

/-- For instance. -/
theorem text_example : Text false true false false (Unread {})
    t!"今日は十二、明日は千二百三十四点五です" t!"今日は12、明日は1234.5です" := by
  have h1 : Text false true false false (Unread {}) t!"です" (see false t!"です") :=
    .plain ⟨by decide +kernel, by decide +kernel, by decide +kernel⟩
  have h2 := Text.number (s := t!"、明日は") (x := t!"千二百三十四点五") (y := t!"1234.5") (r := t!"です") (fullWidth := false) (Plain := Unread {})
    (standalone := true) (zeroToNine := false) (million := false)
    ⟨by decide +kernel, by decide +kernel, by decide +kernel⟩ (by decide +kernel)
    (.point (n := 1234) (es := [5]) (by decide) (by decide) (by decide))
    (by intro c hc; revert c; decide +kernel) h1
  have h3 := Text.number (s := t!"今日は") (x := t!"十二") (y := t!"12") (fullWidth := false) (Plain := Unread {})
    (standalone := true) (zeroToNine := false) (million := false)
    ⟨by decide +kernel, by decide +kernel, by decide +kernel⟩ (by decide +kernel)
    (.whole (n := 12) rfl (.inr (by decide)) (by decide))
    (by intro c hc; revert c; decide +kernel) h2
  have e : ∀ a b : Str, a = b → Text false true false false (Unread {}) t!"今日は十二、明日は千二百三十四点五です" a →
    Text false true false false (Unread {}) t!"今日は十二、明日は千二百三十四点五です" b := fun a b e h => e ▸ h
  exact e _ _ (by decide +kernel) h3

end Verif.JaItn
