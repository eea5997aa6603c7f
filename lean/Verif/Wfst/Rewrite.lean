import Verif.Wfst.Lemmas

/-
What `build_rule` does for the kinds of rules the grammars use.
-/

namespace Verif.Wfst

variable {x y s u v : Str} {w : W}

/-- A rule none of whose matches can start anywhere in the text copies the text. -/
theorem Rewrites.copy {R : Rel} {l r : Ctx} {pre x : Str}
    (h : ∀ s, s <:+ x → s ≠ [] → ¬Fires R r s) : Rewrites R l r pre x x 0 := by
  induction x generalizing pre with
  | nil => exact .done
  | cons c x ih =>
    refine .keep (fun hf => h _ (List.suffix_refl _) (by simp) hf.2) (ih fun s hs hn => ?_)
    exact h s (hs.trans (List.suffix_cons c x)) hn

/-- ... and does nothing else. -/
theorem Rewrites.copy_only {R : Rel} {l r : Ctx} {pre x y : Str} {w : W}
    (hr : Rewrites R l r pre x y w) (h : ∀ s, s <:+ x → s ≠ [] → ¬Fires R r s) : y = x ∧ w = 0 := by
  induction hr with
  | done => exact ⟨rfl, rfl⟩
  | keep _ _ ih =>
    obtain ⟨h1, h2⟩ := ih fun s hs hn => h s (hs.trans (List.suffix_cons _ _)) hn
    exact ⟨by rw [h1], h2⟩
  | @change pre u v w t y w' hl hu hR hr _ ih =>
    exact absurd ⟨u, v, w, t, rfl, hu, hR, hr⟩ (h _ (List.suffix_refl _) (by simp [hu]))

theorem Rewrites.inv_nil {R : Rel} {l r : Ctx} {pre y : Str} {w : W}
    (h : Rewrites R l r pre [] y w) : y = [] ∧ w = 0 := by
  generalize hx : ([] : Str) = x at h
  cases h with
  | done => exact ⟨rfl, rfl⟩
  | keep => cases hx
  | change _ hu => exact absurd (List.append_eq_nil_iff.1 hx.symm).1 hu

theorem Rewrites.inv_cons {R : Rel} {l r : Ctx} {pre x y : Str} {c : Char} {w : W}
    (h : Rewrites R l r pre (c :: x) y w) :
    (¬(l.left pre ∧ Fires R r (c :: x)) ∧
      ∃ y', y = c :: y' ∧ Rewrites R l r (pre ++ [c]) x y' w) ∨
    ∃ u v w₁ t y' w₂, c :: x = u ++ t ∧ u ≠ [] ∧ l.left pre ∧ R u v w₁ ∧ r.right t ∧
      Rewrites R l r (pre ++ v) t y' w₂ ∧ y = v ++ y' ∧ w = w₁ + w₂ := by
  obtain ⟨x', hx⟩ : ∃ x', x' = c :: x := ⟨_, rfl⟩
  rw [← hx] at h
  cases h with
  | done => cases hx
  | keep hf hr => cases hx; exact Or.inl ⟨hf, _, rfl, hr⟩
  | change hl hu hR hr hrest => exact Or.inr ⟨_, _, _, _, _, _, hx.symm, hu, hl, hR, hr, hrest, rfl, rfl⟩

/-! `build_rule(delete(" "), r="[EOS]")`: removal of a final space. -/

/-- The text without its last character if that is a space. -/
def dropFinalSpace (x : Str) : Str := if x.getLast? = some ' ' then x.dropLast else x

theorem fires_final {s : Str} : Fires (del [' ']).den .edge s ↔ s = [' '] := by
  constructor
  · rintro ⟨u, v, w, t, rfl, _, h, hr⟩
    obtain ⟨rfl, rfl, rfl⟩ := den_del.1 h
    have : t = [] := by simpa [Ctx.right] using hr
    rw [this]; rfl
  · rintro rfl
    exact ⟨[' '], [], 0, [], rfl, by simp, den_del.2 ⟨rfl, rfl, rfl⟩, rfl⟩

theorem rewrites_final {pre : Str} :
    Rewrites (del [' ']).den .any .edge pre x y w ↔ y = dropFinalSpace x ∧ w = 0 := by
  induction x generalizing pre y w with
  | nil =>
    constructor
    · intro h; exact h.inv_nil
    · rintro ⟨rfl, rfl⟩; exact .done
  | cons c x ih =>
    by_cases hx : c :: x = [' ']
    · cases hx
      constructor
      · intro h
        rcases h.inv_cons with ⟨hf, _⟩ | ⟨u, v, w₁, t, y', w₂, he, _, _, hR, hr, hrest, rfl, rfl⟩
        · exact absurd ⟨rfl, fires_final.2 rfl⟩ hf
        · obtain ⟨rfl, rfl, rfl⟩ := den_del.1 hR
          have : t = [] := by simpa [Ctx.right] using hr
          subst this
          have := ih.1 hrest
          simpa [dropFinalSpace] using this
      · rintro ⟨rfl, rfl⟩
        have := Rewrites.change (R := (del [' ']).den) (l := .any) (r := .edge) (pre := pre) (u := [' '])
          (v := []) (w := 0) (t := []) (y := []) (w' := 0) rfl (by simp) (den_del.2 ⟨rfl, rfl, rfl⟩) rfl
          .done
        simpa [dropFinalSpace] using this
    · have hd : dropFinalSpace (c :: x) = c :: dropFinalSpace x := by
        unfold dropFinalSpace
        cases x with
        | nil =>
          have : c ≠ ' ' := by rintro rfl; exact hx rfl
          simp [this]
        | cons d x => simp only [List.getLast?_cons_cons]; split <;> simp
      constructor
      · intro h
        rcases h.inv_cons with ⟨hf, y', rfl, hrest⟩ | ⟨u, v, w₁, t, y', w₂, he, _, _, hR, hr, _⟩
        · obtain ⟨rfl, rfl⟩ := ih.1 hrest
          exact ⟨hd.symm, rfl⟩
        · obtain ⟨rfl, rfl, rfl⟩ := den_del.1 hR
          have : t = [] := by simpa [Ctx.right] using hr
          subst this
          exact absurd he hx
      · rintro ⟨rfl, rfl⟩
        rw [hd]
        exact .keep (fun hf => hx (fires_final.1 hf.2)) (ih.2 ⟨rfl, rfl⟩)

theorem den_dropFinal :
    (buildRule (del [' ']) .any .edge).den x y w ↔ VText x ∧ y = dropFinalSpace x ∧ w = 0 := by
  show VText x ∧ Rewrites _ _ _ _ _ _ _ ↔ _
  rw [rewrites_final]

theorem dropFinalSpace_append : dropFinalSpace (x ++ [' ']) = x := by
  simp [dropFinalSpace]

/-! Rules without context whose matches are single characters. -/

/-- Character by character: a character that some rule entry matches is replaced by one of the
entry's outputs, any other character is copied. -/
inductive CharMap (R : Rel) : Rel
  | nil : CharMap R [] [] 0
  | keep {c x y w} : (¬∃ v w, R [c] v w) → CharMap R x y w → CharMap R (c :: x) (c :: y) w
  | change {c v w x y w'} : R [c] v w → CharMap R x y w' → CharMap R (c :: x) (v ++ y) (w + w')

theorem rewrites_charMap {R : Rel} (hR : ∀ u v w, R u v w → u.length = 1) {pre : Str} :
    Rewrites R .any .any pre x y w ↔ CharMap R x y w := by
  have hf : ∀ c s, Fires R .any (c :: s) ↔ ∃ v w, R [c] v w := by
    intro c s
    constructor
    · rintro ⟨u, v, w, t, he, _, h, _⟩
      obtain ⟨d, rfl⟩ := List.length_eq_one_iff.1 (hR _ _ _ h)
      cases he
      exact ⟨v, w, h⟩
    · rintro ⟨v, w, h⟩
      exact ⟨[c], v, w, s, rfl, by simp, h, rfl⟩
  constructor
  · intro h
    induction h with
    | done => exact .nil
    | keep hn _ ih => exact .keep (fun he => hn ⟨rfl, (hf _ _).2 he⟩) ih
    | change _ _ h _ _ ih =>
      obtain ⟨d, rfl⟩ := List.length_eq_one_iff.1 (hR _ _ _ h)
      exact .change h ih
  · intro h
    induction h generalizing pre with
    | nil => exact .done
    | keep hn _ ih => exact .keep (fun he => hn ((hf _ _).1 he.2)) ih
    | @change c v w x y w' h _ ih =>
      exact Rewrites.change (u := [c]) rfl (by simp) h rfl ih

/-- If the rule gives each matched character one output, the whole rewrite is a function. -/
theorem charMap_function {R : Rel} (f : Char → Str) (hR : ∀ c v w, R [c] v w → v = f c ∧ w = 0)
    (hN : ∀ c, (¬∃ v w, R [c] v w) → f c = [c]) : CharMap R x y w ↔ y = x.flatMap f ∧ w = 0 := by
  constructor
  · intro h
    induction h with
    | nil => exact ⟨rfl, rfl⟩
    | keep hn _ ih =>
      obtain ⟨rfl, rfl⟩ := ih
      simp [hN _ hn]
    | change h _ ih =>
      obtain ⟨rfl, rfl⟩ := ih
      obtain ⟨rfl, rfl⟩ := hR _ _ _ h
      simp
  · rintro ⟨rfl, rfl⟩
    induction x with
    | nil => exact .nil
    | cons c x ih =>
      by_cases hc : ∃ v w, R [c] v w
      · obtain ⟨v, w, h⟩ := hc
        obtain ⟨rfl, rfl⟩ := hR _ _ _ h
        simpa using CharMap.change h ih
      · simpa [hN _ hc] using CharMap.keep hc ih

/-! Rules for the beginning of a text. -/

/-- Once something is written, a rule for the beginning of a text copies. -/
theorem rewrites_started {R : Rel} {r : Ctx} {pre : Str} (hp : pre ≠ []) :
    Rewrites R .edge r pre x y w ↔ y = x ∧ w = 0 := by
  have hl : ∀ pre : Str, pre ≠ [] → Ctx.left .edge pre = false := by
    intro pre h; cases pre with
    | nil => exact absurd rfl h
    | cons => rfl
  constructor
  · intro h
    induction h with
    | done => exact ⟨rfl, rfl⟩
    | keep _ _ ih => obtain ⟨rfl, rfl⟩ := ih (by simp); exact ⟨rfl, rfl⟩
    | change h => rw [hl _ hp] at h; cases h
  · rintro ⟨rfl, rfl⟩
    induction y generalizing pre with
    | nil => exact .done
    | cons c y ih =>
      exact .keep (fun h => by rw [hl _ hp] at h; cases h.1) (ih (by simp))

/-- A rule for the beginning of a text whose entries write something: one entry is applied there if
one matches, nothing else changes. -/
theorem rewrites_begin {R : Rel} {r : Ctx} (hv : ∀ u v w, R u v w → v ≠ []) :
    Rewrites R .edge r [] x y w ↔
      (∃ u v t, x = u ++ t ∧ u ≠ [] ∧ R u v w ∧ r.right t ∧ y = v ++ t) ∨
      ((x = [] ∨ ¬Fires R r x) ∧ y = x ∧ w = 0) := by
  constructor
  · intro h
    cases x with
    | nil => obtain ⟨rfl, rfl⟩ := h.inv_nil; exact Or.inr ⟨Or.inl rfl, rfl, rfl⟩
    | cons c x =>
      rcases h.inv_cons with ⟨hf, y', rfl, hrest⟩ | ⟨u, v, w₁, t, y', w₂, he, hu, _, hR, hr, hrest, rfl, rfl⟩
      · obtain ⟨rfl, rfl⟩ := (rewrites_started (by simp)).1 hrest
        exact Or.inr ⟨Or.inr fun hf' => hf ⟨rfl, hf'⟩, rfl, rfl⟩
      · obtain ⟨rfl, rfl⟩ := (rewrites_started (by simpa using hv _ _ _ hR)).1 hrest
        exact Or.inl ⟨u, v, y', he, hu, by simpa using hR, hr, rfl⟩
  · rintro (⟨u, v, t, rfl, hu, hR, hr, rfl⟩ | ⟨hf, rfl, rfl⟩)
    · have := Rewrites.change (R := R) (l := .edge) (r := r) (pre := []) (t := t) (y := t) (w' := 0) rfl hu hR hr
        ((rewrites_started (by simpa using hv _ _ _ hR)).2 ⟨rfl, rfl⟩)
      simpa using this
    · cases y with
      | nil => exact .done
      | cons c y =>
        refine .keep (fun h => ?_) ((rewrites_started (by simp)).2 ⟨rfl, rfl⟩)
        rcases hf with hf | hf
        · cases hf
        · exact hf h.2

end Verif.Wfst
