import Verif.Wfst.Lemmas

/-
Bounds for the weights of a grammar that hold for all inputs and outputs.
-/

namespace Verif.Wfst

/-- A lower bound for the weights, if one is found. -/
def G.lo : G → Option Int
  | .lit _ | .cls _ | .tab _ => some 0
  | .cross a _ | .proj a | .diff a _ => a.lo
  | .cat a b | .comp a b => match a.lo, b.lo with
    | some k, some l => some (k + l)
    | _, _ => none
  | .alt a b => match a.lo, b.lo with
    | some k, some l => some (min k l)
    | _, _ => none
  | .star a | .rw a _ _ => match a.lo with
    | some k => if 0 ≤ k then some 0 else none
    | none => none
  | .wt a k => a.lo.map (· + k)

/-- An upper bound for the weights, if one is found. -/
def G.hi : G → Option Int
  | .lit _ | .cls _ | .tab _ => some 0
  | .cross a _ | .proj a | .diff a _ => a.hi
  | .cat a b | .comp a b => match a.hi, b.hi with
    | some k, some l => some (k + l)
    | _, _ => none
  | .alt a b => match a.hi, b.hi with
    | some k, some l => some (max k l)
    | _, _ => none
  | .star a | .rw a _ _ => match a.hi with
    | some k => if k ≤ 0 then some 0 else none
    | none => none
  | .wt a k => a.hi.map (· + k)

theorem star_lo {R : Rel} (h : ∀ x y w, R x y w → (0 : Int) ≤ w) {x y : Str} {w : W} (hs : Star R x y w) : (0 : Int) ≤ w := by
  induction hs with
  | nil => exact Int.le_refl _
  | cons h1 _ ih => exact Int.add_nonneg (h _ _ _ h1) ih

theorem star_hi {R : Rel} (h : ∀ x y w, R x y w → (w : Int) ≤ 0) {x y : Str} {w : W} (hs : Star R x y w) : (w : Int) ≤ 0 := by
  induction hs with
  | nil => exact Int.le_refl _
  | cons h1 _ ih => exact Int.add_nonpos (h _ _ _ h1) ih

theorem rewrites_lo {R : Rel} {l r : Ctx} (h : ∀ x y w, R x y w → (0 : Int) ≤ w) {p x y : Str} {w : W}
    (hs : Rewrites R l r p x y w) : (0 : Int) ≤ w := by
  induction hs with
  | done => exact Int.le_refl _
  | keep _ _ ih => exact ih
  | change _ _ h1 _ _ ih => exact Int.add_nonneg (h _ _ _ h1) ih

theorem rewrites_hi {R : Rel} {l r : Ctx} (h : ∀ x y w, R x y w → (w : Int) ≤ 0) {p x y : Str} {w : W}
    (hs : Rewrites R l r p x y w) : (w : Int) ≤ 0 := by
  induction hs with
  | done => exact Int.le_refl _
  | keep _ _ ih => exact ih
  | change _ _ h1 _ _ ih => exact Int.add_nonpos (h _ _ _ h1) ih

theorem G.lo_den {g : G} {k : Int} (h : g.lo = some k) {x y : Str} {w : W} (hd : g.den x y w) : k ≤ w := by
  induction g generalizing k x y w with
  | lit s => cases h; obtain ⟨-, -, rfl⟩ := hd; exact Int.le_refl _
  | cls p => cases h; obtain ⟨c, -, -, -, rfl⟩ := hd; exact Int.le_refl _
  | tab t => cases h; obtain ⟨-, rfl⟩ := hd; exact Int.le_refl _
  | cross a v ih => exact ih h hd.2
  | proj a ih => obtain ⟨-, z, hz⟩ := hd; exact ih h hz
  | diff a b ih _ => exact ih h hd.2.1
  | cat a b iha ihb =>
    obtain ⟨x₁, y₁, w₁, x₂, y₂, w₂, h1, h2, rfl, rfl, rfl⟩ := hd
    simp only [G.lo] at h
    cases ha : a.lo <;> cases hb : b.lo <;> rw [ha, hb] at h <;> try cases h
    exact Int.add_le_add (iha ha h1) (ihb hb h2)
  | comp a b iha ihb =>
    obtain ⟨m, w₁, w₂, h1, h2, rfl⟩ := hd
    simp only [G.lo] at h
    cases ha : a.lo <;> cases hb : b.lo <;> rw [ha, hb] at h <;> try cases h
    exact Int.add_le_add (iha ha h1) (ihb hb h2)
  | alt a b iha ihb =>
    simp only [G.lo] at h
    cases ha : a.lo <;> cases hb : b.lo <;> rw [ha, hb] at h <;> try cases h
    rcases hd with hd | hd
    · exact Int.le_trans (Int.min_le_left _ _) (iha ha hd)
    · exact Int.le_trans (Int.min_le_right _ _) (ihb hb hd)
  | star a ih =>
    simp only [G.lo] at h
    cases ha : a.lo with
    | none => rw [ha] at h; cases h
    | some j =>
      rw [ha] at h
      simp only at h
      split at h
      · cases h
        rename_i hj
        exact star_lo (fun x y w hw => Int.le_trans hj (ih ha hw)) hd
      · cases h
  | rw a l r ih =>
    simp only [G.lo] at h
    cases ha : a.lo with
    | none => rw [ha] at h; cases h
    | some j =>
      rw [ha] at h
      simp only at h
      split at h
      · cases h
        rename_i hj
        exact rewrites_lo (fun x y w hw => Int.le_trans hj (ih ha hw)) hd.2
      · cases h
  | wt a j ih =>
    obtain ⟨w₀, h1, rfl⟩ := hd
    simp only [G.lo] at h
    cases ha : a.lo with
    | none => rw [ha] at h; cases h
    | some i =>
      rw [ha] at h
      cases h
      exact Int.add_le_add_right (ih ha h1) j

theorem G.hi_den {g : G} {k : Int} (h : g.hi = some k) {x y : Str} {w : W} (hd : g.den x y w) : (w : Int) ≤ k := by
  induction g generalizing k x y w with
  | lit s => cases h; obtain ⟨-, -, rfl⟩ := hd; exact Int.le_refl _
  | cls p => cases h; obtain ⟨c, -, -, -, rfl⟩ := hd; exact Int.le_refl _
  | tab t => cases h; obtain ⟨-, rfl⟩ := hd; exact Int.le_refl _
  | cross a v ih => exact ih h hd.2
  | proj a ih => obtain ⟨-, z, hz⟩ := hd; exact ih h hz
  | diff a b ih _ => exact ih h hd.2.1
  | cat a b iha ihb =>
    obtain ⟨x₁, y₁, w₁, x₂, y₂, w₂, h1, h2, rfl, rfl, rfl⟩ := hd
    simp only [G.hi] at h
    cases ha : a.hi <;> cases hb : b.hi <;> rw [ha, hb] at h <;> try cases h
    exact Int.add_le_add (iha ha h1) (ihb hb h2)
  | comp a b iha ihb =>
    obtain ⟨m, w₁, w₂, h1, h2, rfl⟩ := hd
    simp only [G.hi] at h
    cases ha : a.hi <;> cases hb : b.hi <;> rw [ha, hb] at h <;> try cases h
    exact Int.add_le_add (iha ha h1) (ihb hb h2)
  | alt a b iha ihb =>
    simp only [G.hi] at h
    cases ha : a.hi <;> cases hb : b.hi <;> rw [ha, hb] at h <;> try cases h
    rcases hd with hd | hd
    · exact Int.le_trans (iha ha hd) (Int.le_max_left _ _)
    · exact Int.le_trans (ihb hb hd) (Int.le_max_right _ _)
  | star a ih =>
    simp only [G.hi] at h
    cases ha : a.hi with
    | none => rw [ha] at h; cases h
    | some j =>
      rw [ha] at h
      simp only at h
      split at h
      · cases h
        rename_i hj
        exact star_hi (fun x y w hw => Int.le_trans (ih ha hw) hj) hd
      · cases h
  | rw a l r ih =>
    simp only [G.hi] at h
    cases ha : a.hi with
    | none => rw [ha] at h; cases h
    | some j =>
      rw [ha] at h
      simp only at h
      split at h
      · cases h
        rename_i hj
        exact rewrites_hi (fun x y w hw => Int.le_trans (ih ha hw) hj) hd.2
      · cases h
  | wt a j ih =>
    obtain ⟨w₀, h1, rfl⟩ := hd
    simp only [G.hi] at h
    cases ha : a.hi with
    | none => rw [ha] at h; cases h
    | some i =>
      rw [ha] at h
      cases h
      exact Int.add_le_add_right (ih ha h1) j

end Verif.Wfst
