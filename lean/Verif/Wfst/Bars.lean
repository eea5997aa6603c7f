import Verif.Wfst.Props

/-
Grammars that do not read any text of a kind, where all parts of a text of the kind are of the kind.
-/

namespace Verif.Wfst

/-- No input of the grammar has the property, which the parts of a text have with it. -/
def bars (P : Str → Bool) : G → Bool
  | .lit s => !P s
  | .cross a _ | .proj a | .wt a _ | .diff a _ | .comp a _ => bars P a
  | .cls _ | .star _ | .rw _ _ _ => false
  | .tab t => t.all fun e => !P e.1
  | .cat a b => bars P a || bars P b
  | .alt a b => bars P a && bars P b

theorem bars_den {P : Str → Bool} (hP : ∀ u x, u <:+: x → P x = true → P u = true) {g : G} (h : bars P g = true) {x y : Str} {w : W}
    (hd : g.den x y w) : P x = false := by
  induction g generalizing x y w with
  | lit s => obtain ⟨rfl, _⟩ := hd; simpa [bars] using h
  | cross a v ih => exact ih h hd.2
  | cls p => cases h
  | tab t => simpa using List.all_eq_true.1 h _ hd.1
  | cat a b iha ihb =>
    obtain ⟨x₁, y₁, w₁, x₂, y₂, w₂, h1, h2, rfl, _, _⟩ := hd
    simp only [bars, Bool.or_eq_true] at h
    by_contra hc
    rw [Bool.not_eq_false] at hc
    rcases h with h | h
    · exact absurd (iha h h1) (by rw [hP x₁ _ (List.prefix_append _ _).isInfix hc]; decide)
    · exact absurd (ihb h h2) (by rw [hP x₂ _ (List.suffix_append _ _).isInfix hc]; decide)
  | alt a b iha ihb =>
    simp only [bars, Bool.and_eq_true] at h
    exact hd.elim (iha h.1) (ihb h.2)
  | star a _ => cases h
  | comp a b iha _ => obtain ⟨m, w₁, w₂, h1, _⟩ := hd; exact iha h h1
  | proj a ih => obtain ⟨_, z, h1⟩ := hd; exact ih h h1
  | wt a v ih => obtain ⟨w₀, h1, _⟩ := hd; exact ih h h1
  | rw a l r _ => cases h
  | diff a b iha _ => obtain ⟨_, h1, _⟩ := hd; exact iha h h1

end Verif.Wfst
