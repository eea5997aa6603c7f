import Verif.Wfst.Props

/-
The characters that grammars write, and the first of them.
-/

namespace Verif.Wfst

/-- The grammar writes characters of the class only. -/
def onlyOut (p : Char → Bool) : G → Bool
  | .lit s => s.all p
  | .cross _ v => v.all p
  | .cls _ => false
  | .tab t => t.all fun e => e.2.all p
  | .cat a b | .alt a b => onlyOut p a && onlyOut p b
  | .star a | .wt a _ => onlyOut p a
  | .comp _ b => onlyOut p b
  | .proj _ | .rw _ _ _ | .diff _ _ => false

theorem onlyOut_den {p : Char → Bool} {g : G} (h : onlyOut p g = true) {x y : Str} {w : W} (hd : g.den x y w) :
    ∀ c ∈ y, p c = true := by
  induction g generalizing x y w with
  | lit s => obtain ⟨rfl, rfl, _⟩ := hd; exact List.all_eq_true.1 h
  | cross a v ih => obtain ⟨rfl, _⟩ := hd; exact List.all_eq_true.1 h
  | cls q => cases h
  | tab t => exact List.all_eq_true.1 (List.all_eq_true.1 h _ hd.1)
  | cat a b iha ihb =>
    obtain ⟨x₁, y₁, w₁, x₂, y₂, w₂, h1, h2, _, rfl, _⟩ := hd
    simp only [onlyOut, Bool.and_eq_true] at h
    intro c hc
    rcases List.mem_append.1 hc with hc | hc
    · exact iha h.1 h1 c hc
    · exact ihb h.2 h2 c hc
  | alt a b iha ihb =>
    simp only [onlyOut, Bool.and_eq_true] at h
    exact hd.elim (iha h.1) (ihb h.2)
  | star a ih =>
    induction hd with
    | nil => intro c hc; cases hc
    | cons h1 _ ih2 =>
      intro c hc
      rcases List.mem_append.1 hc with hc | hc
      · exact ih h h1 c hc
      · exact ih2 c hc
  | comp a b _ ihb => obtain ⟨m, w₁, w₂, _, h2, _⟩ := hd; exact ihb h h2
  | proj a ih => cases h
  | wt a v ih => obtain ⟨w₀, h1, _⟩ := hd; exact ih h h1
  | rw a l r _ => cases h
  | diff a b _ _ => cases h

/-- What the grammar writes begins with a character of the class. -/
def leadOut (p : Char → Bool) : G → Bool
  | .lit s => s.head?.any p
  | .cross _ v => v.head?.any p
  | .tab t => t.all fun e => e.2.head?.any p
  | .cat a _ => leadOut p a
  | .alt a b => leadOut p a && leadOut p b
  | .wt a _ => leadOut p a
  | .comp _ b => leadOut p b
  | .cls _ | .star _ | .proj _ | .rw _ _ _ | .diff _ _ => false

theorem leadOut_den {p : Char → Bool} {g : G} (h : leadOut p g = true) {x y : Str} {w : W} (hd : g.den x y w) :
    ∃ c r, y = c :: r ∧ p c = true := by
  have one : ∀ {y : Str}, y.head?.any p = true → ∃ c r, y = c :: r ∧ p c = true := by
    intro y h
    cases y with
    | nil => cases h
    | cons c r => exact ⟨c, r, rfl, h⟩
  induction g generalizing x y w with
  | lit s => obtain ⟨rfl, rfl, _⟩ := hd; exact one h
  | cross a v ih => obtain ⟨rfl, _⟩ := hd; exact one h
  | cls q => cases h
  | tab t => exact one (List.all_eq_true.1 h _ hd.1)
  | cat a b iha ihb =>
    obtain ⟨x₁, y₁, w₁, x₂, y₂, w₂, h1, h2, _, rfl, _⟩ := hd
    obtain ⟨c, r, rfl, hc⟩ := iha h h1
    exact ⟨c, _, rfl, hc⟩
  | alt a b iha ihb =>
    simp only [leadOut, Bool.and_eq_true] at h
    exact hd.elim (iha h.1) (ihb h.2)
  | star a ih => cases h
  | comp a b _ ihb => obtain ⟨m, w₁, w₂, _, h2, _⟩ := hd; exact ihb h h2
  | proj a ih => cases h
  | wt a v ih => obtain ⟨w₀, h1, _⟩ := hd; exact ih h h1
  | rw a l r _ => cases h
  | diff a b _ _ => cases h

end Verif.Wfst
