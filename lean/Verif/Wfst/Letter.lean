import Verif.Wfst.Lemmas

/-
Grammars that write texts of some characters letter by letter.
-/

namespace Verif.Wfst

/-- The two checks for the texts of characters with `q`: the grammar reads none of them; it makes every character `c` of
those it reads `φ c`, without weight. -/
def letC (q : Char → Bool) (φ : Char → Char) : G → Bool × Bool
  | .lit s => (!s.all q, !s.all q || s.map φ == s)
  | .cross a _ => let r := (letC q φ a).1; (r, r)
  | .tab t => (t.all fun e => !e.1.all q, t.all fun e => !e.1.all q || e.1.map φ == e.2)
  | .cat a b => let r := letC q φ a; let s := letC q φ b; (r.1 || s.1, r.1 || s.1 || (r.2 && s.2))
  | .alt a b => let r := letC q φ a; let s := letC q φ b; (r.1 && s.1, r.2 && s.2)
  | .star a => (false, (letC q φ a).2)
  | .wt a k => let r := letC q φ a; (r.1, r.1 || (r.2 && k == 0))
  | .cls _ | .comp _ _ | .proj _ | .rw _ _ _ | .diff _ _ => (false, false)

theorem let_both (q : Char → Bool) (φ : Char → Char) (g : G) :
    ((letC q φ g).1 = true → ∀ x y w, g.den x y w → x.all q = true → False) ∧
    ((letC q φ g).2 = true → ∀ x y w, g.den x y w → x.all q = true → y = x.map φ ∧ w = 0) := by
  induction g with
  | lit s =>
    refine ⟨?_, ?_⟩
    · rintro h x y w ⟨rfl, _⟩ hx
      simp only [letC, Bool.not_eq_true'] at h
      rw [h] at hx; cases hx
    · rintro h x y w ⟨rfl, rfl, rfl⟩ hx
      simp only [letC, Bool.or_eq_true, Bool.not_eq_true', beq_iff_eq] at h
      rcases h with h | h
      · rw [h] at hx; cases hx
      · exact ⟨h.symm, rfl⟩
  | cross a v ih =>
    refine ⟨?_, ?_⟩
    · rintro h x y w ⟨_, hd⟩ hx; exact ih.1 h _ _ _ hd hx
    · rintro h x y w ⟨_, hd⟩ hx; exact (ih.1 h _ _ _ hd hx).elim
  | tab t =>
    refine ⟨?_, ?_⟩
    · rintro h x y w ⟨hm, _⟩ hx
      have := List.all_eq_true.1 h _ hm
      simp only [Bool.not_eq_true'] at this
      rw [this] at hx; cases hx
    · rintro h x y w ⟨hm, rfl⟩ hx
      have := List.all_eq_true.1 h _ hm
      simp only [Bool.or_eq_true, Bool.not_eq_true', beq_iff_eq] at this
      rcases this with h | h
      · rw [h] at hx; cases hx
      · exact ⟨h.symm, rfl⟩
  | cat a b iha ihb =>
    have key : (letC q φ a).1 = true ∨ (letC q φ b).1 = true → ∀ x y w, (a.cat b).den x y w → x.all q = true → False := by
      rintro h x y w ⟨x₁, y₁, w₁, x₂, y₂, w₂, h1, h2, rfl, rfl, rfl⟩ hx
      rw [List.all_append, Bool.and_eq_true] at hx
      rcases h with h | h
      · exact iha.1 h _ _ _ h1 hx.1
      · exact ihb.1 h _ _ _ h2 hx.2
    refine ⟨?_, ?_⟩
    · intro h
      simp only [letC, Bool.or_eq_true] at h
      exact key h
    · intro h x y w hd hx
      simp only [letC, Bool.or_eq_true, Bool.and_eq_true] at h
      rcases h with h | h
      · exact (key h x y w hd hx).elim
      · obtain ⟨x₁, y₁, w₁, x₂, y₂, w₂, h1, h2, rfl, rfl, rfl⟩ := hd
        rw [List.all_append, Bool.and_eq_true] at hx
        obtain ⟨rfl, rfl⟩ := iha.2 h.1 _ _ _ h1 hx.1
        obtain ⟨rfl, rfl⟩ := ihb.2 h.2 _ _ _ h2 hx.2
        exact ⟨by rw [List.map_append], rfl⟩
  | alt a b iha ihb =>
    refine ⟨?_, ?_⟩
    · intro h x y w hd hx
      simp only [letC, Bool.and_eq_true] at h
      rcases hd with hd | hd
      · exact iha.1 h.1 _ _ _ hd hx
      · exact ihb.1 h.2 _ _ _ hd hx
    · intro h x y w hd hx
      simp only [letC, Bool.and_eq_true] at h
      rcases hd with hd | hd
      · exact iha.2 h.1 _ _ _ hd hx
      · exact ihb.2 h.2 _ _ _ hd hx
  | star a ih =>
    refine ⟨fun h => (by cases h), ?_⟩
    intro h x y w hd hx
    change Star a.den x y w at hd
    induction hd with
    | nil => exact ⟨rfl, rfl⟩
    | cons h1 _ ih' =>
      rw [List.all_append, Bool.and_eq_true] at hx
      obtain ⟨rfl, rfl⟩ := ih.2 h _ _ _ h1 hx.1
      obtain ⟨rfl, rfl⟩ := ih' hx.2
      exact ⟨by rw [List.map_append], rfl⟩
  | wt a k ih =>
    refine ⟨?_, ?_⟩
    · rintro h x y w ⟨w₀, hd, _⟩ hx; exact ih.1 h _ _ _ hd hx
    · rintro h x y w ⟨w₀, hd, rfl⟩ hx
      simp only [letC, Bool.or_eq_true, Bool.and_eq_true, beq_iff_eq] at h
      rcases h with h | ⟨h, rfl⟩
      · exact (ih.1 h _ _ _ hd hx).elim
      · obtain ⟨rfl, rfl⟩ := ih.2 h _ _ _ hd hx
        exact ⟨rfl, rfl⟩
  | cls _ => exact ⟨fun h => (by cases h), fun h => (by cases h)⟩
  | comp _ _ => exact ⟨fun h => (by cases h), fun h => (by cases h)⟩
  | proj _ => exact ⟨fun h => (by cases h), fun h => (by cases h)⟩
  | rw _ _ _ => exact ⟨fun h => (by cases h), fun h => (by cases h)⟩
  | diff _ _ => exact ⟨fun h => (by cases h), fun h => (by cases h)⟩

/-- The grammar makes every character `c` of the texts it reads `φ c`. -/
theorem letter_den {q : Char → Bool} {φ : Char → Char} {g : G} (h : (letC q φ g).2 = true) {x y : Str} {w : W} (hd : g.den x y w)
    (hx : ∀ c ∈ x, q c = true) : y = x.map φ ∧ w = 0 :=
  (let_both q φ g).2 h x y w hd (List.all_eq_true.2 hx)

/-- The grammar reads no text of such characters. -/
theorem letter_none {q : Char → Bool} {φ : Char → Char} {g : G} (h : (letC q φ g).1 = true) {x y : Str} {w : W} (hd : g.den x y w)
    (hx : ∀ c ∈ x, q c = true) : False :=
  (let_both q φ g).1 h x y w hd (List.all_eq_true.2 hx)

end Verif.Wfst
