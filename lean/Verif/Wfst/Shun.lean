import Verif.Wfst.Must

/-
Which characters a grammar cannot read, also behind a preprocessor that replaces them by one another: two decidable
checks and their meaning for all inputs. And the sign of the weights.
-/

namespace Verif.Wfst

/-- The two checks: no input has one of the characters `q`; if the input has one of them, so has the output. -/
def shunsC (q : Str) : G → Bool × Bool
  | .lit s => (!hasAny q s, true)
  | .cross a v => let r := (shunsC q a).1; (r, r || hasAny q v)
  | .cls p => (q.all fun c => !p c, true)
  | .tab t => (t.all fun e => !hasAny q e.1, t.all fun e => !hasAny q e.1 || hasAny q e.2)
  | .cat a b | .alt a b =>
    let r := shunsC q a; let s := shunsC q b; (r.1 && s.1, r.2 && s.2)
  | .star a => shunsC q a
  | .comp a b =>
    let r := shunsC q a; let s := shunsC q b; (r.1 || (r.2 && s.1), r.1 || (r.2 && s.2))
  | .proj a => let r := (shunsC q a).1; (r, true)
  | .wt a _ => shunsC q a
  | .rw a _ _ => let r := shunsC q a; (false, r.1 || r.2)
  | .diff a _ => ((shunsC q a).1, true)

/-- No input of the grammar has one of the characters `q`. -/
def shuns (q : Str) (g : G) : Bool := (shunsC q g).1

theorem shuns_both (q : Str) (g : G) : ((shunsC q g).1 = true → ∀ x y w, g.den x y w → hasAny q x = false) ∧
    ((shunsC q g).2 = true → ∀ x y w, g.den x y w → hasAny q x = true → hasAny q y = true) := by
  induction g with
  | lit s =>
    refine ⟨?_, ?_⟩
    · rintro h x y w ⟨rfl, _⟩; simpa [shunsC] using h
    · rintro _ x y w ⟨rfl, rfl, _⟩ hc; exact hc
  | cross a v ih =>
    refine ⟨?_, ?_⟩
    · rintro h x y w ⟨_, hd⟩; exact ih.1 h _ _ _ hd
    · rintro h x y w ⟨rfl, hd⟩ hc
      simp only [shunsC, Bool.or_eq_true] at h
      rcases h with h | h
      · rw [ih.1 h _ _ _ hd] at hc; cases hc
      · exact h
  | cls p =>
    refine ⟨?_, ?_⟩
    · rintro h x y w ⟨d, hd, rfl, _⟩
      rw [Bool.eq_false_iff]
      intro hc
      obtain ⟨e, he, hq⟩ := hasAny_iff.1 hc
      rw [List.mem_singleton.1 he] at hq
      have := List.all_eq_true.1 h d hq
      simp [hd] at this
    · rintro _ x y w ⟨d, _, rfl, rfl, _⟩ hc; exact hc
  | tab t =>
    refine ⟨?_, ?_⟩
    · rintro h x y w ⟨hm, _⟩
      simpa using List.all_eq_true.1 h _ hm
    · rintro h x y w ⟨hm, _⟩ hc
      have := List.all_eq_true.1 h _ hm
      simp only [Bool.or_eq_true, Bool.not_eq_true'] at this
      rcases this with h' | h'
      · rw [h'] at hc; cases hc
      · exact h'
  | cat a b iha ihb =>
    refine ⟨?_, ?_⟩
    · rintro h x y w ⟨x₁, y₁, w₁, x₂, y₂, w₂, h1, h2, rfl, rfl, rfl⟩
      simp only [shunsC, Bool.and_eq_true] at h
      rw [hasAny_append, iha.1 h.1 _ _ _ h1, ihb.1 h.2 _ _ _ h2]; rfl
    · rintro h x y w ⟨x₁, y₁, w₁, x₂, y₂, w₂, h1, h2, rfl, rfl, rfl⟩ hc
      simp only [shunsC, Bool.and_eq_true] at h
      rw [hasAny_append, Bool.or_eq_true] at hc ⊢
      exact hc.imp (iha.2 h.1 _ _ _ h1) (ihb.2 h.2 _ _ _ h2)
  | alt a b iha ihb =>
    refine ⟨?_, ?_⟩
    · intro h x y w hd
      simp only [shunsC, Bool.and_eq_true] at h
      exact hd.elim (iha.1 h.1 _ _ _) (ihb.1 h.2 _ _ _)
    · intro h x y w hd
      simp only [shunsC, Bool.and_eq_true] at h
      exact hd.elim (iha.2 h.1 _ _ _) (ihb.2 h.2 _ _ _)
  | star a ih =>
    refine ⟨?_, ?_⟩
    · intro h x y w hd
      change Star a.den x y w at hd
      induction hd with
      | nil => rfl
      | cons h1 _ ih' => rw [hasAny_append, ih.1 h _ _ _ h1, ih']; rfl
    · intro h x y w hd
      change Star a.den x y w at hd
      induction hd with
      | nil => exact id
      | cons h1 _ ih' =>
        intro hc
        rw [hasAny_append, Bool.or_eq_true] at hc ⊢
        exact hc.imp (ih.2 h _ _ _ h1) ih'
  | comp a b iha ihb =>
    refine ⟨?_, ?_⟩
    · rintro h x y w ⟨m, w₁, w₂, h1, h2, _⟩
      simp only [shunsC, Bool.or_eq_true, Bool.and_eq_true] at h
      rcases h with h | h
      · exact iha.1 h _ _ _ h1
      · rw [Bool.eq_false_iff]
        intro hc
        have := iha.2 h.1 _ _ _ h1 hc
        rw [ihb.1 h.2 _ _ _ h2] at this; cases this
    · rintro h x y w ⟨m, w₁, w₂, h1, h2, _⟩ hc
      simp only [shunsC, Bool.or_eq_true, Bool.and_eq_true] at h
      rcases h with h | h
      · rw [iha.1 h _ _ _ h1] at hc; cases hc
      · exact ihb.2 h.2 _ _ _ h2 (iha.2 h.1 _ _ _ h1 hc)
  | proj a ih =>
    refine ⟨?_, ?_⟩
    · rintro h x y w ⟨_, z, h1⟩; exact ih.1 h _ _ _ h1
    · rintro _ x y w ⟨rfl, _⟩ hc; exact hc
  | wt a v ih =>
    refine ⟨?_, ?_⟩
    · rintro h x y w ⟨w₀, h1, _⟩; exact ih.1 h _ _ _ h1
    · rintro h x y w ⟨w₀, h1, _⟩; exact ih.2 h _ _ _ h1
  | rw a l r ih =>
    refine ⟨fun h => (by cases h), ?_⟩
    rintro h x y w ⟨_, hd⟩
    simp only [shunsC, Bool.or_eq_true] at h
    have hk : ∀ x y w, a.den x y w → hasAny q x = true → hasAny q y = true := by
      rcases h with h | h
      · intro x y w hd hc; rw [ih.1 h _ _ _ hd] at hc; cases hc
      · exact ih.2 h
    clear * - hd hk
    generalize ([] : Str) = pre at hd
    induction hd with
    | done => exact id
    | keep _ _ ih' =>
      intro hc
      simp only [hasAny, List.any_cons, Bool.or_eq_true] at hc ih' ⊢
      exact hc.imp_right ih'
    | change _ _ h1 _ _ ih' =>
      intro hc
      rw [hasAny_append, Bool.or_eq_true] at hc ⊢
      exact hc.imp (hk _ _ _ h1) ih'
  | diff a b iha _ =>
    refine ⟨?_, ?_⟩
    · rintro h x y w ⟨_, h1, _⟩; exact iha.1 h _ _ _ h1
    · rintro _ x y w ⟨rfl, _⟩ hc; exact hc

theorem shuns_den {q : Str} {g : G} (h : shuns q g = true) {x y : Str} {w : W} (hd : g.den x y w) :
    ∀ c ∈ x, c ∉ q := by
  intro c hc hq
  have h1 := (shuns_both q g).1 h x y w hd
  rw [hasAny_iff.2 ⟨c, hc, hq⟩] at h1
  cases h1

/-! ### Weights -/

/-- The check that no weight in the grammar is negative. -/
def costs : G → Bool
  | .lit _ | .cls _ | .tab _ => true
  | .cross a _ | .star a | .proj a | .rw a _ _ => costs a
  | .cat a b | .alt a b | .comp a b | .diff a b => costs a && costs b
  | .wt a v => costs a && decide (0 ≤ v)

theorem costs_den {g : G} (h : costs g = true) {x y : Str} {w : W} (hd : g.den x y w) : (0 : Int) ≤ w := by
  have add : ∀ a b : Int, 0 ≤ a → 0 ≤ b → 0 ≤ a + b := by intros; omega
  induction g generalizing x y w with
  | lit s => exact le_of_eq hd.2.2.symm
  | cls p => obtain ⟨_, _, _, _, rfl⟩ := hd; exact Int.le_refl 0
  | tab t => exact le_of_eq hd.2.symm
  | cross a v ih => exact ih h hd.2
  | cat a b iha ihb =>
    obtain ⟨x₁, y₁, w₁, x₂, y₂, w₂, h1, h2, rfl, rfl, rfl⟩ := hd
    simp only [costs, Bool.and_eq_true] at h
    exact add _ _ (iha h.1 h1) (ihb h.2 h2)
  | alt a b iha ihb =>
    simp only [costs, Bool.and_eq_true] at h
    exact hd.elim (iha h.1) (ihb h.2)
  | star a ih =>
    change Star a.den x y w at hd
    induction hd with
    | nil => exact Int.le_refl 0
    | cons h1 _ ih' => exact add _ _ (ih h h1) ih'
  | comp a b iha ihb =>
    obtain ⟨m, w₁, w₂, h1, h2, rfl⟩ := hd
    simp only [costs, Bool.and_eq_true] at h
    exact add _ _ (iha h.1 h1) (ihb h.2 h2)
  | proj a ih =>
    obtain ⟨_, z, hd⟩ := hd
    exact ih h hd
  | wt a v ih =>
    obtain ⟨w₀, hd, rfl⟩ := hd
    simp only [costs, Bool.and_eq_true, decide_eq_true_eq] at h
    exact add _ _ (ih h.1 hd) h.2
  | rw a l r ih =>
    obtain ⟨_, hd⟩ := hd
    have hk : ∀ x y w, a.den x y w → (0 : Int) ≤ w := fun x y w hd => ih h hd
    clear * - hd hk add
    generalize ([] : Str) = pre at hd
    induction hd with
    | done => exact Int.le_refl 0
    | keep _ _ ih' => exact ih'
    | change _ _ h1 _ _ ih' => exact add _ _ (hk _ _ _ h1) ih'
  | diff a b iha _ =>
    simp only [costs, Bool.and_eq_true] at h
    exact iha h.1 hd.2.1

/-! ### Counts -/

/-- The least number of a list. -/
def minOf : List Nat → Nat
  | [] => 0
  | [a] => a
  | a :: b :: l => min a (minOf (b :: l))

theorem minOf_le : ∀ {l : List Nat} {a : Nat}, a ∈ l → minOf l ≤ a
  | [b], a, h => by rw [List.mem_singleton.1 h]; exact Nat.le_refl _
  | b :: c :: l, a, h => by
    rcases List.mem_cons.1 h with rfl | h
    · exact Nat.min_le_left _ _
    · exact Nat.le_trans (Nat.min_le_right _ _) (minOf_le h)

/-- At least so many of the characters of an input satisfy `q`. -/
def atLeast (q : Char → Bool) : G → Nat
  | .lit s => s.countP q
  | .tab t => minOf (t.map fun e => e.1.countP q)
  | .cross a _ | .comp a _ | .proj a | .wt a _ | .diff a _ => atLeast q a
  | .cat a b => atLeast q a + atLeast q b
  | .alt a b => min (atLeast q a) (atLeast q b)
  | .cls _ | .star _ | .rw _ _ _ => 0

theorem atLeast_den {q : Char → Bool} {g : G} {x y : Str} {w : W} (hd : g.den x y w) : atLeast q g ≤ x.countP q := by
  induction g generalizing x y w with
  | lit s => rw [hd.1]; exact Nat.le_refl _
  | cls p => exact Nat.zero_le _
  | star a => exact Nat.zero_le _
  | rw a l r => exact Nat.zero_le _
  | tab t => exact minOf_le (List.mem_map.2 ⟨_, hd.1, rfl⟩)
  | cross a v ih => exact ih hd.2
  | cat a b iha ihb =>
    obtain ⟨x₁, y₁, w₁, x₂, y₂, w₂, h1, h2, rfl, rfl, rfl⟩ := hd
    rw [List.countP_append]
    exact Nat.add_le_add (iha h1) (ihb h2)
  | alt a b iha ihb =>
    exact hd.elim (fun h => Nat.le_trans (Nat.min_le_left _ _) (iha h)) (fun h => Nat.le_trans (Nat.min_le_right _ _) (ihb h))
  | comp a b iha ihb => obtain ⟨_, _, _, h, _⟩ := hd; exact iha h
  | proj a ih => obtain ⟨_, _, h⟩ := hd; exact ih h
  | wt a v ih => obtain ⟨_, h, _⟩ := hd; exact ih h
  | diff a b iha ihb => exact iha hd.2.1

end Verif.Wfst
