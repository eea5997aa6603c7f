import Verif.Wfst.Lemmas

/-
Which characters an input of a grammar cannot do without: two decidable checks and their meaning for
all inputs.
-/

namespace Verif.Wfst

/-- Does the text have one of the characters `q`? -/
def hasAny (q : Str) (s : Str) : Bool := s.any fun c => q.contains c

/-- The two checks: every input has one of the characters `q`; an output with one of them comes from an
input with one of them. -/
def mustC (q : Str) : G → Bool × Bool
  | .lit s => (hasAny q s, true)
  | .cross a v => let r := (mustC q a).1; (r, r || !hasAny q v)
  | .cls _ => (false, true)
  | .tab t => (t.all fun e => hasAny q e.1, t.all fun e => hasAny q e.1 || !hasAny q e.2)
  | .cat a b => let r := mustC q a; let s := mustC q b; (r.1 || s.1, r.1 || s.1 || (r.2 && s.2))
  | .alt a b => let r := mustC q a; let s := mustC q b; (r.1 && s.1, r.2 && s.2)
  | .star a => (false, (mustC q a).2)
  | .comp a b =>
    let r := mustC q a; let s := mustC q b; (r.1 || (r.2 && s.1), r.1 || (r.2 && s.2))
  | .proj a => let r := (mustC q a).1; (r, true)
  | .wt a _ => mustC q a
  | .rw a _ _ => (false, (mustC q a).2)
  | .diff a _ => ((mustC q a).1, true)

/-- Every input of the grammar has one of the characters `q`. -/
def must (q : Str) (g : G) : Bool := (mustC q g).1

theorem hasAny_iff {q s : Str} : hasAny q s = true ↔ ∃ c ∈ s, c ∈ q := by
  simp [hasAny]

theorem hasAny_append {q s t : Str} : hasAny q (s ++ t) = (hasAny q s || hasAny q t) := by
  simp [hasAny]

theorem hasAny_nil {q : Str} : hasAny q [] = false := rfl

theorem must_both (q : Str) (g : G) :
    ((mustC q g).1 = true → ∀ x y w, g.den x y w → hasAny q x = true) ∧
    ((mustC q g).2 = true → ∀ x y w, g.den x y w → hasAny q y = true → hasAny q x = true) := by
  induction g with
  | lit s =>
    refine ⟨?_, ?_⟩
    · rintro h x y w ⟨rfl, _⟩; exact h
    · rintro _ x y w ⟨rfl, rfl, _⟩ hc; exact hc
  | cross a v ih =>
    refine ⟨?_, ?_⟩
    · rintro h x y w ⟨_, hd⟩; exact ih.1 h _ _ _ hd
    · rintro h x y w ⟨rfl, hd⟩ hc
      simp only [mustC, Bool.or_eq_true, Bool.not_eq_true'] at h
      rcases h with h | h
      · exact ih.1 h _ _ _ hd
      · rw [h] at hc; cases hc
  | cls p =>
    refine ⟨fun h => (by cases h), ?_⟩
    rintro _ x y w ⟨d, _, rfl, rfl, _⟩ hc; exact hc
  | tab t =>
    refine ⟨?_, ?_⟩
    · rintro h x y w ⟨hm, _⟩
      exact List.all_eq_true.1 h _ hm
    · rintro h x y w ⟨hm, _⟩ hc
      have := List.all_eq_true.1 h _ hm
      simp only [Bool.or_eq_true, Bool.not_eq_true'] at this
      rcases this with h' | h'
      · exact h'
      · rw [h'] at hc; cases hc
  | cat a b iha ihb =>
    have key : (mustC q a).1 = true ∨ (mustC q b).1 = true → ∀ x y w, (a.cat b).den x y w → hasAny q x = true := by
      rintro h x y w ⟨x₁, y₁, w₁, x₂, y₂, w₂, h1, h2, rfl, rfl, rfl⟩
      rw [hasAny_append, Bool.or_eq_true]
      exact h.imp (fun h => iha.1 h _ _ _ h1) (fun h => ihb.1 h _ _ _ h2)
    refine ⟨?_, ?_⟩
    · intro h
      simp only [mustC, Bool.or_eq_true] at h
      exact key h
    · intro h x y w hd hc
      simp only [mustC, Bool.or_eq_true, Bool.and_eq_true] at h
      rcases h with h | ⟨ha, hb⟩
      · exact key h _ _ _ hd
      · obtain ⟨x₁, y₁, w₁, x₂, y₂, w₂, h1, h2, rfl, rfl, rfl⟩ := hd
        rw [hasAny_append, Bool.or_eq_true] at hc ⊢
        exact hc.imp (iha.2 ha _ _ _ h1) (ihb.2 hb _ _ _ h2)
  | alt a b iha ihb =>
    refine ⟨?_, ?_⟩
    · intro h x y w hd
      simp only [mustC, Bool.and_eq_true] at h
      exact hd.elim (iha.1 h.1 _ _ _) (ihb.1 h.2 _ _ _)
    · intro h x y w hd
      simp only [mustC, Bool.and_eq_true] at h
      exact hd.elim (iha.2 h.1 _ _ _) (ihb.2 h.2 _ _ _)
  | star a ih =>
    refine ⟨fun h => (by cases h), ?_⟩
    intro h x y w hd
    change Star a.den x y w at hd
    induction hd with
    | nil => intro hc; cases hc
    | cons h1 _ ih' =>
      intro hc
      rw [hasAny_append, Bool.or_eq_true] at hc ⊢
      exact hc.imp (ih.2 h _ _ _ h1) ih'
  | comp a b iha ihb =>
    refine ⟨?_, ?_⟩
    · rintro h x y w ⟨m, w₁, w₂, h1, h2, _⟩
      simp only [mustC, Bool.or_eq_true, Bool.and_eq_true] at h
      rcases h with h | h
      · exact iha.1 h _ _ _ h1
      · exact iha.2 h.1 _ _ _ h1 (ihb.1 h.2 _ _ _ h2)
    · rintro h x y w ⟨m, w₁, w₂, h1, h2, _⟩ hc
      simp only [mustC, Bool.or_eq_true, Bool.and_eq_true] at h
      rcases h with h | h
      · exact iha.1 h _ _ _ h1
      · exact iha.2 h.1 _ _ _ h1 (ihb.2 h.2 _ _ _ h2 hc)
  | proj a ih =>
    refine ⟨?_, ?_⟩
    · rintro h x y w ⟨_, z, h1⟩; exact ih.1 h _ _ _ h1
    · rintro _ x y w ⟨rfl, _⟩ hc; exact hc
  | wt a v ih =>
    refine ⟨?_, ?_⟩
    · rintro h x y w ⟨w₀, h1, _⟩; exact ih.1 h _ _ _ h1
    · rintro h x y w ⟨w₀, h1, _⟩; exact ih.2 h _ _ _ h1
  | rw a l r ih =>
    refine ⟨fun h => (by cases h), ?_⟩
    rintro h x y w ⟨_, hd⟩
    have hk := ih.2 h
    clear * - hd hk
    generalize ([] : Str) = pre at hd
    induction hd with
    | done => intro hc; cases hc
    | keep _ _ ih' =>
      intro hc
      simp only [hasAny, List.any_cons, Bool.or_eq_true] at hc ih' ⊢
      exact hc.imp_right ih'
    | change _ _ h1 _ _ ih' =>
      intro hc
      rw [hasAny_append, Bool.or_eq_true] at hc ⊢
      exact hc.imp (hk _ _ _ h1) ih'
  | diff a b iha _ =>
    refine ⟨?_, ?_⟩
    · rintro h x y w ⟨_, h1, _⟩; exact iha.1 h _ _ _ h1
    · rintro _ x y w ⟨rfl, _⟩ hc; exact hc

theorem must_den {q : Str} {g : G} (h : must q g = true) {x y : Str} {w : W} (hd : g.den x y w) :
    ∃ c ∈ x, c ∈ q := hasAny_iff.1 ((must_both q g).1 h x y w hd)

/-! ### The same for words -/

/-- Does the text have one of the words `ks`? -/
def hasWord (ks : List Str) : Str → Bool
  | [] => ks.any fun k => k.isEmpty
  | c :: s => (ks.any fun k => k.isPrefixOf (c :: s)) || hasWord ks s

theorem hasWord_iff {ks : List Str} {s : Str} : hasWord ks s = true ↔ ∃ k ∈ ks, k <:+: s := by
  induction s with
  | nil => simp [hasWord]
  | cons c s ih =>
    simp only [hasWord, Bool.or_eq_true, ih, List.any_eq_true, List.isPrefixOf_iff_prefix]
    constructor
    · rintro (⟨k, hk, h⟩ | ⟨k, hk, h⟩)
      · exact ⟨k, hk, h.isInfix⟩
      · exact ⟨k, hk, h.trans (List.suffix_cons c s).isInfix⟩
    · rintro ⟨k, hk, h⟩
      rcases List.infix_cons_iff.1 h with h | h
      · exact .inl ⟨k, hk, h⟩
      · exact .inr ⟨k, hk, h⟩

/-- Every input of the grammar has one of the words `ks`. -/
def mustW (ks : List Str) : G → Bool
  | .lit s => hasWord ks s
  | .cross a _ | .proj a | .wt a _ | .diff a _ | .comp a _ => mustW ks a
  | .cls _ | .star _ | .rw _ _ _ => false
  | .tab t => t.all fun e => hasWord ks e.1
  | .cat a b => mustW ks a || mustW ks b
  | .alt a b => mustW ks a && mustW ks b

theorem mustW_den {ks : List Str} {g : G} (h : mustW ks g = true) {x y : Str} {w : W} (hd : g.den x y w) :
    ∃ k ∈ ks, k <:+: x := by
  induction g generalizing x y w with
  | lit s => obtain ⟨rfl, _⟩ := hd; exact hasWord_iff.1 h
  | cross a v ih => exact ih h hd.2
  | cls p => cases h
  | tab t => exact hasWord_iff.1 (List.all_eq_true.1 h _ hd.1)
  | cat a b iha ihb =>
    obtain ⟨x₁, y₁, w₁, x₂, y₂, w₂, h1, h2, rfl, _, _⟩ := hd
    simp only [mustW, Bool.or_eq_true] at h
    rcases h with h | h
    · obtain ⟨k, hk, h3⟩ := iha h h1
      exact ⟨k, hk, h3.trans (List.prefix_append x₁ x₂).isInfix⟩
    · obtain ⟨k, hk, h3⟩ := ihb h h2
      exact ⟨k, hk, h3.trans (List.suffix_append x₁ x₂).isInfix⟩
  | alt a b iha ihb =>
    simp only [mustW, Bool.and_eq_true] at h
    exact hd.elim (iha h.1) (ihb h.2)
  | star a _ => cases h
  | comp a b iha _ => obtain ⟨m, w₁, w₂, h1, _⟩ := hd; exact iha h h1
  | proj a ih => obtain ⟨_, z, h1⟩ := hd; exact ih h h1
  | wt a v ih => obtain ⟨w₀, h1, _⟩ := hd; exact ih h h1
  | rw a l r _ => cases h
  | diff a b iha _ => obtain ⟨_, h1, _⟩ := hd; exact iha h h1

/-- Every input of the grammar, seen through `f`, has one of the words `ks`. -/
def Sees (ks : List Str) (f : Char → Char) (g : G) : Prop :=
  ∀ x y w, g.den x y w → ∃ k ∈ ks, k <:+: x.map f

section
variable {ks : List Str} {f : Char → Char} {a b : G}

theorem sees_left (h : Sees ks f a) : Sees ks f (a + b) := by
  rintro x y w ⟨x₁, y₁, w₁, x₂, y₂, w₂, h1, h2, rfl, _, _⟩
  obtain ⟨k, hk, h3⟩ := h _ _ _ h1
  exact ⟨k, hk, h3.trans (by rw [List.map_append]; exact (List.prefix_append _ _).isInfix)⟩

theorem sees_right (h : Sees ks f b) : Sees ks f (a + b) := by
  rintro x y w ⟨x₁, y₁, w₁, x₂, y₂, w₂, h1, h2, rfl, _, _⟩
  obtain ⟨k, hk, h3⟩ := h _ _ _ h2
  exact ⟨k, hk, h3.trans (by rw [List.map_append]; exact (List.suffix_append _ _).isInfix)⟩

theorem sees_or (ha : Sees ks f a) (hb : Sees ks f b) : Sees ks f (a ||| b) :=
  fun x y w hd => hd.elim (ha x y w) (hb x y w)

theorem sees_tagField {n : Str} (h : Sees ks f a) : Sees ks f (tagField n a) := by
  intro x y w hd
  obtain ⟨_, _, z, h1⟩ := den_tagField.1 hd
  exact h _ _ _ h1

theorem sees_addTokens {n : Str} (h : Sees ks f a) : Sees ks f (addTokens n a) := by
  intro x y w hd
  obtain ⟨m, _, h1⟩ := den_addTokens.1 hd
  exact h _ _ _ h1

end

end Verif.Wfst
