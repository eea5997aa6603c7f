import Verif.Wfst.Rewrite

/-
An interpreter for grammar expressions, proved to compute exactly the relation `G.den`. It is used to
evaluate grammars on concrete texts.
-/

namespace Verif.Wfst

/-- The three parts of a partial match: how much was read, what was written, the weight. -/
abbrev Match := Nat × Str × W

/-- Repetition of a matcher, each round reading something. -/
def starRun (f : Str → List Match) : Nat → Str → List Match
  | 0, _ => [(0, [], 0)]
  | fuel + 1, x => (0, [], 0) :: (f x).flatMap fun m =>
      if m.1 = 0 then [] else (starRun f fuel (x.drop m.1)).map fun m' =>
        (m.1 + m'.1, m.2.1 ++ m'.2.1, m.2.2 + m'.2.2)

/-- Whether a match can start here. -/
def firesRun (f : Str → List Match) (r : Ctx) (x : Str) : Bool :=
  (f x).any fun m => m.1 != 0 && r.right (x.drop m.1)

/-- Obligatory left-to-right rewriting of the whole text. -/
def rwRun (f : Str → List Match) (l r : Ctx) : Nat → Str → Str → List (Str × W)
  | _, _, [] => [([], 0)]
  | 0, _, _ :: _ => []
  | fuel + 1, pre, c :: x =>
    if l.left pre && firesRun f r (c :: x) then
      (f (c :: x)).flatMap fun m =>
        if m.1 != 0 && r.right ((c :: x).drop m.1) then
          (rwRun f l r fuel (pre ++ m.2.1) ((c :: x).drop m.1)).map fun p => (m.2.1 ++ p.1, m.2.2 + p.2)
        else []
    else (rwRun f l r fuel (pre ++ [c]) x).map fun p => (c :: p.1, p.2)

/-- All matches of a grammar at the beginning of a text. -/
def G.run : G → Str → List Match
  | .lit s => fun x => if s.isPrefixOf x then [(s.length, s, 0)] else []
  | .cross a v => fun x => (a.run x).filterMap fun m =>
      if m.2.1 = x.take m.1 then some (m.1, v, m.2.2) else none
  | .cls p => fun x => match x with
    | [] => []
    | c :: _ => if p c then [(1, [c], 0)] else []
  | .tab t => fun x => t.filterMap fun e => if e.1.isPrefixOf x then some (e.1.length, e.2, 0) else none
  | .cat a b => fun x => (a.run x).flatMap fun m => (b.run (x.drop m.1)).map fun m' =>
      (m.1 + m'.1, m.2.1 ++ m'.2.1, m.2.2 + m'.2.2)
  | .alt a b => fun x => a.run x ++ b.run x
  | .star a => fun x => starRun a.run x.length x
  | .comp a b => fun x => (a.run x).flatMap fun m => (b.run m.2.1).filterMap fun m' =>
      if m'.1 = m.2.1.length then some (m.1, m'.2.1, m.2.2 + m'.2.2) else none
  | .proj a => fun x => (a.run x).map fun m => (m.1, x.take m.1, m.2.2)
  | .wt a k => fun x => (a.run x).map fun m => (m.1, m.2.1, m.2.2 + k)
  | .rw a l r => fun x => (List.range (x.length + 1)).flatMap fun n =>
      if (x.take n).all vchar then (rwRun a.run l r n [] (x.take n)).map fun p => (n, p.1, p.2) else []
  | .diff a b => fun x => (a.run x).filterMap fun m =>
      if m.2.1 = x.take m.1 && !((b.run (x.take m.1)).any fun m' => m'.1 = m.1) then some m else none

/-- The grammar writes nothing where it reads nothing. -/
def G.silent : G → Bool
  | .lit _ => true
  | .cross _ v => v.isEmpty
  | .cls _ => true
  | .tab t => t.all fun e => !e.1.isEmpty || e.2.isEmpty
  | .cat a b => a.silent && b.silent
  | .alt a b => a.silent && b.silent
  | .star a => a.silent
  | .comp a b => a.silent && b.silent
  | .proj _ => true
  | .wt a _ => a.silent
  | .rw _ _ _ => true
  | .diff _ _ => true

/-- The grammar may read nothing. -/
def G.nullable : G → Bool
  | .lit s => s.isEmpty
  | .cross a _ => a.nullable
  | .cls _ => false
  | .tab t => t.any fun e => e.1.isEmpty
  | .cat a b => a.nullable && b.nullable
  | .alt a b => a.nullable || b.nullable
  | .star _ => true
  | .comp a b => a.nullable && (!a.silent || b.nullable)
  | .proj a => a.nullable
  | .wt a _ => a.nullable
  | .rw _ _ _ => true
  | .diff a _ => a.nullable

/-- Every repeated part reads something. -/
def G.ok : G → Bool
  | .lit _ => true
  | .cross a _ => a.ok
  | .cls _ => true
  | .tab _ => true
  | .cat a b => a.ok && b.ok
  | .alt a b => a.ok && b.ok
  | .star a => a.ok && !a.nullable
  | .comp a b => a.ok && b.ok
  | .proj a => a.ok
  | .wt a _ => a.ok
  | .rw a _ _ => a.ok
  | .diff a b => a.ok && b.ok

theorem silent_of_den {g : G} (hs : g.silent = true) : ∀ {y w}, g.den [] y w → y = [] := by
  induction g with
  | lit s => rintro y w ⟨rfl, rfl, _⟩; rfl
  | cross a v _ => rintro y w ⟨rfl, _⟩; exact List.isEmpty_iff.1 hs
  | cls p => rintro y w ⟨c, _, h, _⟩; cases h
  | tab t =>
    rintro y w ⟨h, _⟩
    have := List.all_eq_true.1 hs _ h
    simpa using this
  | cat a b iha ihb =>
    simp only [G.silent, Bool.and_eq_true] at hs
    rintro y w ⟨x₁, y₁, w₁, x₂, y₂, w₂, h1, h2, hx, rfl, _⟩
    obtain ⟨rfl, rfl⟩ := List.append_eq_nil_iff.1 hx.symm
    rw [iha hs.1 h1, ihb hs.2 h2]; rfl
  | alt a b iha ihb =>
    simp only [G.silent, Bool.and_eq_true] at hs
    rintro y w (h | h)
    · exact iha hs.1 h
    · exact ihb hs.2 h
  | star a ih =>
    intro y w h
    have key : ∀ x y w, Star a.den x y w → x = [] → y = [] := by
      intro x y w h
      induction h with
      | nil => intro _; rfl
      | cons h1 _ ih2 =>
        intro hx
        obtain ⟨rfl, rfl⟩ := List.append_eq_nil_iff.1 hx
        rw [ih hs h1, ih2 rfl]; rfl
    exact key _ _ _ h rfl
  | comp a b iha ihb =>
    simp only [G.silent, Bool.and_eq_true] at hs
    rintro y w ⟨m, w₁, w₂, h, h2, _⟩
    obtain rfl := iha hs.1 h
    exact ihb hs.2 h2
  | proj a _ => rintro y w ⟨rfl, _⟩; rfl
  | wt a k ih => rintro y w ⟨w₀, h, _⟩; exact ih hs h
  | rw a l r _ =>
    rintro y w ⟨_, h⟩
    generalize hx : ([] : Str) = x at h
    cases h with
    | done => rfl
    | keep => cases hx
    | change _ hu => exact absurd (List.append_eq_nil_iff.1 hx.symm).1 hu
  | diff a b _ _ => rintro y w ⟨rfl, _⟩; rfl

theorem nullable_of_den {g : G} : ∀ {y w}, g.den [] y w → g.nullable = true := by
  induction g with
  | lit s => rintro y w ⟨rfl, _⟩; rfl
  | cross a v ih => rintro y w ⟨_, h⟩; exact ih h
  | cls p => rintro y w ⟨c, _, h, _⟩; cases h
  | tab t =>
    rintro y w ⟨h, _⟩
    simp only [G.nullable, List.any_eq_true]
    exact ⟨_, h, rfl⟩
  | cat a b iha ihb =>
    rintro y w ⟨x₁, y₁, w₁, x₂, y₂, w₂, h1, h2, hx, _⟩
    obtain ⟨rfl, rfl⟩ := List.append_eq_nil_iff.1 hx.symm
    simp [G.nullable, iha h1, ihb h2]
  | alt a b iha ihb =>
    rintro y w (h | h)
    · simp [G.nullable, iha h]
    · simp [G.nullable, ihb h]
  | star a _ => intros; rfl
  | comp a b iha ihb =>
    rintro y w ⟨m, w₁, w₂, h, h2, _⟩
    rw [G.nullable, iha h, Bool.true_and]
    cases hs : a.silent with
    | false => rfl
    | true =>
      obtain rfl := silent_of_den hs h
      rw [ihb h2]; rfl
  | proj a ih => rintro y w ⟨_, z, h⟩; exact ih h
  | wt a k ih => rintro y w ⟨w₀, h, _⟩; exact ih h
  | rw a l r _ => intros; rfl
  | diff a b iha _ => rintro y w ⟨_, h, _⟩; exact iha h

/-- `f` lists exactly the matches of `R` at the beginning of a text. -/
def Lists (f : Str → List Match) (R : Rel) : Prop :=
  ∀ x n y w, (n, y, w) ∈ f x ↔ n ≤ x.length ∧ R (x.take n) y w

theorem prefix_take {s x : Str} : s.isPrefixOf x = true ↔ s.length ≤ x.length ∧ x.take s.length = s := by
  rw [List.isPrefixOf_iff_prefix]
  constructor
  · intro h
    exact ⟨h.length_le, (List.prefix_iff_eq_take.1 h).symm⟩
  · rintro ⟨_, h⟩
    rw [← h]; exact List.take_prefix _ _

theorem take_eq_of {x s : Str} {n : Nat} (hn : n ≤ x.length) (h : x.take n = s) : n = s.length := by
  rw [← h, List.length_take]; omega

theorem split_take {x x₁ x₂ : Str} {n : Nat} (hn : n ≤ x.length) (h : x.take n = x₁ ++ x₂) :
    x₁.length + x₂.length = n ∧ x.take x₁.length = x₁ ∧ (x.drop x₁.length).take x₂.length = x₂ := by
  have hl : x₁.length + x₂.length = n := by
    have := congrArg List.length h
    simp only [List.length_append, List.length_take] at this
    omega
  have hx : x = x₁ ++ (x₂ ++ x.drop n) := by
    rw [← List.append_assoc, ← h, List.take_append_drop]
  refine ⟨hl, ?_, ?_⟩
  · rw [hx]; simp
  · rw [hx]; simp

theorem lists_star {f : Str → List Match} {R : Rel} (hf : Lists f R)
    (hne : ∀ y w, ¬R [] y w) (fuel : Nat) (x : Str) (hx : x.length ≤ fuel) (n : Nat) (y : Str) (w : W) :
    (n, y, w) ∈ starRun f fuel x ↔ n ≤ x.length ∧ Star R (x.take n) y w := by
  have key : ∀ (x : Str) n y w, n ≤ x.length → (Star R (x.take n) y w ↔
      (n = 0 ∧ y = [] ∧ w = 0) ∨ ∃ k y₁ w₁ y₂ w₂, 0 < k ∧ k ≤ n ∧ R (x.take k) y₁ w₁ ∧
        Star R ((x.drop k).take (n - k)) y₂ w₂ ∧ y = y₁ ++ y₂ ∧ w = w₁ + w₂) := by
    intro x n y w hn
    constructor
    · intro h
      obtain ⟨z, hz⟩ : ∃ z, z = x.take n := ⟨_, rfl⟩
      rw [← hz] at h
      cases h with
      | nil =>
        left
        have := take_eq_of hn hz.symm
        exact ⟨this, rfl, rfl⟩
      | @cons x₁ y₁ w₁ x₂ y₂ w₂ h1 h2 =>
        right
        have hx₁ : x₁ ≠ [] := by rintro rfl; exact hne _ _ h1
        obtain ⟨hlen, e1, e2⟩ := split_take hn hz.symm
        have hpos : 0 < x₁.length := List.length_pos_iff.2 hx₁
        refine ⟨x₁.length, y₁, w₁, y₂, w₂, hpos, by omega, ?_, ?_, rfl, rfl⟩
        · rw [e1]; exact h1
        · rw [show n - x₁.length = x₂.length by omega, e2]; exact h2
    · rintro (⟨rfl, rfl, rfl⟩ | ⟨k, y₁, w₁, y₂, w₂, hk, hkn, h1, h2, rfl, rfl⟩)
      · simpa using Star.nil
      · have : x.take n = x.take k ++ (x.drop k).take (n - k) := by
          rw [← List.take_append_drop k (x.take n), List.take_take, List.drop_take]
          congr 2; omega
        rw [this]
        exact .cons h1 h2
  induction fuel generalizing x n y w with
  | zero =>
    have : x = [] := List.length_eq_zero_iff.1 (by omega)
    subst this
    simp only [starRun, List.mem_singleton, Prod.mk.injEq, List.length_nil, Nat.le_zero]
    constructor
    · rintro ⟨rfl, rfl, rfl⟩; exact ⟨rfl, by simpa using Star.nil⟩
    · rintro ⟨rfl, h⟩
      rcases (key [] 0 y w (by simp)).1 h with h | ⟨k, _, _, _, _, h1, h2, _⟩
      · exact h
      · omega
  | succ fuel ih =>
    simp only [starRun, List.mem_cons, Prod.mk.injEq, List.mem_flatMap]
    constructor
    · rintro (⟨rfl, rfl, rfl⟩ | ⟨⟨k, y₁, w₁⟩, hm, hin⟩)
      · exact ⟨by omega, by simpa using Star.nil⟩
      · obtain ⟨hk, h1⟩ := (hf _ _ _ _).1 hm
        simp only at hin
        split at hin
        · cases hin
        · rename_i hk0
          simp only [List.mem_map, Prod.mk.injEq, Prod.exists] at hin
          obtain ⟨n', y₂, w₂, hin, rfl, rfl, rfl⟩ := hin
          have hlen : (x.drop k).length ≤ fuel := by simp; omega
          obtain ⟨hn', h2⟩ := (ih _ hlen _ _ _).1 hin
          have hn : k + n' ≤ x.length := by simp at hn'; omega
          refine ⟨hn, (key x _ _ _ hn).2 (Or.inr ⟨k, y₁, w₁, y₂, w₂, by omega, by omega, h1, ?_, rfl, rfl⟩)⟩
          simpa using h2
    · rintro ⟨hn, h⟩
      rcases (key x n y w hn).1 h with h | ⟨k, y₁, w₁, y₂, w₂, hk, hkn, h1, h2, rfl, rfl⟩
      · exact Or.inl h
      · right
        refine ⟨(k, y₁, w₁), (hf _ _ _ _).2 ⟨by omega, h1⟩, ?_⟩
        rw [if_neg (by simp; omega)]
        simp only [List.mem_map, Prod.mk.injEq, Prod.exists]
        refine ⟨n - k, y₂, w₂, (ih _ (by simp; omega) _ _ _).2 ⟨by simp; omega, h2⟩, by omega, rfl, rfl⟩

theorem fires_run {f : Str → List Match} {R : Rel} (hf : Lists f R) {r : Ctx} {x : Str} :
    firesRun f r x = true ↔ Fires R r x := by
  simp only [firesRun, List.any_eq_true, Bool.and_eq_true, bne_iff_ne, ne_eq, Prod.exists]
  constructor
  · rintro ⟨n, y, w, hm, hn, hr⟩
    obtain ⟨hl, h⟩ := (hf _ _ _ _).1 hm
    refine ⟨x.take n, y, w, x.drop n, (List.take_append_drop n x).symm, ?_, h, hr⟩
    intro he
    have := congrArg List.length he
    simp at this
    rcases this with h | h
    · exact hn h
    · rw [h] at hl; simp at hl; exact hn hl
  · rintro ⟨u, v, w, t, rfl, hu, h, hr⟩
    refine ⟨u.length, v, w, (hf _ _ _ _).2 ⟨by simp, by simpa using h⟩, ?_, by simpa using hr⟩
    simpa [List.length_eq_zero_iff] using hu

theorem rw_run {f : Str → List Match} {R : Rel} (hf : Lists f R) {l r : Ctx} (fuel : Nat) (pre x : Str)
    (hx : x.length ≤ fuel) (y : Str) (w : W) :
    (y, w) ∈ rwRun f l r fuel pre x ↔ Rewrites R l r pre x y w := by
  induction fuel generalizing pre x y w with
  | zero =>
    have : x = [] := List.length_eq_zero_iff.1 (by omega)
    subst this
    simp only [rwRun, List.mem_singleton, Prod.mk.injEq]
    constructor
    · rintro ⟨rfl, rfl⟩; exact .done
    · exact Rewrites.inv_nil
  | succ fuel ih =>
    cases x with
    | nil =>
      simp only [rwRun, List.mem_singleton, Prod.mk.injEq]
      constructor
      · rintro ⟨rfl, rfl⟩; exact .done
      · exact Rewrites.inv_nil
    | cons c x =>
      have hx' : x.length ≤ fuel := by simpa using hx
      unfold rwRun
      by_cases hc : (l.left pre && firesRun f r (c :: x)) = true
      · rw [if_pos hc]
        rw [Bool.and_eq_true, fires_run hf] at hc
        simp only [List.mem_flatMap, Prod.exists]
        constructor
        · rintro ⟨n, v, w₁, hm, hin⟩
          obtain ⟨hl, h⟩ := (hf _ _ _ _).1 hm
          split at hin
          · rename_i hcond
            simp only [Bool.and_eq_true, bne_iff_ne, ne_eq] at hcond
            simp only [List.mem_map, Prod.mk.injEq, Prod.exists] at hin
            obtain ⟨y', w₂, hin, rfl, rfl⟩ := hin
            have := (ih _ _ (by simp; simp at hl; omega) _ _).1 hin
            have hx : (c :: x) = (c :: x).take n ++ (c :: x).drop n := (List.take_append_drop _ _).symm
            rw [hx]
            refine .change hc.1 ?_ h hcond.2 this
            intro he
            have := congrArg List.length he
            simp at this
            exact hcond.1 this
          · cases hin
        · intro h
          rcases h.inv_cons with ⟨hn, _⟩ | ⟨u, v, w₁, t, y', w₂, he, hu, _, hR, hr, hrest, rfl, rfl⟩
          · exact absurd hc hn
          · have hpos : 0 < u.length := List.length_pos_iff.2 hu
            have hlt : u.length + t.length = x.length + 1 := by
              have := congrArg List.length he
              simpa using this.symm
            refine ⟨u.length, v, w₁, (hf _ _ _ _).2 ⟨by rw [he]; simp, by rw [he]; simpa using hR⟩, ?_⟩
            have hd : (c :: x).drop u.length = t := by rw [he]; simp
            rw [hd, if_pos (by simp [hr, hu])]
            simp only [List.mem_map, Prod.mk.injEq, Prod.exists]
            exact ⟨y', w₂, (ih _ _ (by omega) _ _).2 hrest, rfl, rfl⟩
      · rw [if_neg hc]
        rw [Bool.and_eq_true, fires_run hf] at hc
        simp only [List.mem_map, Prod.mk.injEq, Prod.exists]
        constructor
        · rintro ⟨y', w', hin, rfl, rfl⟩
          exact .keep hc ((ih _ _ hx' _ _).1 hin)
        · intro h
          rcases h.inv_cons with ⟨_, y', rfl, hrest⟩ | ⟨u, v, w₁, t, y', w₂, he, hu, hl, hR, hr, _⟩
          · exact ⟨y', w, (ih _ _ hx' _ _).2 hrest, rfl, rfl⟩
          · exact absurd ⟨hl, u, v, w₁, t, he, hu, hR, hr⟩ hc

/-- The interpreter computes the relation. -/
theorem lists_run {g : G} (hok : g.ok = true) : Lists g.run g.den := by
  induction g with
  | lit s =>
    intro x n y w
    show _ ∈ (if s.isPrefixOf x then [(s.length, s, 0)] else []) ↔ _ ∧ (_ = s ∧ y = s ∧ w = 0)
    by_cases h : s.isPrefixOf x = true
    · rw [if_pos h]
      rw [prefix_take] at h
      simp only [List.mem_singleton, Prod.mk.injEq]
      constructor
      · rintro ⟨rfl, rfl, rfl⟩; exact ⟨h.1, h.2, rfl, rfl⟩
      · rintro ⟨hn, h1, rfl, rfl⟩; exact ⟨take_eq_of hn h1, rfl, rfl⟩
    · rw [if_neg h]
      rw [prefix_take] at h
      simp only [List.not_mem_nil, false_iff]
      rintro ⟨hn, h1, _⟩
      have := take_eq_of hn h1
      subst this
      exact h ⟨hn, h1⟩
  | cross a v ih =>
    intro x n y w
    simp only [G.run, List.mem_filterMap, Prod.exists, Option.ite_none_right_eq_some,
      Option.some.injEq, Prod.mk.injEq]
    constructor
    · rintro ⟨n', y', w', hm, h1, rfl, rfl, rfl⟩
      obtain ⟨hn, h⟩ := (ih hok _ _ _ _).1 hm
      exact ⟨hn, rfl, h1 ▸ h⟩
    · rintro ⟨hn, rfl, h⟩
      exact ⟨n, x.take n, w, (ih hok _ _ _ _).2 ⟨hn, h⟩, rfl, rfl, rfl, rfl⟩
  | cls p =>
    intro x n y w
    cases x with
    | nil =>
      simp only [G.run, List.not_mem_nil, List.take_nil, false_iff]
      rintro ⟨_, c, _, h, _⟩; cases h
    | cons c x =>
      simp only [G.run]
      by_cases hp : p c = true
      · rw [if_pos hp]
        simp only [List.mem_singleton, Prod.mk.injEq]
        constructor
        · rintro ⟨rfl, rfl, rfl⟩; exact ⟨by simp, c, hp, by simp, rfl, rfl⟩
        · rintro ⟨hn, d, _, h1, rfl, rfl⟩
          have := take_eq_of hn h1
          simp only [List.length_singleton] at this
          subst this
          simp only [List.take_succ_cons, List.take_zero, List.cons.injEq, and_true] at h1
          subst h1
          exact ⟨rfl, rfl, rfl⟩
      · rw [if_neg hp]
        simp only [List.not_mem_nil, false_iff]
        rintro ⟨hn, d, hd, h1, rfl, rfl⟩
        have := take_eq_of hn h1
        simp only [List.length_singleton] at this
        subst this
        simp only [List.take_succ_cons, List.take_zero, List.cons.injEq, and_true] at h1
        subst h1
        exact hp hd
  | tab t =>
    intro x n y w
    simp only [G.run, List.mem_filterMap, Prod.exists, Option.ite_none_right_eq_some,
      Option.some.injEq, Prod.mk.injEq]
    constructor
    · rintro ⟨u, v, hm, h1, rfl, rfl, rfl⟩
      rw [prefix_take] at h1
      refine ⟨h1.1, ?_, rfl⟩
      rw [h1.2]; exact hm
    · rintro ⟨hn, hm, rfl⟩
      have := take_eq_of hn rfl
      exact ⟨x.take n, y, hm, by rw [prefix_take, ← this]; exact ⟨hn, rfl⟩, this.symm, rfl, rfl⟩
  | cat a b iha ihb =>
    simp only [G.ok, Bool.and_eq_true] at hok
    intro x n y w
    simp only [G.run, List.mem_flatMap, List.mem_map, Prod.exists, Prod.mk.injEq]
    constructor
    · rintro ⟨n₁, y₁, w₁, h1, n₂, y₂, w₂, h2, rfl, rfl, rfl⟩
      obtain ⟨hn1, h1⟩ := (iha hok.1 _ _ _ _).1 h1
      obtain ⟨hn2, h2⟩ := (ihb hok.2 _ _ _ _).1 h2
      refine ⟨by simp at hn2; omega, _, _, _, _, _, _, h1, h2, ?_, rfl, rfl⟩
      rw [List.take_add]
    · rintro ⟨hn, x₁, y₁, w₁, x₂, y₂, w₂, h1, h2, hx, rfl, rfl⟩
      obtain ⟨hlen, e1, e2⟩ := split_take hn hx
      refine ⟨x₁.length, y₁, w₁, (iha hok.1 _ _ _ _).2 ⟨by omega, e1.symm ▸ h1⟩, x₂.length, y₂, w₂,
        (ihb hok.2 _ _ _ _).2 ⟨by simp; omega, e2.symm ▸ h2⟩, hlen, rfl, rfl⟩
  | alt a b iha ihb =>
    simp only [G.ok, Bool.and_eq_true] at hok
    intro x n y w
    simp only [G.run, List.mem_append]
    rw [iha hok.1, ihb hok.2]
    show _ ↔ _ ∧ (_ ∨ _)
    tauto
  | star a ih =>
    simp only [G.ok, Bool.and_eq_true, Bool.not_eq_true'] at hok
    intro x n y w
    refine lists_star (ih hok.1) (fun y w h => ?_) _ _ (le_refl _) _ _ _
    rw [nullable_of_den h] at hok
    exact absurd hok.2 (by simp)
  | comp a b iha ihb =>
    simp only [G.ok, Bool.and_eq_true] at hok
    intro x n y w
    simp only [G.run, List.mem_flatMap, List.mem_filterMap, Prod.exists, Option.ite_none_right_eq_some,
      Option.some.injEq, Prod.mk.injEq]
    constructor
    · rintro ⟨n₁, m, w₁, h1, n₂, y₂, w₂, h2, rfl, rfl, rfl, rfl⟩
      obtain ⟨hn1, h1⟩ := (iha hok.1 _ _ _ _).1 h1
      obtain ⟨hn2, h2⟩ := (ihb hok.2 _ _ _ _).1 h2
      rw [List.take_length] at h2
      exact ⟨hn1, m, w₁, w₂, h1, h2, rfl⟩
    · rintro ⟨hn, m, w₁, w₂, h1, h2, rfl⟩
      exact ⟨n, m, w₁, (iha hok.1 _ _ _ _).2 ⟨hn, h1⟩, m.length, y, w₂,
        (ihb hok.2 _ _ _ _).2 ⟨le_refl _, by rw [List.take_length]; exact h2⟩, rfl, rfl, rfl, rfl⟩
  | proj a ih =>
    intro x n y w
    simp only [G.run, List.mem_map, Prod.exists, Prod.mk.injEq]
    constructor
    · rintro ⟨n', z, w', h, rfl, rfl, rfl⟩
      obtain ⟨hn, h⟩ := (ih hok _ _ _ _).1 h
      exact ⟨hn, rfl, z, h⟩
    · rintro ⟨hn, rfl, z, h⟩
      exact ⟨n, z, w, (ih hok _ _ _ _).2 ⟨hn, h⟩, rfl, rfl, rfl⟩
  | wt a k ih =>
    intro x n y w
    simp only [G.run, List.mem_map, Prod.exists, Prod.mk.injEq]
    constructor
    · rintro ⟨n', z, w', h, rfl, rfl, rfl⟩
      obtain ⟨hn, h⟩ := (ih hok _ _ _ _).1 h
      exact ⟨hn, w', h, rfl⟩
    · rintro ⟨hn, w₀, h, rfl⟩
      exact ⟨n, y, w₀, (ih hok _ _ _ _).2 ⟨hn, h⟩, rfl, rfl, rfl⟩
  | rw a l r ih =>
    intro x n y w
    simp only [G.run, List.mem_flatMap, List.mem_range]
    constructor
    · rintro ⟨n', hn', hin⟩
      split at hin
      · rename_i hv
        simp only [List.mem_map, Prod.exists, Prod.mk.injEq] at hin
        obtain ⟨y', w', hin, rfl, rfl, rfl⟩ := hin
        have := (rw_run (ih hok) _ _ _ (by simp) _ _).1 hin
        exact ⟨by omega, List.all_eq_true.1 hv, this⟩
      · cases hin
    · rintro ⟨hn, hv, h⟩
      refine ⟨n, by omega, ?_⟩
      rw [if_pos (List.all_eq_true.2 hv)]
      simp only [List.mem_map, Prod.exists, Prod.mk.injEq]
      exact ⟨y, w, (rw_run (ih hok) _ _ _ (by simp) _ _).2 h, by simp⟩
  | diff a b iha ihb =>
    simp only [G.ok, Bool.and_eq_true] at hok
    intro x n y w
    simp only [G.run, List.mem_filterMap, Prod.exists, Option.ite_none_right_eq_some,
      Option.some.injEq, Prod.mk.injEq]
    have hb : ∀ n, n ≤ x.length → ((!((b.run (x.take n)).any fun m' => m'.1 = n)) = true ↔
        ¬∃ z w', b.den (x.take n) z w') := by
      intro n hn
      have hl : (x.take n).length = n := by simp; omega
      have ht : (x.take n).take n = x.take n := by rw [List.take_take, Nat.min_self]
      rw [Bool.not_eq_true', ← Bool.not_eq_true, not_iff_not]
      simp only [List.any_eq_true, Prod.exists, decide_eq_true_eq]
      constructor
      · rintro ⟨k, z, w', h, rfl⟩
        have := ((ihb hok.2 _ _ _ _).1 h).2
        rw [ht] at this
        exact ⟨z, w', this⟩
      · rintro ⟨z, w', h⟩
        exact ⟨n, z, w', (ihb hok.2 _ _ _ _).2 ⟨by omega, by rw [ht]; exact h⟩, by simp⟩
    constructor
    · rintro ⟨n', z, w', h, h2, rfl, rfl, rfl⟩
      obtain ⟨hn, h⟩ := (iha hok.1 _ _ _ _).1 h
      rw [Bool.and_eq_true, decide_eq_true_eq, hb _ hn] at h2
      exact ⟨hn, h2.1, by rw [h2.1] at h; exact h, h2.2⟩
    · rintro ⟨hn, rfl, h, h2⟩
      refine ⟨n, x.take n, w, (iha hok.1 _ _ _ _).2 ⟨hn, h⟩, ?_, rfl, rfl, rfl⟩
      rw [Bool.and_eq_true, hb _ hn]
      exact ⟨by simp, h2⟩

/-- All outputs of a grammar on a text, with weights. -/
def G.outputs (g : G) (x : Str) : List (Str × W) :=
  (g.run x).filterMap fun m => if m.1 = x.length then some m.2 else none

theorem mem_outputs {g : G} (hok : g.ok = true) {x y : Str} {w : W} :
    (y, w) ∈ g.outputs x ↔ g.den x y w := by
  simp only [G.outputs, List.mem_filterMap, Prod.exists, Option.ite_none_right_eq_some,
    Option.some.injEq, Prod.mk.injEq]
  constructor
  · rintro ⟨n, y', w', h, rfl, rfl, rfl⟩
    have := ((lists_run hok _ _ _ _).1 h).2
    rwa [List.take_length] at this
  · intro h
    exact ⟨_, y, w, (lists_run hok _ _ _ _).2 ⟨le_refl _, by rw [List.take_length]; exact h⟩,
      by simp⟩

theorem ok_whenDo {c : Bool} {g h : G} (hg : g.ok = true) (hh : h.ok = true) : (whenDo c g h).ok = true := by
  unfold whenDo
  split
  · simp [G.ok, hg, hh]
  · exact hg

end Verif.Wfst
