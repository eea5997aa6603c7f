import Verif.Wfst.Lemmas

/-
Which characters a grammar can read: two decidable checks and their meaning for all inputs.
-/

namespace Verif.Wfst

/-- The two checks: no input contains `c`; a `c` in the input is still in the output. -/
def readsC (c : Char) : G → Bool × Bool
  | .lit s => (!s.contains c, true)
  | .cross a v => let r := (readsC c a).1; (r, r || v.contains c)
  | .cls p => (!p c, true)
  | .tab t => (t.all fun e => !e.1.contains c, t.all fun e => !e.1.contains c || e.2.contains c)
  | .cat a b | .alt a b =>
    let r := readsC c a; let s := readsC c b; (r.1 && s.1, r.2 && s.2)
  | .star a => readsC c a
  | .comp a b =>
    let r := readsC c a; let s := readsC c b; (r.1 || (r.2 && s.1), r.1 || (r.2 && s.2))
  | .proj a => let r := (readsC c a).1; (r, true)
  | .wt a _ => readsC c a
  | .rw a _ _ => let r := readsC c a; (false, r.1 || r.2)
  | .diff a _ => ((readsC c a).1, true)

/-- No input of the grammar contains `c`. -/
def avoids (c : Char) (g : G) : Bool := (readsC c g).1

theorem reads_den (c : Char) (g : G) : ((readsC c g).1 = true → ∀ x y w, g.den x y w → c ∉ x) ∧
    ((readsC c g).2 = true → ∀ x y w, g.den x y w → c ∈ x → c ∈ y) := by
  induction g with
  | lit s =>
    refine ⟨?_, ?_⟩
    · rintro h x y w ⟨rfl, _⟩; simpa [readsC] using h
    · rintro _ x y w ⟨rfl, rfl, _⟩ hc; exact hc
  | cross a v ih =>
    refine ⟨?_, ?_⟩
    · rintro h x y w ⟨_, hd⟩; exact ih.1 h _ _ _ hd
    · rintro h x y w ⟨rfl, hd⟩ hc
      simp only [readsC, Bool.or_eq_true] at h
      rcases h with h | h
      · exact absurd hc (ih.1 h _ _ _ hd)
      · simpa using h
  | cls p =>
    refine ⟨?_, ?_⟩
    · rintro h x y w ⟨d, hd, rfl, _⟩ hc
      rw [List.mem_singleton.1 hc] at h
      simp [readsC, hd] at h
    · rintro _ x y w ⟨d, _, rfl, rfl, _⟩ hc; exact hc
  | tab t =>
    refine ⟨?_, ?_⟩
    · rintro h x y w ⟨hm, _⟩
      have := List.all_eq_true.1 h _ hm
      simpa using this
    · rintro h x y w ⟨hm, _⟩ hc
      have := List.all_eq_true.1 h _ hm
      simp only [Bool.or_eq_true, Bool.not_eq_true', List.contains_eq_mem, decide_eq_true_eq,
        decide_eq_false_iff_not] at this
      exact this.resolve_left (fun h => h hc)
  | cat a b iha ihb =>
    refine ⟨?_, ?_⟩
    · rintro h x y w ⟨x₁, y₁, w₁, x₂, y₂, w₂, h1, h2, rfl, rfl, rfl⟩ hc
      simp only [readsC, Bool.and_eq_true] at h
      rcases List.mem_append.1 hc with hc | hc
      · exact iha.1 h.1 _ _ _ h1 hc
      · exact ihb.1 h.2 _ _ _ h2 hc
    · rintro h x y w ⟨x₁, y₁, w₁, x₂, y₂, w₂, h1, h2, rfl, rfl, rfl⟩ hc
      simp only [readsC, Bool.and_eq_true] at h
      rcases List.mem_append.1 hc with hc | hc
      · exact List.mem_append_left _ (iha.2 h.1 _ _ _ h1 hc)
      · exact List.mem_append_right _ (ihb.2 h.2 _ _ _ h2 hc)
  | alt a b iha ihb =>
    refine ⟨?_, ?_⟩
    · intro h x y w hd
      simp only [readsC, Bool.and_eq_true] at h
      exact hd.elim (iha.1 h.1 _ _ _) (ihb.1 h.2 _ _ _)
    · intro h x y w hd
      simp only [readsC, Bool.and_eq_true] at h
      exact hd.elim (iha.2 h.1 _ _ _) (ihb.2 h.2 _ _ _)
  | star a ih =>
    refine ⟨?_, ?_⟩
    · intro h x y w hd
      have hd : Star a.den x y w := hd
      clear * - h hd ih
      induction hd with
      | nil => simp
      | cons h1 _ ih' =>
        intro hc
        rcases List.mem_append.1 hc with hc | hc
        · exact ih.1 h _ _ _ h1 hc
        · exact ih' hc
    · intro h x y w hd
      have hd : Star a.den x y w := hd
      clear * - h hd ih
      induction hd with
      | nil => simp
      | cons h1 _ ih' =>
        intro hc
        rcases List.mem_append.1 hc with hc | hc
        · exact List.mem_append_left _ (ih.2 h _ _ _ h1 hc)
        · exact List.mem_append_right _ (ih' hc)
  | comp a b iha ihb =>
    refine ⟨?_, ?_⟩
    · rintro h x y w ⟨m, w₁, w₂, h1, h2, _⟩ hc
      simp only [readsC, Bool.or_eq_true, Bool.and_eq_true] at h
      rcases h with h | h
      · exact iha.1 h _ _ _ h1 hc
      · exact ihb.1 h.2 _ _ _ h2 (iha.2 h.1 _ _ _ h1 hc)
    · rintro h x y w ⟨m, w₁, w₂, h1, h2, _⟩ hc
      simp only [readsC, Bool.or_eq_true, Bool.and_eq_true] at h
      rcases h with h | h
      · exact absurd hc (iha.1 h _ _ _ h1)
      · exact ihb.2 h.2 _ _ _ h2 (iha.2 h.1 _ _ _ h1 hc)
  | proj a ih =>
    refine ⟨?_, ?_⟩
    · rintro h x y w ⟨_, z, h1⟩; exact ih.1 h _ _ _ h1
    · rintro _ x y w ⟨rfl, _⟩ hc; exact hc
  | wt a v ih =>
    refine ⟨?_, ?_⟩
    · rintro h x y w ⟨w₀, h1, _⟩; exact ih.1 h _ _ _ h1
    · rintro h x y w ⟨w₀, h1, _⟩; exact ih.2 h _ _ _ h1
  | rw a l r ih =>
    refine ⟨fun h => (by cases h), ?_⟩
    rintro h x y w ⟨_, hd⟩
    simp only [readsC, Bool.or_eq_true] at h
    have hk : ∀ x y w, a.den x y w → c ∈ x → c ∈ y := by
      rcases h with h | h
      · intro x y w hd hc; exact absurd hc (ih.1 h _ _ _ hd)
      · exact ih.2 h
    clear * - hd hk
    generalize ([] : Str) = pre at hd
    induction hd with
    | done => simp
    | keep _ _ ih' =>
      intro hc
      rcases List.mem_cons.1 hc with rfl | hc
      · exact List.mem_cons_self
      · exact List.mem_cons_of_mem _ (ih' hc)
    | change _ _ h1 _ _ ih' =>
      intro hc
      rcases List.mem_append.1 hc with hc | hc
      · exact List.mem_append_left _ (hk _ _ _ h1 hc)
      · exact List.mem_append_right _ (ih' hc)
  | diff a b iha _ =>
    refine ⟨?_, ?_⟩
    · rintro h x y w ⟨_, h1, _⟩; exact iha.1 h _ _ _ h1
    · rintro _ x y w ⟨rfl, _⟩ hc; exact hc

theorem avoids_den {c : Char} {g : G} (h : avoids c g = true) {x y : Str} {w : W} (hd : g.den x y w) :
    c ∉ x := (reads_den c g).1 h x y w hd

end Verif.Wfst
