import Verif.Wfst.EdgeOf

/-
Weights that come from the input alone: a machine reads the input from right to left, and every character costs what
the machine says. The difference between the weight of a grammar and this cost is worked out for all inputs at once.
-/

namespace Verif.Wfst

/-- A machine that reads a text from right to left: where a character leads from a state, and what it costs there. -/
structure Gauge (Q : Type) where
  step : Char → Q → Q
  cost : Char → Q → Int

namespace Gauge

section
variable {Q : Type} (m : Gauge Q)

/-- Where the machine is before the text, if it begins behind it in `q`. -/
def state (x : Str) (q : Q) : Q := x.foldr m.step q

/-- What the text costs, if the machine begins behind it in `q`. -/
def total : Str → Q → Int
  | [], _ => 0
  | c :: x, q => m.cost c (m.state x q) + total x q

theorem state_append (x y : Str) (q : Q) : m.state (x ++ y) q = m.state x (m.state y q) := by
  simp [state]

theorem total_append (x y : Str) (q : Q) : m.total (x ++ y) q = m.total x (m.state y q) + m.total y q := by
  induction x with
  | nil => simp [total]
  | cons c x ih => simp only [List.cons_append, total, ih, state_append]; omega

/-- If the costs in `q` are never above those in `e`, so are the costs of texts. -/
theorem total_le {R : Q → Q → Bool} (hs : ∀ c p q, R p q = true → R (m.step c p) (m.step c q) = true)
    (hc : ∀ c p q, R p q = true → m.cost c p ≤ m.cost c q) (x : Str) {p q : Q} (h : R p q = true) :
    R (m.state x p) (m.state x q) = true ∧ m.total x p ≤ m.total x q := by
  induction x with
  | nil => exact ⟨h, Int.le_refl _⟩
  | cons c x ih =>
    refine ⟨hs c _ _ ih.1, ?_⟩
    have := hc c _ _ ih.1
    simp only [total]
    omega

variable [BEq Q]

/-- All the pairs of a state before an input of the grammar and the weight minus the cost of the input. -/
def off : G → Q → Option (List (Q × Int))
  | .lit s, q => some [(m.state s q, - m.total s q)]
  | .cross a _, q => off a q
  | .tab l, q => some (nub (l.map fun e => (m.state e.1 q, - m.total e.1 q)))
  | .cat a b, q => match off b q with
    | some l => (l.mapM fun e => (off a e.1).map (·.map fun f => (f.1, f.2 + e.2))).map fun l => nub l.flatten
    | none => none
  | .alt a b, q => match off a q, off b q with
    | some l, some k => some (nub (l ++ k))
    | _, _ => none
  | .wt a k, q => (off a q).map (·.map fun e => (e.1, e.2 + k))
  | _, _ => none

theorem mem_mapM {α β : Type} {f : α → Option β} {l : List α} {k : List β} (h : l.mapM f = some k) {a : α} (ha : a ∈ l) :
    ∃ b ∈ k, f a = some b := by
  induction l generalizing k with
  | nil => cases ha
  | cons a' l ih =>
    rw [List.mapM_cons] at h
    cases h1 : f a' with
    | none => rw [h1] at h; cases h
    | some b =>
      rw [h1] at h
      cases h2 : l.mapM f with
      | none => rw [h2] at h; cases h
      | some k' =>
        rw [h2] at h
        cases h
        rcases List.mem_cons.1 ha with rfl | ha
        · exact ⟨b, by simp, h1⟩
        · obtain ⟨b', hb, e⟩ := ih h2 ha
          exact ⟨b', by simp [hb], e⟩

variable [LawfulBEq Q]

theorem off_den {g : G} {q : Q} {l : List (Q × Int)} (h : m.off g q = some l) {x y : Str} {w : W} (hd : g.den x y w) :
    (m.state x q, (w : Int) - m.total x q) ∈ l := by
  have zero : ∀ k : Int, (0 : Int) - k = - k := by intros; omega
  induction g generalizing q l x y w with
  | lit s =>
    cases h
    obtain ⟨rfl, _, rfl⟩ := hd
    simp [zero]
  | cross a v ih => exact ih h hd.2
  | tab t =>
    cases h
    obtain ⟨hm, rfl⟩ := hd
    refine mem_nub ?_
    rw [zero]
    exact List.mem_map_of_mem (f := fun e : Str × Str => (m.state e.1 q, - m.total e.1 q)) hm
  | cat a b iha ihb =>
    obtain ⟨x₁, y₁, w₁, x₂, y₂, w₂, h1, h2, rfl, _, rfl⟩ := hd
    simp only [off] at h
    split at h
    · rename_i lb eb
      obtain ⟨k, hk, rfl⟩ := Option.map_eq_some_iff.1 h
      obtain ⟨lf, hlf, e⟩ := mem_mapM hk (ihb eb h2)
      obtain ⟨la, ea, rfl⟩ := Option.map_eq_some_iff.1 e
      refine mem_nub (List.mem_flatten.2 ⟨_, hlf, ?_⟩)
      refine List.mem_map.2 ⟨_, iha ea h1, ?_⟩
      rw [state_append, total_append]
      congr 1
      have key : ∀ a b c d : Int, (a - c) + (b - d) = a + b - (c + d) := by intros; omega
      exact key w₁ w₂ _ _
    · cases h
  | alt a b iha ihb =>
    simp only [off] at h
    split at h
    · rename_i la lb ea eb
      cases h
      rcases hd with hd | hd
      · exact mem_nub (List.mem_append_left _ (iha ea hd))
      · exact mem_nub (List.mem_append_right _ (ihb eb hd))
    · cases h
  | wt a k ih =>
    simp only [off] at h
    obtain ⟨la, ea, rfl⟩ := Option.map_eq_some_iff.1 h
    obtain ⟨w₀, hd, rfl⟩ := hd
    refine List.mem_map.2 ⟨_, ih ea hd, ?_⟩
    congr 1
    have key : ∀ a b c : Int, a - c + b = a + b - c := by intros; omega
    exact key w₀ k _
  | star _ _ => cases h
  | cls _ => cases h
  | comp _ _ => cases h
  | proj _ => cases h
  | rw _ _ _ => cases h
  | diff _ _ => cases h

end

end Gauge

end Verif.Wfst
