import Verif.Wfst.Rewrite

/-
Grammars that replace each character by a text, such as the pre- and postprocessors.
-/

namespace Verif.Wfst

/-- A grammar that replaces each character by a text. -/
def Maps (g : G) (f : Char → Str) : Prop := ∀ x y w, g.den x y w ↔ VText x ∧ y = x.flatMap f ∧ w = 0

theorem maps_id : Maps identityRule (fun c => [c]) := by
  intro x y w
  unfold identityRule
  rw [den_VSIGMA]
  simp only [List.flatMap_singleton']
  tauto

theorem Maps.comp {a b : G} {f g : Char → Str} (ha : Maps a f) (hb : Maps b g)
    (hv : ∀ c, vchar c = true → VText (f c)) : Maps (.comp a b) (fun c => (f c).flatMap g) := by
  intro x y w
  have key : VText x → VText (x.flatMap f) := by
    intro h c hc
    obtain ⟨d, hd, hc⟩ := List.mem_flatMap.1 hc
    exact hv d (h d hd) c hc
  constructor
  · rintro ⟨m, w₁, w₂, h1, h2, rfl⟩
    obtain ⟨hx, rfl, rfl⟩ := (ha _ _ _).1 h1
    obtain ⟨_, rfl, rfl⟩ := (hb _ _ _).1 h2
    exact ⟨hx, List.flatMap_assoc, rfl⟩
  · rintro ⟨hx, rfl, rfl⟩
    exact ⟨_, 0, 0, (ha _ _ _).2 ⟨hx, rfl, rfl⟩, (hb _ _ _).2 ⟨key hx, List.flatMap_assoc.symm, rfl⟩, rfl⟩

theorem Maps.congr {g : G} {f f' : Char → Str} (h : Maps g f) (hf : ∀ c, vchar c = true → f c = f' c) : Maps g f' := by
  intro x y w
  refine (h x y w).trans (and_congr_right fun hx => ?_)
  rw [List.flatMap_congr fun c hc => hf c (hx c hc)]

theorem maps_rule {g : G} {f : Char → Str} (h1 : ∀ u v w, g.den u v w → ∃ c, u = [c] ∧ v = f c ∧ w = 0)
    (h2 : ∀ c, (¬∃ v w, g.den [c] v w) → f c = [c]) : Maps (buildRule g) f := by
  intro x y w
  show VText x ∧ Rewrites _ _ _ _ _ _ _ ↔ _
  rw [rewrites_charMap (fun u v w h => by obtain ⟨c, rfl, _⟩ := h1 u v w h; rfl),
    charMap_function f (fun c v w h => by
      obtain ⟨d, e, h⟩ := h1 _ v w h
      cases e; exact h) h2]

theorem flatMap_single (f : Char → Char) (x : Str) : (x.flatMap fun c => [f c]) = x.map f := by
  induction x with
  | nil => rfl
  | cons c x ih => rw [List.flatMap_cons, ih]; rfl

/-- A grammar behind a character map reads the mapped text. -/
theorem den_comp_maps {p g : G} {f : Char → Char} (hp : Maps p (fun c => [f c])) {x y : Str} {w : W} :
    (G.comp p g).den x y w ↔ VText x ∧ g.den (x.map f) y w := by
  constructor
  · rintro ⟨m, w₁, w₂, h1, h2, rfl⟩
    obtain ⟨hx, rfl, rfl⟩ := (hp _ _ _).1 h1
    rw [flatMap_single] at h2
    exact ⟨hx, by simpa using h2⟩
  · rintro ⟨hx, hd⟩
    exact ⟨_, 0, w, (hp _ _ _).2 ⟨hx, rfl, rfl⟩, by rw [flatMap_single]; exact hd, by simp⟩

/-! ### Tables of characters -/

/-- No key is repeated; `m` has the bits of the keys already seen. -/
def distinct (m : Nat) : List Nat → Bool
  | [] => true
  | k :: ks => !m.testBit k && distinct (m ||| 1 <<< k) ks

theorem nodup_of_distinct {ks : List Nat} {m : Nat} (h : distinct m ks = true) :
    ks.Nodup ∧ ∀ k ∈ ks, m.testBit k = false := by
  induction ks generalizing m with
  | nil => simp
  | cons k ks ih =>
    rw [distinct, Bool.and_eq_true, Bool.not_eq_true'] at h
    obtain ⟨hn, hk⟩ := ih h.2
    refine ⟨List.nodup_cons.2 ⟨fun hm => ?_, hn⟩, ?_⟩
    · have := hk k hm
      rw [Nat.testBit_or, Nat.testBit_shiftLeft] at this
      simp at this
    · intro j hj
      rcases List.mem_cons.1 hj with rfl | hj
      · exact h.1
      · have := hk j hj
        rw [Nat.testBit_or, Bool.or_eq_false_iff] at this
        exact this.1

theorem lookup_iff {t : List (Char × Char)} (h : (t.map fun e => e.1.toNat).Nodup) {c d : Char} :
    (c, d) ∈ t ↔ t.lookup c = some d := by
  induction t with
  | nil => simp
  | cons e t ih =>
    obtain ⟨a, b⟩ := e
    rw [List.map_cons, List.nodup_cons] at h
    have ih := ih h.2
    by_cases hc : c = a
    · subst hc
      rw [List.lookup_cons_self]
      constructor
      · intro hm
        rcases List.mem_cons.1 hm with e | hm
        · rw [(Prod.mk.inj e).2]
        · exact absurd (List.mem_map.2 ⟨_, hm, rfl⟩) h.1
      · intro e; rw [Option.some.inj e]; simp
    · rw [List.lookup_cons, beq_eq_false_iff_ne.2 hc, ← ih]
      simp [hc]

theorem maps_table {t : List (Char × Char)} (h : (t.map fun e => e.1.toNat).Nodup) :
    Maps (buildRule (charTable t)) (fun c => [(t.lookup c).getD c]) := by
  have hm : ∀ u v w, (charTable t).den u v w ↔ ∃ c d, t.lookup c = some d ∧ u = [c] ∧ v = [d] ∧ w = 0 := by
    intro u v w
    unfold charTable
    rw [den_tab, List.mem_map]
    constructor
    · rintro ⟨⟨⟨c, d⟩, hm, e⟩, rfl⟩
      cases e
      exact ⟨c, d, (lookup_iff h).1 hm, rfl, rfl, rfl⟩
    · rintro ⟨c, d, hl, rfl, rfl, rfl⟩
      exact ⟨⟨(c, d), (lookup_iff h).2 hl, rfl⟩, rfl⟩
  refine maps_rule ?_ ?_
  · intro u v w hd
    obtain ⟨c, d, hl, rfl, rfl, rfl⟩ := (hm _ _ _).1 hd
    exact ⟨c, rfl, by rw [hl]; rfl, rfl⟩
  · intro c hc
    cases hl : t.lookup c with
    | none => rfl
    | some d => exact absurd ⟨[d], 0, (hm _ _ _).2 ⟨c, d, hl, rfl, rfl, rfl⟩⟩ hc

theorem table_vchar {t : List (Char × Char)} (h : t.all (fun e => vchar e.2) = true) {c : Char} (hc : vchar c = true) :
    VText [(t.lookup c).getD c] := by
  intro d hd
  rw [List.mem_singleton] at hd
  subst hd
  cases hl : t.lookup c with
  | none => exact hc
  | some e =>
    obtain ⟨l₁, l₂, he, _⟩ := List.lookup_eq_some_iff.1 hl
    exact List.all_eq_true.1 h (c, e) (by rw [he]; simp)

/-! ### Deleted characters -/

theorem maps_delete {p : Char → Bool} {g : G} (hg : ∀ u v w, g.den u v w ↔ ∃ c, p c = true ∧ u = [c] ∧ v = [] ∧ w = 0) :
    Maps (buildRule g) (fun c => if p c then [] else [c]) := by
  refine maps_rule ?_ ?_
  · intro u v w hd
    obtain ⟨c, hp, rfl, rfl, rfl⟩ := (hg _ _ _).1 hd
    exact ⟨c, rfl, by simp [hp], rfl⟩
  · intro c hc
    have : ¬p c = true := fun hp => hc ⟨[], 0, (hg _ _ _).2 ⟨c, hp, rfl, rfl, rfl⟩⟩
    simp [this]

theorem Maps.whenDo {a b : G} {f g : Char → Str} (ha : Maps a f) (hb : Maps b g)
    (hv : ∀ c, vchar c = true → VText (f c)) (s : Bool) :
    Maps (whenDo s a b) (fun c => if s then (f c).flatMap g else f c) := by
  cases s
  · exact ha
  · exact ha.comp hb hv

theorem vtext_when {f g : Char → Str} (hf : ∀ c, vchar c = true → VText (f c))
    (hg : ∀ c, vchar c = true → VText (g c)) (s : Bool) :
    ∀ c, vchar c = true → VText (if s then (f c).flatMap g else f c) := by
  intro c hc
  cases s
  · exact hf c hc
  · intro d hd
    obtain ⟨e, he, hd⟩ := List.mem_flatMap.1 hd
    exact hg e (hf c hc e he) d hd

theorem vtext_single : ∀ c, vchar c = true → VText [c] := by
  intro c hc d hd
  rw [List.mem_singleton] at hd; subst hd; exact hc

theorem vtext_delete {p : Char → Bool} : ∀ c, vchar c = true → VText (if p c then [] else [c]) := by
  intro c hc
  split
  · simp [VText]
  · exact vtext_single c hc

end Verif.Wfst
