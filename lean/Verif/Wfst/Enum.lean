import Verif.Wfst.Lemmas

/-
The paths of a grammar without loops and character classes, as a list.
-/

namespace Verif.Wfst

/-- All paths: what is read, what is written, the weight. -/
def enum : G → Option (List (Str × Str × W))
  | .lit s => some [(s, s, 0)]
  | .cross a v => (enum a).map fun l => (l.filter fun e => e.1 == e.2.1).map fun e => (e.1, v, e.2.2)
  | .tab t => some (t.map fun e => (e.1, e.2, 0))
  | .cat a b => match enum a, enum b with
    | some l, some m => some (l.flatMap fun e => m.map fun f => (e.1 ++ f.1, e.2.1 ++ f.2.1, e.2.2 + f.2.2))
    | _, _ => none
  | .alt a b => match enum a, enum b with
    | some l, some m => some (l ++ m)
    | _, _ => none
  | .wt a k => (enum a).map fun l => l.map fun e => (e.1, e.2.1, e.2.2 + k)
  | .proj a => (enum a).map fun l => l.map fun e => (e.1, e.1, e.2.2)
  | _ => none

theorem enum_den {g : G} : ∀ {l : List (Str × Str × W)}, enum g = some l → ∀ {x y : Str} {w : W},
    g.den x y w ↔ (x, y, w) ∈ l := by
  induction g with
  | lit s =>
    intro l h x y w
    cases h
    simp [G.den]
  | cross a v ih =>
    intro l h x y w
    obtain ⟨m, hm, rfl⟩ := Option.map_eq_some_iff.1 h
    constructor
    · rintro ⟨rfl, h1⟩
      exact List.mem_map.2 ⟨_, List.mem_filter.2 ⟨(ih hm).1 h1, by simp⟩, rfl⟩
    · intro h1
      obtain ⟨⟨a1, a2, a3⟩, h2, h3⟩ := List.mem_map.1 h1
      obtain ⟨h4, h5⟩ := List.mem_filter.1 h2
      cases h3
      obtain rfl : a1 = a2 := beq_iff_eq.1 h5
      exact ⟨rfl, (ih hm).2 h4⟩
  | cls p => intro l h; cases h
  | tab t =>
    intro l h x y w
    cases h
    constructor
    · rintro ⟨h1, rfl⟩
      exact List.mem_map.2 ⟨_, h1, rfl⟩
    · intro h1
      obtain ⟨⟨a1, a2⟩, h2, h3⟩ := List.mem_map.1 h1
      cases h3
      exact ⟨h2, rfl⟩
  | cat a b iha ihb =>
    intro l h x y w
    simp only [enum] at h
    split at h
    case h_2 => cases h
    case h_1 la lb ha hb =>
      cases h
      constructor
      · rintro ⟨x₁, y₁, w₁, x₂, y₂, w₂, h1, h2, rfl, rfl, rfl⟩
        exact List.mem_flatMap.2 ⟨_, (iha ha).1 h1, List.mem_map.2 ⟨_, (ihb hb).1 h2, rfl⟩⟩
      · intro h1
        obtain ⟨⟨a1, a2, a3⟩, h2, h3⟩ := List.mem_flatMap.1 h1
        obtain ⟨⟨b1, b2, b3⟩, h4, h5⟩ := List.mem_map.1 h3
        cases h5
        exact ⟨a1, a2, a3, b1, b2, b3, (iha ha).2 h2, (ihb hb).2 h4, rfl, rfl, rfl⟩
  | alt a b iha ihb =>
    intro l h x y w
    simp only [enum] at h
    split at h
    case h_2 => cases h
    case h_1 la lb ha hb =>
      cases h
      rw [List.mem_append]
      exact or_congr (iha ha) (ihb hb)
  | star a => intro l h; cases h
  | comp a b => intro l h; cases h
  | proj a ih =>
    intro l h x y w
    obtain ⟨m, hm, rfl⟩ := Option.map_eq_some_iff.1 h
    constructor
    · rintro ⟨rfl, z, h1⟩
      exact List.mem_map.2 ⟨_, (ih hm).1 h1, rfl⟩
    · intro h1
      obtain ⟨⟨a1, a2, a3⟩, h2, h3⟩ := List.mem_map.1 h1
      cases h3
      exact ⟨rfl, a2, (ih hm).2 h2⟩
  | wt a k ih =>
    intro l h x y w
    obtain ⟨m, hm, rfl⟩ := Option.map_eq_some_iff.1 h
    constructor
    · rintro ⟨w₀, h1, rfl⟩
      exact List.mem_map.2 ⟨_, (ih hm).1 h1, rfl⟩
    · intro h1
      obtain ⟨⟨a1, a2, a3⟩, h2, h3⟩ := List.mem_map.1 h1
      cases h3
      exact ⟨a3, (ih hm).2 h2, rfl⟩
  | rw a l r => intro l h; cases h
  | diff a b => intro l h; cases h

end Verif.Wfst
