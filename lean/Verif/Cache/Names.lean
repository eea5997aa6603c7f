import Verif.Cache.Spec

/-
The names of one key: the final name and three kinds of residuals, all different.
-/

namespace Verif.Cache

namespace Key

def IsTmp (k : Key) (n : Name) : Prop := k.tmp <+: n
def IsPrevious (k : Key) (n : Name) : Prop := k.previous <+: n
def IsCorrupt (k : Key) (n : Name) : Prop := k.corrupt <+: n

/-- Digests are hexadecimal and so do not begin with a dot. -/
def Valid (k : Key) : Prop := k.digest.head? ≠ some '.'

theorem residual_iff (k : Key) (n : Name) :
    k.residual n = true ↔ k.IsTmp n ∨ k.IsPrevious n ∨ k.IsCorrupt n := by
  simp [residual, IsTmp, IsPrevious, IsCorrupt, or_assoc]

theorem not_both {a x y n : List Char} (h : ¬ x <+: y) (h' : ¬ y <+: x) (h1 : a ++ x <+: n)
    (h2 : a ++ y <+: n) : False := by
  rcases List.prefix_or_prefix_of_prefix h1 h2 with h3 | h3
  · exact h ((List.prefix_append_right_inj a).1 h3)
  · exact h' ((List.prefix_append_right_inj a).1 h3)

theorem tmp_not_previous {k : Key} {n : Name} (h : k.IsTmp n) (h' : k.IsPrevious n) : False :=
  not_both (a := '.' :: k.digest) (by decide) (by decide) h h'

theorem tmp_not_corrupt {k : Key} {n : Name} (h : k.IsTmp n) (h' : k.IsCorrupt n) : False :=
  not_both (a := '.' :: k.digest) (by decide) (by decide) h h'

theorem previous_not_corrupt {k : Key} {n : Name} (h : k.IsPrevious n) (h' : k.IsCorrupt n) :
    False :=
  not_both (a := '.' :: k.digest) (by decide) (by decide) h h'

theorem head_of_prefix {d r n : List Char} (h : ('.' :: d ++ r) <+: n) : n.head? = some '.' := by
  obtain ⟨t, rfl⟩ := h
  rfl

theorem final_not_residual {k : Key} (hk : k.Valid) : k.residual k.digest = false := by
  by_contra h
  have h : k.residual k.digest = true := by simpa using h
  rw [residual_iff] at h
  rcases h with h | h | h <;> exact hk (head_of_prefix h)

theorem final_not_tmp {k : Key} (hk : k.Valid) (h : k.IsTmp k.digest) : False :=
  hk (head_of_prefix h)

theorem final_not_previous {k : Key} (hk : k.Valid) (h : k.IsPrevious k.digest) : False :=
  hk (head_of_prefix h)

theorem final_not_corrupt {k : Key} (hk : k.Valid) (h : k.IsCorrupt k.digest) : False :=
  hk (head_of_prefix h)

end Key

/-- `'.' + digest + '.previous-' + u`. -/
theorem isPrevious_iff (k : Key) (n : Name) :
    k.IsPrevious n ↔ ∃ u, n = '.' :: k.digest ++ ".previous-".toList ++ u :=
  ⟨fun ⟨u, h⟩ => ⟨u, h.symm⟩, fun ⟨u, h⟩ => ⟨u, h.symm⟩⟩

end Verif.Cache
