import Verif.Token.Spec
import Mathlib.Algebra.Order.Group.Defs

/-
Grammar expressions: the pynini operations that /repo/tn/processor.py and the rule files use, and
the weighted string relation each of them denotes.

A pynini `Fst` is modelled by the expression that builds it; its meaning `G.den` is the set of its
successful paths, each with an input string, an output string and a weight. pynini works on UTF-8
bytes, the model on characters; every literal, table entry and character class of the grammars is a
whole number of encoded characters, and UTF-8 is a prefix code, so the two relations correspond.
Weights are integers counting units of 10^-5 (the smallest weight in the sources); OpenFst stores
them as 32-bit floats. `optimize()`, `copy()` and `rmepsilon()` do not change the least weight of any
input/output pair and are not represented.
-/

namespace Verif.Wfst

/-- Text. -/
abbrev Str := List Char

/-- Path weights, in units of 10^-5. -/
abbrev W := Int

/-- A weighted relation between strings: `R x y w` says that some path reads `x`, writes `y` and
weighs `w`. -/
abbrev Rel := Str → Str → W → Prop

/-- The contexts that occur as `l` and `r` of `build_rule` (/repo/tn/processor.py:170-172):
`""`, `"[BOS]"` or `"[EOS]"`, a class of one character, and a union of the last two. -/
inductive Ctx where
  | any
  | edge
  | chr (p : Char → Bool)
  | edgeOr (p : Char → Bool)

/-- The left context holds of the text already written. -/
def Ctx.left : Ctx → Str → Bool
  | .any, _ => true
  | .edge, s => s.isEmpty
  | .chr p, s => s.getLast?.any p
  | .edgeOr p, s => s.isEmpty || s.getLast?.any p

/-- The right context holds of the text still to be read. -/
def Ctx.right : Ctx → Str → Bool
  | .any, _ => true
  | .edge, s => s.isEmpty
  | .chr p, s => s.head?.any p
  | .edgeOr p, s => s.isEmpty || s.head?.any p

/-- Grammar expressions. -/
inductive G where
  /-- `accep(s)`, and any string literal used as a graph. -/
  | lit (s : Str)
  /-- `cross(a, v)` for an acceptor `a` and a literal `v`. -/
  | cross (a : G) (v : Str)
  /-- An acceptor of one character (`byte.DIGIT`, `utf8.VALID_UTF8_CHAR`, unions and differences of
  such classes). -/
  | cls (p : Char → Bool)
  /-- `string_file(path)`, `string_map(list)`: the listed pairs. -/
  | tab (t : List (Str × Str))
  /-- `a + b`. -/
  | cat (a b : G)
  /-- `a | b`. -/
  | alt (a b : G)
  /-- `a.star`. -/
  | star (a : G)
  /-- `a @ b`. -/
  | comp (a b : G)
  /-- `a.project("input")`. -/
  | proj (a : G)
  /-- `add_weight(a, w)`. -/
  | wt (a : G) (w : W)
  /-- `cdrewrite(a, l, r, VSIGMA)`: obligatory, left to right. -/
  | rw (a : G) (l r : Ctx)
  /-- `difference(a, b)` for acceptors. -/
  | diff (a b : G)

/-- Zero or more repetitions. -/
inductive Star (R : Rel) : Rel
  | nil : Star R [] [] 0
  | cons {x y w x' y' w'} : R x y w → Star R x' y' w' → Star R (x ++ x') (y ++ y') (w + w')

/-- Some match of `R` can start at the beginning of `s` in right context `r`. -/
def Fires (R : Rel) (r : Ctx) (s : Str) : Prop :=
  ∃ u v w t, s = u ++ t ∧ u ≠ [] ∧ R u v w ∧ r.right t

/-- Obligatory left-to-right rewriting (`cdrewrite` in its default mode and direction). The first
argument is the text written so far: left contexts are looked up in the output, right contexts in
the input. Where a match starts and both contexts hold, some match must be rewritten; elsewhere
the character is copied. Matches of the empty string are not represented: the only use of one in
the modelled code is `build_rule("")`, which rewrites the empty string to itself. -/
inductive Rewrites (R : Rel) (l r : Ctx) : Str → Rel
  | done {pre} : Rewrites R l r pre [] [] 0
  | keep {pre c x y w} : ¬(l.left pre ∧ Fires R r (c :: x)) →
      Rewrites R l r (pre ++ [c]) x y w → Rewrites R l r pre (c :: x) (c :: y) w
  | change {pre u v w t y w'} : l.left pre → u ≠ [] → R u v w → r.right t →
      Rewrites R l r (pre ++ v) t y w' → Rewrites R l r pre (u ++ t) (v ++ y) (w + w')

/-- `utf8.VALID_UTF8_CHAR`: byte 0 is the label of epsilon arcs, so NUL is the one character it
leaves out. -/
def vchar (c : Char) : Bool := c != '\x00'

/-- Text that `VSIGMA` accepts. -/
def VText (s : Str) : Prop := ∀ c ∈ s, vchar c = true

instance (s : Str) : Decidable (VText s) := by unfold VText; infer_instance

/-- The relation a grammar expression denotes. -/
def G.den : G → Rel
  | .lit s => fun x y w => x = s ∧ y = s ∧ w = 0
  | .cross a v => fun x y w => y = v ∧ a.den x x w
  | .cls p => fun x y w => ∃ c, p c = true ∧ x = [c] ∧ y = [c] ∧ w = 0
  | .tab t => fun x y w => (x, y) ∈ t ∧ w = 0
  | .cat a b => fun x y w => ∃ x₁ y₁ w₁ x₂ y₂ w₂, a.den x₁ y₁ w₁ ∧ b.den x₂ y₂ w₂ ∧
      x = x₁ ++ x₂ ∧ y = y₁ ++ y₂ ∧ w = w₁ + w₂
  | .alt a b => fun x y w => a.den x y w ∨ b.den x y w
  | .star a => Star a.den
  | .comp a b => fun x y w => ∃ m w₁ w₂, a.den x m w₁ ∧ b.den m y w₂ ∧ w = w₁ + w₂
  | .proj a => fun x y w => y = x ∧ ∃ z, a.den x z w
  | .wt a k => fun x y w => ∃ w₀, a.den x y w₀ ∧ w = w₀ + k
  | .rw a l r => fun x y w => VText x ∧ Rewrites a.den l r [] x y w
  | .diff a b => fun x y w => y = x ∧ a.den x x w ∧ ¬∃ z w', b.den x z w'

/-! Abbreviations used by the rule files. -/

/-- `insert(v)` of pynutil. -/
def insert (v : Str) : G := .cross (.lit []) v

/-- `delete(a)` of pynutil. -/
def delete (a : G) : G := .cross a []

/-- `delete("s")`. -/
def del (s : Str) : G := delete (.lit s)

/-- `cross("u", "v")`. -/
def crossS (u v : Str) : G := .cross (.lit u) v

/-- `a.ques`. -/
def G.ques (a : G) : G := .alt (.lit []) a

/-- `a.plus`. -/
def G.plus (a : G) : G := .cat a (.star a)

/-- `a ** n`. -/
def G.pow (a : G) : Nat → G
  | 0 => .lit []
  | n + 1 => .cat a (a.pow n)

/-- `closure(a, 0, n)`. -/
def G.upTo (a : G) : Nat → G
  | 0 => .lit []
  | n + 1 => .ques (.cat a (a.upTo n))

/-- `union(*gs)` for at least one graph. -/
def unionOf : G → List G → G
  | g, [] => g
  | g, h :: hs => .alt g (unionOf h hs)

instance : Add G := ⟨G.cat⟩
instance : OrOp G := ⟨G.alt⟩

end Verif.Wfst
