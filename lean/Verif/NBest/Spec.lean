import Verif.Token.Model
import Mathlib.Algebra.Order.Group.Defs
import Mathlib.Order.Bounds.Defs

/-
What the n-best search should compute, written without the streams and the frontier.
-/

namespace Verif.NBest.Spec
open Verif.Token (Str)

variable {W : Type} [LinearOrder W]

/-- One answer of a stream: text, weight, rank. -/
abbrev Answer (W : Type) := Str × W × Nat

/-- `r` lists the strings with a weight, lightest first, each once, numbered from 0. -/
structure Enumerates (best : Str → Option W) (r : Nat → Option (Answer W)) : Prop where
  ranked : ∀ k x w n, r k = some (x, w, n) → n = k ∧ best x = some w
  once : ∀ i j x v w m n, r i = some (x, v, m) → r j = some (x, w, n) → i = j
  sorted : ∀ i j x y v w m n, i ≤ j → r i = some (x, v, m) → r j = some (y, w, n) → v ≤ w
  /-- Everything lighter came before. -/
  lighter : ∀ k x w n y v, r k = some (x, w, n) → best y = some v → v < w →
    ∃ j, j < k ∧ ∃ m, r j = some (y, v, m)
  /-- The list only ends when everything has come, and then for good. -/
  ends : ∀ k, r k = none → (∀ y v, best y = some v → ∃ j, j < k ∧ ∃ m, r j = some (y, v, m)) ∧
    ∀ j, k ≤ j → r j = none
  /-- A string with only finitely many strings before it comes, and not later than those. -/
  reached : ∀ x w (l : List Str), best x = some w →
    (∀ y v, best y = some v → v ≤ w → y ∈ l) → ∃ k, k < l.length ∧ ∃ n, r k = some (x, w, n)

/-- A tagger's weights for one input, the reordering of a tagging, and the verbalizer's weights for
a reordered tagging. -/
structure Grammar (W : Type) where
  tags : Str → Option W
  reorder : Str → Option Str
  verb : Str → Str → Option W

variable [AddCommGroup W]

/-- `y` can be had for the cost `w`: the weight of a tagging, plus what the verbalization `y` weighs
more than the lightest verbalization of that tagging. -/
def Cost (g : Grammar W) (y : Str) (w : W) : Prop :=
  ∃ t tw r v m, g.tags t = some tw ∧ g.reorder t = some r ∧ g.verb r y = some v ∧
    IsLeast {u | ∃ z, g.verb r z = some u} m ∧ w = tw + v - m

/-- `l` lists the `n` cheapest outputs with their costs, cheapest first. -/
structure Cheapest (g : Grammar W) (n : Nat) (l : List (Str × W)) : Prop where
  sorted : l.Pairwise fun a b => a.2 ≤ b.2
  distinct : (l.map Prod.fst).Nodup
  least : ∀ a ∈ l, IsLeast {w | Cost g a.1 w} a.2
  /-- No cheaper output is left out. -/
  noneSkipped : ∀ a ∈ l, ∀ z v, Cost g z v → v < a.2 → ∃ u, (z, u) ∈ l ∧ u ≤ v
  atMost : l.length ≤ n
  /-- A short list has all outputs. -/
  all : l.length < n → ∀ z v, Cost g z v → ∃ u, (z, u) ∈ l

/-! ### Ties -/

/-- Cost, rank of the tagging, rank of the verbalization; compared from left to right. -/
abbrev Place (W : Type) := W × Nat × Nat

def Before (a b : Place W) : Prop :=
  Prod.Lex (· < ·) (Prod.Lex (· < ·) (· < ·)) a b

/-- Output `y` at place `k`: `T` lists the taggings, `V i` the verbalizations of the `i`-th. -/
def Pair (T : Nat → Option (Answer W)) (V : Nat → Nat → Option (Answer W)) (y : Str) (k : Place W) :
    Prop :=
  ∃ i j t tw ti v vj z m mi, T i = some (t, tw, ti) ∧ V i j = some (y, v, vj) ∧
    V i 0 = some (z, m, mi) ∧ k = (tw + v - m, i, j)

/-- `l` is what remains of the first pairs when repeated outputs are dropped. -/
structure FirstOf (T : Nat → Option (Answer W)) (V : Nat → Nat → Option (Answer W)) (n : Nat)
    (l : List (Str × Place W)) : Prop where
  pairs : ∀ a ∈ l, Pair T V a.1 a.2
  sorted : l.Pairwise fun a b => Before a.2 b.2
  distinct : (l.map Prod.fst).Nodup
  noneSkipped : ∀ a ∈ l, ∀ z k, Pair T V z k → Before k a.2 → ∃ k', (z, k') ∈ l ∧ ¬ Before k k'
  atMost : l.length ≤ n
  all : l.length < n → ∀ z k, Pair T V z k → ∃ k', (z, k') ∈ l ∧ ¬ Before k k'

end Verif.NBest.Spec
