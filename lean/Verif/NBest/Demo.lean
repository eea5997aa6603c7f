import Verif.NBest.Final

/- Small pipelines for the examples beside the theorems. -/

namespace Verif.NBest
open Verif.Token (Str)

/-- A lattice with finitely many outputs, given lightest first. -/
def ofList (l : List (Str × Int)) (hn : (l.map Prod.fst).Nodup)
    (hs : l.Pairwise fun p q => p.2 ≤ q.2) : Lattice Int where
  best x := l.lookup x
  shortest n := l.take n
  sound n p hp := by
    replace hp := List.mem_of_mem_take hp
    obtain ⟨x, w⟩ := p
    induction l with
    | nil => cases hp
    | cons q l ih =>
      rw [List.map_cons, List.nodup_cons] at hn
      rw [List.pairwise_cons] at hs
      rcases List.mem_cons.1 hp with rfl | hp
      · simp [List.lookup]
      · have : (x == q.1) = false := by
          rw [beq_eq_false_iff_ne]
          intro hc
          exact hn.1 (List.mem_map.2 ⟨_, hp, hc⟩)
        rw [List.lookup_cons, this]
        exact ih hn.2 hs.2 hp
  nodup n := ((List.take_sublist n l).map _).nodup hn
  sorted n := hs.sublist (List.take_sublist n l)
  atMost n := List.length_take_le n l
  complete n x w hlen hx := by
    rw [List.take_of_length_le (by rw [List.length_take] at hlen; omega)]
    clear hlen hn hs
    induction l with
    | nil => simp at hx
    | cons q l ih =>
      rw [List.lookup_cons] at hx
      split at hx
      · rename_i h
        rw [beq_iff_eq] at h
        cases hx
        rw [h]
        exact List.mem_cons_self ..
      · exact List.mem_cons_of_mem _ (ih hx)
  lightest n x w p hx hni hp := by
    have hmem : (x, w) ∈ l := by
      clear hni hp hn hs
      induction l with
      | nil => simp at hx
      | cons q l ih =>
        rw [List.lookup_cons] at hx
        split at hx
        · rename_i h
          rw [beq_iff_eq] at h
          cases hx
          rw [h]
          exact List.mem_cons_self ..
        · exact List.mem_cons_of_mem _ (ih hx)
    have hdrop : (x, w) ∈ l.drop n := by
      rw [← List.take_append_drop n l] at hmem
      rcases List.mem_append.1 hmem with h | h
      · exact absurd h hni
      · exact h
    rw [← List.take_append_drop n l, List.pairwise_append] at hs
    exact hs.2.2 p hp _ hdrop

/-- Four outputs. -/
def demoLattice : Lattice Int :=
  ofList [("a".toList, 1), ("b".toList, 2), ("c".toList, 2), ("d".toList, 5)]
    (by decide +kernel) (by decide +kernel)

/-- One line of arcs that reads `x` and writes `y`. -/
def line (x y : Str) : Verif.Align.Fst :=
  ⟨some 0, ((List.range (max x.length y.length)).map fun k =>
    [⟨(x.map Char.toNat).getD k 0, (y.map Char.toNat).getD k 0, k + 1⟩]) ++ [[]]⟩

def demoTag1 : Str := "a { v: \"1\" }".toList
def demoTag2 : Str := "a { v: \"2\" }".toList
def demoTag3 : Str := "b { v: \"3\" }".toList

/-- Three taggings of every input. The first cannot be verbalized, the others have outputs in
common. -/
def demo : Pipeline Int where
  orders := fun _ => none
  tagger _ := ofList [(demoTag1, 0), (demoTag2, 2), (demoTag3, 3)] (by decide +kernel)
    (by decide +kernel)
  verbalizer r :=
    if r = demoTag2 then
      ofList [("two".toList, -1), ("x".toList, 0), ("deux".toList, 7)] (by decide +kernel)
        (by decide +kernel)
    else if r = demoTag3 then
      ofList [("x".toList, 10), ("three".toList, 10)] (by decide +kernel) (by decide +kernel)
    else ofList [] (by decide +kernel) (by decide +kernel)
  tagPath x y := line x y
  verbPath r y := (line r y, y)
  tagOne _ := some demoTag1

example : (List.range 6).map (answers demoLattice) =
    [some ("a".toList, 1, 0), some ("b".toList, 2, 1), some ("c".toList, 2, 2),
      some ("d".toList, 5, 3), none, none] := by decide +kernel

example : (normalize demo 20 "q".toList (.int 4)).map Except.toOption =
    some (some (.many ["two".toList, "x".toList, "three".toList, "deux".toList])) := by
  decide +kernel

example : ((normalizeWithMapping demo 20 "q".toList (.int 1)).map Except.toOption) =
    some (some (.one ⟨"q".toList, "two".toList,
      [⟨.replace, "a".toList, 0, 1, 0, 3, "q".toList, "two".toList⟩]⟩)) := by decide +kernel

end Verif.NBest
