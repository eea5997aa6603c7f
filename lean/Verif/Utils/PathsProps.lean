import Verif.Utils.Paths

/-
Property C97: resource paths of inverse text normalization stay in the package.
-/

namespace Verif.Utils

/-! ### What is meant -/

/-- A name of a file or directory. -/
def IsPart (a : Str) : Prop := a ≠ [] ∧ '/' ∉ a ∧ a ≠ ['.'] ∧ a ≠ ['.', '.']

/-- The absolute path with these parts. -/
def absolute : List Str → Str
  | [] => ['/']
  | [a] => '/' :: a
  | a :: b :: l => '/' :: (a ++ absolute (b :: l))

/-- The relative path with these parts. -/
def relative : List Str → Str
  | [] => []
  | [a] => a
  | a :: b :: l => a ++ '/' :: relative (b :: l)

/-! ### Reading and writing -/

theorem splitSlash_one {a : Str} (h : '/' ∉ a) : splitSlash a = [a] := by
  induction a with
  | nil => rfl
  | cons c a ih =>
    have hc : c ≠ '/' := fun e => h (by simp [e])
    rw [splitSlash, if_neg hc, ih fun e => h (by simp [e])]

theorem splitSlash_more {a s : Str} (h : '/' ∉ a) : splitSlash (a ++ '/' :: s) = a :: splitSlash s := by
  induction a with
  | nil => simp [splitSlash]
  | cons c a ih =>
    have hc : c ≠ '/' := fun e => h (by simp [e])
    rw [List.cons_append, splitSlash, if_neg hc, ih fun e => h (by simp [e])]

theorem split_relative {l : List Str} (hne : l ≠ []) (h : ∀ a ∈ l, '/' ∉ a) : splitSlash (relative l) = l := by
  fun_induction relative l with
  | case1 => exact absurd rfl hne
  | case2 a => exact splitSlash_one (h a (by simp))
  | case3 a b l ih =>
    rw [splitSlash_more (h a (by simp)), ih (by simp) fun c hc => h c (List.mem_cons_of_mem _ hc)]

/-- A part or `..`. -/
def IsStep (a : Str) : Prop := a ≠ [] ∧ '/' ∉ a ∧ a ≠ ['.']

theorem parts_relative {l : List Str} (h : ∀ a ∈ l, IsStep a) : partsOf (relative l) = l := by
  cases l with
  | nil => decide
  | cons a l =>
    unfold partsOf
    rw [split_relative (by simp) fun a ha => (h a ha).2.1, List.filter_eq_self]
    intro b hb
    simp [(h b hb).1, (h b hb).2.2]

theorem relative_head {l : List Str} (h : ∀ a ∈ l, IsStep a) : (relative l).head? ≠ some '/' := by
  cases l with
  | nil => simp [relative]
  | cons a l =>
    obtain ⟨h1, h2, -⟩ := h a (by simp)
    cases a with
    | nil => exact absurd rfl h1
    | cons c a =>
      have : c ≠ '/' := fun e => h2 (by simp [e])
      cases l <;> simpa [relative] using this

theorem join_relative {root l : List Str} (h : ∀ a ∈ l, IsStep a) : joinPath root (relative l) = root ++ l := by
  unfold joinPath
  rw [if_neg (relative_head h), parts_relative h]

theorem show_absolute (p : List Str) : showPath p = absolute p := by
  fun_induction absolute p with
  | case1 => rfl
  | case2 a => simp [showPath, List.intercalate]
  | case3 a b l ih =>
    rw [← ih]
    simp [showPath, List.intercalate]

theorem part_step {a : Str} (h : IsPart a) : IsStep a := ⟨h.1, h.2.1, h.2.2.1⟩

theorem walk_parts {q l : List Str} (h : ∀ a ∈ l, IsPart a) : l.foldl walk q = q ++ l := by
  induction l generalizing q with
  | nil => simp
  | cons a l ih =>
    rw [List.foldl_cons, walk, if_neg (h a (by simp)).2.2.2, ih fun b hb => h b (by simp [hb])]
    simp

theorem walk_up {q : List Str} {k : Nat} : (List.replicate k ['.', '.']).foldl walk q = q.take (q.length - k) := by
  induction k generalizing q with
  | zero => simp
  | succ k ih =>
    rw [List.replicate_succ, List.foldl_cons, walk, if_pos rfl, ih, List.dropLast_eq_take, List.take_take]
    congr 1
    simp
    omega

/-- More names than `..` in every first part: the path never leaves where it started. -/
def Below (l : List Str) : Prop := ∀ k, (l.take k).count ['.', '.'] ≤ (l.take k).countP (· != ['.', '.'])

theorem walk_below {root : List Str} {l u : List Str}
    (h : ∀ k, (l.take k).count ['.', '.'] ≤ u.length + (l.take k).countP (· != ['.', '.'])) :
    ∃ u', l.foldl walk (root ++ u) = root ++ u' := by
  induction l generalizing u with
  | nil => exact ⟨u, rfl⟩
  | cons a l ih =>
    rw [List.foldl_cons, walk]
    split
    · next ha =>
      subst ha
      have hu : u ≠ [] := by
        rintro rfl
        have := h 1
        simp at this
      rw [List.dropLast_append_of_ne_nil hu]
      refine ih fun k => ?_
      have := h (k + 1)
      have hl := List.length_pos_iff.2 hu
      simp [List.take_succ_cons] at this ⊢
      omega
    · next ha =>
      rw [List.append_assoc]
      refine ih fun k => ?_
      have := h (k + 1)
      simp [List.take_succ_cons, ha] at this ⊢
      omega

/-! ### C97 -/

/-- **C97.** Whatever the path and whatever symbolic links there are, a returned path is the resolved one and is below the
package. -/
theorem C97_inside {resolve : List Str → List Str} {root : List Str} {rel s : Str} (h : getAbsPath resolve root rel = some s) :
    ∃ l, resolve (joinPath root rel) = root ++ l ∧ s = absolute (root ++ l) := by
  unfold getAbsPath at h
  split at h
  · next hp =>
    obtain ⟨l, hl⟩ := List.isPrefixOf_iff_prefix.1 hp
    refine ⟨l, hl.symm, ?_⟩
    rw [hl, ← show_absolute]
    exact (Option.some.inj h).symm
  · exact nomatch h

/-- **C97.** A path of names is found in the package, if nothing on it is a symbolic link. -/
theorem C97_names {resolve : List Str → List Str} {root l : List Str} (h : ∀ a ∈ l, IsPart a) (hr : resolve (root ++ l) = root ++ l) :
    getAbsPath resolve root (relative l) = some (absolute (root ++ l)) := by
  unfold getAbsPath
  rw [join_relative fun a ha => part_step (h a ha), hr, if_pos (List.isPrefixOf_iff_prefix.2 ⟨l, rfl⟩), show_absolute]

/-- **C97.** A path that never goes above the package is not refused. -/
theorem C97_below {root l : List Str} (hroot : ∀ a ∈ root, IsPart a) (h : ∀ a ∈ l, IsStep a) (hb : Below l) :
    ∃ l', getAbsPath lexical root (relative l) = some (absolute (root ++ l')) := by
  obtain ⟨l', hl'⟩ := walk_below (root := root) (l := l) (u := []) (by simpa [Below] using hb)
  refine ⟨l', ?_⟩
  have e : lexical (root ++ l) = root ++ l' := by
    unfold lexical
    rw [List.foldl_append, walk_parts hroot, List.nil_append]
    simpa using hl'
  unfold getAbsPath
  rw [join_relative h, e, if_pos (List.isPrefixOf_iff_prefix.2 ⟨l', rfl⟩), show_absolute]

/-- **C97.** A path that goes up out of the package is refused, unless it comes back by the names it went up. -/
theorem C97_up {root l : List Str} {k : Nat} (hroot : ∀ a ∈ root, IsPart a) (hl : ∀ a ∈ l, IsPart a) :
    (getAbsPath lexical root (relative (List.replicate k ['.', '.'] ++ l))).isSome ↔ root.drop (root.length - k) <+: l := by
  have hs : ∀ a ∈ List.replicate k ['.', '.'] ++ l, IsStep a := by
    intro a ha
    rcases List.mem_append.1 ha with ha | ha
    · rw [List.eq_of_mem_replicate ha]
      exact ⟨by simp, by simp, by simp⟩
    · exact part_step (hl a ha)
  have e : lexical (root ++ (List.replicate k ['.', '.'] ++ l)) = root.take (root.length - k) ++ l := by
    unfold lexical
    rw [List.foldl_append, walk_parts hroot, List.nil_append, List.foldl_append, walk_up, walk_parts hl]
  unfold getAbsPath
  rw [join_relative hs, e]
  have key : root <+: root.take (root.length - k) ++ l ↔ root.drop (root.length - k) <+: l := by
    have := List.prefix_append_right_inj (l₁ := root.drop (root.length - k)) (l₂ := l) (root.take (root.length - k))
    rwa [List.take_append_drop] at this
  rw [← key, ← List.isPrefixOf_iff_prefix]
  split <;> simp_all

/-- **C97.** An absolute path is accepted exactly if it is in the package. -/
theorem C97_absolute {root l : List Str} (hl : ∀ a ∈ l, IsPart a) :
    (getAbsPath lexical root (absolute l)).isSome ↔ root <+: l := by
  have e : joinPath root (absolute l) = l := by
    have hr : absolute l = '/' :: relative l := by
      fun_induction relative l with
      | case1 => rfl
      | case2 a => rfl
      | case3 a b l ih => rw [absolute, ih fun c hc => hl c (List.mem_cons_of_mem _ hc)]
    have h1 := parts_relative fun a ha => part_step (hl a ha)
    unfold joinPath
    rw [hr, if_pos (by simp)]
    unfold partsOf at h1 ⊢
    rw [splitSlash, if_pos rfl, List.filter_cons_of_neg (by simp), h1]
  have e2 : lexical l = l := by
    unfold lexical
    rw [walk_parts hl, List.nil_append]
  unfold getAbsPath
  rw [e, e2, ← List.isPrefixOf_iff_prefix]
  split <;> simp_all

example : getAbsPath lexical ["lib".toList, "itn".toList] "english/data/../currency.tsv".toList = some "/lib/itn/english/currency.tsv".toList := by decide
example : getAbsPath lexical ["lib".toList, "itn".toList] "../tn/x.tsv".toList = none := by decide
example : getAbsPath lexical ["lib".toList, "itn".toList] "/etc/passwd".toList = none := by decide
example : Below ["a".toList, "..".toList, "b".toList] := by
  intro k
  rcases k with _ | _ | _ | k <;> simp

end Verif.Utils
