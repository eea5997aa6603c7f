import Verif.Cpp.Lemmas
import Mathlib.Data.List.Infix

/-! Lemmas on `Trim`, `Split`, `find` and the pipeline choice. -/

namespace Verif.Cpp

def isWs (b : UInt8) : Bool := whitespace.contains b

theorem findIdx?_drop {α : Type*} (p : α → Bool) (l : List α) :
    (match l.findIdx? (fun b => !p b) with
      | none => []
      | some i => l.drop i) = l.dropWhile p := by
  induction l with
  | nil => rfl
  | cons a l ih =>
    rw [List.findIdx?_cons]
    cases h : p a with
    | true =>
      rw [List.dropWhile_cons_of_pos h, ← ih]
      cases l.findIdx? (fun b => !p b) <;> simp
    | false =>
      rw [List.dropWhile_cons_of_neg (by simp [h])]
      simp

theorem ltrim_eq (s : Bytes) : ltrim s = s.dropWhile isWs := by
  unfold ltrim
  exact findIdx?_drop isWs s

theorem rtrim_eq (s : Bytes) : rtrim s = (s.reverse.dropWhile isWs).reverse := by
  unfold rtrim
  rw [← findIdx?_drop isWs s.reverse]
  unfold isWs
  cases h : s.reverse.findIdx? (fun b => !whitespace.contains b) with
  | none => rfl
  | some i =>
    have hi : i < s.reverse.length := by
      obtain ⟨h1, _⟩ := List.findIdx?_eq_some_iff_getElem.1 h
      exact h1
    rw [List.length_reverse] at hi
    dsimp only
    have : s.length - 1 - i + 1 = s.length - i := by omega
    rw [this, List.drop_reverse, List.reverse_reverse]

theorem dropWhile_split {α : Type*} (p : α → Bool) (l : List α) :
    ∃ a, l = a ++ l.dropWhile p ∧ ∀ x ∈ a, p x = true :=
  ⟨l.takeWhile p, List.takeWhile_append_dropWhile.symm, fun _ hx => List.mem_takeWhile_imp hx⟩

theorem dropWhile_head {α : Type*} (p : α → Bool) (l : List α) :
    ∀ x, (l.dropWhile p).head? = some x → p x = false := by
  intro x hx
  have := List.head?_dropWhile_not p l
  rw [hx] at this
  simpa using this

theorem trim_spec (s : Bytes) :
    ∃ a b, s = a ++ trim s ++ b ∧ (∀ x ∈ a, isWs x = true) ∧ (∀ x ∈ b, isWs x = true) ∧
      (∀ x, (trim s).head? = some x → isWs x = false) ∧
      (∀ x, (trim s).getLast? = some x → isWs x = false) := by
  unfold trim
  rw [rtrim_eq, ltrim_eq]
  obtain ⟨a, ha, ha'⟩ := dropWhile_split isWs s
  have hh := dropWhile_head isWs s
  generalize s.dropWhile isWs = u at *
  obtain ⟨b, hb, hb'⟩ := dropWhile_split isWs u.reverse
  have hl := dropWhile_head isWs u.reverse
  generalize u.reverse.dropWhile isWs = v at *
  have hu : u = v.reverse ++ b.reverse := by
    rw [← List.reverse_append, ← hb, List.reverse_reverse]
  refine ⟨a, b.reverse, ?_, ha', ?_, ?_, ?_⟩
  · rw [ha, hu]; simp
  · intro x hx; exact hb' x (by simpa using hx)
  · intro x hx
    apply hh x
    rw [hu]
    cases hv : v.reverse with
    | nil => simp [hv] at hx
    | cons y ys => rw [hv] at hx; simpa using hx
  · intro x hx
    apply hl x
    simpa using hx

theorem dropWhile_append_of_all {α : Type*} {p : α → Bool} {a l : List α}
    (ha : ∀ x ∈ a, p x = true) (hl : ∀ x, l.head? = some x → p x = false) :
    (a ++ l).dropWhile p = l := by
  induction a with
  | nil =>
    cases l with
    | nil => rfl
    | cons x l => rw [List.nil_append, List.dropWhile_cons_of_neg]; simp [hl x rfl]
  | cons x a ih =>
    rw [List.cons_append, List.dropWhile_cons_of_pos (ha x (by simp))]
    exact ih fun x hx => ha x (by simp [hx])

theorem trim_unique {s a t b : Bytes} (h : s = a ++ t ++ b) (ha : ∀ x ∈ a, isWs x = true)
    (hb : ∀ x ∈ b, isWs x = true) (hh : ∀ x, t.head? = some x → isWs x = false)
    (hl : ∀ x, t.getLast? = some x → isWs x = false) : trim s = t := by
  unfold trim
  rw [rtrim_eq, ltrim_eq, h]
  cases ht : t with
  | nil =>
    have : ∀ x ∈ (a ++ [] ++ b), isWs x = true := by
      intro x hx
      rcases List.mem_append.1 hx with hx | hx
      · exact ha x (by simpa using hx)
      · exact hb x hx
    have := dropWhile_append_of_all (l := []) this (by simp)
    rw [List.append_nil] at this
    rw [this]
    rfl
  | cons c t' =>
    rw [← ht, List.append_assoc, dropWhile_append_of_all ha]
    · rw [List.reverse_append, dropWhile_append_of_all]
      · simp
      · intro x hx; exact hb x (by simpa using hx)
      · intro x hx; exact hl x (by simpa using hx)
    · intro x hx
      apply hh x
      rw [ht] at hx ⊢
      simpa using hx

/-! ### find and split -/

theorem find_some {d s : Bytes} {p : Nat} (h : find d s = some p) :
    s = s.take p ++ d ++ s.drop (p + d.length) := by
  induction s generalizing p with
  | nil =>
    unfold find at h
    split at h
    · rename_i hd; cases h; simp [hd]
    · cases h
  | cons b s ih =>
    unfold find at h
    split at h
    · rename_i hp
      cases h
      obtain ⟨r, hr⟩ := List.isPrefixOf_iff_prefix.1 hp
      rw [← hr]; simp
    · rw [Option.map_eq_some_iff] at h
      obtain ⟨q, hq, rfl⟩ := h
      have := ih hq
      rw [List.take_succ_cons, Nat.add_right_comm, List.drop_succ_cons]
      simp only [List.cons_append]
      rw [← this]

/-- `find` returns the first occurrence. -/
theorem find_first {d s : Bytes} {p : Nat} (h : find d s = some p) {a r : Bytes}
    (hs : s = a ++ d ++ r) : p ≤ a.length := by
  induction s generalizing p a with
  | nil =>
    unfold find at h
    split at h
    · cases h; exact Nat.zero_le _
    · cases h
  | cons b s ih =>
    unfold find at h
    split at h
    · cases h; exact Nat.zero_le _
    · rename_i hp
      rw [Option.map_eq_some_iff] at h
      obtain ⟨q, hq, rfl⟩ := h
      cases a with
      | nil =>
        exfalso
        apply hp
        rw [hs]
        exact List.isPrefixOf_iff_prefix.2 ⟨r, by simp⟩
      | cons x a =>
        rw [List.cons_append, List.cons_append, List.cons.injEq] at hs
        have := ih hq hs.2
        simp only [List.length_cons]
        omega

theorem find_none_iff {d s : Bytes} : find d s = none ↔ ¬ d <:+: s := by
  induction s with
  | nil =>
    unfold find
    split
    · rename_i hd; simp [hd]
    · rename_i hd; simp [hd]
  | cons b s ih =>
    unfold find
    split
    · rename_i hp
      simp only [reduceCtorEq, false_iff, not_not]
      exact (List.isPrefixOf_iff_prefix.1 hp).isInfix
    · rename_i hp
      rw [Option.map_eq_none_iff, ih, List.infix_cons_iff, not_or]
      constructor
      · exact fun h => ⟨fun h' => hp (List.isPrefixOf_iff_prefix.2 h'), h⟩
      · exact fun h => h.2

theorem find_isSome_iff {d s : Bytes} : (find d s).isSome = true ↔ d <:+: s := by
  rw [← not_iff_not, ← find_none_iff]
  simp

theorem split_none {d s : Bytes} {hd : d ≠ []} (h : find d s = none) : split d hd s = [s] := by
  rw [split]; split <;> simp_all

theorem split_some {d s : Bytes} {hd : d ≠ []} {p : Nat} (h : find d s = some p) :
    split d hd s = s.take p :: split d hd (s.drop (p + d.length)) := by
  rw [split]; split <;> simp_all

theorem split_ne_nil (d : Bytes) (hd : d ≠ []) (s : Bytes) : split d hd s ≠ [] := by
  cases h : find d s with
  | none => rw [split_none h]; simp
  | some p => rw [split_some h]; simp

theorem intercalate_cons {α : Type*} {sep x : List α} {l : List (List α)} (h : l ≠ []) :
    sep.intercalate (x :: l) = x ++ sep ++ sep.intercalate l := by
  cases l with
  | nil => exact absurd rfl h
  | cons y l => simp [List.intercalate]

theorem split_spec (d : Bytes) (hd : d ≠ []) : ∀ (n : Nat) (s : Bytes), s.length ≤ n →
    d.intercalate (split d hd s) = s ∧ ∀ p ∈ split d hd s, ¬ d <:+: p := by
  have hpos := List.length_pos_iff.2 hd
  intro n
  induction n with
  | zero =>
    intro s hn
    obtain rfl : s = [] := by simpa using hn
    have : find d [] = none := find_none_iff.2 (by simpa using hd)
    rw [split_none this]
    exact ⟨by simp, by simpa using hd⟩
  | succ n ih =>
    intro s hn
    cases h : find d s with
    | none =>
      rw [split_none h]
      exact ⟨by simp, by simpa using find_none_iff.1 h⟩
    | some p =>
      have hle := find_le h
      have hs := find_some h
      obtain ⟨i1, i2⟩ := ih (s.drop (p + d.length)) (by rw [List.length_drop]; omega)
      rw [split_some h, intercalate_cons (split_ne_nil _ _ _), i1]
      refine ⟨hs.symm, ?_⟩
      intro q hq
      rcases List.mem_cons.1 hq with rfl | hq
      · rintro ⟨a, r, har⟩
        have hlen : (a ++ d ++ r).length = p := by rw [har, List.length_take]; omega
        have := find_first h (a := a) (r := r ++ d ++ s.drop (p + d.length)) (by
          conv_lhs => rw [hs, ← har]
          simp)
        simp only [List.length_append] at hlen
        omega
      · exact i2 q hq

/-! ### Paths -/

theorem infix_slash {m dir base : Bytes} {sl : UInt8} (hm : sl ∉ m)
    (h : m <:+: dir ++ sl :: base) : m <:+: dir ∨ m <:+: base := by
  obtain ⟨a, r, har⟩ := h
  rw [List.append_assoc] at har
  rcases List.append_eq_append_iff.1 har with ⟨c, h1, h2⟩ | ⟨c, h1, h2⟩
  · -- dir = a ++ c, m ++ r = c ++ sl :: base
    rcases List.append_eq_append_iff.1 h2 with ⟨e, h3, h4⟩ | ⟨e, h3, h4⟩
    · left
      rw [h1, h3]
      exact ⟨a, e, by simp⟩
    · cases e with
      | nil =>
        left
        rw [h1, h3]
        exact ⟨a, [], by simp⟩
      | cons x e =>
        exfalso
        simp only [List.cons_append, List.cons.injEq] at h4
        apply hm
        rw [h3, h4.1]
        simp
  · -- a = dir ++ c
    cases c with
    | nil =>
      cases m with
      | nil => left; exact List.nil_infix
      | cons y m =>
        exfalso
        simp only [List.nil_append, List.cons_append, List.cons.injEq] at h2
        apply hm
        rw [h2.1]
        simp
    | cons x c =>
      right
      simp only [List.cons_append, List.cons.injEq] at h2
      rw [h2.2]
      exact ⟨c, r, by simp⟩

end Verif.Cpp
