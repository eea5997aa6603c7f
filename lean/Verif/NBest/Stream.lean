import Verif.NBest.Model
import Mathlib.Tactic.Linarith

namespace Verif.NBest
open Verif.Token (Str)

variable {W : Type} [LinearOrder W]

theorem collect_sublist (yielded seen : List Str) (l : List (Str × W)) :
    (collect yielded seen l).Sublist l := by
  induction l generalizing seen with
  | nil => simp [collect]
  | cons q l ih =>
    obtain ⟨x, w⟩ := q
    unfold collect
    split
    · exact (ih _).cons_cons _
    · exact (ih _).cons _

/-- What holds of a stream between calls. -/
structure Stream.Inv (s : Stream W) : Prop where
  yNodup : s.yielded.Nodup
  rank : s.nextRank = s.yielded.length
  yLe : ∀ x ∈ s.yielded, ∀ v, s.lattice.best x = some v → ∀ y, y ∉ s.yielded → ∀ w,
    s.lattice.best y = some w → v ≤ w
  iSound : ∀ p ∈ s.items, s.lattice.best p.1 = some p.2
  iNodup : (s.items.map Prod.fst).Nodup
  iSorted : s.items.Pairwise fun p q => p.2 ≤ q.2
  iNotY : ∀ p ∈ s.items, p.1 ∉ s.yielded
  iRest : ∀ x w, s.lattice.best x = some w → x ∉ s.yielded → (x, w) ∉ s.items →
    ∀ p ∈ s.items, p.2 ≤ w
  all : s.exhausted = true → ∀ x w, s.lattice.best x = some w → x ∈ s.yielded ∨ (x, w) ∈ s.items

theorem Stream.Inv.start (L : Lattice W) : ({ lattice := L } : Stream W).Inv := by
  constructor <;> simp

theorem expand_lattice (s : Stream W) : s.expand.lattice = s.lattice := by
  unfold Stream.expand; split <;> rfl

theorem Stream.Inv.expand {s : Stream W} (h : s.Inv) : s.expand.Inv := by
  unfold Stream.expand
  split
  · exact h
  · generalize hl : (if s.limit = 0 then 1 else s.limit * 2) = n
    have hn := s.lattice.nodup n
    have hm := fun p => mem_collect s.yielded [] (s.lattice.shortest n) p hn (by simp)
    have hsub := collect_sublist s.yielded [] (s.lattice.shortest n)
    constructor
    · exact h.yNodup
    · exact h.rank
    · exact h.yLe
    · intro p hp
      exact s.lattice.sound n p ((hm p).1 hp).1
    · exact (hsub.map Prod.fst).nodup hn
    · exact (s.lattice.sorted n).sublist hsub
    · intro p hp
      exact ((hm p).1 hp).2
    · intro x w hx hy hi p hp
      refine s.lattice.lightest n x w p hx ?_ ((hm p).1 hp).1
      intro hc
      exact hi ((hm _).2 ⟨hc, hy⟩)
    · intro he x w hx
      simp only [decide_eq_true_eq] at he
      by_cases hy : x ∈ s.yielded
      · exact .inl hy
      · exact .inr ((hm _).2 ⟨s.lattice.complete n x w he hx, hy⟩)

theorem peekLoop_induction {P : Stream W → Prop} (hexp : ∀ s, P s → P s.expand) (s : Stream W)
    (h : P s) : P s.peekLoop := by
  fun_induction Stream.peekLoop s with
  | case1 s h1 h2 _ ih => exact ih (hexp _ h)
  | case2 s h1 h2 => exact hexp _ h
  | case3 s h1 => exact h

theorem Stream.Inv.peekLoop {s : Stream W} (h : s.Inv) : s.peekLoop.Inv :=
  peekLoop_induction (P := Stream.Inv) (fun _ => Stream.Inv.expand) s h

theorem peekLoop_lattice (s : Stream W) : s.peekLoop.lattice = s.lattice :=
  peekLoop_induction (P := fun t => t.lattice = s.lattice)
    (fun t h => (expand_lattice t).trans h) s rfl

theorem peekLoop_yielded (s : Stream W) : s.peekLoop.yielded = s.yielded :=
  peekLoop_induction (P := fun t => t.yielded = s.yielded)
    (fun t h => (expand_yielded t).trans h) s rfl

theorem peekLoop_nextRank (s : Stream W) : s.peekLoop.nextRank = s.nextRank :=
  peekLoop_induction (P := fun t => t.nextRank = s.nextRank)
    (fun t h => by unfold Stream.expand; split <;> exact h) s rfl

theorem peekLoop_done (s : Stream W) (h : s.peekLoop.items = []) : s.peekLoop.exhausted = true := by
  fun_induction Stream.peekLoop s with
  | case1 s h1 h2 _ ih => exact ih h
  | case2 s h1 h2 =>
    by_contra hc
    exact h2 ⟨h, by simpa using hc⟩
  | case3 s h1 =>
    by_contra hc
    exact h1 ⟨h, by simpa using hc⟩

theorem peekLoop_peekLoop (s : Stream W) : s.peekLoop.peekLoop = s.peekLoop := by
  have h := peekLoop_done s
  generalize s.peekLoop = t at h
  unfold Stream.peekLoop
  rw [if_neg]
  rintro ⟨h1, h2⟩
  rw [h h1] at h2
  cases h2

theorem peek_snd (s : Stream W) : s.peek.2 = s.peekLoop := by
  unfold Stream.peek
  simp only
  split <;> rfl

theorem pop_eq_peek (s : Stream W) : s.pop.1 = s.peek.1 := by
  unfold Stream.pop
  split <;> rename_i h <;> simp [h]

/-- `peek` and `pop` only depend on the stream after the loop of `peek`. -/
theorem peek_congr {s t : Stream W} (h : s.peekLoop = t.peekLoop) : s.peek = t.peek := by
  unfold Stream.peek; rw [h]

theorem pop_congr {s t : Stream W} (h : s.peekLoop = t.peekLoop) : s.pop = t.pop := by
  unfold Stream.pop; rw [peek_congr h]

/-- The stream after `k` calls of `pop`. -/
def after (L : Lattice W) : Nat → Stream W
  | 0 => { lattice := L }
  | k + 1 => (after L k).pop.2

/-- The answer of the `k`-th call of `pop` (counted from 0). -/
def results (L : Lattice W) (k : Nat) : Option (WeightedOutput W) := (after L k).pop.1

theorem pop_spec (s : Stream W) (h : s.Inv) :
    (s.pop.1 = none ∧ s.pop.2.Inv ∧ s.pop.2.yielded = s.yielded ∧ s.pop.2.lattice = s.lattice ∧
      (∀ x w, s.lattice.best x = some w → x ∈ s.yielded) ∧ s.pop.2.pop.1 = none) ∨
    (∃ o, s.pop.1 = some o ∧ s.pop.2.Inv ∧ s.pop.2.yielded = o.text :: s.yielded ∧
      s.pop.2.lattice = s.lattice ∧ o.rank = s.yielded.length ∧ o.text ∉ s.yielded ∧
      s.lattice.best o.text = some o.weight ∧
      ∀ x w, s.lattice.best x = some w → w < o.weight → x ∈ s.yielded) := by
  have hp := h.peekLoop
  have hd := peekLoop_done s
  have hl := peekLoop_lattice s
  have hy := peekLoop_yielded s
  have hpp := peekLoop_peekLoop s
  unfold Stream.pop Stream.peek
  simp only
  generalize s.peekLoop = t at *
  cases hi : t.items with
  | nil =>
    left
    simp only
    refine ⟨trivial, hp, hy, hl, ?_, ?_⟩
    · intro x w hx
      rw [← hy]
      rcases hp.all (hd hi) x w (by rw [hl]; exact hx) with h' | h'
      · exact h'
      · rw [hi] at h'; cases h'
    · rw [hpp, hi]
  | cons q rest =>
    obtain ⟨x, w⟩ := q
    right
    simp only
    refine ⟨⟨x, w, t.nextRank⟩, rfl, ?_, by rw [hy], hl, by rw [hp.rank, hy], ?_, ?_, ?_⟩
    · have hxs : t.lattice.best x = some w := hp.iSound (x, w) (by rw [hi]; simp)
      have hxy : x ∉ t.yielded := hp.iNotY (x, w) (by rw [hi]; simp)
      have hnd := hp.iNodup
      have hso := hp.iSorted
      rw [hi] at hnd hso
      rw [List.map_cons, List.nodup_cons] at hnd
      rw [List.pairwise_cons] at hso
      have hmin : ∀ y, y ∉ t.yielded → ∀ v, t.lattice.best y = some v → w ≤ v := by
        intro y hy v hv
        by_cases hc : (y, v) ∈ t.items
        · rw [hi] at hc
          rcases List.mem_cons.1 hc with hc | hc
          · cases hc; exact le_refl _
          · exact hso.1 _ hc
        · exact hp.iRest y v hv hy hc (x, w) (by rw [hi]; simp)
      have hdrop : t.items.drop 1 = rest := by rw [hi]; rfl
      constructor
      · simp only [List.nodup_cons]
        exact ⟨hxy, hp.yNodup⟩
      · simp [hp.rank]
      · intro z hz v hv y hy' u hu
        simp only [List.mem_cons, not_or] at hz hy'
        rcases hz with rfl | hz
        · rw [hxs] at hv
          cases hv
          exact hmin y hy'.2 u hu
        · exact hp.yLe z hz v hv y hy'.2 u hu
      · intro p hp'
        refine hp.iSound p ?_
        rw [hi]
        exact List.mem_cons_of_mem _ (hdrop ▸ hp')
      · simp only [hdrop]; exact hnd.2
      · simp only [hdrop]; exact hso.2
      · intro p hp' hc
        have hp'' : p ∈ rest := hdrop ▸ hp'
        rcases List.mem_cons.1 hc with hc | hc
        · exact hnd.1 (List.mem_map.2 ⟨p, hp'', hc⟩)
        · exact hp.iNotY p (by rw [hi]; exact List.mem_cons_of_mem _ hp'') hc
      · intro z v hz hzy hzi p hp'
        simp only [List.mem_cons, not_or, hdrop] at hzy hzi hp'
        refine hp.iRest z v hz hzy.2 ?_ p (by rw [hi]; exact List.mem_cons_of_mem _ hp')
        rw [hi]
        intro hc
        rcases List.mem_cons.1 hc with hc | hc
        · cases hc; exact hzy.1 rfl
        · exact hzi hc
      · intro he z v hz
        simp only [List.mem_cons, hdrop]
        rcases hp.all he z v hz with h' | h'
        · exact .inl (.inr h')
        · rw [hi] at h'
          rcases List.mem_cons.1 h' with h' | h'
          · cases h'; exact .inl (.inl rfl)
          · exact .inr h'
    · rw [← hy]; exact hp.iNotY (x, w) (by rw [hi]; simp)
    · rw [← hl]; exact hp.iSound (x, w) (by rw [hi]; simp)
    · intro z v hz hlt
      simp only at hlt
      rw [← hl] at hz
      rw [← hy]
      by_contra hc
      by_cases hzi : (z, v) ∈ t.items
      · have hso := hp.iSorted
        rw [hi] at hzi hso
        rw [List.pairwise_cons] at hso
        rcases List.mem_cons.1 hzi with h' | h'
        · cases h'; exact lt_irrefl _ hlt
        · exact absurd (hso.1 _ h') (not_le.2 hlt)
      · exact absurd (hp.iRest z v hz hc hzi (x, w) (by rw [hi]; simp)) (not_le.2 hlt)

theorem after_inv (L : Lattice W) (k : Nat) : (after L k).Inv ∧ (after L k).lattice = L := by
  induction k with
  | zero => exact ⟨Stream.Inv.start L, rfl⟩
  | succ k ih =>
    rcases pop_spec _ ih.1 with h | ⟨o, h⟩
    · exact ⟨h.2.1, h.2.2.2.1.trans ih.2⟩
    · exact ⟨h.2.1, h.2.2.2.1.trans ih.2⟩

theorem results_none_succ (L : Lattice W) (k : Nat) (h : results L k = none) :
    results L (k + 1) = none := by
  rcases pop_spec _ (after_inv L k).1 with h' | ⟨o, h'⟩
  · exact h'.2.2.2.2.2
  · unfold results at h
    rw [h] at h'
    cases h'.1

theorem results_none_le (L : Lattice W) (k j : Nat) (h : results L k = none) (hkj : k ≤ j) :
    results L j = none := by
  induction j, hkj using Nat.le_induction with
  | base => exact h
  | succ j _ ih => exact results_none_succ L j ih

theorem mem_yielded (L : Lattice W) (k : Nat) (x : Str) :
    x ∈ (after L k).yielded ↔ ∃ j, j < k ∧ ∃ o, results L j = some o ∧ o.text = x := by
  induction k with
  | zero => simp [after]
  | succ k ih =>
    rcases pop_spec _ (after_inv L k).1 with h | ⟨o, h⟩
    · show x ∈ (after L k).pop.2.yielded ↔ _
      rw [h.2.2.1, ih]
      constructor
      · rintro ⟨j, hj, r⟩; exact ⟨j, by omega, r⟩
      · rintro ⟨j, hj, o, ho, hx⟩
        refine ⟨j, ?_, o, ho, hx⟩
        rcases Nat.lt_succ_iff_lt_or_eq.1 hj with hj | rfl
        · exact hj
        · unfold results at ho
          rw [h.1] at ho; cases ho
    · show x ∈ (after L k).pop.2.yielded ↔ _
      rw [h.2.2.1, List.mem_cons, ih]
      constructor
      · rintro (rfl | ⟨j, hj, r⟩)
        · exact ⟨k, by omega, o, h.1, rfl⟩
        · exact ⟨j, by omega, r⟩
      · rintro ⟨j, hj, o', ho, hx⟩
        rcases Nat.lt_succ_iff_lt_or_eq.1 hj with hj | rfl
        · exact .inr ⟨j, hj, o', ho, hx⟩
        · unfold results at ho
          rw [h.1] at ho
          cases ho
          exact .inl hx.symm

theorem length_yielded (L : Lattice W) (k : Nat) (o : WeightedOutput W)
    (h : results L k = some o) : (after L k).yielded.length = k := by
  induction k generalizing o with
  | zero => rfl
  | succ k ih =>
    cases hk : results L k with
    | none => rw [results_none_succ L k hk] at h; cases h
    | some o' =>
      rcases pop_spec _ (after_inv L k).1 with h' | ⟨o'', h'⟩
      · unfold results at hk; rw [h'.1] at hk; cases hk
      · show (after L k).pop.2.yielded.length = _
        rw [h'.2.2.1, List.length_cons, ih o' hk]

end Verif.NBest
