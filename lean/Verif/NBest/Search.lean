import Verif.NBest.Stream
import Mathlib.Algebra.Order.Group.Defs
import Mathlib.Algebra.Order.Sub.Defs
import Mathlib.Tactic.Abel

namespace Verif.NBest
open Verif.Token (Str)

variable {W : Type} [LinearOrder W]

theorem results_spec (L : Lattice W) (k : Nat) (o : WeightedOutput W) (h : results L k = some o) :
    o.rank = k ∧ L.best o.text = some o.weight ∧
      (∀ x w, L.best x = some w → w < o.weight → ∃ j, j < k ∧ ∃ b, results L j = some b ∧
        b.text = x) ∧ ¬ ∃ j, j < k ∧ ∃ b, results L j = some b ∧ b.text = o.text := by
  have hi := after_inv L k
  rcases pop_spec _ hi.1 with h' | ⟨o', h'⟩
  · unfold results at h; rw [h'.1] at h; cases h
  · have : o' = o := by
      unfold results at h; rw [h'.1] at h; exact Option.some.inj h
    subst this
    refine ⟨by rw [h'.2.2.2.2.1, length_yielded L k o' h], ?_, ?_, ?_⟩
    · rw [← hi.2]; exact h'.2.2.2.2.2.2.1
    · intro x w hx hw
      rw [← mem_yielded]
      exact h'.2.2.2.2.2.2.2 x w (by rw [hi.2]; exact hx) hw
    · rw [← mem_yielded]; exact h'.2.2.2.2.2.1

theorem results_all (L : Lattice W) (k : Nat) (h : results L k = none) (x : Str) (w : W)
    (hx : L.best x = some w) : ∃ j, j < k ∧ ∃ b, results L j = some b ∧ b.text = x := by
  have hi := after_inv L k
  rcases pop_spec _ hi.1 with h' | ⟨o', h'⟩
  · rw [← mem_yielded]
    exact h'.2.2.2.2.1 x w (by rw [hi.2]; exact hx)
  · unfold results at h; rw [h'.1] at h; cases h.symm

theorem results_sorted (L : Lattice W) (i j : Nat) (a b : WeightedOutput W) (hij : i ≤ j)
    (ha : results L i = some a) (hb : results L j = some b) : a.weight ≤ b.weight := by
  by_contra hc
  rw [not_le] at hc
  have h1 := results_spec L i a ha
  have h2 := results_spec L j b hb
  obtain ⟨k, hk, o, ho, hx⟩ := h1.2.2.1 b.text b.weight h2.2.1 hc
  exact h2.2.2.2 ⟨k, by omega, o, ho, hx⟩

theorem results_once (L : Lattice W) (i j : Nat) (a b : WeightedOutput W)
    (ha : results L i = some a) (hb : results L j = some b) (h : a.text = b.text) : i = j := by
  rcases Nat.lt_trichotomy i j with hlt | rfl | hlt
  · exact absurd ⟨i, hlt, a, ha, h⟩ (results_spec L j b hb).2.2.2
  · rfl
  · exact absurd ⟨j, hlt, b, hb, h.symm⟩ (results_spec L i a ha).2.2.2

variable [AddCommGroup W]

/-! ### Keys -/

theorem keyLt_irrefl (a : Key W) : ¬ keyLt a a := by
  unfold keyLt; simp

theorem keyLt_trans {a b c : Key W} (h1 : keyLt a b) (h2 : keyLt b c) : keyLt a c := by
  obtain ⟨a1, a2, a3⟩ := a
  obtain ⟨b1, b2, b3⟩ := b
  obtain ⟨c1, c2, c3⟩ := c
  unfold keyLt at *
  simp only at *
  rcases h1 with h1 | ⟨rfl, h1⟩
  · rcases h2 with h2 | ⟨rfl, h2⟩
    · exact .inl (h1.trans h2)
    · exact .inl h1
  · rcases h2 with h2 | ⟨rfl, h2⟩
    · exact .inl h2
    · right
      refine ⟨rfl, ?_⟩
      omega

theorem keyLt_asymm {a b : Key W} (h1 : keyLt a b) : ¬ keyLt b a :=
  fun h2 => keyLt_irrefl a (keyLt_trans h1 h2)

theorem keyLt_tri (a b : Key W) : keyLt a b ∨ a = b ∨ keyLt b a := by
  obtain ⟨a1, a2, a3⟩ := a
  obtain ⟨b1, b2, b3⟩ := b
  unfold keyLt
  simp only [Prod.mk.injEq]
  rcases lt_trichotomy a1 b1 with h | rfl | h
  · exact .inl (.inl h)
  · simp only [lt_irrefl, false_or, true_and]
    omega
  · exact .inr (.inr (.inl h))

theorem keyLt_of_not {a b c : Key W} (h1 : ¬ keyLt b a) (h2 : keyLt b c) : keyLt a c := by
  rcases keyLt_tri a b with h | rfl | h
  · exact keyLt_trans h h2
  · exact h2
  · exact absurd h h1

theorem keyLe_weight {a b : Key W} (h : ¬ keyLt b a) : a.1 ≤ b.1 := by
  by_contra hc
  exact h (.inl (not_le.1 hc))

theorem popMin_none (l : List (Entry W)) : popMin l = none ↔ l = [] := by
  cases l with
  | nil => simp [popMin]
  | cons e es =>
    simp only [popMin, reduceCtorEq, iff_false]
    split
    · simp
    · split <;> simp

theorem popMin_some (l : List (Entry W)) (e : Entry W) (rest : List (Entry W))
    (h : popMin l = some (e, rest)) :
    l.Perm (e :: rest) ∧ ∀ x ∈ rest, ¬ keyLt x.candidate.key e.candidate.key := by
  induction l generalizing e rest with
  | nil => simp [popMin] at h
  | cons a es ih =>
    unfold popMin at h
    cases hp : popMin es with
    | none =>
      rw [hp] at h
      simp only [Option.some.injEq, Prod.mk.injEq] at h
      obtain ⟨rfl, rfl⟩ := h
      rw [(popMin_none es).1 hp]
      exact ⟨.refl _, by simp⟩
    | some r =>
      obtain ⟨m, rest'⟩ := r
      rw [hp] at h
      simp only at h
      obtain ⟨h1, h2⟩ := ih m rest' hp
      split at h
      · rename_i hlt
        simp only [Option.some.injEq, Prod.mk.injEq] at h
        obtain ⟨rfl, rfl⟩ := h
        refine ⟨(h1.cons a).trans (.swap _ _ _), ?_⟩
        intro x hx
        rcases List.mem_cons.1 hx with rfl | hx
        · exact keyLt_asymm hlt
        · exact h2 x hx
      · rename_i hlt
        simp only [Option.some.injEq, Prod.mk.injEq] at h
        obtain ⟨rfl, rfl⟩ := h
        refine ⟨h1.cons a, ?_⟩
        intro x hx
        rcases List.mem_cons.1 hx with rfl | hx
        · exact hlt
        · intro hc
          rcases keyLt_tri m.candidate.key x.candidate.key with h' | h' | h'
          · exact hlt (keyLt_trans h' hc)
          · rw [← h'] at hc; exact hlt hc
          · exact h2 x hx h'

/-! ### Pairs of a tagging and a verbalization -/

section
variable (p : Pipeline W) (input : Str)

/-- The verbalizer's lattice for the `i`-th tagging. -/
def verbLattice (i : Nat) : Option (Lattice W) :=
  match results (p.tagger input) i with
  | none => none
  | some t =>
    match reorder p.orders t.text with
    | .error _ => none
    | .ok r => some (p.verbalizer r)

/-- The `j`-th verbalization of the `i`-th tagging as a candidate. -/
def cand (i j : Nat) : Option (Candidate W) :=
  match results (p.tagger input) i, verbLattice p input i with
  | some t, some L =>
    match results L j, results L 0 with
    | some v, some v0 => some ⟨t.text, v.text, t.weight, v.weight, v0.weight, i, j⟩
    | _, _ => none
  | _, _ => none

theorem cand_some {i j : Nat} {c : Candidate W} (h : cand p input i j = some c) :
    ∃ t L v v0, results (p.tagger input) i = some t ∧ verbLattice p input i = some L ∧
      results L j = some v ∧ results L 0 = some v0 ∧
      c = ⟨t.text, v.text, t.weight, v.weight, v0.weight, i, j⟩ := by
  unfold cand at h
  split at h
  · rename_i t L ht hL
    split at h
    · rename_i v v0 hv hv0
      exact ⟨t, L, v, v0, ht, hL, hv, hv0, (Option.some.inj h).symm⟩
    · cases h
  · cases h

theorem cand_mk {i j : Nat} {t L v v0} (ht : results (p.tagger input) i = some t)
    (hL : verbLattice p input i = some L) (hv : results L j = some v)
    (hv0 : results L 0 = some v0) :
    cand p input i j = some ⟨t.text, v.text, t.weight, v.weight, v0.weight, i, j⟩ := by
  unfold cand
  rw [ht, hL]
  simp only [hv, hv0]

theorem cand_down {i j j' : Nat} {c : Candidate W} (h : cand p input i j = some c) (hj : j' ≤ j) :
    ∃ c', cand p input i j' = some c' := by
  obtain ⟨t, L, v, v0, ht, hL, hv, hv0, rfl⟩ := cand_some p input h
  cases hv' : results L j' with
  | none => rw [results_none_le L j' j hv' hj] at hv; cases hv
  | some v' => exact ⟨_, cand_mk p input ht hL hv' hv0⟩

theorem cand_rank {i j : Nat} {c : Candidate W} (h : cand p input i j = some c) :
    c.taggerRank = i ∧ c.verbalizerRank = j := by
  obtain ⟨t, L, v, v0, ht, hL, hv, hv0, rfl⟩ := cand_some p input h
  exact ⟨rfl, rfl⟩

variable [IsOrderedAddMonoid W]

theorem cand_mono {i j j' : Nat} {c c' : Candidate W} (h : cand p input i j = some c)
    (h' : cand p input i j' = some c') (hj : j < j') : keyLt c.key c'.key := by
  obtain ⟨t, L, v, v0, ht, hL, hv, hv0, rfl⟩ := cand_some p input h
  obtain ⟨t', L', v', v0', ht', hL', hv', hv0', rfl⟩ := cand_some p input h'
  rw [ht] at ht'; cases ht'
  rw [hL] at hL'; cases hL'
  rw [hv0] at hv0'; cases hv0'
  have hle := results_sorted L j j' v v' hj.le hv hv'
  unfold keyLt Candidate.key Candidate.weight
  simp only
  have : t.weight + v.weight - v0.weight ≤ t.weight + v'.weight - v0.weight :=
    sub_le_sub_right (by gcongr) _
  rcases lt_or_eq_of_le this with hlt | heq
  · exact .inl hlt
  · exact .inr ⟨heq, .inr ⟨trivial, hj⟩⟩

theorem cand_mono' {i j j' : Nat} {c c' : Candidate W} (h : cand p input i j = some c)
    (h' : cand p input i j' = some c') (hj : j ≤ j') : ¬ keyLt c'.key c.key := by
  rcases Nat.lt_or_eq_of_le hj with hj | rfl
  · exact keyLt_asymm (cand_mono p input h h' hj)
  · rw [h] at h'; cases h'; exact keyLt_irrefl _

theorem cand_lower {i j : Nat} {c : Candidate W} {t} (h : cand p input i j = some c)
    (ht : results (p.tagger input) i = some t) : t.weight ≤ c.weight := by
  obtain ⟨t', L, v, v0, ht', hL, hv, hv0, rfl⟩ := cand_some p input h
  rw [ht] at ht'; cases ht'
  have hle := results_sorted L 0 j v0 v (Nat.zero_le _) hv0 hv
  unfold Candidate.weight
  simp only
  rw [add_sub_assoc]
  exact le_add_of_nonneg_right (sub_nonneg.2 hle)

/-! ### The loop invariant -/

/-- `a` taggings are activated, and of the `i`-th one `n i` verbalizations are processed. -/
structure SInv (a : Nat) (n : Nat → Nat) (s : Search W) : Prop where
  tagger : s.tagger.peekLoop = (after (p.tagger input) a).peekLoop
  active : ∀ i, i < a → ∃ L, verbLattice p input i = some L
  zero : ∀ i, a ≤ i → n i = 0
  entry : ∀ e ∈ s.frontier, e.candidate.taggerRank < a ∧
    cand p input e.candidate.taggerRank (n e.candidate.taggerRank) = some e.candidate ∧
    ∃ L, verbLattice p input e.candidate.taggerRank = some L ∧
      e.stream = after L (n e.candidate.taggerRank + 1)
  ranks : (s.frontier.map fun e => e.candidate.taggerRank).Nodup
  present : ∀ i, i < a → ∀ c, cand p input i (n i) = some c →
    ∃ e ∈ s.frontier, e.candidate.taggerRank = i
  done : ∀ i, i < a → ∀ j, j < n i → ∃ c, cand p input i j = some c
  before : ∀ i j c i' j' c', i < a → j < n i → cand p input i j = some c →
    cand p input i' j' = some c' → (a ≤ i' ∨ n i' ≤ j') → keyLt c.key c'.key
  bound : ∀ i j c t, i < a → j < n i → cand p input i j = some c →
    results (p.tagger input) a = some t → c.weight ≤ t.weight
  seen : s.seenOutputs = (s.candidates.map fun c => c.output).reverse
  nodup : (s.candidates.map fun c => c.output).Nodup
  source : ∀ c ∈ s.candidates, ∃ i, i < a ∧ ∃ j, j < n i ∧ cand p input i j = some c
  sorted : s.candidates.Pairwise fun c c' => keyLt c.key c'.key
  cover : ∀ i, i < a → ∀ j, j < n i → ∀ c, cand p input i j = some c →
    ∃ c' ∈ s.candidates, c'.output = c.output ∧ ¬ keyLt c.key c'.key

theorem SInv.start : SInv p input 0 (fun _ => 0) { tagger := { lattice := p.tagger input } } := by
  constructor <;> simp [after]

/-- The pair `(i, j)` is not processed yet. -/
def Open (a : Nat) (n : Nat → Nat) (i j : Nat) : Prop := a ≤ i ∨ n i ≤ j

theorem tags_down {i a : Nat} {t} (h : results (p.tagger input) i = some t) (ha : a ≤ i) :
    ∃ u, results (p.tagger input) a = some u ∧ u.weight ≤ t.weight := by
  cases hu : results (p.tagger input) a with
  | none => rw [results_none_le _ a i hu ha] at h; cases h
  | some u => exact ⟨u, rfl, results_sorted _ a i u t ha hu h⟩

theorem popMin_least {a n} {s : Search W} (h : SInv p input a n s) {e rest}
    (hp : popMin s.frontier = some (e, rest)) {i j c} (hi : i < a) (hj : n i ≤ j)
    (hc : cand p input i j = some c) : ¬ keyLt c.key e.candidate.key := by
  obtain ⟨c0, hc0⟩ := cand_down p input hc hj
  obtain ⟨e', he', hr⟩ := h.present i hi c0 hc0
  obtain ⟨hperm, hmin⟩ := popMin_some _ _ _ hp
  have h1 := (h.entry e' he').2.1
  rw [hr, hc0] at h1
  cases h1
  have h2 : ¬ keyLt e'.candidate.key e.candidate.key := by
    rcases List.mem_cons.1 (hperm.mem_iff.1 he') with h' | h'
    · rw [h']; exact keyLt_irrefl _
    · exact hmin e' h'
  intro hlt
  exact h2 (keyLt_of_not (cand_mono' p input hc0 hc hj) hlt)

/-- Taking an entry when no unseen tagging can be better. -/
theorem acceptEntry_inv {a n} {s : Search W} (h : SInv p input a n s) {e rest}
    (hp : popMin s.frontier = some (e, rest))
    (hnext : ∀ t, results (p.tagger input) a = some t → ¬ keyLt (t.weight, a, 0) e.candidate.key) :
    SInv p input a (Function.update n e.candidate.taggerRank (n e.candidate.taggerRank + 1))
      (acceptEntry s e rest) ∧
    (∀ i j c, cand p input i j = some c → Open a n i j → ¬ keyLt c.key e.candidate.key) := by
  obtain ⟨hperm, hmin⟩ := popMin_some _ _ _ hp
  have hmem : e ∈ s.frontier := hperm.mem_iff.2 (by simp)
  obtain ⟨hra, hrc, L, hrL, hrs⟩ := h.entry e hmem
  generalize hr : e.candidate.taggerRank = r at *
  have hopen : ∀ i j c, cand p input i j = some c → Open a n i j → (i = r ∧ j = n r) ∨
      keyLt e.candidate.key c.key := by
    intro i j c hc ho
    by_cases hia : i < a
    · have hj : n i ≤ j := by rcases ho with ho | ho <;> omega
      by_cases hir : i = r
      · subst hir
        rcases Nat.lt_or_eq_of_le hj with hj | hj
        · exact .inr (cand_mono p input hrc hc hj)
        · exact .inl ⟨rfl, hj.symm⟩
      · have h1 := popMin_least p input h hp hia hj hc
        rcases keyLt_tri c.key e.candidate.key with h2 | h2 | h2
        · exact absurd h2 h1
        · exfalso
          have h3 : c.taggerRank = e.candidate.taggerRank := congrArg (fun k => k.2.1) h2
          rw [(cand_rank p input hc).1, hr] at h3
          exact hir h3
        · exact .inr h2
    · right
      obtain ⟨t, L', v, v0, ht, _, _, _, hceq⟩ := cand_some p input hc
      obtain ⟨u, hu, hle⟩ := tags_down p input ht (Nat.not_lt.1 hia)
      have h1 := hnext u hu
      have h2 := cand_lower p input hc ht
      have h3 : e.candidate.weight ≤ u.weight := keyLe_weight h1
      have h4 := (cand_rank p input hc).1
      unfold keyLt
      rcases lt_or_eq_of_le (h3.trans (hle.trans h2)) with hlt | heq
      · exact .inl hlt
      · refine .inr ⟨heq, .inl ?_⟩
        show e.candidate.taggerRank < c.taggerRank
        rw [hr, h4]; omega
  have hother : ∀ x ∈ rest, x.candidate.taggerRank ≠ r := by
    have := (hperm.map fun e => e.candidate.taggerRank).nodup_iff.1 h.ranks
    rw [List.map_cons, List.nodup_cons, hr] at this
    intro x hx hxr
    exact this.1 (List.mem_map.2 ⟨x, hx, hxr⟩)
  refine ⟨?_, ?_⟩
  rotate_left
  · intro i j c hc ho hlt
    rcases hopen i j c hc ho with ⟨rfl, rfl⟩ | h'
    · rw [hrc] at hc; cases hc; exact keyLt_irrefl _ hlt
    · exact keyLt_asymm h' hlt
  -- the frontier
  have hfront : ∃ fr : List (Entry W), (acceptEntry s e rest).frontier = fr ∧
      ((results L (n r + 1) = none ∧ fr = rest) ∨
        ∃ c, cand p input r (n r + 1) = some c ∧ fr = ⟨c, after L (n r + 2)⟩ :: rest) := by
    refine ⟨_, rfl, ?_⟩
    have hf : (acceptEntry s e rest).frontier = match e.stream.pop with
        | (none, _) => rest
        | (some v, stream) =>
          ⟨{ tagged := e.candidate.tagged, output := v.text
             taggerWeight := e.candidate.taggerWeight, verbalizerWeight := v.weight
             bestVerbalizerWeight := e.candidate.bestVerbalizerWeight
             taggerRank := e.candidate.taggerRank, verbalizerRank := v.rank }, stream⟩ :: rest := by
      unfold acceptEntry
      simp only
      split <;> rfl
    rw [hf, hrs]
    have hq : (after L (n r + 1)).pop = (results L (n r + 1), after L (n r + 2)) := rfl
    rw [hq]
    cases hv : results L (n r + 1) with
    | none => exact .inl ⟨rfl, rfl⟩
    | some v =>
      right
      obtain ⟨t, L', v', v0, ht, hL', hv', hv0, hceq⟩ := cand_some p input hrc
      rw [hrL] at hL'; cases hL'
      refine ⟨_, cand_mk p input ht hrL hv hv0, ?_⟩
      rw [hceq]
      simp only [(results_spec L _ v hv).1]
  obtain ⟨fr, hfr, hcase⟩ := hfront
  have htag : (acceptEntry s e rest).tagger = s.tagger := by
    unfold acceptEntry; simp only; split <;> rfl
  have hlt : ∀ i j, i < a → j < Function.update n r (n r + 1) i →
      (j < n i) ∨ (i = r ∧ j = n r) := by
    intro i j _ hj
    by_cases hir : i = r
    · subst hir
      rw [Function.update_self] at hj
      omega
    · rw [Function.update_of_ne hir] at hj
      exact .inl hj
  have hup : ∀ i, n i ≤ Function.update n r (n r + 1) i := by
    intro i
    by_cases hir : i = r
    · subst hir; rw [Function.update_self]; omega
    · rw [Function.update_of_ne hir]
  have hnew : ∀ i j, i < a → j < n i → j < Function.update n r (n r + 1) i := by
    intro i j _ hj
    exact Nat.lt_of_lt_of_le hj (hup i)
  have hself : n r < Function.update n r (n r + 1) r := by rw [Function.update_self]; omega
  constructor
  · rw [htag]; exact h.tagger
  · exact h.active
  · intro i hi
    rw [Function.update_of_ne (by omega)]
    exact h.zero i hi
  · -- entries
    intro x hx
    rw [hfr] at hx
    have hrest : x ∈ rest → x.candidate.taggerRank < a ∧
        cand p input x.candidate.taggerRank
          (Function.update n r (n r + 1) x.candidate.taggerRank) = some x.candidate ∧
        ∃ L, verbLattice p input x.candidate.taggerRank = some L ∧
          x.stream = after L (Function.update n r (n r + 1) x.candidate.taggerRank + 1) := by
      intro hx
      rw [Function.update_of_ne (hother x hx)]
      exact h.entry x (hperm.mem_iff.2 (List.mem_cons_of_mem _ hx))
    rcases hcase with ⟨_, rfl⟩ | ⟨c, hc, rfl⟩
    · exact hrest hx
    · rcases List.mem_cons.1 hx with rfl | hx
      · have hcr := (cand_rank p input hc).1
        simp only [hcr, Function.update_self]
        exact ⟨hra, hc, L, hrL, rfl⟩
      · exact hrest hx
  · -- ranks
    rw [hfr]
    have hnd := (hperm.map fun e => e.candidate.taggerRank).nodup_iff.1 h.ranks
    rw [List.map_cons, hr] at hnd
    rcases hcase with ⟨_, rfl⟩ | ⟨c, hc, rfl⟩
    · exact hnd.of_cons
    · rw [List.map_cons, (cand_rank p input hc).1]
      exact hnd
  · -- present
    intro i hi c hc
    rw [hfr]
    by_cases hir : i = r
    · subst hir
      rw [Function.update_self] at hc
      rcases hcase with ⟨hnone, rfl⟩ | ⟨c', hc', rfl⟩
      · obtain ⟨t, L', v, v0, _, hL', hv, _, _⟩ := cand_some p input hc
        rw [hrL] at hL'; cases hL'
        rw [hnone] at hv; cases hv
      · exact ⟨_, List.mem_cons_self .., (cand_rank p input hc').1⟩
    · rw [Function.update_of_ne hir] at hc
      obtain ⟨x, hx, hxi⟩ := h.present i hi c hc
      have hxr : x ∈ rest := by
        rcases List.mem_cons.1 (hperm.mem_iff.1 hx) with rfl | hx
        · exact absurd (hxi.symm.trans hr) hir
        · exact hx
      refine ⟨x, ?_, hxi⟩
      rcases hcase with ⟨_, rfl⟩ | ⟨c', _, rfl⟩
      · exact hxr
      · exact List.mem_cons_of_mem _ hxr
  · intro i hi j hj
    rcases hlt i j hi hj with hj | ⟨rfl, rfl⟩
    · exact h.done i hi j hj
    · exact ⟨_, hrc⟩
  · -- before
    intro i j c i' j' c' hi hj hc hc' ho
    have ho' : Open a n i' j' := by
      rcases ho with ho | ho
      · exact .inl ho
      · exact .inr (Nat.le_trans (hup i') ho)
    rcases hlt i j hi hj with hj | ⟨rfl, rfl⟩
    · exact h.before i j c i' j' c' hi hj hc hc' ho'
    · rw [hrc] at hc
      cases hc
      rcases hopen i' j' c' hc' ho' with ⟨rfl, rfl⟩ | h'
      · rcases ho with ho | ho
        · omega
        · rw [Function.update_self] at ho; omega
      · exact h'
  · intro i j c t hi hj hc ht
    rcases hlt i j hi hj with hj | ⟨rfl, rfl⟩
    · exact h.bound i j c t hi hj hc ht
    · rw [hrc] at hc
      cases hc
      exact keyLe_weight (hnext t ht)
  all_goals
    unfold acceptEntry
    simp only
  · split
    · exact h.seen
    · simp [h.seen]
  · split
    · exact h.nodup
    · rename_i hn
      rw [h.seen, List.mem_reverse] at hn
      rw [List.map_append, List.nodup_append]
      exact ⟨h.nodup, by simp, by
        intro x hx y hy hxy
        simp only [List.map_cons, List.map_nil, List.mem_singleton] at hy
        subst hxy
        rw [hy] at hx
        exact hn hx⟩
  · have hold : ∀ c ∈ s.candidates, ∃ i, i < a ∧ ∃ j, j < Function.update n r (n r + 1) i ∧
        cand p input i j = some c := by
      intro c hc
      obtain ⟨i, hi, j, hj, h'⟩ := h.source c hc
      exact ⟨i, hi, j, hnew i j hi hj, h'⟩
    split
    · exact hold
    · intro c hc
      rcases List.mem_append.1 hc with hc | hc
      · exact hold c hc
      · rw [List.mem_singleton.1 hc]
        exact ⟨r, hra, n r, hself, hrc⟩
  · split
    · exact h.sorted
    · rw [List.pairwise_append]
      refine ⟨h.sorted, by simp, ?_⟩
      intro c hc c' hc'
      rw [List.mem_singleton.1 hc']
      obtain ⟨i, hi, j, hj, h'⟩ := h.source c hc
      exact h.before i j c r (n r) _ hi hj h' hrc (.inr (Nat.le_refl _))
  · intro i hi j hj c hc
    rcases hlt i j hi hj with hj | ⟨rfl, rfl⟩
    · obtain ⟨c', hc', h'⟩ := h.cover i hi j hj c hc
      refine ⟨c', ?_, h'⟩
      split
      · exact hc'
      · exact List.mem_append_left _ hc'
    · rw [hrc] at hc
      cases hc
      split
      · rename_i hs
        rw [h.seen, List.mem_reverse] at hs
        obtain ⟨c', hc', h'⟩ := List.mem_map.1 hs
        refine ⟨c', hc', h', ?_⟩
        obtain ⟨i', hi', j', hj', h''⟩ := h.source c' hc'
        exact keyLt_asymm (h.before i' j' c' i (n i) _ hi' hj' h'' hrc (.inr (Nat.le_refl _)))
      · exact ⟨_, List.mem_append_right _ (List.mem_singleton.2 rfl), rfl, keyLt_irrefl _⟩

/-- Activating a tagging. -/
theorem activate_spec {a n} {s : Search W} (h : SInv p input a n s) :
    (results (p.tagger input) a = none ∧ ∃ s', activateNextTag p s = .ok (false, s') ∧
      SInv p input a n s' ∧ s'.candidates = s.candidates ∧ s'.frontier = s.frontier) ∨
    (∃ t, results (p.tagger input) a = some t ∧
      ((∃ e, reorder p.orders t.text = .error e ∧ activateNextTag p s = .error e) ∨
        ∃ s', activateNextTag p s = .ok (true, s') ∧ SInv p input (a + 1) n s' ∧
          s'.candidates = s.candidates)) := by
  have hpop : s.tagger.pop = (after (p.tagger input) a).pop := pop_congr h.tagger
  have hq : (after (p.tagger input) a).pop =
    (results (p.tagger input) a, after (p.tagger input) (a + 1)) := rfl
  unfold activateNextTag
  rw [hpop, hq]
  cases ht : results (p.tagger input) a with
  | none =>
    left
    refine ⟨rfl, _, rfl, ?_, rfl, rfl⟩
    have : (after (p.tagger input) (a + 1)).peekLoop = (after (p.tagger input) a).peekLoop := by
      have h1 : (after (p.tagger input) (a + 1)) = (after (p.tagger input) a).peekLoop := by
        show (after (p.tagger input) a).pop.2 = _
        have h2 : (after (p.tagger input) a).pop.1 = none := ht
        have h3 := peek_snd (after (p.tagger input) a)
        unfold Stream.pop at h2 ⊢
        split at h2
        · rename_i s' heq
          rw [heq] at h3
          exact h3
        · cases h2
      rw [h1, peekLoop_peekLoop]
    exact { h with tagger := this }
  | some t =>
    right
    refine ⟨t, rfl, ?_⟩
    simp only
    cases hro : reorder p.orders t.text with
    | error e => exact .inl ⟨e, rfl, rfl⟩
    | ok r =>
      right
      have hL : verbLattice p input a = some (p.verbalizer r) := by
        unfold verbLattice; rw [ht]; simp only [hro]
      have hq' : ({ lattice := p.verbalizer r } : Stream W).pop =
        (results (p.verbalizer r) 0, after (p.verbalizer r) 1) := rfl
      have hna : n a = 0 := h.zero a (Nat.le_refl _)
      -- facts shared by both branches
      have hactive : ∀ i, i < a + 1 → ∃ L, verbLattice p input i = some L := by
        intro i hi
        rcases Nat.lt_succ_iff_lt_or_eq.1 hi with hi | rfl
        · exact h.active i hi
        · exact ⟨_, hL⟩
      have hlt : ∀ i j, i < a + 1 → j < n i → i < a := by
        intro i j hi hj
        rcases Nat.lt_succ_iff_lt_or_eq.1 hi with hi | rfl
        · exact hi
        · omega
      have hbefore : ∀ i j c i' j' c', i < a + 1 → j < n i → cand p input i j = some c →
          cand p input i' j' = some c' → (a + 1 ≤ i' ∨ n i' ≤ j') → keyLt c.key c'.key := by
        intro i j c i' j' c' hi hj hc hc' ho
        exact h.before i j c i' j' c' (hlt i j hi hj) hj hc hc' (by omega)
      have hbound : ∀ i j c t, i < a + 1 → j < n i → cand p input i j = some c →
          results (p.tagger input) (a + 1) = some t → c.weight ≤ t.weight := by
        intro i j c t' hi hj hc ht'
        exact (h.bound i j c t (hlt i j hi hj) hj hc ht).trans
          (results_sorted _ a (a + 1) t t' (by omega) ht ht')
      have hsource : ∀ c ∈ s.candidates, ∃ i, i < a + 1 ∧ ∃ j, j < n i ∧
          cand p input i j = some c := by
        intro c hc
        obtain ⟨i, hi, r⟩ := h.source c hc
        exact ⟨i, by omega, r⟩
      simp only [hq']
      cases hv : results (p.verbalizer r) 0 with
      | none =>
        refine ⟨_, rfl, ?_, rfl⟩
        have hcnone : cand p input a 0 = none := by
          unfold cand; rw [ht, hL]; simp only [hv]
        constructor
        · rfl
        · exact hactive
        · exact fun i hi => h.zero i (by omega)
        · intro e he
          obtain ⟨h1, h2⟩ := h.entry e he
          exact ⟨by omega, h2⟩
        · exact h.ranks
        · intro i hi c hc
          rcases Nat.lt_succ_iff_lt_or_eq.1 hi with hi | rfl
          · exact h.present i hi c hc
          · rw [hna, hcnone] at hc; cases hc
        · exact fun i hi j hj => h.done i (hlt i j hi hj) j hj
        · exact hbefore
        · exact hbound
        · exact h.seen
        · exact h.nodup
        · exact hsource
        · exact h.sorted
        · exact fun i hi j hj => h.cover i (hlt i j hi hj) j hj
      | some v =>
        refine ⟨_, rfl, ?_, rfl⟩
        have hc0 : cand p input a 0 =
            some ⟨t.text, v.text, t.weight, v.weight, v.weight, t.rank, v.rank⟩ := by
          rw [cand_mk p input ht hL hv hv, (results_spec _ _ t ht).1, (results_spec _ _ v hv).1]
        have hrank : t.rank = a := (results_spec _ _ t ht).1
        constructor
        · rfl
        · exact hactive
        · exact fun i hi => h.zero i (by omega)
        · intro e he
          rcases List.mem_cons.1 he with rfl | he
          · simp only [hrank, hna]
            refine ⟨by omega, ?_, _, hL, rfl⟩
            rw [hc0, hrank]
          · obtain ⟨h1, h2⟩ := h.entry e he
            exact ⟨by omega, h2⟩
        · simp only [List.map_cons, List.nodup_cons, hrank]
          refine ⟨?_, h.ranks⟩
          intro hc
          obtain ⟨e, he, hea⟩ := List.mem_map.1 hc
          have := (h.entry e he).1
          omega
        · intro i hi c hc
          rcases Nat.lt_succ_iff_lt_or_eq.1 hi with hi | rfl
          · obtain ⟨e, he, h'⟩ := h.present i hi c hc
            exact ⟨e, List.mem_cons_of_mem _ he, h'⟩
          · exact ⟨_, List.mem_cons_self .., hrank⟩
        · exact fun i hi j hj => h.done i (hlt i j hi hj) j hj
        · exact hbefore
        · exact hbound
        · exact h.seen
        · exact h.nodup
        · exact hsource
        · exact h.sorted
        · exact fun i hi j hj => h.cover i (hlt i j hi hj) j hj

/-- What one iteration can do. -/
inductive StepSpec (a : Nat) (n : Nat → Nat) (s : Search W) : Except Err (Next W) → Prop
  | raise (t e) (ht : results (p.tagger input) a = some t)
      (he : reorder p.orders t.text = .error e) : StepSpec a n s (.error e)
  | stop (s') (ht : results (p.tagger input) a = none) (hs : SInv p input a n s')
      (hc : s'.candidates = s.candidates)
      (hall : ∀ i j c, cand p input i j = some c → ¬ Open a n i j) :
      StepSpec a n s (.ok (.break s'))
  | activate (s' t) (ht : results (p.tagger input) a = some t) (hs : SInv p input (a + 1) n s')
      (hc : s'.candidates = s.candidates)
      (hleast : ∀ i j c, cand p input i j = some c → Open a n i j → t.weight ≤ c.weight) :
      StepSpec a n s (.ok (.continue s'))
  | take (s' i c) (hi : i < a) (hc : cand p input i (n i) = some c)
      (hs : SInv p input a (Function.update n i (n i + 1)) s')
      (hleast : ∀ i j c', cand p input i j = some c' → Open a n i j → c.weight ≤ c'.weight)
      (hpre : s'.candidates = s.candidates ∨ s'.candidates = s.candidates ++ [c]) :
      StepSpec a n s (.ok (.continue s'))

theorem step_spec {a n} {s : Search W} (h : SInv p input a n s) :
    StepSpec p input a n s (step p s) := by
  have hs1 : SInv p input a n { s with tagger := s.tagger.peek.2 } :=
    { h with tagger := by simp only [peek_snd, peekLoop_peekLoop]; exact h.tagger }
  have hpk : s.tagger.peek.1 = results (p.tagger input) a := by
    rw [peek_congr h.tagger, ← pop_eq_peek]; rfl
  have haccept : ∀ e rest, popMin s.frontier = some (e, rest) →
      (∀ t, results (p.tagger input) a = some t →
        ¬ keyLt (t.weight, a, 0) e.candidate.key) →
      StepSpec p input a n s
        (.ok (.continue (acceptEntry { s with tagger := s.tagger.peek.2 } e rest))) := by
    intro e rest hp hnext
    obtain ⟨h1, h2⟩ := acceptEntry_inv p input hs1 hp hnext
    obtain ⟨hperm, _⟩ := popMin_some _ _ _ hp
    have hmem : e ∈ s.frontier := hperm.mem_iff.2 (by simp)
    obtain ⟨hra, hrc, _⟩ := h.entry e hmem
    refine .take _ _ e.candidate hra hrc h1 ?_ ?_
    · intro i j c' hc ho
      exact keyLe_weight (h2 i j c' hc ho)
    · unfold acceptEntry
      simp only
      split
      · exact .inl rfl
      · exact .inr rfl
  unfold step
  simp only
  cases hp : popMin s.frontier with
  | none =>
    have hf := (popMin_none _).1 hp
    have hopen : ∀ i j c, cand p input i j = some c → Open a n i j → a ≤ i := by
      intro i j c hc ho
      by_contra hia
      rw [Nat.not_le] at hia
      have hj : n i ≤ j := by rcases ho with ho | ho <;> omega
      obtain ⟨c0, hc0⟩ := cand_down p input hc hj
      obtain ⟨e, he, _⟩ := h.present i hia c0 hc0
      rw [hf] at he; cases he
    rcases activate_spec p input hs1 with ⟨h1, s', h2, h3, h4, _⟩ | ⟨t, h1, h2⟩
    · simp only [h2]
      refine .stop s' h1 h3 h4 ?_
      intro i j c hc ho
      have := hopen i j c hc ho
      obtain ⟨t, _, _, _, ht, _⟩ := cand_some p input hc
      rw [results_none_le _ a i h1 this] at ht
      cases ht
    · rcases h2 with ⟨e, h2, h3⟩ | ⟨s', h2, h3, h4⟩
      · simp only [h3]
        exact .raise t e h1 h2
      · simp only [h2]
        refine .activate s' t h1 h3 h4 ?_
        intro i j c hc ho
        obtain ⟨t', _, _, _, ht, _⟩ := cand_some p input hc
        exact (results_sorted _ a i t t' (hopen i j c hc ho) h1 ht).trans
          (cand_lower p input hc ht)
  | some r =>
    obtain ⟨e, rest⟩ := r
    simp only [hpk]
    cases ht : results (p.tagger input) a with
    | none =>
      simp only
      exact haccept e rest hp (fun t h' => by rw [ht] at h'; cases h')
    | some t =>
      have hrank : t.rank = a := (results_spec _ _ t ht).1
      simp only [hrank]
      split
      · rename_i hlt
        rcases activate_spec p input hs1 with ⟨h1, _⟩ | ⟨t', h1, h2⟩
        · rw [ht] at h1; cases h1
        · rw [ht] at h1; cases h1
          rcases h2 with ⟨e', h2, h3⟩ | ⟨s', h2, h3, h4⟩
          · simp only [h3]
            exact .raise t e' ht h2
          · simp only [h2]
            refine .activate s' t ht h3 h4 ?_
            intro i j c hc ho
            by_cases hia : i < a
            · have hj : n i ≤ j := by rcases ho with ho | ho <;> omega
              have h5 := keyLe_weight (popMin_least p input h hp hia hj hc)
              have h6 : t.weight ≤ e.candidate.key.1 := keyLe_weight (keyLt_asymm hlt)
              exact h6.trans h5
            · obtain ⟨t', _, _, _, ht', _⟩ := cand_some p input hc
              exact (results_sorted _ a i t t' (Nat.not_lt.1 hia) ht ht').trans
                (cand_lower p input hc ht')
      · rename_i hlt
        refine haccept e rest hp ?_
        intro t' h'
        rw [ht] at h'; cases h'
        exact hlt

end
end Verif.NBest
