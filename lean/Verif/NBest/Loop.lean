import Verif.NBest.Search
import Mathlib.Algebra.BigOperators.Group.Finset.Basic
import Mathlib.Algebra.Order.BigOperators.Group.Finset

namespace Verif.NBest
open Verif.Token (Str)

variable {W : Type} [LinearOrder W] [AddCommGroup W]

/-- What is returned for the final list. -/
def finish (cs : List (Candidate W)) : Except Err (List (Candidate W)) :=
  if cs = [] then .error .runtime else .ok cs

theorem loop_done (p : Pipeline W) (nbest fuel : Nat) (s : Search W)
    (h : ¬ s.candidates.length < nbest) : loop p nbest fuel s = some (finish s.candidates) := by
  cases fuel <;> (unfold loop; rw [if_neg h]; rfl)

theorem loop_zero (p : Pipeline W) (nbest : Nat) (s : Search W)
    (h : s.candidates.length < nbest) : loop p nbest 0 s = none := by
  unfold loop; rw [if_pos h]

theorem loop_succ (p : Pipeline W) (nbest fuel : Nat) (s : Search W)
    (h : s.candidates.length < nbest) :
    loop p nbest (fuel + 1) s =
      match step p s with
      | .error e => some (.error e)
      | .ok (.break s) => some (finish s.candidates)
      | .ok (.continue s) => loop p nbest fuel s := by
  rw [loop.eq_def]
  simp only [if_pos h]
  rfl

theorem loop_mono (p : Pipeline W) (nbest fuel fuel' : Nat) (s : Search W) (r)
    (h : loop p nbest fuel s = some r) (hle : fuel ≤ fuel') : loop p nbest fuel' s = some r := by
  induction fuel generalizing s fuel' with
  | zero =>
    by_cases hl : s.candidates.length < nbest
    · rw [loop_zero p nbest s hl] at h; cases h
    · rw [loop_done p nbest _ s hl] at h ⊢; exact h
  | succ fuel ih =>
    by_cases hl : s.candidates.length < nbest
    · obtain ⟨f, rfl⟩ : ∃ f, fuel' = f + 1 := ⟨fuel' - 1, by omega⟩
      rw [loop_succ p nbest _ s hl] at h ⊢
      split at h
      · exact h
      · exact h
      · exact ih f _ h (by omega)
    · rw [loop_done p nbest _ s hl] at h ⊢; exact h

section
variable (p : Pipeline W) (input : Str) [IsOrderedAddMonoid W]

/-- The state in which the search ended. -/
structure Final (nbest : Nat) (cs : List (Candidate W)) (a : Nat) (n : Nat → Nat) (s : Search W) :
    Prop where
  inv : SInv p input a n s
  eq : s.candidates = cs
  atMost : cs.length ≤ nbest
  tags : cs.length < nbest → results (p.tagger input) a = none
  pairs : cs.length < nbest → ∀ i j c, cand p input i j = some c → ¬ Open a n i j

theorem loop_cases (nbest fuel : Nat) (s : Search W) (a n) (h : SInv p input a n s)
    (hlen : s.candidates.length ≤ nbest) (r) (hr : loop p nbest fuel s = some r) :
    (∃ i t e, a ≤ i ∧ results (p.tagger input) i = some t ∧ reorder p.orders t.text = .error e ∧
      r = .error e) ∨
    (∃ cs a' n' s', r = finish cs ∧ Final p input nbest cs a' n' s' ∧ a ≤ a') := by
  induction fuel generalizing s a n with
  | zero =>
    by_cases hl : s.candidates.length < nbest
    · rw [loop_zero p nbest s hl] at hr; cases hr
    · rw [loop_done p nbest _ s hl] at hr
      cases hr
      exact .inr ⟨_, a, n, s, rfl, ⟨h, rfl, hlen, fun h' => absurd h' hl, fun h' => absurd h' hl⟩,
        Nat.le_refl _⟩
  | succ fuel ih =>
    by_cases hl : s.candidates.length < nbest
    · rw [loop_succ p nbest _ s hl] at hr
      have hstep := step_spec p input h
      generalize step p s = q at hr hstep
      cases hstep with
      | raise t e ht he =>
        cases hr
        exact .inl ⟨a, t, e, Nat.le_refl _, ht, he, rfl⟩
      | stop s' ht hs hc hall =>
        cases hr
        refine .inr ⟨_, a, n, s', rfl, ⟨hs, rfl, ?_, fun _ => ht, fun _ => hall⟩, Nat.le_refl _⟩
        rw [hc]; exact hlen
      | activate s' t ht hs hc hleast =>
        simp only at hr
        rcases ih s' (a + 1) n hs (by rw [hc]; exact hlen) hr with ⟨i, t, e, hi, r⟩ | ⟨cs, a', n', s'', h1, h2, h3⟩
        · exact .inl ⟨i, t, e, by omega, r⟩
        · exact .inr ⟨cs, a', n', s'', h1, h2, by omega⟩
      | take s' i c hi hc hs hleast hpre =>
        simp only at hr
        refine ih s' a _ hs ?_ hr
        rcases hpre with h' | h'
        · rw [h']; exact hlen
        · rw [h', List.length_append, List.length_singleton]; exact hl
    · rw [loop_done p nbest _ s hl] at hr
      cases hr
      exact .inr ⟨_, a, n, s, rfl, ⟨h, rfl, hlen, fun h' => absurd h' hl, fun h' => absurd h' hl⟩,
        Nat.le_refl _⟩

theorem candidates_final {fuel nbest : Nat} {cs : List (Candidate W)}
    (h : candidates p fuel input nbest = some (.ok cs)) :
    cs ≠ [] ∧ ∃ a n s, Final p input nbest cs a n s := by
  rcases loop_cases p input nbest fuel _ 0 _ (SInv.start p input) (Nat.zero_le _) _ h with
    ⟨i, t, e, _, _, _, h'⟩ | ⟨cs', a, n, s, h1, h2, _⟩
  · cases h'
  · unfold finish at h1
    split at h1
    · cases h1
    · rename_i hne
      cases h1
      exact ⟨hne, a, n, s, h2⟩

/-- The results for `n` are the first `n` results for `m`. -/
theorem loop_take (n m fuel : Nat) (s : Search W) (a k) (h : SInv p input a k s) (hnm : n ≤ m)
    (hn : 1 ≤ n) (hlen : s.candidates.length ≤ n) (l : List (Candidate W))
    (hl : loop p m fuel s = some (.ok l)) :
    s.candidates <+: l ∧ loop p n fuel s = some (.ok (l.take n)) := by
  have hfin : ∀ cs : List (Candidate W), finish cs = .ok l → cs = l ∧ l ≠ [] := by
    intro cs hcs
    unfold finish at hcs
    split at hcs
    · cases hcs
    · rename_i hne; cases hcs; exact ⟨rfl, hne⟩
  have hstop : ∀ cs : List (Candidate W), some (finish cs) = some (.ok l) → cs.length ≤ n →
      some (finish cs) = some (.ok (l.take n)) := by
    intro cs hcs hlen
    obtain ⟨rfl, hne⟩ := hfin cs (Option.some.inj hcs)
    rw [hcs, List.take_of_length_le hlen]
  -- the larger run only appends
  have hpre : ∀ (fuel : Nat) (s : Search W) a k, SInv p input a k s →
      loop p m fuel s = some (.ok l) → s.candidates <+: l := by
    intro fuel
    induction fuel with
    | zero =>
      intro s a k h hl
      by_cases hm : s.candidates.length < m
      · rw [loop_zero p m s hm] at hl; cases hl
      · rw [loop_done p m _ s hm] at hl
        rw [(hfin _ (Option.some.inj hl)).1]
    | succ fuel ih =>
      intro s a k h hl
      by_cases hm : s.candidates.length < m
      · rw [loop_succ p m _ s hm] at hl
        have hstep := step_spec p input h
        generalize step p s = q at hl hstep
        cases hstep with
        | raise t e ht he => cases hl
        | stop s' ht hs hc hall =>
          rw [← hc, (hfin _ (Option.some.inj hl)).1]
        | activate s' t ht hs hc hleast => rw [← hc]; exact ih s' _ _ hs hl
        | take s' i c hi hc hs hleast hpre =>
          have := ih s' _ _ hs hl
          rcases hpre with h' | h'
          · rw [← h']; exact this
          · rw [h'] at this
            exact (List.prefix_append _ _).trans this
      · rw [loop_done p m _ s hm] at hl
        rw [(hfin _ (Option.some.inj hl)).1]
  refine ⟨hpre fuel s a k h hl, ?_⟩
  have hfull : ∀ s : Search W, s.candidates.length ≤ n → ¬ s.candidates.length < n →
      s.candidates <+: l → some (finish s.candidates) = some (.ok (l.take n)) := by
    intro s hle hge hp
    have hlen' : s.candidates.length = n := by omega
    have : s.candidates = l.take n := by
      rw [← hlen']; exact (List.prefix_iff_eq_take.1 hp)
    have hne : s.candidates ≠ [] := by
      intro hc; rw [hc] at hlen'; simp at hlen'; omega
    unfold finish
    rw [if_neg hne, this]
  induction fuel generalizing s a k with
  | zero =>
    by_cases hln : s.candidates.length < n
    · rw [loop_zero p m s (by omega)] at hl; cases hl
    · rw [loop_done p n _ s hln]
      exact hfull s hlen hln (hpre _ s a k h hl)
  | succ fuel ih =>
    by_cases hln : s.candidates.length < n
    · rw [loop_succ p m _ s (by omega)] at hl
      rw [loop_succ p n _ s hln]
      have hstep := step_spec p input h
      generalize step p s = q at hl hstep ⊢
      cases hstep with
      | raise t e ht he => cases hl
      | stop s' ht hs hc hall => exact hstop _ hl (by rw [hc]; exact hlen)
      | activate s' t ht hs hc hleast => exact ih s' _ _ hs (by rw [hc]; exact hlen) hl
      | take s' i c hi hc hs hleast hpre =>
        refine ih s' _ _ hs ?_ hl
        rcases hpre with h' | h'
        · rw [h']; exact hlen
        · rw [h', List.length_append, List.length_singleton]; exact hln
    · rw [loop_done p n _ s hln]
      exact hfull s hlen hln (hpre _ s a k h hl)

/-! ### Termination -/

theorem loop_terminates (nbest : Nat) (G : W → Prop) (hdown : ∀ v w, v ≤ w → G w → G v)
    (N : Nat) (M : Nat → Nat) (hN : ∀ t, results (p.tagger input) N = some t → ¬ G t.weight)
    (hM : ∀ i, i < N → ∀ c, cand p input i (M i) = some c → ¬ G c.weight)
    (hG : ∀ a n (s : Search W), SInv p input a n s → s.candidates.length < nbest →
      (∀ i j c, cand p input i j = some c → ¬ (Open a n i j ∧ G c.weight)) → ∀ w, G w)
    (fuel : Nat) (s : Search W) (a n) (h : SInv p input a n s)
    (hfuel : (N - a) + ∑ i ∈ Finset.range N, (M i - n i) < fuel) :
    loop p nbest fuel s ≠ none := by
  induction fuel generalizing s a n with
  | zero => omega
  | succ fuel ih =>
    by_cases hl : s.candidates.length < nbest
    · rw [loop_succ p nbest _ s hl]
      have hstep := step_spec p input h
      have hGw : ∀ w : W, (∀ i j c, cand p input i j = some c → Open a n i j → w ≤ c.weight) →
          G w := by
        intro w hw
        by_cases hall : ∀ i j c, cand p input i j = some c → ¬ (Open a n i j ∧ G c.weight)
        · exact hG a n s h hl hall w
        · push Not at hall
          obtain ⟨i, j, c, hc, ho, hg⟩ := hall
          exact hdown _ _ (hw i j c hc ho) hg
      have hlow : ∀ i t, results (p.tagger input) i = some t → G t.weight → i < N := by
        intro i t ht hg
        by_contra hc
        obtain ⟨u, hu, hle⟩ := tags_down p input ht (Nat.not_lt.1 hc)
        exact hN u hu (hdown _ _ hle hg)
      generalize step p s = q at hstep
      cases hstep with
      | raise t e ht he => simp
      | stop s' ht hs hc hall => simp
      | activate s' t ht hs hc hleast =>
        have := hlow a t ht (hGw _ hleast)
        exact ih s' (a + 1) n hs (by omega)
      | take s' i c hi hc hs hleast hpre =>
        have hg := hGw _ hleast
        obtain ⟨t, _, _, _, ht, _⟩ := cand_some p input hc
        have hiN := hlow i t ht (hdown _ _ (cand_lower p input hc ht) hg)
        have hni : n i < M i := by
          by_contra hcon
          obtain ⟨c', hc'⟩ := cand_down p input hc (Nat.not_lt.1 hcon)
          refine hM i hiN c' hc' (hdown _ _ ?_ hg)
          exact keyLe_weight (cand_mono' p input hc' hc (Nat.not_lt.1 hcon))
        refine ih s' a _ hs ?_
        have hsum : ∑ x ∈ Finset.range N, (M x - Function.update n i (n i + 1) x) <
            ∑ x ∈ Finset.range N, (M x - n x) := by
          refine Finset.sum_lt_sum ?_ ⟨i, Finset.mem_range.2 hiN, ?_⟩
          · intro x _
            by_cases hx : x = i
            · subst hx; rw [Function.update_self]; omega
            · rw [Function.update_of_ne hx]
          · rw [Function.update_self]; omega
        omega
    · rw [loop_done p nbest _ s hl]; simp

end
end Verif.NBest
