import Verif.NBest.Entry
import Verif.NBest.Demo
import Verif.Token.Props

/-!
Properties C22-C29, C64 and C65: the path stream, the n-best search and the mapping records of
tn/processor.py.

Every theorem is for all pipelines: all weighted relations, all tie-breaking of `shortestpath`, all
inputs and all values of `nbest`. `fuel` bounds the iterations of the search loop; the results do
not depend on it (`C64_fuel`).
-/

namespace Verif.NBest
open Verif.Token (Str)
open Spec

variable {W : Type} [LinearOrder W]

/-! ### C24: the stream -/

/-- **C24.** Successive pops return every distinct output once, lightest first, with ranks 0, 1,
2, ..., and `None` for ever after the last one. -/
theorem C24_enumerates (L : Lattice W) : Enumerates L.best (answers L) := enumerates L

example : (List.range 6).map (answers demoLattice) =
    [some ("a".toList, 1, 0), some ("b".toList, 2, 1), some ("c".toList, 2, 2),
      some ("d".toList, 5, 3), none, none] := by decide +kernel

/-- A call of a stream's method. -/
inductive Op where
  | peek
  | pop

/-- The answers to a sequence of calls. -/
def Stream.run (s : Stream W) : List Op → List (Option (WeightedOutput W))
  | [] => []
  | .peek :: ops => s.peek.1 :: s.peek.2.run ops
  | .pop :: ops => s.pop.1 :: s.pop.2.run ops

/-- The expected answers when `k` pops came before. -/
def expected (r : Nat → Option (Answer W)) : Nat → List Op → List (Option (Answer W))
  | _, [] => []
  | k, .peek :: ops => r k :: expected r k ops
  | k, .pop :: ops => r k :: expected r (k + 1) ops

theorem pop_none_state {s : Stream W} (h : s.pop.1 = none) : s.pop.2 = s.peekLoop := by
  have h3 := peek_snd s
  unfold Stream.pop at h ⊢
  split at h
  · rename_i s' heq
    rw [heq] at h3
    exact h3
  · cases h

/-- **C24.** Peeking shows what the next pop returns and has no other effect, however the two are
mixed. -/
theorem C24_peek (L : Lattice W) (ops : List Op) :
    (({ lattice := L } : Stream W).run ops).map (Option.map WeightedOutput.triple) =
      expected (answers L) 0 ops := by
  suffices h : ∀ (k : Nat) (s : Stream W), s.peekLoop = (after L k).peekLoop →
      (s.run ops).map (Option.map WeightedOutput.triple) = expected (answers L) k ops from
    h 0 _ rfl
  induction ops with
  | nil => intro k s _; rfl
  | cons op ops ih =>
    intro k s hs
    cases op with
    | peek =>
      unfold Stream.run expected
      rw [List.map_cons]
      have h1 : s.peek.1 = results L k := by rw [peek_congr hs, ← pop_eq_peek]; rfl
      have h2 := ih k s.peek.2 (by rw [peek_snd, peekLoop_peekLoop]; exact hs)
      rw [h2, h1]
      rfl
    | pop =>
      unfold Stream.run expected
      rw [List.map_cons]
      have h1 : s.pop.1 = results L k := by rw [pop_congr hs]; rfl
      have h2 := ih (k + 1) s.pop.2 (by rw [pop_congr hs]; rfl)
      rw [h2, h1]
      rfl

example : ((({ lattice := demoLattice } : Stream Int).run
    [.peek, .pop, .pop, .peek, .peek, .pop, .pop, .peek, .pop]).map fun o => o.map fun x => x.rank) =
    [some 0, some 0, some 1, some 2, some 2, some 2, some 3, none, none] := by decide +kernel

/-! ### C26: the cheapest outputs -/

variable [AddCommGroup W] [IsOrderedAddMonoid W]

/-- **C26.** The returned list has the `n` cheapest outputs, cheapest first: every output has its
least cost, no cheaper output is left out. -/
theorem C26_cheapest (p : Pipeline W) (fuel : Nat) (input : Str) (n : Int) (out : Shaped Str)
    (hin : input ≠ []) (h : normalize p fuel input (.int n) = some (.ok out)) :
    ∃ l : List (Str × W), l.map Prod.fst = out.toList ∧
      Cheapest (grammar p input) n.toNat l := by
  obtain ⟨_, cs, hc, _, h1, _⟩ := normalize_ok hin h
  obtain ⟨_, a, k, s, hf⟩ := candidates_final p input hc
  refine ⟨_, ?_, cheapest hf⟩
  rw [List.map_map, h1]
  rfl

example : (normalize demo 20 "q".toList (.int 4)).map Except.toOption =
    some (some (.many ["two".toList, "x".toList, "three".toList, "deux".toList])) := by
  decide +kernel

/-- **C26.** Ties: there is one enumeration of the taggings and one of the verbalizations of every
tagging, such that for every `n` the list is what remains of the pairs, sorted by cost, tagging rank
and verbalization rank, when repeated outputs are dropped. -/
theorem C26_ties (p : Pipeline W) (input : Str) :
    ∃ T V, Enumerates (grammar p input).tags T ∧
      (∀ i t tw k r, T i = some (t, tw, k) → (grammar p input).reorder t = some r →
        Enumerates ((grammar p input).verb r) (V i)) ∧
      (∀ i j, (∀ t tw k r, T i = some (t, tw, k) → (grammar p input).reorder t ≠ some r) →
        V i j = none) ∧
      ∀ n fuel cs, candidates p fuel input n = some (.ok cs) →
        FirstOf T V n (cs.map fun c => (c.output, c.weight, c.taggerRank, c.verbalizerRank)) := by
  refine ⟨answers (p.tagger input), verbAnswers p input, enumerates _, verb_enumerates p input, ?_,
    ?_⟩
  · intro i j h
    unfold verbAnswers
    cases hL : verbLattice p input i with
    | none => rfl
    | some L =>
      obtain ⟨t, r, ht, hr, _⟩ := verbLattice_some hL
      exact absurd hr (h _ _ _ r (answers_of ht))
  · intro n fuel cs hc
    obtain ⟨_, a, k, s, hf⟩ := candidates_final p input hc
    exact firstOf hf

/-- **C26.** The description in `C26_ties` fits one list only. -/
theorem C26_unique (T : Nat → Option (Answer W)) (V : Nat → Nat → Option (Answer W)) (n : Nat)
    (l l' : List (Str × Place W)) (h : FirstOf T V n l) (h' : FirstOf T V n l') : l = l' :=
  firstOf_unique h h'

example : ((candidates demo 20 "q".toList 4).map fun r => r.toOption.map fun l =>
    l.map fun c => (c.output, c.weight, c.taggerRank, c.verbalizerRank)) =
    some (some [("two".toList, 2, 1, 0), ("x".toList, 3, 1, 1), ("three".toList, 3, 2, 1),
      ("deux".toList, 10, 1, 2)]) := by decide +kernel

/-! ### C25: distinct outputs -/

/-- **C25.** At most `n` outputs and at least one, all different, all with a cost; fewer than `n`
only if there are no others. -/
theorem C25_distinct (p : Pipeline W) (fuel : Nat) (input : Str) (n : Int) (out : Shaped Str)
    (hin : input ≠ []) (h : normalize p fuel input (.int n) = some (.ok out)) :
    out.toList ≠ [] ∧ (out.toList.length : Int) ≤ n ∧ out.toList.Nodup ∧
      (∀ y ∈ out.toList, ∃ w, Cost (grammar p input) y w) ∧
      ((out.toList.length : Int) < n → ∀ y w, Cost (grammar p input) y w → y ∈ out.toList) := by
  obtain ⟨hn, cs, hc, hne, h1, _⟩ := normalize_ok hin h
  obtain ⟨l, hl, hch⟩ := C26_cheapest p fuel input n out hin h
  have hlen : out.toList.length = l.length := by rw [← hl, List.length_map]
  refine ⟨?_, ?_, ?_, ?_, ?_⟩
  · rw [h1]; simpa using hne
  · have := hch.atMost; omega
  · rw [← hl]; exact hch.distinct
  · intro y hy
    rw [← hl] at hy
    obtain ⟨a, ha, rfl⟩ := List.mem_map.1 hy
    exact ⟨a.2, (hch.least a ha).1⟩
  · intro hlt y w hw
    obtain ⟨u, hu⟩ := hch.all (by omega) y w hw
    rw [← hl]
    exact List.mem_map.2 ⟨_, hu, rfl⟩

example : (normalize demo 20 "q".toList (.int 9)).map Except.toOption =
    some (some (.many ["two".toList, "x".toList, "three".toList, "deux".toList])) := by
  decide +kernel

/-! ### C27: prefixes -/

/-- **C27.** When the search for `m` results ends, so does the one for `n ≤ m`, and its results are
the first `n`. -/
theorem C27_prefix (p : Pipeline W) (fuel : Nat) (input : Str) (n m : Int) (out : Shaped Str)
    (hin : input ≠ []) (hn : 1 ≤ n) (hnm : n ≤ m)
    (h : normalize p fuel input (.int m) = some (.ok out)) :
    ∃ out', normalize p fuel input (.int n) = some (.ok out') ∧
      out'.toList = out.toList.take n.toNat := by
  obtain ⟨_, cs, hc, _, h1, _⟩ := normalize_ok hin h
  have h2 := (loop_take p input n.toNat m.toNat fuel _ 0 _ (SInv.start p input) (by omega)
    (by omega) (Nat.zero_le _) cs hc).2
  obtain ⟨out', h3, h4⟩ := normalize_of (n := n) hin hn h2
  exact ⟨out', h3, by rw [h4, h1, List.map_take]⟩

/-- **C27.** The single result is the first of the `m` results. -/
theorem C27_first (p : Pipeline W) (fuel : Nat) (input : Str) (m : Int) (out : Shaped Str)
    (hin : input ≠ []) (h : normalize p fuel input (.int m) = some (.ok out)) :
    ∃ y, normalize p fuel input (.int 1) = some (.ok (.one y)) ∧ out.toList.head? = some y := by
  obtain ⟨hm, _⟩ := normalize_ok hin h
  obtain ⟨out', h1, h2⟩ := C27_prefix p fuel input 1 m out hin (Int.le_refl _) hm h
  obtain ⟨_, cs, _, _, _, h3, _⟩ := normalize_ok hin h1
  obtain ⟨y, rfl⟩ := h3 rfl
  refine ⟨y, h1, ?_⟩
  have h4 : [y] = out.toList.take 1 := h2
  cases hl : out.toList with
  | nil => rw [hl] at h4; cases h4
  | cons a l => rw [hl] at h4; cases h4; rfl

example : (normalize demo 20 "q".toList (.int 2)).map Except.toOption =
    some (some (.many ["two".toList, "x".toList])) ∧
    (normalize demo 20 "q".toList (.int 1)).map Except.toOption =
    some (some (.one "two".toList)) := by decide +kernel

/-! ### C28: the best output -/

/-- **C28.** The first candidate is the cheapest verbalization of the lowest-ranked tagging that has
a verbalization. -/
theorem C28_best (p : Pipeline W) (fuel : Nat) (input : Str) (n : Nat) (c : Candidate W)
    (cs : List (Candidate W)) (h : candidates p fuel input n = some (.ok (c :: cs))) :
    answers (p.tagger input) c.taggerRank = some (c.tagged, c.weight, c.taggerRank) ∧
      (∃ r v, (grammar p input).reorder c.tagged = some r ∧
        (grammar p input).verb r c.output = some v ∧
        ∀ z u, (grammar p input).verb r z = some u → v ≤ u) ∧
      ∀ i, i < c.taggerRank → ∀ t tw k r, answers (p.tagger input) i = some (t, tw, k) →
        (grammar p input).reorder t = some r → ∀ z, (grammar p input).verb r z = none := by
  obtain ⟨_, a, k, s, hf⟩ := candidates_final p input h
  obtain ⟨i, hi, j, hj, hc⟩ := hf.inv.source c (by rw [hf.eq]; simp)
  -- no pair has a smaller key
  have hmin : ∀ i' j' c', cand p input i' j' = some c' → ¬ keyLt c'.key c.key := by
    intro i' j' c' hc' hlt
    by_cases ho : Open a k i' j'
    · exact keyLt_asymm hlt (hf.inv.before i j c i' j' c' hi hj hc hc' ho)
    · unfold Open at ho
      obtain ⟨d, hd, _, h2⟩ := hf.inv.cover i' (by omega) j' (by omega) c' hc'
      have hs := hf.inv.sorted
      rw [hf.eq, List.pairwise_cons] at hs
      rw [hf.eq] at hd
      rcases List.mem_cons.1 hd with rfl | hd
      · exact h2 hlt
      · exact h2 (keyLt_trans hlt (hs.1 d hd))
  obtain ⟨c0, hc0⟩ := cand_down p input hc (Nat.zero_le j)
  have hj0 : j = 0 := by
    by_contra hne
    exact hmin i 0 c0 hc0 (cand_mono p input hc0 hc (by omega))
  subst hj0
  obtain ⟨t, L, v, v0, ht, hL, hv, hv0, rfl⟩ := cand_some p input hc
  rw [hv] at hv0
  cases hv0
  obtain ⟨t', r, ht', hr, rfl⟩ := verbLattice_some hL
  rw [ht] at ht'; cases ht'
  have hw : ∀ (x : Candidate W), x.verbalizerWeight = x.bestVerbalizerWeight →
      x.weight = x.taggerWeight := by
    intro x hx; unfold Candidate.weight; rw [hx, add_sub_cancel_right]
  refine ⟨?_, ⟨r, v.weight, hr, (results_spec _ _ _ hv).2.1, ?_⟩, ?_⟩
  · rw [hw _ rfl]
    simp only
    rw [answers_of ht, (results_spec _ _ _ ht).1]
  · intro z u hz
    exact (results_zero_least hv).2 ⟨z, hz⟩
  · intro i' hi' t' tw' k' r' ht' hr' z
    cases hz : (grammar p input).verb r' z with
    | none => rfl
    | some u =>
      exfalso
      obtain ⟨o, ho, rfl, rfl, rfl⟩ := answers_some ht'
      have hL' := verbLattice_of ho hr'
      have h0 : ∃ w0, results (p.verbalizer r') 0 = some w0 := by
        cases h0 : results (p.verbalizer r') 0 with
        | none =>
          obtain ⟨j, hj, _⟩ := results_all _ _ h0 z u hz
          omega
        | some w0 => exact ⟨w0, rfl⟩
      obtain ⟨w0, h0⟩ := h0
      have hc' := cand_mk p input ho hL' h0 h0
      refine hmin i' 0 _ hc' ?_
      have hle := results_sorted _ i' i o t (by simp only at hi'; omega) ho ht
      unfold keyLt Candidate.key
      rw [hw _ rfl, hw _ rfl]
      simp only at hi' ⊢
      rcases lt_or_eq_of_le hle with h' | h'
      · exact .inl h'
      · exact .inr ⟨h', .inl hi'⟩

/-- **C28.** The first output's cost is the least weight of a tagging that has a verbalization. -/
theorem C28_weight (p : Pipeline W) (fuel : Nat) (input : Str) (n : Nat) (c : Candidate W)
    (cs : List (Candidate W)) (h : candidates p fuel input n = some (.ok (c :: cs))) :
    IsLeast {w | ∃ t r z v, (grammar p input).tags t = some w ∧
      (grammar p input).reorder t = some r ∧ (grammar p input).verb r z = some v} c.weight := by
  obtain ⟨h1, ⟨r, v, h2, h3, _⟩, _⟩ := C28_best p fuel input n c cs h
  obtain ⟨o, ho, h4, h5, _⟩ := answers_some h1
  refine ⟨⟨c.tagged, r, c.output, v, ?_, h2, h3⟩, ?_⟩
  · rw [← h4, ← h5]; exact (results_spec _ _ _ ho).2.1
  · rintro w ⟨t, r', z, u, ht, hr, hz⟩
    by_contra hlt
    have hL : ∃ v0, results (p.verbalizer r') 0 = some v0 := by
      cases h0 : results (p.verbalizer r') 0 with
      | none =>
        obtain ⟨j, hj, _⟩ := results_all _ _ h0 z u hz
        omega
      | some v0 => exact ⟨v0, rfl⟩
    obtain ⟨v0, hv0⟩ := hL
    have hb := (results_spec _ _ _ hv0).2.1
    have hcost : Cost (grammar p input) v0.text w :=
      ⟨t, w, r', v0.weight, v0.weight, ht, hr, hb, results_zero_least hv0,
        (add_sub_cancel_right _ _).symm⟩
    obtain ⟨_, a, k, s, hf⟩ := candidates_final p input h
    obtain ⟨d, hd, _, hle⟩ := cost_covered hf hcost (.inl ⟨c, by simp, not_le.1 hlt⟩)
    have hs := hf.inv.sorted
    rw [hf.eq, List.pairwise_cons] at hs
    rcases List.mem_cons.1 hd with rfl | hd
    · exact hlt hle
    · exact hlt ((keyLe_weight (keyLt_asymm (hs.1 d hd))).trans hle)

example : ((candidates demo 20 "q".toList 1).map fun r => r.toOption.map fun l =>
    l.map fun c => (c.tagged, c.output, c.taggerRank)) =
    some (some [(demoTag2, "two".toList, 1)]) := by decide +kernel

/-! ### C29: argument checks -/

/-- The values of `nbest` that are refused. -/
def Refused : PyValue → Prop
  | .bool _ => True
  | .other => True
  | .int n => n < 1

omit [IsOrderedAddMonoid W] in
/-- **C29.** Every bad `nbest` is a `ValueError`, whatever the input and the grammar. -/
theorem C29_refused (p : Pipeline W) (fuel : Nat) (input : Str) (nbest : PyValue) (incl : Bool)
    (h : Refused nbest) :
    tag p input nbest = .error .value ∧ normalize p fuel input nbest = some (.error .value) ∧
      normalizeWithMapping p fuel input nbest incl = some (.error .value) := by
  have hv : validateNbest nbest = .error .value := by
    cases nbest with
    | bool b => rfl
    | other => rfl
    | int n => exact if_pos h
  unfold tag normalize normalizeWithMapping
  rw [hv]
  exact ⟨rfl, rfl, rfl⟩

omit [IsOrderedAddMonoid W] in
/-- **C29.** Every good `nbest` is accepted, and empty input gives an empty result in the shape
`nbest` asks for, whatever the grammar, without searching (`fuel` 0). -/
theorem C29_empty (p : Pipeline W) (n : Int) (incl : Bool) (hn : 1 ≤ n) :
    (n = 1 → tag p [] (.int n) = .ok (.one []) ∧
      normalize p 0 [] (.int n) = some (.ok (.one [])) ∧
      normalizeWithMapping p 0 [] (.int n) incl = some (.ok (.one ⟨[], [], []⟩))) ∧
    (n ≠ 1 → tag p [] (.int n) = .ok (.many [[]]) ∧
      normalize p 0 [] (.int n) = some (.ok (.many [[]])) ∧
      normalizeWithMapping p 0 [] (.int n) incl = some (.ok (.many [⟨[], [], []⟩]))) := by
  unfold tag normalize normalizeWithMapping
  rw [validate_int, if_neg (by omega)]
  constructor
  · rintro rfl
    exact ⟨rfl, rfl, rfl⟩
  · intro hne
    have hne' : n.toNat ≠ 1 := by omega
    simp [shape, hne']

omit [IsOrderedAddMonoid W] in
/-- **C29.** No other input is refused by the check: `ValueError` comes only from a bad `nbest`. -/
theorem C29_only (p : Pipeline W) (input : Str) (nbest : PyValue)
    (h : tag p input nbest = .error .value) : Refused nbest := by
  unfold tag at h
  cases nbest with
  | bool b => trivial
  | other => trivial
  | int n =>
    show n < 1
    by_contra hn
    rw [validate_int, if_neg hn] at h
    simp only at h
    unfold shape at h
    split at h
    · split at h <;> simp at h
    · split at h
      · split at h <;> simp at h
      · cases h

example : Refused (.bool true) ∧ Refused (.int 0) ∧ ¬ Refused (.int 3) := by
  unfold Refused; simp

/-! ### C64: the search ends -/

omit [IsOrderedAddMonoid W] in
/-- **C64.** More iterations do not change a result. -/
theorem C64_fuel (p : Pipeline W) (fuel fuel' : Nat) (input : Str) (n : Nat) (r r')
    (h : candidates p fuel input n = some r) (h' : candidates p fuel' input n = some r') :
    r = r' := by
  unfold candidates at h h'
  rcases Nat.le_total fuel fuel' with hle | hle
  · have := loop_mono p n fuel fuel' _ r h hle
    rw [h'] at this
    exact (Option.some.inj this).symm
  · have := loop_mono p n fuel' fuel _ r' h' hle
    rw [h] at this
    exact Option.some.inj this

theorem ends_of (p : Pipeline W) (input : Str) (n : Nat) (G : W → Prop)
    (hdown : ∀ v w, v ≤ w → G w → G v)
    (tags : List Str) (htags : ∀ t tw, (grammar p input).tags t = some tw → G tw → t ∈ tags)
    (hverb : ∀ t tw r, (grammar p input).tags t = some tw → (grammar p input).reorder t = some r →
      ∃ ys : List Str, ∀ y v m, (grammar p input).verb r y = some v →
        IsLeast {u | ∃ z, (grammar p input).verb r z = some u} m → G (tw + v - m) → y ∈ ys)
    (hG : ∀ a k (s : Search W), SInv p input a k s → s.candidates.length < n →
      (∀ i j c, cand p input i j = some c → ¬ (Open a k i j ∧ G c.weight)) → ∀ w, G w) :
    ∃ fuel, candidates p fuel input n ≠ none := by
  have hM : ∀ i, ∃ M, ∀ c, cand p input i M = some c → ¬ G c.weight := by
    intro i
    cases hL : verbLattice p input i with
    | none =>
      refine ⟨0, fun c hc => ?_⟩
      obtain ⟨_, _, _, _, _, hL', _⟩ := cand_some p input hc
      rw [hL] at hL'; cases hL'
    | some L =>
      obtain ⟨t, r, ht, hr, rfl⟩ := verbLattice_some hL
      obtain ⟨ys, hys⟩ := hverb t.text t.weight r (results_spec _ _ _ ht).2.1 hr
      refine ⟨ys.length, fun c hc hg => ?_⟩
      obtain ⟨t', L', v, v0, ht', hL', hv, hv0, rfl⟩ := cand_some p input hc
      rw [ht] at ht'; cases ht'
      rw [hL] at hL'; cases hL'
      refine results_bound (p.verbalizer r) (fun x => G (t.weight + x - v0.weight)) ?_ ys ?_ v hv hg
      · intro x y hxy hy
        refine hdown _ _ ?_ hy
        exact sub_le_sub_right (by gcongr) _
      · intro y x hy hx
        exact hys y x v0.weight hy (results_zero_least hv0) hx
  choose M hM using hM
  refine ⟨_, loop_terminates p input n G hdown tags.length M ?_ (fun i _ => hM i) hG
    (tags.length - 0 + ∑ i ∈ Finset.range tags.length, (M i - 0) + 1) _ 0 (fun _ => 0)
    (SInv.start p input) (Nat.lt_succ_self _)⟩
  intro t ht
  exact results_bound _ G hdown tags (fun y v hy hv => htags y v hy hv) t ht

/-- **C64.** With finitely many taggings, each with finitely many verbalizations, the search ends
for every `n`. -/
theorem C64_finite (p : Pipeline W) (input : Str) (n : Nat) (tags : List Str)
    (htags : ∀ t tw, (grammar p input).tags t = some tw → t ∈ tags)
    (hverb : ∀ t r, t ∈ tags → (grammar p input).reorder t = some r →
      ∃ ys : List Str, ∀ y v, (grammar p input).verb r y = some v → y ∈ ys) :
    ∃ fuel, candidates p fuel input n ≠ none := by
  refine ends_of p input n (fun _ => True) (fun _ _ _ _ => trivial) tags
    (fun t tw h _ => htags t tw h) ?_ (fun _ _ _ _ _ _ _ => trivial)
  intro t tw r ht hr
  obtain ⟨ys, hys⟩ := hverb t r (htags t tw ht) hr
  exact ⟨ys, fun y v _ hy _ _ => hys y v hy⟩

/-- **C64.** For grammars with infinitely many taggings or verbalizations: the search for `n`
results ends if, for some cost, only finitely many taggings and verbalizations are not above it and
`n` different outputs are not above it. -/
theorem C64_bounded (p : Pipeline W) (input : Str) (n : Nat) (B : W) (tags : List Str)
    (htags : ∀ t tw, (grammar p input).tags t = some tw → tw ≤ B → t ∈ tags)
    (hverb : ∀ t tw r, (grammar p input).tags t = some tw → (grammar p input).reorder t = some r →
      ∃ ys : List Str, ∀ y v m, (grammar p input).verb r y = some v →
        IsLeast {u | ∃ z, (grammar p input).verb r z = some u} m → tw + v - m ≤ B → y ∈ ys)
    (outs : List Str) (hnd : outs.Nodup) (hlen : outs.length = n)
    (houts : ∀ y ∈ outs, ∃ w, Cost (grammar p input) y w ∧ w ≤ B) :
    ∃ fuel, candidates p fuel input n ≠ none := by
  refine ends_of p input n (fun w => w ≤ B) (fun _ _ => le_trans) tags htags hverb ?_
  intro a k s hs hl hall
  exfalso
  -- some output within the bound is not found yet
  have hex : ∃ y ∈ outs, y ∉ s.candidates.map fun c => c.output := by
    by_contra hc
    push Not at hc
    have := (hnd.subperm hc).length_le
    rw [List.length_map] at this
    omega
  obtain ⟨y, hy, hny⟩ := hex
  obtain ⟨w, ⟨t, tw, r, v, m, ht, hr, hv, hm, rfl⟩, hw⟩ := houts y hy
  have htw : tw ≤ B := by
    refine le_trans ?_ hw
    rw [add_sub_assoc]
    exact le_add_of_nonneg_right (sub_nonneg.2 (hm.2 ⟨y, hv⟩))
  -- it is a pair
  obtain ⟨i, _, ti, hti⟩ := (enumerates (p.tagger input)).reached t tw tags ht
    (fun t' tw' h' hle => htags t' tw' h' (hle.trans htw))
  obtain ⟨o, ho, rfl, rfl, _⟩ := answers_some hti
  obtain ⟨ys, hys⟩ := hverb o.text o.weight r ht hr
  obtain ⟨j, _, vj, hvj⟩ := (enumerates (p.verbalizer r)).reached y v ys hv (by
    intro y' v' hy' hle
    refine hys y' v' m hy' hm (le_trans ?_ hw)
    exact sub_le_sub_right (by gcongr) _)
  obtain ⟨ov, hov, rfl, rfl, _⟩ := answers_some hvj
  have h0 : ∃ v0, results (p.verbalizer r) 0 = some v0 := by
    cases h0 : results (p.verbalizer r) 0 with
    | none => rw [results_none_le _ 0 j h0 (Nat.zero_le _)] at hov; cases hov
    | some v0 => exact ⟨v0, rfl⟩
  obtain ⟨v0, hv0⟩ := h0
  have hm0 : v0.weight = m := (results_zero_least hv0).unique hm
  have hc := cand_mk p input ho (verbLattice_of ho hr) hov hv0
  by_cases hopen : Open a k i j
  · refine hall i j _ hc ⟨hopen, ?_⟩
    unfold Candidate.weight
    simp only [hm0]
    exact hw
  · unfold Open at hopen
    obtain ⟨d, hd, h1, _⟩ := hs.cover i (by omega) j (by omega) _ hc
    exact hny (List.mem_map.2 ⟨d, hd, h1⟩)

example : candidates demo 20 "q".toList 3 ≠ none := by decide +kernel

/-! ### C65: errors of the search -/

/-- **C65.** For `n ≥ 1` the search fails only when a tagging of the input cannot be parsed, with
the parser's error, or, as a `RuntimeError`, when no tagging has a verbalization. -/
theorem C65_errors (p : Pipeline W) (fuel : Nat) (input : Str) (n : Nat) (hn : 1 ≤ n) (e : Err)
    (h : candidates p fuel input n = some (.error e)) :
    (∃ t tw pe, (grammar p input).tags t = some tw ∧
      Verif.Token.reorder p.orders t = .error pe ∧ e = .parse pe) ∨
    (e = .runtime ∧ ∀ y w, ¬ Cost (grammar p input) y w) := by
  rcases loop_cases p input n fuel _ 0 _ (SInv.start p input) (Nat.zero_le _) _ h with
    ⟨i, t, e', _, ht, hr, h'⟩ | ⟨cs, a, k, s, h1, h2, _⟩
  · cases h'
    left
    unfold reorder at hr
    cases hq : Verif.Token.reorderWithSpans p.orders t.text with
    | error pe =>
      rw [hq] at hr
      simp only [Except.error.injEq] at hr
      refine ⟨t.text, t.weight, pe, (results_spec _ _ _ ht).2.1, ?_, hr.symm⟩
      unfold Verif.Token.reorder
      rw [hq]
    | ok q => rw [hq] at hr; cases hr
  · right
    unfold finish at h1
    split at h1
    · rename_i hnil
      cases h1
      refine ⟨rfl, ?_⟩
      intro y w hw
      obtain ⟨c, hc, _⟩ := cost_covered h2 hw (.inr (by rw [hnil]; exact hn))
      rw [hnil] at hc; cases hc
    · cases h1

/-- **C65.** If no tagging has a verbalization, a search that ends does so with an error. -/
theorem C65_no_path (p : Pipeline W) (fuel : Nat) (input : Str) (n : Nat) (r)
    (h : candidates p fuel input n = some r) (hno : ∀ y w, ¬ Cost (grammar p input) y w) :
    ∃ e, r = .error e := by
  cases r with
  | error e => exact ⟨e, rfl⟩
  | ok cs =>
    obtain ⟨hne, a, k, s, hf⟩ := candidates_final p input h
    cases cs with
    | nil => exact absurd rfl hne
    | cons c cs =>
      obtain ⟨i, _, j, _, hc⟩ := hf.inv.source c (by rw [hf.eq]; simp)
      exact absurd (cost_of_cand hc) (hno _ _)

/-- A pipeline whose only tagging cannot be verbalized. -/
def demoMute : Pipeline Int := { demo with
  tagger := fun _ => ofList [(demoTag1, 0)] (by decide +kernel) (by decide +kernel) }

/-- A pipeline whose only tagging cannot be parsed. -/
def demoBroken : Pipeline Int := { demo with
  tagger := fun _ => ofList [("a { v".toList, 0)] (by decide +kernel) (by decide +kernel) }

/-- What went wrong. -/
def failure {α : Type} : Option (Except Err α) → Option Err
  | some (.error e) => some e
  | _ => none

example : failure (candidates demoMute 9 "q".toList 2) = some .runtime ∧
    (failure (candidates demoBroken 9 "q".toList 2)).isSome ∧
    failure (candidates demoBroken 9 "q".toList 2) ≠ some .runtime := by decide +kernel

/-! ### C22: mapping records -/

/-- **C22.** Every record of every result describes slices of the input and of the result's text
that lie inside them, with the right kind. -/
theorem C22_records (p : Pipeline W) (fuel : Nat) (input : Str) (n : Int) (incl : Bool)
    (out : Shaped Result) (hin : input ≠ [])
    (h : normalizeWithMapping p fuel input (.int n) incl = some (.ok out)) :
    ∀ r ∈ out.toList, r.inputText = input ∧ ∀ m ∈ r.mappings,
      m.inputText = (input.drop m.inputStart).take (m.inputEnd - m.inputStart) ∧
      m.outputText = (r.outputText.drop m.outputStart).take (m.outputEnd - m.outputStart) ∧
      m.inputStart < m.inputEnd ∧ m.inputEnd ≤ input.length ∧
      m.outputStart ≤ m.outputEnd ∧ m.outputEnd ≤ r.outputText.length ∧
      (m.kind = .equal ↔ m.inputText = m.outputText) ∧
      (m.kind = .delete ↔ m.inputText ≠ m.outputText ∧ m.outputText = []) ∧
      (m.kind = .replace ↔ m.inputText ≠ m.outputText ∧ m.outputText ≠ []) := by
  obtain ⟨_, cs, _, _, hall, _⟩ := mapping_ok hin h
  intro r hr
  obtain ⟨c, hc⟩ := forall2_right hall hr
  obtain ⟨tokens, reordered, spans, outSpans, inSpans, output, _, _, h3, h4, rfl⟩ :=
    normalizeCandidate_ok hc
  refine ⟨rfl, ?_⟩
  intro m hm
  obtain ⟨⟨t, ⟨a, b⟩, ⟨x, y⟩⟩, hq, rfl⟩ := mem_mappings hm
  have hq2 := (List.of_mem_zip hq).2
  have hqi := (List.of_mem_zip hq2).1
  have hqo := (List.of_mem_zip hq2).2
  obtain ⟨hsel, _, h6, _⟩ := Verif.Align.C18_spans _ _ _ _ _ _ h3
  obtain ⟨_, h8, _⟩ := Verif.Align.C19_spans _ _ _ _ _ h4
  have ho := h6 _ hqo
  have hi := h8 _ hqi
  rw [← hsel] at ho
  simp only at ho hi
  unfold record
  simp only [slice]
  refine ⟨by rw [List.drop_take], by rw [List.drop_take], hi.1, hi.2, ho.1, ho.2,
    kindOf_spec _ _⟩

/-- **C22.** The records are in order, do not overlap on either side, and there is one per parsed
token when `include_identity` is set. -/
theorem C22_tokens (p : Pipeline W) (input : Str) (c : Candidate W) (r : Result)
    (h : normalizeCandidate p input c true = .ok r) :
    ∃ tokens, Verif.Token.parse c.tagged = .ok tokens ∧
      r.mappings.map (fun m => m.tokenType) = tokens.map (fun t => t.name) ∧
      r.mappings.Pairwise fun m m' =>
        m.inputEnd ≤ m'.inputStart ∧ m.outputEnd ≤ m'.outputStart := by
  obtain ⟨tokens, reordered, spans, outSpans, inSpans, output, h1, h2, h3, h4, rfl⟩ :=
    normalizeCandidate_ok h
  obtain ⟨_, h5, _, h6⟩ := Verif.Align.C18_spans _ _ _ _ _ _ h3
  obtain ⟨h7, _, h8⟩ := Verif.Align.C19_spans _ _ _ _ _ h4
  obtain ⟨out', spans', hr, _, hsl, _⟩ := Verif.Token.C08_spans_slice p.orders c.tagged tokens h1
  rw [h2] at hr
  cases hr
  have hl1 : spans.length = tokens.length := by
    have := congrArg List.length hsl
    simpa using this
  have hl2 : inSpans.length = tokens.length := by rw [h7]; simp [tokenSpans]
  refine ⟨tokens, h1, ?_, ?_⟩
  · simp only [mappings_true, List.map_map]
    have : ((fun m : Mapping => m.tokenType) ∘ record input output) =
        fun q => q.1.name := by funext q; rfl
    rw [this]
    have hz : (tokens.zip (inSpans.zip outSpans)).map Prod.fst = tokens := by
      rw [List.map_fst_zip]
      rw [List.length_zip]; omega
    conv_rhs => rw [← hz, List.map_map]
    rfl
  · simp only [mappings_true]
    rw [List.pairwise_map, List.pairwise_iff_getElem]
    intro i j hi hj hij
    rw [List.pairwise_iff_getElem] at h6 h8
    simp only [List.length_zip] at hi hj
    simp only [List.getElem_zip, record]
    exact ⟨h8 i j (by omega) (by omega) hij, h6 i j (by omega) (by omega) hij⟩

omit [IsOrderedAddMonoid W] in
/-- **C22.** Without `include_identity` the result is the same except that exactly the `equal`
records are left out. -/
theorem C22_identity (p : Pipeline W) (input : Str) (c : Candidate W) (r : Result) :
    normalizeCandidate p input c false = .ok r ↔
      ∃ r', normalizeCandidate p input c true = .ok r' ∧ r.inputText = r'.inputText ∧
        r.outputText = r'.outputText ∧
        r.mappings = r'.mappings.filter fun m => decide (m.kind ≠ .equal) := by
  unfold normalizeCandidate
  cases verbalizeTagged p c.tagged c.output with
  | error e => simp
  | ok q =>
    obtain ⟨output, tokens, outSpans⟩ := q
    simp only
    cases Verif.Align.traceInputSpans input c.tagged (p.tagPath input c.tagged)
        (tokenSpans tokens) with
    | error e => simp
    | ok inSpans =>
      simp only [Except.ok.injEq]
      constructor
      · rintro rfl
        exact ⟨_, rfl, rfl, rfl, by simp only [mappings_false, mappings_true]⟩
      · rintro ⟨r', rfl, h1, h2, h3⟩
        obtain ⟨a, b, l⟩ := r
        simp only at h1 h2 h3
        subst h1 h2 h3
        simp only [mappings_false, mappings_true]

example : ((normalizeWithMapping demo 20 "q".toList (.int 1)).map Except.toOption) =
    some (some (.one ⟨"q".toList, "two".toList,
      [⟨.replace, "a".toList, 0, 1, 0, 3, "q".toList, "two".toList⟩]⟩)) := by decide +kernel

example : ((normalizeWithMapping demo 20 "x".toList (.int 2) true).map fun r =>
    r.toOption.map fun o => o.toList.map fun q => q.mappings.map fun m => m.kind) =
    some (some [[.replace], [.equal]]) ∧
    ((normalizeWithMapping demo 20 "x".toList (.int 2)).map fun r =>
    r.toOption.map fun o => o.toList.map fun q => q.mappings.map fun m => m.kind) =
    some (some [[.replace], []]) := by decide +kernel

/-! ### C23: mapping and plain normalization -/

/-- The alignment selects a path with the requested output: the lattice is composed with
`accep(escape(output_text))` (alignment.py:189-191), so `path.string()` can only be that text. -/
def SelectsOutput (p : Pipeline W) : Prop := ∀ reordered y, (p.verbPath reordered y).2 = y

/-- **C23.** The mapping results have the texts of the plain results, in the same order and
shape. -/
theorem C23_same (p : Pipeline W) (hsel : SelectsOutput p) (fuel : Nat) (input : Str) (n : Int)
    (incl : Bool) (out : Shaped Result)
    (h : normalizeWithMapping p fuel input (.int n) incl = some (.ok out)) :
    ∃ plain, normalize p fuel input (.int n) = some (.ok plain) ∧
      out.toList.map (fun r => r.outputText) = plain.toList ∧
      ((∃ a, out = .one a) ↔ ∃ a, plain = .one a) := by
  by_cases hin : input = []
  · subst hin
    unfold normalizeWithMapping at h
    unfold normalize
    rw [validate_int] at h ⊢
    split at h
    · cases h
    · rename_i n' hn
      simp only [hn, if_true, Option.some.injEq] at h ⊢
      unfold shape at h ⊢
      split at h
      · rename_i h1
        rw [if_pos h1]
        cases h
        exact ⟨_, rfl, rfl, by simp⟩
      · rename_i h1
        rw [if_neg h1]
        cases h
        exact ⟨_, rfl, rfl, by simp⟩
  · obtain ⟨hn, cs, hc, _, hall, h1, h2⟩ := mapping_ok hin h
    obtain ⟨plain, hp, hl⟩ := normalize_of hin hn hc
    refine ⟨plain, hp, ?_, ?_⟩
    · rw [hl]
      have : List.Forall₂ (fun (c : Candidate W) (r : Result) => c.output = r.outputText) cs
          out.toList := by
        refine hall.imp ?_
        intro c r hcr
        obtain ⟨tokens, reordered, spans, outSpans, inSpans, output, _, _, h3, _, rfl⟩ :=
          normalizeCandidate_ok hcr
        have := (Verif.Align.C18_spans _ _ _ _ _ _ h3).1
        rw [hsel] at this
        exact this.symm
      exact (forall2_map this).symm
    · obtain ⟨_, cs', _, _, _, h3, h4⟩ := normalize_ok hin hp
      by_cases h5 : n = 1
      · exact ⟨fun _ => h3 h5, fun _ => h1 h5⟩
      · rw [h2 h5, h4 h5]; simp

/-- **C23.** Plain normalization fails exactly as the mapping variant does, except that the mapping
variant can also fail in the alignment. -/
theorem C23_errors (p : Pipeline W) (fuel : Nat) (input : Str) (nbest : PyValue) (incl : Bool) :
    (∀ e, normalize p fuel input nbest = some (.error e) →
      normalizeWithMapping p fuel input nbest incl = some (.error e)) ∧
    (∀ e, normalizeWithMapping p fuel input nbest incl = some (.error e) →
      normalize p fuel input nbest = some (.error e) ∨ ∃ ae, e = .align ae) ∧
    (normalize p fuel input nbest = none ↔
      normalizeWithMapping p fuel input nbest incl = none) := by
  cases hv : validateNbest nbest with
  | error e0 =>
    unfold normalize normalizeWithMapping
    rw [hv]
    simp
  | ok n =>
    have hn : 1 ≤ n := by
      cases nbest with
      | bool b => cases hv
      | other => cases hv
      | int k =>
        rw [validate_int] at hv
        split at hv
        · cases hv
        · cases hv; omega
    have hshape : ∀ {α : Type} (l : List α), l ≠ [] → ∃ o, shape n l = .ok o := by
      intro α l hl
      unfold shape
      cases l with
      | nil => exact absurd rfl hl
      | cons a l => split <;> exact ⟨_, rfl⟩
    unfold normalize normalizeWithMapping
    simp only [hv]
    by_cases hin : input = []
    · simp only [hin, if_true]
      obtain ⟨o1, h1⟩ := hshape [([] : Str)] (by simp)
      obtain ⟨o2, h2⟩ := hshape [(⟨[], [], []⟩ : Result)] (by simp)
      rw [h1, h2]
      simp
    · simp only [hin, if_false]
      cases hc : candidates p fuel input n with
      | none => simp
      | some r =>
        cases r with
        | error e0 => simp
        | ok cs =>
          obtain ⟨hne, a, k, s, hf⟩ := candidates_final p input hc
          obtain ⟨o1, h1⟩ := hshape (cs.map fun c => c.output) (by simpa using hne)
          simp only [h1]
          cases hm : mapM' (fun c => normalizeCandidate p input c incl) cs with
          | ok rs =>
            have hlen := (mapM_ok.1 hm).length_eq
            obtain ⟨o2, h2⟩ := hshape rs (by
              rintro rfl
              exact hne (List.eq_nil_of_length_eq_zero hlen))
            simp only [h2]
            simp
          | error e0 =>
            simp only [Option.some.injEq, Except.error.injEq, reduceCtorEq, false_or,
              forall_eq', IsEmpty.forall_iff, implies_true, iff_self, and_true, true_and]
            obtain ⟨c, hcm, hce⟩ := mapM_error hm
            obtain ⟨i, _, j, _, hcand⟩ := hf.inv.source c (by rw [hf.eq]; exact hcm)
            obtain ⟨t, L, v, v0, ht, hL, _, _, rfl⟩ := cand_some p input hcand
            obtain ⟨t', r, ht', hr, _⟩ := verbLattice_some hL
            rw [ht] at ht'; cases ht'
            unfold normalizeCandidate verbalizeTagged at hce
            have hpar : ∃ tokens q, Verif.Token.parse t.text = .ok tokens ∧
                Verif.Token.reorderWithSpans p.orders t.text = .ok q := by
              have hr' := (reorder_iff _ _ _).2 hr
              unfold reorder at hr'
              cases hq : Verif.Token.reorderWithSpans p.orders t.text with
              | error e => rw [hq] at hr'; cases hr'
              | ok q =>
                unfold Verif.Token.reorderWithSpans at hq
                cases hpa : Verif.Token.parse t.text with
                | error e => rw [hpa] at hq; cases hq
                | ok tokens => exact ⟨tokens, q, rfl, rfl⟩
            obtain ⟨tokens, ⟨reo, sp⟩, h3, h4⟩ := hpar
            simp only [h3, h4] at hce
            split at hce
            · rename_i e heq
              split at heq
              · cases heq; cases hce; exact ⟨_, rfl⟩
              · cases heq
            · split at hce
              · cases hce; exact ⟨_, rfl⟩
              · cases hce

example : SelectsOutput demo := fun _ _ => rfl

example : failure (normalizeWithMapping demoMute 9 "q".toList (.int 2)) = some .runtime := by
  decide +kernel

end Verif.NBest
