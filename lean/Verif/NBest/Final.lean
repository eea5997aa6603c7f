import Verif.NBest.Loop
import Verif.NBest.Spec

namespace Verif.NBest
open Verif.Token (Str)
open Spec

variable {W : Type} [LinearOrder W]

/-- A stream's answer as a plain triple. -/
def WeightedOutput.triple (o : WeightedOutput W) : Answer W := (o.text, o.weight, o.rank)

/-- The answers of successive calls of `pop` on a new stream. -/
def answers (L : Lattice W) (k : Nat) : Option (Answer W) :=
  (results L k).map WeightedOutput.triple

theorem answers_some {L : Lattice W} {k x w n} (h : answers L k = some (x, w, n)) :
    ∃ o, results L k = some o ∧ o.text = x ∧ o.weight = w ∧ o.rank = n := by
  unfold answers at h
  obtain ⟨o, h1, h2⟩ := Option.map_eq_some_iff.1 h
  unfold WeightedOutput.triple at h2
  simp only [Prod.mk.injEq] at h2
  exact ⟨o, h1, h2.1, h2.2.1, h2.2.2⟩

theorem answers_of {L : Lattice W} {k o} (h : results L k = some o) :
    answers L k = some (o.text, o.weight, o.rank) := by
  unfold answers; rw [h]; rfl

theorem answers_none {L : Lattice W} {k} : answers L k = none ↔ results L k = none := by
  unfold answers; simp

/-- If the strings satisfying a downward closed condition are among `l`, the answer at `l.length`
does not satisfy it. -/
theorem results_bound (L : Lattice W) (G : W → Prop) (hdown : ∀ v w, v ≤ w → G w → G v)
    (l : List Str) (hl : ∀ y v, L.best y = some v → G v → y ∈ l) (o)
    (h : results L l.length = some o) : ¬ G o.weight := by
  intro hg
  have hsub : o.text :: (after L l.length).yielded ⊆ l := by
    intro x hx
    rcases List.mem_cons.1 hx with rfl | hx
    · exact hl _ _ (results_spec _ _ _ h).2.1 hg
    · obtain ⟨j, hj, b, hb, rfl⟩ := (mem_yielded L l.length x).1 hx
      exact hl _ _ (results_spec _ _ _ hb).2.1
        (hdown _ _ (results_sorted L j l.length b o hj.le hb h) hg)
  have hnd : (o.text :: (after L l.length).yielded).Nodup := by
    refine List.nodup_cons.2 ⟨?_, (after_inv L l.length).1.yNodup⟩
    rw [mem_yielded]
    exact (results_spec _ _ _ h).2.2.2
  have := (hnd.subperm hsub).length_le
  rw [List.length_cons, length_yielded L _ o h] at this
  omega

theorem enumerates (L : Lattice W) : Enumerates L.best (answers L) := by
  have hsame : ∀ {j b y v}, results L j = some b → b.text = y → L.best y = some v →
      answers L j = some (y, v, b.rank) := by
    intro j b y v hb hy hv
    rw [answers_of hb]
    have := (results_spec L j b hb).2.1
    rw [hy, hv] at this
    rw [Option.some.inj this, hy]
  constructor
  · intro k x w n h
    obtain ⟨o, ho, rfl, rfl, rfl⟩ := answers_some h
    exact ⟨(results_spec L k o ho).1, (results_spec L k o ho).2.1⟩
  · intro i j x v w m n hi hj
    obtain ⟨o, ho, h1, _, _⟩ := answers_some hi
    obtain ⟨o', ho', h1', _, _⟩ := answers_some hj
    exact results_once L i j o o' ho ho' (h1.trans h1'.symm)
  · intro i j x y v w m n hij hi hj
    obtain ⟨o, ho, _, rfl, _⟩ := answers_some hi
    obtain ⟨o', ho', _, rfl, _⟩ := answers_some hj
    exact results_sorted L i j o o' hij ho ho'
  · intro k x w n y v hk hy hlt
    obtain ⟨o, ho, rfl, rfl, rfl⟩ := answers_some hk
    obtain ⟨j, hj, b, hb, hby⟩ := (results_spec L k o ho).2.2.1 y v hy hlt
    exact ⟨j, hj, _, hsame hb hby hy⟩
  · intro k hk
    rw [answers_none] at hk
    refine ⟨?_, fun j hj => answers_none.2 (results_none_le L k j hk hj)⟩
    intro y v hy
    obtain ⟨j, hj, b, hb, hby⟩ := results_all L k hk y v hy
    exact ⟨j, hj, _, hsame hb hby hy⟩
  · intro x w l hx hl
    have hcase : ∃ j, j < l.length ∧ ∃ b, results L j = some b ∧ b.text = x := by
      cases h : results L l.length with
      | none => exact results_all L _ h x w hx
      | some o =>
        have := results_bound L (fun v => v ≤ w) (fun _ _ => le_trans) l
          (fun y v hy hv => hl y v hy hv) o h
        exact (results_spec L _ o h).2.2.1 x w hx (not_le.1 this)
    obtain ⟨j, hj, b, hb, hbx⟩ := hcase
    exact ⟨j, hj, _, hsame hb hbx hx⟩

variable [AddCommGroup W]

/-- The weights and the reordering a pipeline uses for an input. -/
def grammar (p : Pipeline W) (input : Str) : Grammar W where
  tags := (p.tagger input).best
  reorder := fun t => (Verif.Token.reorder p.orders t).toOption
  verb := fun r => (p.verbalizer r).best

theorem reorder_iff (orders : Verif.Token.Orders) (t r : Str) :
    reorder orders t = .ok r ↔ (Verif.Token.reorder orders t).toOption = some r := by
  unfold reorder Verif.Token.reorder
  cases Verif.Token.reorderWithSpans orders t with
  | error e => simp [Except.toOption]
  | ok q => simp [Except.toOption]

theorem verbLattice_some {p : Pipeline W} {input : Str} {i L}
    (h : verbLattice p input i = some L) : ∃ t r, results (p.tagger input) i = some t ∧
      (grammar p input).reorder t.text = some r ∧ L = p.verbalizer r := by
  unfold verbLattice at h
  split at h
  · cases h
  · rename_i t ht
    split at h
    · cases h
    · rename_i r hr
      cases h
      exact ⟨t, r, ht, (reorder_iff _ _ _).1 hr, rfl⟩

theorem verbLattice_of {p : Pipeline W} {input : Str} {i t r}
    (ht : results (p.tagger input) i = some t)
    (hr : (grammar p input).reorder t.text = some r) :
    verbLattice p input i = some (p.verbalizer r) := by
  unfold verbLattice
  rw [ht]
  simp only [(reorder_iff _ _ _).2 hr]

theorem results_zero_least {L : Lattice W} {o} (h : results L 0 = some o) :
    IsLeast {u | ∃ z, L.best z = some u} o.weight := by
  have hs := results_spec L 0 o h
  refine ⟨⟨o.text, hs.2.1⟩, ?_⟩
  rintro u ⟨z, hz⟩
  by_contra hc
  obtain ⟨j, hj, _⟩ := hs.2.2.1 z u hz (not_le.1 hc)
  omega

theorem cost_of_cand {p : Pipeline W} {input : Str} {i j c} (h : cand p input i j = some c) :
    Cost (grammar p input) c.output c.weight := by
  obtain ⟨t, L, v, v0, ht, hL, hv, hv0, rfl⟩ := cand_some p input h
  obtain ⟨t', r, ht', hr, rfl⟩ := verbLattice_some hL
  rw [ht] at ht'; cases ht'
  exact ⟨t.text, t.weight, r, v.weight, v0.weight, (results_spec _ _ _ ht).2.1, hr,
    (results_spec _ _ _ hv).2.1, results_zero_least hv0, rfl⟩

variable [IsOrderedAddMonoid W]

/-- A cost below an accepted one (or any cost, when the list is short) is the cost of a processed
pair. -/
theorem cost_processed {p : Pipeline W} {input : Str} {nbest cs a n s}
    (h : Final p input nbest cs a n s) {y w} (hcost : Cost (grammar p input) y w)
    (hlow : (∃ c ∈ cs, w < c.weight) ∨ cs.length < nbest) :
    ∃ i, i < a ∧ ∃ j, j < n i ∧ ∃ c, cand p input i j = some c ∧ c.output = y ∧ c.weight = w := by
  obtain ⟨t, tw, r, v, m, ht, hr, hv, hm, rfl⟩ := hcost
  have hmv : m ≤ v := hm.2 ⟨y, hv⟩
  have htw : tw ≤ tw + v - m := by
    rw [add_sub_assoc]; exact le_add_of_nonneg_right (sub_nonneg.2 hmv)
  -- the tagging is activated
  have htag : ∃ i, i < a ∧ ∃ b, results (p.tagger input) i = some b ∧ b.text = t := by
    cases ha : results (p.tagger input) a with
    | none => exact results_all _ _ ha t tw ht
    | some u =>
      rcases hlow with ⟨c, hc, hlt⟩ | hlen
      · obtain ⟨i, hi, j, hj, hcand⟩ := h.inv.source c (h.eq ▸ hc)
        have := h.inv.bound i j c u hi hj hcand ha
        exact (results_spec _ _ _ ha).2.2.1 t tw ht (lt_of_le_of_lt htw (lt_of_lt_of_le hlt this))
      · rw [h.tags hlen] at ha; cases ha
  obtain ⟨i, hi, b, hb, rfl⟩ := htag
  have hbw : b.weight = tw := by
    have := (results_spec _ _ _ hb).2.1
    rw [show (p.tagger input).best b.text = some tw from ht] at this
    exact (Option.some.inj this).symm
  have hL := verbLattice_of hb hr
  generalize hLr : p.verbalizer r = L at hL
  have hbest : L.best y = some v := by rw [← hLr]; exact hv
  -- the verbalization is processed
  have hver : ∃ j, j < n i ∧ ∃ o, results L j = some o ∧ o.text = y := by
    cases hn : results L (n i) with
    | none => exact results_all _ _ hn y v hbest
    | some o =>
      obtain ⟨v0, hv0⟩ : ∃ v0, results L 0 = some v0 := by
        cases h0 : results L 0 with
        | none => rw [results_none_le L 0 (n i) h0 (Nat.zero_le _)] at hn; cases hn
        | some v0 => exact ⟨v0, rfl⟩
      have hm0 : v0.weight = m := by
        have := results_zero_least hv0
        rw [← hLr] at this
        exact this.unique hm
      have hc' := cand_mk p input hb hL hn hv0
      rcases hlow with ⟨c, hc, hlt⟩ | hlen
      · obtain ⟨i', hi', j', hj', hcand⟩ := h.inv.source c (h.eq ▸ hc)
        have h1 := h.inv.before i' j' c i (n i) _ hi' hj' hcand hc' (.inr (Nat.le_refl _))
        have h2 := lt_of_lt_of_le hlt (keyLe_weight (keyLt_asymm h1))
        unfold Candidate.key Candidate.weight at h2
        simp only [hbw, hm0] at h2
        refine (results_spec _ _ _ hn).2.2.1 y v hbest ?_
        have h3 := (sub_lt_sub_iff_right m).1 h2
        exact (add_lt_add_iff_left tw).1 h3
      · exact absurd (.inr (Nat.le_refl _)) (h.pairs hlen i (n i) _ hc')
  obtain ⟨j, hj, o, ho, rfl⟩ := hver
  obtain ⟨c, hc⟩ := h.inv.done i hi j hj
  refine ⟨i, hi, j, hj, c, hc, ?_⟩
  obtain ⟨t', L', v', v0, ht', hL', hv', hv0, rfl⟩ := cand_some p input hc
  rw [hb] at ht'; cases ht'
  rw [hL] at hL'; cases hL'
  rw [ho] at hv'; cases hv'
  have hm0 : v0.weight = m := by
    have := results_zero_least hv0
    rw [← hLr] at this
    exact this.unique hm
  have hov : o.weight = v := by
    have := (results_spec _ _ _ ho).2.1
    rw [hbest] at this
    exact (Option.some.inj this).symm
  refine ⟨rfl, ?_⟩
  unfold Candidate.weight
  simp only [hbw, hm0, hov]

theorem cost_covered {p : Pipeline W} {input : Str} {nbest cs a n s}
    (h : Final p input nbest cs a n s) {y w} (hcost : Cost (grammar p input) y w)
    (hlow : (∃ c ∈ cs, w < c.weight) ∨ cs.length < nbest) :
    ∃ c ∈ cs, c.output = y ∧ c.weight ≤ w := by
  obtain ⟨i, hi, j, hj, c, hc, rfl, rfl⟩ := cost_processed h hcost hlow
  obtain ⟨c', hc', h1, h2⟩ := h.inv.cover i hi j hj c hc
  exact ⟨c', h.eq ▸ hc', h1, keyLe_weight h2⟩

theorem cheapest {p : Pipeline W} {input : Str} {nbest cs a n s}
    (h : Final p input nbest cs a n s) :
    Cheapest (grammar p input) nbest (cs.map fun c => (c.output, c.weight)) := by
  have hsorted : cs.Pairwise fun c c' => keyLt c.key c'.key := h.eq ▸ h.inv.sorted
  have hnd : (cs.map fun c => c.output).Nodup := h.eq ▸ h.inv.nodup
  have hcost : ∀ c ∈ cs, Cost (grammar p input) c.output c.weight := by
    intro c hc
    obtain ⟨i, _, j, _, h'⟩ := h.inv.source c (h.eq ▸ hc)
    exact cost_of_cand h'
  constructor
  · rw [List.pairwise_map]
    exact hsorted.imp fun h' => keyLe_weight (keyLt_asymm h')
  · rw [List.map_map]
    exact hnd
  · intro q hq
    obtain ⟨c, hc, rfl⟩ := List.mem_map.1 hq
    refine ⟨hcost c hc, ?_⟩
    intro v hv
    by_contra hlt
    obtain ⟨c', hc', h1, h2⟩ := cost_covered h hv (.inl ⟨c, hc, not_le.1 hlt⟩)
    have := List.inj_on_of_nodup_map hnd hc' hc h1
    rw [this] at h2
    exact hlt h2
  · intro q hq z v hz hlt
    obtain ⟨c, hc, rfl⟩ := List.mem_map.1 hq
    obtain ⟨c', hc', h1, h2⟩ := cost_covered h hz (.inl ⟨c, hc, hlt⟩)
    exact ⟨c'.weight, List.mem_map.2 ⟨c', hc', by rw [h1]⟩, h2⟩
  · rw [List.length_map]; exact h.atMost
  · intro hlen z v hz
    rw [List.length_map] at hlen
    obtain ⟨c', hc', h1, h2⟩ := cost_covered h hz (.inr hlen)
    exact ⟨c'.weight, List.mem_map.2 ⟨c', hc', by rw [h1]⟩⟩

/-! ### Ties -/

omit [IsOrderedAddMonoid W] in
theorem before_iff (a b : Place W) : Before a b ↔ keyLt a b := by
  obtain ⟨a1, a2, a3⟩ := a
  obtain ⟨b1, b2, b3⟩ := b
  unfold Before keyLt
  simp only [Prod.lex_def]

/-- The verbalizations of the `i`-th tagging. -/
def verbAnswers (p : Pipeline W) (input : Str) (i j : Nat) : Option (Answer W) :=
  match verbLattice p input i with
  | none => none
  | some L => answers L j

omit [IsOrderedAddMonoid W] in
theorem pair_iff {p : Pipeline W} {input : Str} {y k} :
    Pair (answers (p.tagger input)) (verbAnswers p input) y k ↔
      ∃ i j c, cand p input i j = some c ∧ c.output = y ∧ c.key = k := by
  constructor
  · rintro ⟨i, j, t, tw, ti, v, vj, z, m, mi, ht, hv, h0, rfl⟩
    obtain ⟨t', ht', rfl, rfl, rfl⟩ := answers_some ht
    unfold verbAnswers at hv h0
    cases hL : verbLattice p input i with
    | none => rw [hL] at hv; cases hv
    | some L =>
      rw [hL] at hv h0
      obtain ⟨v', hv', rfl, rfl, rfl⟩ := answers_some hv
      obtain ⟨v0, hv0, rfl, rfl, rfl⟩ := answers_some h0
      exact ⟨i, j, _, cand_mk p input ht' hL hv' hv0, rfl, rfl⟩
  · rintro ⟨i, j, c, hc, rfl, rfl⟩
    obtain ⟨t, L, v, v0, ht, hL, hv, hv0, rfl⟩ := cand_some p input hc
    have h1 : verbAnswers p input i j = some (v.text, v.weight, v.rank) := by
      unfold verbAnswers; rw [hL]; exact answers_of hv
    have h2 : verbAnswers p input i 0 = some (v0.text, v0.weight, v0.rank) := by
      unfold verbAnswers; rw [hL]; exact answers_of hv0
    exact ⟨i, j, _, _, _, _, _, _, _, _, answers_of ht, h1, h2, rfl⟩

omit [IsOrderedAddMonoid W] in
theorem verb_enumerates (p : Pipeline W) (input : Str) (i : Nat) (t tw k r)
    (ht : answers (p.tagger input) i = some (t, tw, k))
    (hr : (grammar p input).reorder t = some r) :
    Enumerates ((grammar p input).verb r) (verbAnswers p input i) := by
  obtain ⟨o, ho, rfl, _, _⟩ := answers_some ht
  have : verbAnswers p input i = answers (p.verbalizer r) := by
    funext j
    unfold verbAnswers
    rw [verbLattice_of ho hr]
  rw [this]
  exact enumerates _

theorem firstOf {p : Pipeline W} {input : Str} {nbest cs a n s}
    (h : Final p input nbest cs a n s) :
    FirstOf (answers (p.tagger input)) (verbAnswers p input) nbest
      (cs.map fun c => (c.output, c.key)) := by
  have hsorted : cs.Pairwise fun c c' => keyLt c.key c'.key := h.eq ▸ h.inv.sorted
  have hnd : (cs.map fun c => c.output).Nodup := h.eq ▸ h.inv.nodup
  have hcov : ∀ i j c, cand p input i j = some c → ¬ Open a n i j →
      ∃ k', (c.output, k') ∈ (cs.map fun c => (c.output, c.key)) ∧ ¬ Before c.key k' := by
    intro i j c hc ho
    unfold Open at ho
    obtain ⟨c', hc', h1, h2⟩ := h.inv.cover i (by omega) j (by omega) c hc
    exact ⟨c'.key, List.mem_map.2 ⟨c', h.eq ▸ hc', by rw [h1]⟩, by rw [before_iff]; exact h2⟩
  constructor
  · intro q hq
    obtain ⟨c, hc, rfl⟩ := List.mem_map.1 hq
    obtain ⟨i, _, j, _, h'⟩ := h.inv.source c (h.eq ▸ hc)
    exact pair_iff.2 ⟨i, j, c, h', rfl, rfl⟩
  · rw [List.pairwise_map]
    exact hsorted.imp fun h' => (before_iff _ _).2 h'
  · rw [List.map_map]
    exact hnd
  · intro q hq z k hz hlt
    obtain ⟨c, hc, rfl⟩ := List.mem_map.1 hq
    obtain ⟨i, j, c', hc', rfl, rfl⟩ := pair_iff.1 hz
    obtain ⟨i', hi', j', hj', h'⟩ := h.inv.source c (h.eq ▸ hc)
    refine hcov i j c' hc' ?_
    intro ho
    exact keyLt_asymm ((before_iff _ _).1 hlt) (h.inv.before i' j' c i j c' hi' hj' h' hc' ho)
  · rw [List.length_map]; exact h.atMost
  · intro hlen z k hz
    rw [List.length_map] at hlen
    obtain ⟨i, j, c', hc', rfl, rfl⟩ := pair_iff.1 hz
    exact hcov i j c' hc' (h.pairs hlen i j c' hc')

/-- The specification leaves no freedom. -/
theorem firstOf_unique {T : Nat → Option (Answer W)} {V : Nat → Nat → Option (Answer W)} {n : Nat}
    {l l' : List (Str × Place W)} (h : FirstOf T V n l) (h' : FirstOf T V n l') : l = l' := by
  -- an element of a list is the first place of its output
  have hfirst : ∀ {m : List (Str × Place W)}, FirstOf T V n m → ∀ a ∈ m, ∀ k, Pair T V a.1 k →
      ¬ keyLt k a.2 := by
    intro m hm a ha k hk hlt
    obtain ⟨k', hk', hn⟩ := hm.noneSkipped a ha a.1 k hk ((before_iff _ _).2 hlt)
    have := List.inj_on_of_nodup_map hm.distinct hk' ha rfl
    rw [← this] at hlt
    exact hn ((before_iff _ _).2 hlt)
  -- an earlier first place of another output is in the list
  have hseg : ∀ {m m' : List (Str × Place W)}, FirstOf T V n m → FirstOf T V n m' → ∀ a ∈ m,
      ∀ b ∈ m', keyLt a.2 b.2 → a ∈ m' := by
    intro m m' hm hm' a ha b hb hlt
    obtain ⟨k', hk', hn⟩ := hm'.noneSkipped b hb a.1 a.2 (hm.pairs a ha) ((before_iff _ _).2 hlt)
    have h1 := hfirst hm a ha k' (hm'.pairs _ hk')
    rw [before_iff] at hn
    rcases keyLt_tri k' a.2 with h2 | h2 | h2
    · exact absurd h2 h1
    · rw [h2] at hk'; exact hk'
    · exact absurd h2 hn
  have hkey : ∀ {m m' : List (Str × Place W)}, FirstOf T V n m → FirstOf T V n m' → ∀ a ∈ m,
      ∀ b ∈ m', a.2 = b.2 → a = b := by
    intro m m' hm hm' a ha b hb heq
    obtain ⟨i, j, t, tw, ti, v, vj, z, x, xi, h1, h2, h3, h4⟩ := hm.pairs a ha
    obtain ⟨i', j', t', tw', ti', v', vj', z', x', xi', h1', h2', h3', h4'⟩ := hm'.pairs b hb
    rw [h4, h4'] at heq
    simp only [Prod.mk.injEq] at heq
    obtain ⟨hw, rfl, rfl⟩ := heq
    rw [h2] at h2'
    simp only [Option.some.injEq, Prod.mk.injEq] at h2'
    exact Prod.ext h2'.1 (by rw [h4, h4', hw])
  have hndl : ∀ {m : List (Str × Place W)}, FirstOf T V n m → m.Nodup := fun hm =>
    List.Nodup.of_map _ hm.distinct
  -- one list contains the other
  have hsub : ∀ {m m' : List (Str × Place W)}, FirstOf T V n m → FirstOf T V n m' →
      (∀ a ∈ m, a ∈ m') → m'.length ≤ n → ∀ b ∈ m', b ∈ m := by
    intro m m' hm hm' hs hlen b hb
    by_contra hc
    have h1 : (b :: m).Nodup := List.nodup_cons.2 ⟨hc, hndl hm⟩
    have h2 : b :: m ⊆ m' := by
      intro x hx
      rcases List.mem_cons.1 hx with rfl | hx
      · exact hb
      · exact hs x hx
    have h3 := (h1.subperm h2).length_le
    rw [List.length_cons] at h3
    obtain ⟨k', hk', hn⟩ := hm.all (by omega) b.1 b.2 (hm'.pairs b hb)
    have h4 := hfirst hm' b hb k' (hm.pairs _ hk')
    rw [before_iff] at hn
    rcases keyLt_tri k' b.2 with h5 | h5 | h5
    · exact h4 h5
    · rw [h5] at hk'; exact hc hk'
    · exact hn h5
  have hmem : ∀ x, x ∈ l ↔ x ∈ l' := by
    by_cases hall : ∀ a ∈ l, a ∈ l'
    · exact fun x => ⟨hall x, hsub h h' hall h'.atMost x⟩
    · push Not at hall
      obtain ⟨a, ha, hna⟩ := hall
      have hall' : ∀ b ∈ l', b ∈ l := by
        intro b hb
        rcases keyLt_tri a.2 b.2 with h1 | h1 | h1
        · exact absurd (hseg h h' a ha b hb h1) hna
        · rw [hkey h h' a ha b hb h1] at hna; exact absurd hb hna
        · exact hseg h' h b hb a ha h1
      exact fun x => ⟨hsub h' h hall' h.atMost x, hall' x⟩
  refine List.Perm.eq_of_pairwise (le := fun a b => keyLt a.2 b.2) ?_ (h.sorted.imp fun h => (before_iff _ _).1 h)
    (h'.sorted.imp fun h => (before_iff _ _).1 h)
    ((List.perm_ext_iff_of_nodup (hndl h) (hndl h')).2 hmem)
  intro a b _ _ h1 h2
  exact absurd h2 (keyLt_asymm h1)

end Verif.NBest
