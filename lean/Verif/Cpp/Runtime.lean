import Verif.Cpp.Props
import Verif.NBest.Props

/-! The two runtimes together: what `Normalize` of the C++ runtime returns, compared with
`Processor.normalize` of Python on the same two machines. -/

namespace Verif.Cpp
open Verif.Token (Str)
open Verif.NBest (Pipeline answers results verbAnswers)
open Verif.NBest.Spec

variable {W : Type} [LinearOrder W]

/-- The string of `shortestpath(lattice, nshortest=1, unique=True)`; an empty machine prints the
empty string (wetext_processor.cc:45-53). -/
def firstOutput (L : Verif.NBest.Lattice W) : Str :=
  match L.shortest 1 with
  | [] => []
  | p :: _ => p.1

variable [AddCommGroup W]

/-- The C++ runtime has loaded the machines that the Python pipeline uses, and OpenFst's
`ShortestPath(…, 1, true)` gives the path that Python's `shortestpath(nshortest=1, unique=True)`
gives: both are the same function of OpenFst (wetext_processor.cc:45-62). -/
structure Deployed (p : Pipeline W) (tagger verbalizer : Bytes → Bytes) : Prop where
  tag : ∀ x, x ≠ [] → tagger (encAll x) = encAll (firstOutput (p.tagger x))
  verb : ∀ r, verbalizer (encAll r) = encAll (firstOutput (p.verbalizer r))

open Classical in
omit [AddCommGroup W] in
/-- Such machines exist for every pipeline. -/
theorem deployed_exists (p : Pipeline W) : ∃ tagger verbalizer, Deployed p tagger verbalizer := by
  have key : ∀ f : Str → Str, ∃ g : Bytes → Bytes, ∀ x, g (encAll x) = encAll (f x) := by
    intro f
    refine ⟨fun b => if h : ∃ x, encAll x = b then encAll (f h.choose) else [], ?_⟩
    intro x
    have h : ∃ y, encAll y = encAll x := ⟨x, rfl⟩
    simp only [dif_pos h]
    rw [encAll_injective h.choose_spec]
  obtain ⟨g, hg⟩ := key fun x => firstOutput (p.tagger x)
  obtain ⟨g', hg'⟩ := key fun x => firstOutput (p.verbalizer x)
  exact ⟨g, g', fun x _ => hg x, hg'⟩

/-! ### The first answer of a stream -/

omit [AddCommGroup W] in
theorem results_zero (L : Verif.NBest.Lattice W) :
    (L.shortest 1 = [] ∧ results L 0 = none ∧ ∀ x, L.best x = none) ∨
    ∃ t w, L.shortest 1 = [(t, w)] ∧ results L 0 = some ⟨t, w, 0⟩ := by
  cases h : L.shortest 1 with
  | nil =>
    refine .inl ⟨rfl, ?_, ?_⟩
    · unfold results Verif.NBest.after Verif.NBest.Stream.pop Verif.NBest.Stream.peek
      unfold Verif.NBest.Stream.peekLoop
      simp [Verif.NBest.Stream.expand, h, Verif.NBest.collect]
    · intro x
      cases hb : L.best x with
      | none => rfl
      | some w =>
        have := L.complete 1 x w (by rw [h]; simp) hb
        rw [h] at this
        cases this
  | cons q l =>
    obtain ⟨t, w⟩ := q
    have hl := L.atMost 1
    rw [h] at hl
    have : l = [] := by cases l with
      | nil => rfl
      | cons a l => simp at hl
    subst this
    refine .inr ⟨t, w, rfl, ?_⟩
    unfold results Verif.NBest.after Verif.NBest.Stream.pop Verif.NBest.Stream.peek
    unfold Verif.NBest.Stream.peekLoop
    simp [Verif.NBest.Stream.expand, h, Verif.NBest.collect]

omit [AddCommGroup W] in
theorem firstOutput_of {L : Verif.NBest.Lattice W} {o} (h : results L 0 = some o) : firstOutput L = o.text := by
  rcases results_zero L with ⟨_, h2, _⟩ | ⟨t, w, h1, h2⟩
  · rw [h2] at h; cases h
  · rw [h2] at h
    cases h
    unfold firstOutput
    rw [h1]

omit [AddCommGroup W] in
/-- An output that is cheaper than all others is the first. -/
theorem firstOutput_unique {L : Verif.NBest.Lattice W} {x w} (h : L.best x = some w)
    (hu : ∀ y v, L.best y = some v → y ≠ x → w < v) : firstOutput L = x := by
  obtain ⟨o, ho⟩ : ∃ o, results L 0 = some o := by
    rcases results_zero L with ⟨_, _, h2⟩ | ⟨t, w, _, h2⟩
    · rw [h2] at h; cases h
    · exact ⟨_, h2⟩
  rw [firstOutput_of ho]
  obtain ⟨_, h1, h2, _⟩ := Verif.NBest.results_spec _ _ _ ho
  by_contra hne
  obtain ⟨j, hj, _⟩ := h2 x w h (hu _ _ h1 hne)
  exact absurd hj (Nat.not_lt_zero j)

omit [AddCommGroup W] in
theorem results_zero_of {L : Verif.NBest.Lattice W} {x w} (h : L.best x = some w) :
    ∃ o, results L 0 = some o := by
  rcases results_zero L with ⟨_, _, h2⟩ | ⟨t, w, _, h2⟩
  · rw [h2] at h; cases h
  · exact ⟨_, h2⟩

variable [IsOrderedAddMonoid W]

/-- When the first tagging can be verbalized, its first verbalization is the first candidate. -/
theorem first_candidate {p : Pipeline W} {x : Str} {fuel n : Nat} {cs} (hn : 1 ≤ n)
    (hc : Verif.NBest.candidates p fuel x n = some (.ok cs)) {t v r}
    (ht : results (p.tagger x) 0 = some t)
    (hr : Verif.Token.reorder p.orders t.text = .ok r)
    (hv : results (p.verbalizer r) 0 = some v) :
    ∃ c rest, cs = c :: rest ∧ c.output = v.text := by
  obtain ⟨_, a, m, s, hf⟩ := Verif.NBest.candidates_final p x hc
  have hfo := Verif.NBest.firstOf hf
  have hgr : (Verif.NBest.grammar p x).reorder t.text = some r := by
    show (Verif.Token.reorder p.orders t.text).toOption = _
    rw [hr]; rfl
  have hT := Verif.NBest.enumerates (p.tagger x)
  have ht0 : answers (p.tagger x) 0 = some (t.text, t.weight, t.rank) := Verif.NBest.answers_of ht
  have hV0 : verbAnswers p x 0 0 = some (v.text, v.weight, v.rank) := by
    unfold verbAnswers
    rw [Verif.NBest.verbLattice_of ht hgr]
    exact Verif.NBest.answers_of hv
  have hpair : Pair (answers (p.tagger x)) (verbAnswers p x) v.text (t.weight, 0, 0) :=
    ⟨0, 0, _, _, _, _, _, _, _, _, ht0, hV0, hV0, by simp⟩
  -- no pair comes before it
  have hmin : ∀ y k, Pair (answers (p.tagger x)) (verbAnswers p x) y k →
      ¬ Before k ((t.weight, 0, 0) : Place W) := by
    rintro y k ⟨i, j, t', tw, ti, v', vj, z, m, mi, h1, h2, h3, rfl⟩ hb
    have e1 := hT.sorted 0 i _ _ _ _ _ _ (Nat.zero_le _) ht0 h1
    have e2 : m ≤ v' := by
      unfold verbAnswers at h2 h3
      cases hL : Verif.NBest.verbLattice p x i with
      | none => rw [hL] at h2; cases h2
      | some L =>
        rw [hL] at h2 h3
        exact (Verif.NBest.enumerates L).sorted 0 j _ _ _ _ _ _ (Nat.zero_le _) h3 h2
    have e3 : t.weight ≤ tw + v' - m := by
      have : tw + 0 ≤ tw + (v' - m) := by
        simpa using e2
      rw [add_zero, ← add_sub_assoc] at this
      exact e1.trans this
    rcases Prod.lex_def.1 hb with h | ⟨_, h⟩
    · exact absurd h (not_lt.2 e3)
    · rcases Prod.lex_def.1 h with h | ⟨_, h⟩ <;> simp at h
  have huniq : ∀ k, ¬ Before ((t.weight, 0, 0) : Place W) k → ¬ Before k (t.weight, 0, 0) →
      k = (t.weight, 0, 0) := by
    intro k h1 h2
    rw [Verif.NBest.before_iff] at h1 h2
    rcases Verif.NBest.keyLt_tri k (t.weight, 0, 0) with h | h | h
    · exact absurd h h2
    · exact h
    · exact absurd h h1
  cases cs with
  | nil =>
    obtain ⟨k', hk, _⟩ := hfo.all (by simp; omega) _ _ hpair
    cases hk
  | cons c rest =>
    refine ⟨c, rest, rfl, ?_⟩
    have hin : (v.text, ((t.weight, 0, 0) : Place W)) ∈
        ((c :: rest).map fun c => (c.output, c.key)) := by
      by_cases hb : Before ((t.weight, 0, 0) : Place W) c.key
      · obtain ⟨k', hk', hn'⟩ := hfo.noneSkipped (c.output, c.key) (by simp) _ _ hpair hb
        have := huniq k' hn' (hmin _ _ (hfo.pairs _ hk'))
        rw [this] at hk'
        exact hk'
      · have hk := huniq c.key hb (hmin _ _ (hfo.pairs (c.output, c.key) (by simp)))
        obtain ⟨i, j, t', tw, ti, v', vj, z, m, mi, h1, h2, h3, h4⟩ :=
          hfo.pairs (c.output, c.key) (by simp)
        simp only at h2 h4
        rw [hk] at h4
        simp only [Prod.mk.injEq] at h4
        obtain ⟨_, h4, h5⟩ := h4
        subst h4 h5
        rw [hV0] at h2
        simp only [Option.some.injEq, Prod.mk.injEq] at h2
        rw [h2.1, ← hk]
        simp
    rw [List.map_cons, List.mem_cons] at hin
    rcases hin with h | h
    · exact (Prod.mk.inj h).1.symm
    · have := hfo.sorted
      rw [List.map_cons, List.pairwise_cons] at this
      exact absurd (this.1 _ h) (hmin _ _ (hfo.pairs (c.output, c.key) (by simp)))

/-! ### NUL bytes -/

theorem enc_zero (c : Char) (h : c ≠ '\x00') : (0 : UInt8) ∉ enc c := by
  have low : ∀ k : Fin 128, k.val ≠ 0 → UInt8.ofNat k.val ≠ 0 := by decide +kernel
  have cont : ∀ k : Fin 64, UInt8.ofNat (k.val + 0x80) ≠ 0 := by decide +kernel
  have l2 : ∀ k : Fin 32, UInt8.ofNat (k.val + 0xc0) ≠ 0 := by decide +kernel
  have l3 : ∀ k : Fin 16, UInt8.ofNat (k.val + 0xe0) ≠ 0 := by decide +kernel
  have l4 : ∀ k : Fin 8, UInt8.ofNat (k.val + 0xf0) ≠ 0 := by decide +kernel
  have hv : c.val.toNat ≠ 0 := fun h0 => h (Char.toNat_inj.1 h0)
  unfold enc String.utf8EncodeChar
  dsimp only
  split
  · rw [List.mem_singleton]
    exact fun h => low ⟨c.val.toNat, by omega⟩ hv h.symm
  · split
    · simp only [List.mem_cons, List.not_mem_nil, or_false, not_or]
      exact ⟨fun h => l2 ⟨c.val.toNat / 64 % 0x20, by omega⟩ h.symm,
        fun h => cont ⟨c.val.toNat % 0x40, by omega⟩ h.symm⟩
    · split
      · simp only [List.mem_cons, List.not_mem_nil, or_false, not_or]
        exact ⟨fun h => l3 ⟨c.val.toNat / 4096 % 0x10, by omega⟩ h.symm,
          fun h => cont ⟨c.val.toNat / 64 % 0x40, by omega⟩ h.symm,
          fun h => cont ⟨c.val.toNat % 0x40, by omega⟩ h.symm⟩
      · simp only [List.mem_cons, List.not_mem_nil, or_false, not_or]
        exact ⟨fun h => l4 ⟨c.val.toNat / 262144 % 0x08, by omega⟩ h.symm,
          fun h => cont ⟨c.val.toNat / 4096 % 0x40, by omega⟩ h.symm,
          fun h => cont ⟨c.val.toNat / 64 % 0x40, by omega⟩ h.symm,
          fun h => cont ⟨c.val.toNat % 0x40, by omega⟩ h.symm⟩

theorem encAll_filter (y : Str) (h : ∀ c ∈ y, c ≠ '\x00') :
    (encAll y).filter (fun b => b != 0) = encAll y := by
  rw [List.filter_eq_self]
  intro b hb
  obtain ⟨c, hc, hb⟩ := List.mem_flatMap.1 hb
  have := enc_zero c (h c hc)
  simp only [bne_iff_ne, ne_eq]
  rintro rfl
  exact this hb

/-- What Python returns when its first tagging can be verbalized. -/
theorem first_answer (p : Pipeline W) (x : Str) (hx : x ≠ []) (tagged : Str)
    (htag : firstOutput (p.tagger x) = tagged) (htne : tagged ≠ []) (r y : Str) (v : W)
    (hr : Verif.Token.reorder p.orders tagged = .ok r)
    (hv : (p.verbalizer r).best y = some v) (fuel : Nat) (out : Verif.NBest.Shaped Str)
    (hout : Verif.NBest.normalize p fuel x (.int 1) = some (.ok out)) :
    out = .one (firstOutput (p.verbalizer r)) := by
  obtain ⟨_, cs, hcs, hne, h1, h2, _⟩ := Verif.NBest.normalize_ok hx hout
  obtain ⟨z, rfl⟩ := h2 rfl
  obtain ⟨o, ho⟩ : ∃ o, results (p.tagger x) 0 = some o := by
    rcases results_zero (p.tagger x) with ⟨h, _, _⟩ | ⟨_, _, _, h⟩
    · exfalso
      unfold firstOutput at htag
      rw [h] at htag
      exact htne htag.symm
    · exact ⟨_, h⟩
  have hot : o.text = tagged := by rw [← htag, firstOutput_of ho]
  obtain ⟨vo, hvo⟩ := results_zero_of hv
  obtain ⟨c, rest, rfl, hcv⟩ := first_candidate (Nat.le_refl 1) hcs ho (by rw [hot]; exact hr) hvo
  have hz : z = vo.text := by
    rw [← hcv]
    simp only [List.map_cons] at h1
    exact (List.cons.inj h1).1
  rw [hz, firstOutput_of hvo]

omit [IsOrderedAddMonoid W] in
/-- What the C++ runtime returns, given its reordering of the first tagging. -/
theorem runtime_answer (t : ParseType) (p : Pipeline W) (tagger verbalizer : Bytes → Bytes)
    (hd : Deployed p tagger verbalizer) (x : Str) (hx : x ≠ []) (tagged : Str)
    (htag : firstOutput (p.tagger x) = tagged) (htne : tagged ≠ []) (r : Str)
    (hre : reorder (ordersOf (schemaOf t)) (encAll tagged) = .ok (encAll r)) :
    normalize t tagger verbalizer (encAll x) =
      .ok ((encAll (firstOutput (p.verbalizer r))).filter fun b => b != 0) := by
  have hxe : encAll x ≠ [] := fun h => hx (encAll_eq_nil.1 h)
  unfold normalize tag
  rw [if_neg hxe, hd.tag x hx, htag]
  unfold verbalize
  rw [if_neg (fun h => htne (encAll_eq_nil.1 h)), hre]
  simp only []
  rw [hd.verb]

/-- Both, where they reorder the first tagging alike. -/
theorem best_runtime (t : ParseType) (p : Pipeline W) (tagger verbalizer : Bytes → Bytes)
    (hd : Deployed p tagger verbalizer) (x : Str) (hx : x ≠ []) (tagged : Str)
    (htag : firstOutput (p.tagger x) = tagged) (htne : tagged ≠ []) (r y : Str) (v : W)
    (hr : Verif.Token.reorder p.orders tagged = .ok r)
    (hre : reorder (ordersOf (schemaOf t)) (encAll tagged) = .ok (encAll r))
    (hv : (p.verbalizer r).best y = some v) (fuel : Nat) (out : Verif.NBest.Shaped Str)
    (hout : Verif.NBest.normalize p fuel x (.int 1) = some (.ok out)) :
    ∃ z, out = .one z ∧ z = firstOutput (p.verbalizer r) ∧
      normalize t tagger verbalizer (encAll x) = .ok ((encAll z).filter fun b => b != 0) :=
  ⟨_, first_answer p x hx tagged htag htne r y v hr hv fuel out hout, rfl,
    runtime_answer t p tagger verbalizer hd x hx tagged htag htne r hre⟩

/-- **C78, the general statement.** Let the C++ runtime have the machines of the Python pipeline, for
any of the five pipelines other than Japanese normalization, and let the first tagging of a text be
one that both parsers read alike (C12). If that tagging can be verbalized, `Normalize` returns the
bytes of Python's result, NUL bytes apart. -/
theorem C78_best (t : ParseType) (ht : t ≠ .jaTn) (p : Pipeline W)
    (hp : p.orders = Verif.Token.ordersOf (pySchemaOf t)) (tagger verbalizer : Bytes → Bytes)
    (hd : Deployed p tagger verbalizer) (x : Str) (hx : x ≠ []) (tagged : Str)
    (htag : firstOutput (p.tagger x) = tagged)
    (toks : List Verif.Token.Token) (hparse : Verif.Token.parse tagged = .ok toks)
    (hc : CleanEscapes tagged)
    (hdecl : ∀ k ∈ toks, ∀ declared, Verif.Token.ordersOf (pySchemaOf t) k.name = some declared →
      ("preserve_order".toList, "true".toList) ∈ k.members ∨ ∀ key ∈ k.order, key ∈ declared)
    (r y : Str) (v : W) (hr : Verif.Token.reorder p.orders tagged = .ok r)
    (hv : (p.verbalizer r).best y = some v) (fuel : Nat) (out : Verif.NBest.Shaped Str)
    (hout : Verif.NBest.normalize p fuel x (.int 1) = some (.ok out)) :
    ∃ z, out = .one z ∧
      normalize t tagger verbalizer (encAll x) = .ok ((encAll z).filter fun b => b != 0) := by
  have htne : tagged ≠ [] := ((Verif.Token.parse_iff_located _ _).1 hparse).1
  obtain ⟨out', h3, h4⟩ := C12_pipelines_agree t ht tagged toks hparse hc hdecl
  have hr' := hr
  rw [hp, h3] at hr'
  cases hr'
  obtain ⟨z, h1, _, h2⟩ := best_runtime t p tagger verbalizer hd x hx tagged htag htne r y v hr h4 hv fuel out hout
  exact ⟨z, h1, h2⟩

omit [IsOrderedAddMonoid W] in
/-- **C78.** Where the first tagging cannot be verbalized, the C++ runtime returns the empty text: it
does not look for another tagging. -/
theorem C78_mute (t : ParseType) (ht : t ≠ .jaTn) (p : Pipeline W)
    (hp : p.orders = Verif.Token.ordersOf (pySchemaOf t)) (tagger verbalizer : Bytes → Bytes)
    (hd : Deployed p tagger verbalizer) (x : Str) (hx : x ≠ []) (tagged : Str)
    (htag : firstOutput (p.tagger x) = tagged)
    (toks : List Verif.Token.Token) (hparse : Verif.Token.parse tagged = .ok toks)
    (hc : CleanEscapes tagged)
    (hdecl : ∀ k ∈ toks, ∀ declared, Verif.Token.ordersOf (pySchemaOf t) k.name = some declared →
      ("preserve_order".toList, "true".toList) ∈ k.members ∨ ∀ key ∈ k.order, key ∈ declared)
    (r : Str) (hr : Verif.Token.reorder p.orders tagged = .ok r)
    (hv : ∀ y, (p.verbalizer r).best y = none) :
    normalize t tagger verbalizer (encAll x) = .ok [] := by
  have htne : tagged ≠ [] := ((Verif.Token.parse_iff_located _ _).1 hparse).1
  have hxe : encAll x ≠ [] := fun h => hx (encAll_eq_nil.1 h)
  obtain ⟨out', h3, h4⟩ := C12_pipelines_agree t ht tagged toks hparse hc hdecl
  rw [hp] at hr
  rw [hr] at h3
  cases h3
  have hf : firstOutput (p.verbalizer r) = [] := by
    rcases results_zero (p.verbalizer r) with ⟨h, _, _⟩ | ⟨z, w, h, h'⟩
    · unfold firstOutput
      rw [h]
    · have := (Verif.NBest.results_spec _ _ _ h').2.1
      rw [hv] at this
      cases this
  unfold normalize tag
  rw [if_neg hxe, hd.tag x hx, htag]
  unfold verbalize
  rw [if_neg (fun h => htne (encAll_eq_nil.1 h)), h4]
  simp only []
  rw [hd.verb, hf]
  rfl

/-- **C78.** Where no tagging exists, Python reports an error and the C++ runtime returns the empty
text. -/
theorem C78_untagged (t : ParseType) (p : Pipeline W) (tagger verbalizer : Bytes → Bytes)
    (hd : Deployed p tagger verbalizer) (x : Str) (hx : x ≠ []) (hno : ∀ y, (p.tagger x).best y = none) :
    normalize t tagger verbalizer (encAll x) = .ok [] ∧
    (∃ fuel, Verif.NBest.normalize p fuel x (.int 1) = some (.error .runtime)) ∧
    ∀ fuel out, Verif.NBest.normalize p fuel x (.int 1) ≠ some (.ok out) := by
  have hxe : encAll x ≠ [] := fun h => hx (encAll_eq_nil.1 h)
  have hf : firstOutput (p.tagger x) = [] := by
    rcases results_zero (p.tagger x) with ⟨h, _, _⟩ | ⟨z, w, h, h'⟩
    · unfold firstOutput
      rw [h]
    · have := (Verif.NBest.results_spec _ _ _ h').2.1
      rw [hno] at this
      cases this
  have hcost : ∀ y w, ¬ Cost (Verif.NBest.grammar p x) y w := by
    rintro y w ⟨t, tw, r, v, m, h, _⟩
    rw [show (Verif.NBest.grammar p x).tags t = (p.tagger x).best t from rfl, hno] at h
    cases h
  refine ⟨?_, ?_, ?_⟩
  · unfold normalize tag
    rw [if_neg hxe, hd.tag x hx, hf]
    rfl
  · obtain ⟨fuel, hfuel⟩ := Verif.NBest.C64_finite p x 1 []
      (by
        intro t tw h
        rw [show (Verif.NBest.grammar p x).tags t = (p.tagger x).best t from rfl, hno] at h
        cases h)
      (by intro t r ht; cases ht)
    refine ⟨fuel, ?_⟩
    cases hc : Verif.NBest.candidates p fuel x 1 with
    | none => exact absurd hc hfuel
    | some res =>
      obtain ⟨e, rfl⟩ := Verif.NBest.C65_no_path p fuel x 1 res hc hcost
      have he : e = .runtime := by
        rcases Verif.NBest.C65_errors p fuel x 1 (le_refl 1) e hc with ⟨t, tw, pe, h, _⟩ | ⟨h, _⟩
        · rw [show (Verif.NBest.grammar p x).tags t = (p.tagger x).best t from rfl, hno] at h
          cases h
        · exact h
      subst he
      unfold Verif.NBest.normalize
      rw [show Verif.NBest.validateNbest (.int 1) = .ok 1 from rfl]
      simp only [if_neg hx, hc]
  · intro fuel out hout
    obtain ⟨_, cs, hcs, _⟩ := Verif.NBest.normalize_ok hx hout
    obtain ⟨e, he⟩ := Verif.NBest.C65_no_path p fuel x 1 _ hcs hcost
    cases he

end Verif.Cpp
