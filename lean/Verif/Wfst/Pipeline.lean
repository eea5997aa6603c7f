import Verif.Wfst.Tokens
import Verif.NBest.Props
import Mathlib.Data.List.Dedup

/-
A pipeline built from grammars: the n-best search of /repo/tn/processor.py over the relations that
the tagger and verbalizer expressions denote.
-/

namespace Verif.Wfst

open Verif.Token.Spec (esc write writeAll Tok Writable IsName Distinct)
open Verif.Token (Orders)
open Verif.NBest (Pipeline normalize candidates grammar)

/-- The pipeline searches the relations of these two grammars: the weight of an output is the least
weight of a path. Ties between shortest paths are broken in any way. -/
structure Runs (p : Pipeline W) (orders : Orders) (tg vg : G) : Prop where
  orders : p.orders = orders
  tags : ∀ x y w, (p.tagger x).best y = some w ↔ CostOf tg x y w
  verbs : ∀ x y w, (p.verbalizer x).best y = some w ↔ CostOf vg x y w

/-! ### Such pipelines exist -/

/-- The least weight listed for an output. -/
def leastOf (l : List (Str × W)) (y : Str) : Option W :=
  ((l.filter fun e => e.1 = y).map Prod.snd).min?

theorem leastOf_iff {l : List (Str × W)} {y : Str} {w : W} :
    leastOf l y = some w ↔ IsLeast {w | (y, w) ∈ l} w := by
  unfold leastOf
  rw [List.min?_eq_some_iff]
  have hm : ∀ v, v ∈ (l.filter fun e => e.1 = y).map Prod.snd ↔ (y, v) ∈ l := by
    intro v
    simp only [List.mem_map, List.mem_filter, decide_eq_true_eq, Prod.exists]
    constructor
    · rintro ⟨a, b, ⟨h, rfl⟩, rfl⟩; exact h
    · intro h; exact ⟨y, v, ⟨h, rfl⟩, rfl⟩
  constructor
  · rintro ⟨h1, h2⟩
    exact ⟨(hm _).1 h1, fun v hv => h2 v ((hm _).2 hv)⟩
  · rintro ⟨h1, h2⟩
    exact ⟨(hm _).2 h1, fun v hv => h2 ((hm _).1 hv)⟩

/-- Every output once with its least weight, lightest first. -/
def ranked (l : List (Str × W)) : List (Str × W) :=
  ((l.map Prod.fst).dedup.map fun y => (y, (leastOf l y).getD 0)).mergeSort fun a b => decide (a.2 ≤ b.2)

theorem leastOf_of_mem {l : List (Str × W)} {y : Str} (h : y ∈ l.map Prod.fst) :
    ∃ w, leastOf l y = some w := by
  cases hl : leastOf l y with
  | some w => exact ⟨w, rfl⟩
  | none =>
    exfalso
    unfold leastOf at hl
    rw [List.min?_eq_none_iff, List.map_eq_nil_iff, List.filter_eq_nil_iff] at hl
    obtain ⟨e, he, rfl⟩ := List.mem_map.1 h
    exact hl e he (by simp)

theorem mem_ranked {l : List (Str × W)} {y : Str} {w : W} :
    (y, w) ∈ ranked l ↔ leastOf l y = some w := by
  unfold ranked
  rw [List.mem_mergeSort, List.mem_map]
  constructor
  · rintro ⟨z, hz, he⟩
    obtain ⟨rfl, rfl⟩ := Prod.mk.inj he
    obtain ⟨v, hv⟩ := leastOf_of_mem (List.mem_dedup.1 hz)
    rw [hv]; rfl
  · intro h
    refine ⟨y, List.mem_dedup.2 ?_, by rw [h]; rfl⟩
    exact List.mem_map.2 ⟨_, (leastOf_iff.1 h).1, rfl⟩

theorem ranked_nodup (l : List (Str × W)) : ((ranked l).map Prod.fst).Nodup := by
  unfold ranked
  have : (((l.map Prod.fst).dedup.map fun y => (y, (leastOf l y).getD 0)).mergeSort
      fun a b => decide (a.2 ≤ b.2)).map Prod.fst |>.Perm (l.map Prod.fst).dedup := by
    refine ((List.mergeSort_perm _ _).map _).trans ?_
    rw [List.map_map]
    simp [Function.comp_def]
  exact this.nodup_iff.2 (List.nodup_dedup _)

theorem ranked_sorted (l : List (Str × W)) : (ranked l).Pairwise fun a b => a.2 ≤ b.2 := by
  have := List.pairwise_mergeSort (le := fun a b : Str × W => decide (a.2 ≤ b.2))
    (by intro a b c h1 h2; simp only [decide_eq_true_eq] at *; exact le_trans h1 h2)
    (by intro a b; simp only [Bool.or_eq_true, decide_eq_true_eq]; exact le_total _ _)
    ((l.map Prod.fst).dedup.map fun y => (y, (leastOf l y).getD 0))
  exact this.imp (by intro a b h; simpa using h)

theorem lookup_iff_mem {l : List (Str × W)} (hn : (l.map Prod.fst).Nodup) {y : Str} {w : W} :
    l.lookup y = some w ↔ (y, w) ∈ l := by
  induction l with
  | nil => simp
  | cons e l ih =>
    obtain ⟨z, v⟩ := e
    rw [List.map_cons, List.nodup_cons] at hn
    by_cases h : y = z
    · subst h
      simp only [List.lookup_cons, BEq.rfl, List.mem_cons, Prod.mk.injEq, true_and, Option.some.injEq]
      constructor
      · intro h; exact .inl h.symm
      · rintro (h | h)
        · exact h.symm
        · exact absurd (List.mem_map.2 ⟨_, h, rfl⟩) hn.1
    · have hb : (y == z) = false := by simpa using h
      rw [List.lookup_cons, hb]
      simp only [List.mem_cons, Prod.mk.injEq, h, false_and, false_or]
      exact ih hn.2

/-- The lattice of a grammar on a text. -/
def latticeOf (g : G) (x : Str) : Verif.NBest.Lattice W :=
  Verif.NBest.ofList (ranked (g.outputs x)) (ranked_nodup _) (ranked_sorted _)

theorem latticeOf_best {g : G} (hok : g.ok = true) (x y : Str) (w : W) :
    (latticeOf g x).best y = some w ↔ CostOf g x y w := by
  show (ranked (g.outputs x)).lookup y = some w ↔ _
  rw [lookup_iff_mem (ranked_nodup _), mem_ranked, leastOf_iff]
  simp only [mem_outputs hok]
  exact Iff.rfl

/-- The pipeline of two grammars, with one way of breaking ties. The paths used for alignment are
left empty. -/
def pipelineOf (orders : Orders) (tg vg : G) : Pipeline W where
  orders := orders
  tagger := latticeOf tg
  verbalizer := latticeOf vg
  tagPath _ _ := ⟨none, []⟩
  verbPath _ y := (⟨none, []⟩, y)
  tagOne x := ((ranked (tg.outputs x)).head?).map Prod.fst

theorem runs_pipelineOf {orders : Orders} {tg vg : G} (ht : tg.ok = true) (hv : vg.ok = true) :
    Runs (pipelineOf orders tg vg) orders tg vg :=
  ⟨rfl, latticeOf_best ht, latticeOf_best hv⟩

/-! ### The search succeeds -/

theorem exists_cost {g : G} (hok : g.ok = true) {x y : Str} {w : W} (h : g.den x y w) :
    ∃ c, CostOf g x y c := by
  obtain ⟨c, hc⟩ := leastOf_of_mem (List.mem_map_of_mem (f := Prod.fst) ((mem_outputs hok).2 h))
  refine ⟨c, ?_⟩
  have := leastOf_iff.1 hc
  simp only [mem_outputs hok] at this
  exact this

/-- The least weight over all outputs. -/
theorem exists_least {g : G} (hok : g.ok = true) {x y : Str} {w : W} (h : g.den x y w) :
    ∃ m, IsLeast {u | ∃ z, CostOf g x z u} m := by
  have hmem := (mem_outputs hok).2 h
  have hne : ((g.outputs x).map Prod.snd) ≠ [] := by
    intro hn
    rw [List.map_eq_nil_iff] at hn
    rw [hn] at hmem; cases hmem
  cases hm : ((g.outputs x).map Prod.snd).min? with
  | none => exact absurd (List.min?_eq_none_iff.1 hm) hne
  | some m =>
    obtain ⟨h1, h2⟩ := List.min?_eq_some_iff.1 hm
    obtain ⟨e, he, rfl⟩ := List.mem_map.1 h1
    have hle : ∀ z u, g.den x z u → e.2 ≤ u := fun z u hz =>
      h2 u (List.mem_map.2 ⟨(z, u), (mem_outputs hok).2 hz, rfl⟩)
    refine ⟨e.2, ⟨e.1, (mem_outputs hok).1 he, fun u hu => hle _ u hu⟩, ?_⟩
    rintro u ⟨z, hz⟩
    exact hle z u hz.1

/-- If every tagging of the text can be parsed and one of them can be verbalized, normalization
returns a result for every valid `nbest`. -/
theorem normalize_succeeds {p : Pipeline W} {orders : Orders} {tg vg : G} (hr : Runs p orders tg vg)
    (ht : tg.ok = true) (hv : vg.ok = true) {x : Str} (hx : x ≠ [])
    (hparse : ∀ t w, tg.den x t w → ∃ r, Verif.Token.reorder orders t = .ok r)
    {t r y : Str} {w v : W} (h1 : tg.den x t w) (h2 : Verif.Token.reorder orders t = .ok r)
    (h3 : vg.den r y v) (n : Int) (hn : 1 ≤ n) :
    ∃ fuel out, normalize p fuel x (.int n) = some (.ok out) := by
  obtain ⟨fuel, hfuel⟩ := Verif.NBest.C64_finite p x n.toNat ((tg.outputs x).map Prod.fst)
    (by
      intro t tw h
      have := ((hr.tags x t tw).1 h).1
      exact List.mem_map.2 ⟨_, (mem_outputs ht).2 this, rfl⟩)
    (by
      intro t r _ _
      refine ⟨(vg.outputs r).map Prod.fst, ?_⟩
      intro y v h
      have := ((hr.verbs r y v).1 h).1
      exact List.mem_map.2 ⟨_, (mem_outputs hv).2 this, rfl⟩)
  cases hc : candidates p fuel x n.toNat with
  | none => exact absurd hc hfuel
  | some res =>
    cases res with
    | ok cs =>
      obtain ⟨out, ho, _⟩ := Verif.NBest.normalize_of hx hn hc
      exact ⟨fuel, out, ho⟩
    | error e =>
      exfalso
      rcases Verif.NBest.C65_errors p fuel x n.toNat (by omega) e hc with
        ⟨t', tw, pe, ht', he, _⟩ | ⟨_, hno⟩
      · obtain ⟨r', hr'⟩ := hparse t' tw ((hr.tags x t' tw).1 ht').1
        rw [hr.orders, hr'] at he
        cases he
      · obtain ⟨c, hc⟩ := exists_cost ht h1
        obtain ⟨d, hd⟩ := exists_cost hv h3
        obtain ⟨m, hm⟩ := exists_least hv h3
        refine hno y (c + d - m) ⟨t, c, r, d, m, (hr.tags _ _ _).2 hc, ?_, (hr.verbs _ _ _).2 hd, ?_, rfl⟩
        · show (Verif.Token.reorder p.orders t).toOption = some r
          rw [hr.orders, h2]; rfl
        · have : {u | ∃ z, (p.verbalizer r).best z = some u} = {u | ∃ z, CostOf vg r z u} := by
            ext u
            simp only [Set.mem_setOf_eq, hr.verbs]
          show IsLeast {u | ∃ z, (p.verbalizer r).best z = some u} m
          rw [this]; exact hm

/-! ### Reading a text character by character -/

/-- The token of the `char` rule. -/
def charTok (c : Char) : Tok := ⟨t!"char", [(t!"value", [c])]⟩

theorem charTok_writable (c : Char) : Writable (charTok c) :=
  ⟨(by decide : IsName t!"char"),
    (by intro f hf; rw [List.mem_singleton.1 hf]; exact (by decide : IsName t!"value")),
    by simp [charTok, Distinct]⟩

/-- Written tokens parse and are reordered token by token. -/
theorem reorder_writeAll {orders : Orders} {ks : List Tok} (hne : ks ≠ []) (hw : ∀ k ∈ ks, Writable k) :
    Verif.Token.reorder orders (writeAll ks) =
      .ok (writeAll (ks.map fun k => ⟨k.name, Verif.Token.chosenFields orders k⟩)) :=
  Verif.Token.reorder_denotes (Verif.Token.parse_writeAll hne hw) (Verif.Token.located_denotes 0 ks)

/-- The tagger can read every character as a `char` token, the verbalizer can read these tokens. -/
structure Fallback (orders : Orders) (tu vu : G) : Prop where
  noOrder : orders t!"char" = none
  tag : ∀ c, vchar c = true → ∃ w, tu.den [c] (write (charTok c) ++ [' ']) w
  verb : ∀ c sp, vchar c = true → (sp = [] ∨ sp = [' ']) →
    ∃ y w, vu.den (write (charTok c) ++ sp) y w

theorem fallback_star {orders : Orders} {tu vu : G} (h : Fallback orders tu vu) {x : Str}
    (hx : VText x) : ∃ w, Star tu.den x (spaced (x.map charTok)) w := by
  induction x with
  | nil => exact ⟨0, .nil⟩
  | cons c x ih =>
    obtain ⟨w, hw⟩ := ih (fun d hd => hx d (by simp [hd]))
    obtain ⟨v, hv⟩ := h.tag c (hx c (by simp))
    exact ⟨v + w, by simpa [spaced] using Star.cons hv hw⟩

theorem fallback_verb {orders : Orders} {tu vu : G} (h : Fallback orders tu vu) {x : Str}
    (hx : VText x) (hne : x ≠ []) : ∃ y w, Star vu.den (writeAll (x.map charTok)) y w := by
  induction x with
  | nil => exact absurd rfl hne
  | cons c x ih =>
    cases x with
    | nil =>
      obtain ⟨y, w, hv⟩ := h.verb c [] (hx c (by simp)) (.inl rfl)
      exact ⟨y, w, by simpa [writeAll, List.intercalate] using Star.one hv⟩
    | cons d x =>
      obtain ⟨y, w, hw⟩ := ih (fun e he => hx e (by simp [he])) (by simp)
      obtain ⟨z, v, hv⟩ := h.verb c [' '] (hx c (by simp)) (.inr rfl)
      refine ⟨z ++ y, v + w, ?_⟩
      have := Star.cons hv hw
      simpa [writeAll, List.intercalate] using this

theorem VText.of_write {k : Tok} (hn : VText k.name) (hf : ∀ f ∈ k.fields, VText f.1 ∧ VText f.2) :
    VText (write k) := by
  have hesc : ∀ v : Str, VText v → VText (esc v) := by
    intro v hv
    exact (by
      intro c hc
      simp only [esc, List.mem_flatMap] at hc
      obtain ⟨d, hd, hc⟩ := hc
      split at hc
      · rcases List.mem_cons.1 hc with rfl | hc
        · decide
        · rw [List.mem_singleton.1 hc]; exact hv d hd
      · rw [List.mem_singleton.1 hc]; exact hv d hd)
  intro c hc
  unfold write at hc
  simp only [List.mem_append, List.mem_flatMap] at hc
  rcases hc with ((hc | hc) | ⟨f, hff, hc⟩) | hc
  · exact hn c hc
  · revert c; decide
  · rcases hc with (((hc | hc) | hc) | hc) | hc
    · revert c; decide
    · exact (hf f hff).1 c hc
    · revert c; decide
    · exact hesc _ (hf f hff).2 c hc
    · revert c; decide
  · revert c; decide

theorem charTok_vtext {c : Char} (hc : vchar c = true) : VText (write (charTok c)) := by
  refine VText.of_write (by decide : VText t!"char") ?_
  intro f hf
  rw [List.mem_singleton.1 hf]
  refine ⟨(by decide : VText t!"value"), ?_⟩
  intro d hd
  rw [List.mem_singleton.1 hd]; exact hc

theorem spaced_vtext {x : Str} (hx : VText x) : VText (spaced (x.map charTok)) := by
  intro c hc
  simp only [spaced, List.mem_flatMap, List.mem_map, List.mem_append] at hc
  obtain ⟨k, ⟨d, hd, rfl⟩, hc⟩ := hc
  rcases hc with hc | hc
  · exact charTok_vtext (hx d hd) c hc
  · revert c; decide

/-- Every text has its tagging character by character, and that tagging has a verbalization. -/
theorem char_by_char {orders : Orders} {tu vu : G} (h : Fallback orders tu vu) {x : Str}
    (hx : VText x) (hne : x ≠ []) :
    (∃ w, (stream tu).den x (writeAll (x.map charTok)) w) ∧
    Verif.Token.reorder orders (writeAll (x.map charTok)) = .ok (writeAll (x.map charTok)) ∧
    ∃ y w, (G.star vu).den (writeAll (x.map charTok)) y w := by
  have hne' : x.map charTok ≠ [] := by simpa using hne
  refine ⟨?_, ?_, fallback_verb h hx hne⟩
  · obtain ⟨w, hw⟩ := fallback_star h hx
    refine ⟨w, _, w, 0, hw, den_dropFinal.2 ⟨spaced_vtext hx, ?_, rfl⟩, by simp⟩
    rw [spaced_writeAll hne', dropFinalSpace_append]
  · rw [reorder_writeAll hne' (by intro k hk; obtain ⟨c, _, rfl⟩ := List.mem_map.1 hk; exact charTok_writable c)]
    congr 2
    rw [List.map_map]
    apply List.map_congr_left
    intro c _
    show (⟨(charTok c).name, Verif.Token.chosenFields orders (charTok c)⟩ : Tok) = charTok c
    rw [Verif.Token.chosenFields_exempt (charTok_writable c).2.2 (.inl h.noOrder)]

/-- With tokens as outputs and the fallback rule, normalization never fails. -/
theorem normalize_total {p : Pipeline W} {orders : Orders} {ms} {sep : Char → Bool} {tu vu : G}
    (hr : Runs p orders (stream tu) (.star vu)) (ht : (stream tu).ok = true) (hv : (G.star vu).ok = true)
    (htok : TokensBut ms sep tu) (hf : Fallback orders tu vu) {x : Str} (hx : VText x) (hne : x ≠ [])
    (n : Int) (hn : 1 ≤ n) : ∃ fuel out, normalize p fuel x (.int n) = some (.ok out) := by
  obtain ⟨⟨w, h1⟩, h2, y, v, h3⟩ := char_by_char hf hx hne
  refine normalize_succeeds hr ht hv hne ?_ h1 h2 h3 n hn
  intro t w ht
  obtain ⟨ks, hks, rfl, hw, _⟩ := stream_tokens htok ht hne
  exact ⟨_, reorder_writeAll hks hw⟩

/-! ### Unions of rules -/

theorem tokens_union {ms} {sep : Char → Bool} {specs : List RuleSpec} {u : G} (h : taggerUnion specs = some u)
    (hs : ∀ s ∈ specs, s.taggerWeight.isSome = true → TokensBut ms sep s.rule.tagger) : TokensBut ms sep u := by
  intro x t w hd
  obtain ⟨s, hmem, k, w₀, hk, h0, _⟩ := ((tagger_union specs).2 u h x t w).1 hd
  exact hs s hmem (by rw [hk]; rfl) x t w₀ h0

/-- The verbalizer of a pipeline: tokens are verbalized one by one and postprocessed. -/
theorem verb_union {specs : List RuleSpec} {v : G} (h : verbalizerUnion specs = some v) {s : RuleSpec}
    (hs : s ∈ specs) (hv : s.verbalize = true) {x y : Str} {w : W} (hd : s.rule.verbalizer.den x y w) :
    v.den x y w :=
  ((verbalizer_union specs).2 v h x y w).2 ⟨s, hs, hv, hd⟩

theorem tag_union {specs : List RuleSpec} {u : G} (h : taggerUnion specs = some u) {s : RuleSpec}
    (hs : s ∈ specs) {k : W} (hk : s.taggerWeight = some k) {x t : Str} {w : W}
    (hd : s.rule.tagger.den x t w) : u.den x t (w + k) :=
  ((tagger_union specs).2 u h x t _).2 ⟨s, hs, k, w, hk, hd, rfl⟩

/-- What the `char` rules write for a character. -/
theorem char_tagger {c : Char} (hc : vchar c = true) :
    (addTokens t!"char" (insert t!"value: \"" + CHAR + insert t!"\"")).den [c] (write (charTok c) ++ [' ']) 0 := by
  have hC : CHAR.den [c] (esc [c]) 0 := by
    by_cases h : c = '"' ∨ c = '\\'
    · rcases h with rfl | rfl
      · exact .inr (den_crossS.2 ⟨rfl, rfl, rfl⟩)
      · exact .inl (.inr (den_crossS.2 ⟨rfl, rfl, rfl⟩))
    · refine .inl (.inl ⟨c, plainChar_iff.2 ⟨hc, h⟩, rfl, ?_, rfl⟩)
      simp [esc, h]
  refine den_addTokens.2 ⟨t!"value: \"" ++ esc [c] ++ t!"\"", by simp [write, charTok], ?_⟩
  refine den_add_insert.2 ⟨_, rfl, den_insert_add.2 ⟨_, rfl, hC⟩⟩

theorem char_verbalizer {c : Char} (hc : vchar c = true) {sp : Str} (hsp : sp = [] ∨ sp = [' ']) :
    (defaultVerbalizer t!"char").den (write (charTok c) ++ sp) [c] 0 := by
  refine den_deleteTokens.2 ⟨t!"value: \"" ++ esc [c] ++ t!"\"", sp, hsp, by simp [write, charTok], ?_⟩
  have hv : VText [c] := by intro d hd; rw [List.mem_singleton.1 hd]; exact hc
  have := (verbalize_plain t!"value" [c] [c] 0 hv).2 ⟨rfl, rfl⟩
  simpa using this

end Verif.Wfst
