import Verif.Wfst.Run
import Verif.Token.Props
import Mathlib.Order.Bounds.Defs
import Mathlib.Tactic.Linarith

/-
Properties of the grammar-building framework of /repo/tn/processor.py: C48, C49, C50, C60.
-/

namespace Verif.Wfst

open Verif.Token.Spec (esc write Tok Writable IsName)

/-- A field grammar with two readings of one text and a text that needs escaping. -/
def sampleField : G :=
  .wt (crossS t!"7" t!"seven") 10 ||| .wt (crossS t!"7" t!"VII") 25 ||| crossS t!"a\"b" t!"quote"

/-- **C48.** `tag_field` reads exactly the texts of the field grammar and writes the name and the
escaped text, with the weights of the field grammar. -/
theorem tag_field (n : Str) (g : G) (x t : Str) (w : W) :
    (tagField n g).den x t w ↔
      t = n ++ ": \"".toList ++ esc x ++ "\"".toList ∧ VText x ∧ ∃ y, g.den x y w := by
  rw [den_tagField]; rfl

example : (tagField t!"value" sampleField).outputs t!"a\"b" = [(t!"value: \"a\\\"b\"", 0)] := by
  decide +kernel

example : (tagField t!"value" sampleField).outputs t!"8" = [] := by decide +kernel

/-- **C48.** A token built from one tagged field parses to that token: its only field has the given
name and exactly the text that was read as value. -/
theorem tag_field_parses (name n : Str) (g : G) (x t : Str) (w : W) (hname : IsName name)
    (hn : IsName n) (h : (addTokens name (tagField n g)).den x t w) :
    ∃ tok, Verif.Token.parse t = .ok [tok] ∧ tok.name = name ∧ tok.members = [(n, x)] := by
  obtain ⟨m, rfl, h'⟩ := den_addTokens.1 h
  obtain ⟨rfl, _⟩ := den_tagField.1 h'
  have hs : Verif.Token.Spec.Stream
      (name ++ t!" { " ++ (n ++ t!": \"" ++ esc x ++ t!"\"") ++ t!" } ") [⟨name, [(n, x)]⟩] := by
    have h0 : Verif.Token.Spec.Value (esc x) x := Verif.Token.value_esc x
    have h1 : Verif.Token.Spec.Fields ([' '] ++ ['}']) [] :=
      .close (by intro c hc; simpa using hc)
    have h2 := Verif.Token.Spec.Fields.field (sp := []) (by intro c hc; cases hc) hn h0 h1
    have h3 := Verif.Token.Spec.Block.mk hname h2
    have h4 := Verif.Token.Spec.Stream.block (sp := []) (by intro c hc; cases hc) h3
      (.done (sp := [' ']) (by intro c hc; simpa using hc))
    simpa using h4
  obtain ⟨toks, hp, ht⟩ := (Verif.Token.C03_parse_iff_grammar _ _).2
    ⟨by simp, hs, by intro k hk; rw [List.mem_singleton.1 hk]; simp [Verif.Token.Spec.Distinct]⟩
  cases ht with
  | cons h1 h2 =>
    cases h2
    exact ⟨_, hp, h1.1, h1.2.2⟩

example : (Verif.Token.parse t!"cardinal { value: \"a\\\"b\" } ").toOption.map
    (fun l => l.map fun t => (t.name, t.members)) = some [(t!"cardinal", [(t!"value", t!"a\"b")])] := by
  decide +kernel

/-- **C49.** `verbalize_field` with a field grammar, on the tagged form of a text, gives exactly what
the field grammar gives on the text. -/
theorem verbalize_tagged (n : Str) (g : G) (x y : Str) (w : W) (hx : VText x) :
    (verbalizeField n (some g)).den (n ++ ": \"".toList ++ esc x ++ "\"".toList) y w ↔ g.den x y w := by
  rw [den_verbalizeField]
  constructor
  · rintro ⟨m, he, h⟩
    obtain ⟨t, rfl, _, h⟩ := den_decoded_some.1 h
    have : esc x = esc t := by
      have he : (n ++ t!": \"") ++ (esc x ++ t!"\"") = (n ++ t!": \"") ++ (esc t ++ t!"\"") := by
        simpa using he
      exact List.append_cancel_right (List.append_cancel_left he)
    rw [← Verif.Token.C02_escape_spec, ← Verif.Token.C02_escape_spec] at this
    rw [Verif.Token.C02_escape_injective this]; exact h
  · intro h
    exact ⟨esc x, by simp, den_decoded_some.2 ⟨x, rfl, hx, h⟩⟩

/-- **C49.** Without a field grammar the written text comes back. -/
theorem verbalize_plain (n x y : Str) (w : W) (hx : VText x) :
    (verbalizeField n none).den (n ++ ": \"".toList ++ esc x ++ "\"".toList) y w ↔ y = x ∧ w = 0 := by
  rw [den_verbalizeField]
  constructor
  · rintro ⟨m, he, h⟩
    obtain ⟨rfl, rfl, _⟩ := den_decoded_none.1 h
    have : esc x = esc y := by
      have he : (n ++ t!": \"") ++ (esc x ++ t!"\"") = (n ++ t!": \"") ++ (esc y ++ t!"\"") := by
        simpa using he
      exact List.append_cancel_right (List.append_cancel_left he)
    rw [← Verif.Token.C02_escape_spec, ← Verif.Token.C02_escape_spec] at this
    exact ⟨(Verif.Token.C02_escape_injective this).symm, rfl⟩
  · rintro ⟨rfl, rfl⟩
    exact ⟨esc y, by simp, den_decoded_none.2 ⟨rfl, rfl, hx⟩⟩

/-- **C49.** Nothing but a tagged form is accepted. -/
theorem verbalize_only_tagged (n : Str) (g : Option G) (t y : Str) (w : W)
    (h : (verbalizeField n g).den t y w) :
    ∃ x, VText x ∧ t = n ++ ": \"".toList ++ esc x ++ "\"".toList := by
  obtain ⟨m, rfl, h'⟩ := den_verbalizeField.1 h
  cases g with
  | none =>
    obtain ⟨rfl, _, hv⟩ := den_decoded_none.1 h'
    exact ⟨y, hv, by simp⟩
  | some g =>
    obtain ⟨x, rfl, hv, _⟩ := den_decoded_some.1 h'
    exact ⟨x, hv, by simp⟩

/-- **C49.** A field tagged by `tag_field` and verbalized by `verbalize_field` with the same grammar:
the pairs of written and spoken text are those of the grammar, with its weights. -/
theorem tag_then_verbalize (n : Str) (g : G) (x y : Str) (w : W) :
    (∃ t w₁, (tagField n g).den x t w₁ ∧ (verbalizeField n (some g)).den t y w) ↔
      VText x ∧ g.den x y w := by
  constructor
  · rintro ⟨t, w₁, h1, h2⟩
    obtain ⟨rfl, hv, _⟩ := (tag_field n g x t w₁).1 h1
    exact ⟨hv, (verbalize_tagged n g x y w hv).1 h2⟩
  · rintro ⟨hv, h⟩
    exact ⟨_, w, (tag_field n g x _ w).2 ⟨rfl, hv, y, h⟩, (verbalize_tagged n g x y w hv).2 h⟩

example : (verbalizeField t!"value" (some sampleField)).outputs t!"value: \"a\\\"b\"" =
    [(t!"quote", 0)] := by decide +kernel

example : (verbalizeField t!"value" (some sampleField)).outputs t!"value: \"7\"" =
    [(t!"seven", 10), (t!"VII", 25)] := by decide +kernel

/-- `c` is the cost of the pair: the least weight of a path. -/
def CostOf (g : G) (x y : Str) (c : W) : Prop := IsLeast {w | g.den x y w} c

/-- **C50.** A token with one field, made by a rule of weight `k`. `T` is the tagger's cost of writing
the token `t` for `x`, `V` the verbalizer's cost of `y` for `t` and `B` the verbalizer's least cost for
`t`. The joint cost `T + V - B` is the rule weight plus the cost of the pair in the field grammar. -/
theorem joint_cost (name n : Str) (g : G) (k : W) (x t y : Str) (T V B : W)
    (hT : CostOf (.wt (addTokens name (tagField n g)) k) x t T)
    (hV : CostOf (deleteTokens name (verbalizeField n (some g))) t y V)
    (hB : IsLeast {w | ∃ z, (deleteTokens name (verbalizeField n (some g))).den t z w} B) :
    ∃ c, CostOf g x y c ∧ T + V - B = k + c := by
  obtain ⟨hT1, hT2⟩ := hT
  obtain ⟨w₀, hw, rfl⟩ := (show ∃ w₀, _ ∧ T = w₀ + k from hT1)
  obtain ⟨m, rfl, hm⟩ := den_addTokens.1 hw
  obtain ⟨rfl, hv, z₀, hz₀⟩ := den_tagField.1 hm
  have key : ∀ z w, (deleteTokens name (verbalizeField n (some g))).den
      (name ++ t!" { " ++ (n ++ t!": \"" ++ esc x ++ t!"\"") ++ t!" } ") z w ↔ g.den x z w := by
    intro z w
    rw [← verbalize_tagged n g x z w hv, den_deleteTokens]
    constructor
    · rintro ⟨m', sp, hsp, he, h⟩
      have h2 : m' = n ++ t!": \"" ++ esc x ++ t!"\"" := by
        obtain ⟨x', hv', rfl⟩ := verbalize_only_tagged _ _ _ _ _ h
        rcases hsp with rfl | rfl
        · have he : (name ++ t!" { " ++ (n ++ t!": \"" ++ esc x ++ t!"\"") ++ t!" }") ++ [' '] =
              (name ++ t!" { " ++ (n ++ t!": \"" ++ esc x' ++ t!"\"") ++ t!" ") ++ ['}'] := by
            simpa using he
          exact absurd (List.append_inj' he rfl).2 (by decide)
        · have he : (name ++ t!" { ") ++ ((n ++ t!": \"" ++ esc x ++ t!"\"") ++ t!" } ") =
            (name ++ t!" { ") ++ ((n ++ t!": \"" ++ esc x' ++ t!"\"") ++ t!" } ") := by simpa using he
          exact (List.append_cancel_right (List.append_cancel_left he)).symm
      rw [h2] at h; exact h
    · intro h
      exact ⟨_, t!" ", Or.inr rfl, by simp, h⟩
  refine ⟨V, ⟨(key _ _).1 hV.1, fun w hw => hV.2 ((key _ _).2 hw)⟩, ?_⟩
  have hB' : B = w₀ := by
    obtain ⟨⟨z, hz⟩, hB2⟩ := hB
    apply le_antisymm
    · exact hB2 ⟨z₀, (key _ _).2 hz₀⟩
    · have : w₀ + k ≤ B + k := by
        refine hT2 ⟨B, den_addTokens.2 ⟨_, rfl, den_tagField.2 ⟨rfl, hv, z, (key _ _).1 hz⟩⟩, rfl⟩
      linarith
  rw [hB']; linarith

/-- The joint cost of the heavier reading: 1.06 for the rule, 0.00025 for the reading. -/
example : CostOf (.wt (addTokens t!"num" (tagField t!"value" sampleField)) 106000) t!"7"
      t!"num { value: \"7\" } " 106010 ∧
    CostOf (deleteTokens t!"num" (verbalizeField t!"value" (some sampleField)))
      t!"num { value: \"7\" } " t!"VII" 25 ∧
    IsLeast {w | ∃ z, (deleteTokens t!"num" (verbalizeField t!"value" (some sampleField))).den
      t!"num { value: \"7\" } " z w} 10 := by
  have h1 : ∀ y w, (G.wt (addTokens t!"num" (tagField t!"value" sampleField)) 106000).den t!"7" y w ↔
      (y, w) ∈ [(t!"num { value: \"7\" } ", (106010 : W)), (t!"num { value: \"7\" } ", 106025)] := by
    intro y w
    rw [← mem_outputs (by decide +kernel)]
    rw [show (G.wt (addTokens t!"num" (tagField t!"value" sampleField)) 106000).outputs t!"7" = _ from
      (by decide +kernel : _ = [(t!"num { value: \"7\" } ", (106010 : W)), (t!"num { value: \"7\" } ", 106025)])]
  have h2 : ∀ y w, (deleteTokens t!"num" (verbalizeField t!"value" (some sampleField))).den
      t!"num { value: \"7\" } " y w ↔ (y, w) ∈ [(t!"seven", (10 : W)), (t!"VII", 25)] := by
    intro y w
    rw [← mem_outputs (by decide +kernel)]
    rw [show (deleteTokens t!"num" (verbalizeField t!"value" (some sampleField))).outputs
      t!"num { value: \"7\" } " = _ from (by decide +kernel : _ = [(t!"seven", (10 : W)), (t!"VII", 25)])]
  refine ⟨⟨(h1 _ _).2 (by decide +kernel), ?_⟩, ⟨(h2 _ _).2 (by decide +kernel), ?_⟩,
    ⟨⟨_, (h2 _ _).2 (List.mem_cons_self)⟩, ?_⟩⟩
  · intro w hw
    have := (h1 _ _).1 hw
    simp only [List.mem_cons, Prod.mk.injEq, List.not_mem_nil, or_false] at this
    rcases this with ⟨_, rfl⟩ | ⟨_, rfl⟩ <;> decide
  · intro w hw
    have := (h2 _ _).1 hw
    simp only [List.mem_cons, Prod.mk.injEq, List.not_mem_nil, or_false] at this
    rcases this with ⟨h, _⟩ | ⟨_, rfl⟩
    · exact absurd h (by decide)
    · exact le_refl _
  · rintro w ⟨z, hz⟩
    have := (h2 _ _).1 hz
    simp only [List.mem_cons, Prod.mk.injEq, List.not_mem_nil, or_false] at this
    rcases this with ⟨_, rfl⟩ | ⟨_, rfl⟩ <;> decide

/-- **C60.** The tagger union fails exactly if no rule has a weight; otherwise its paths are the paths
of the taggers of the rules with a weight, each with that weight added. -/
theorem tagger_union (specs : List RuleSpec) :
    (taggerUnion specs = none ↔ ∀ s ∈ specs, s.taggerWeight = none) ∧
    ∀ g, taggerUnion specs = some g → ∀ x y w, g.den x y w ↔
      ∃ s ∈ specs, ∃ k w₀, s.taggerWeight = some k ∧ s.rule.tagger.den x y w₀ ∧ w = w₀ + k := by
  have hmem : ∀ h, h ∈ (specs.filterMap fun spec => spec.taggerWeight.map fun w =>
      G.wt spec.rule.tagger w) ↔ ∃ s ∈ specs, ∃ k, s.taggerWeight = some k ∧ h = .wt s.rule.tagger k := by
    intro h
    simp only [List.mem_filterMap, Option.map_eq_some_iff]
    constructor
    · rintro ⟨s, hs, k, hk, rfl⟩; exact ⟨s, hs, k, hk, rfl⟩
    · rintro ⟨s, hs, k, hk, rfl⟩; exact ⟨s, hs, k, hk, rfl⟩
  unfold taggerUnion
  generalize (specs.filterMap fun spec => spec.taggerWeight.map fun w =>
      G.wt spec.rule.tagger w) = gs at hmem
  cases gs with
  | nil =>
    refine ⟨⟨fun _ s hs => ?_, fun _ => rfl⟩, by intro g hg; cases hg⟩
    by_contra hk
    obtain ⟨k, hk⟩ := Option.ne_none_iff_exists'.1 hk
    cases (hmem (.wt s.rule.tagger k)).2 ⟨s, hs, k, hk, rfl⟩
  | cons g gs =>
    refine ⟨⟨(by intro h; cases h), fun h => ?_⟩, ?_⟩
    · obtain ⟨s, hs, k, hk, _⟩ := (hmem g).1 (by simp)
      rw [h s hs] at hk; cases hk
    · intro u hu x y w
      cases hu
      rw [den_unionOf]
      constructor
      · rintro ⟨h, hh, hd⟩
        obtain ⟨s, hs, k, hk, rfl⟩ := (hmem h).1 hh
        obtain ⟨w₀, h0, rfl⟩ := den_wt.1 hd
        exact ⟨s, hs, k, w₀, hk, h0, rfl⟩
      · rintro ⟨s, hs, k, w₀, hk, h0, rfl⟩
        exact ⟨_, (hmem _).2 ⟨s, hs, k, hk, rfl⟩, w₀, h0, rfl⟩

/-- **C60.** The verbalizer union fails exactly if every rule is excluded from verbalization;
otherwise its paths are the paths of the verbalizers of the rules that are not. -/
theorem verbalizer_union (specs : List RuleSpec) :
    (verbalizerUnion specs = none ↔ ∀ s ∈ specs, s.verbalize = false) ∧
    ∀ g, verbalizerUnion specs = some g → ∀ x y w, g.den x y w ↔
      ∃ s ∈ specs, s.verbalize = true ∧ s.rule.verbalizer.den x y w := by
  have hmem : ∀ h, h ∈ ((specs.filter fun spec => spec.verbalize).map fun spec =>
      spec.rule.verbalizer) ↔ ∃ s ∈ specs, s.verbalize = true ∧ h = s.rule.verbalizer := by
    intro h
    simp only [List.mem_map, List.mem_filter]
    constructor
    · rintro ⟨s, ⟨hs, hv⟩, rfl⟩; exact ⟨s, hs, hv, rfl⟩
    · rintro ⟨s, hs, hv, rfl⟩; exact ⟨s, ⟨hs, hv⟩, rfl⟩
  unfold verbalizerUnion
  generalize ((specs.filter fun spec => spec.verbalize).map fun spec => spec.rule.verbalizer) = gs at hmem
  cases gs with
  | nil =>
    refine ⟨⟨fun _ s hs => ?_, fun _ => rfl⟩, by intro g hg; cases hg⟩
    by_contra hk
    cases (hmem s.rule.verbalizer).2 ⟨s, hs, by simpa using hk, rfl⟩
  | cons g gs =>
    refine ⟨⟨(by intro h; cases h), fun h => ?_⟩, ?_⟩
    · obtain ⟨s, hs, hv, _⟩ := (hmem g).1 (by simp)
      rw [h s hs] at hv; cases hv
    · intro u hu x y w
      cases hu
      rw [den_unionOf]
      constructor
      · rintro ⟨h, hh, hd⟩
        obtain ⟨s, hs, hv, rfl⟩ := (hmem h).1 hh
        exact ⟨s, hs, hv, hd⟩
      · rintro ⟨s, hs, hv, hd⟩
        exact ⟨_, (hmem _).2 ⟨s, hs, hv, rfl⟩, hd⟩

/-- A rule without a weight is verbalized but not tagged, a rule marked `verbalize=False` is tagged
but not verbalized. -/
example :
    let r (s : Str) : Rule := ⟨crossS s t!"t", crossS s t!"v"⟩
    let specs : List RuleSpec := [⟨r t!"a", some 101000, true⟩, ⟨r t!"b", none, true⟩,
      ⟨r t!"c", some 5, false⟩]
    (taggerUnion specs).map (fun g => [t!"a", t!"b", t!"c"].map g.outputs) =
      some [[(t!"t", 101000)], [], [(t!"t", 5)]] ∧
    (verbalizerUnion specs).map (fun g => [t!"a", t!"b", t!"c"].map g.outputs) =
      some [[(t!"v", 0)], [(t!"v", 0)], []] ∧
    taggerUnion [] = none ∧ verbalizerUnion [⟨r t!"c", some 5, false⟩] = none := by
  refine ⟨by decide +kernel, by decide +kernel, rfl, rfl⟩

end Verif.Wfst
