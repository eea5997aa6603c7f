import Verif.Wfst.Chars
import Verif.Wfst.CharsSpec
import Verif.EnTn.StreamProps

/-
Property C94 for the English text normalizer.
-/

namespace Verif.EnTn

open Verif.Wfst
open Verif.NBest (Pipeline normalize)

/-- The grammar adds only printed characters. -/
abbrev Adds (g : G) : Prop := Within (fun c => decide (Printed c)) g

theorem adds_add {a b : G} (ha : Adds a) (hb : Adds b) : Adds (a + b) := by
  rintro x y w ⟨x₁, y₁, w₁, x₂, y₂, w₂, h1, h2, rfl, rfl, _⟩ c hc
  rcases List.mem_append.1 hc with hc | hc
  · exact (ha _ _ _ h1 c hc).imp (fun h => List.mem_append_left _ h) id
  · exact (hb _ _ _ h2 c hc).imp (fun h => List.mem_append_right _ h) id
theorem adds_or {a b : G} (ha : Adds a) (hb : Adds b) : Adds (a ||| b) := fun x y w h => h.elim (ha x y w) (hb x y w)
theorem adds_comp {a b : G} (ha : Adds a) (hb : Adds b) : Adds (.comp a b) := by
  rintro x y w ⟨m, w₁, w₂, h1, h2, _⟩ c hc
  rcases hb _ _ _ h2 c hc with hc | hc
  · exact ha _ _ _ h1 c hc
  · exact .inr hc
theorem adds_diff {a b : G} : Adds (.diff a b) := within_of_adds rfl
theorem adds_proj {a : G} : Adds (.proj a) := within_of_adds rfl
theorem adds_cls {p : Char → Bool} : Adds (.cls p) := within_of_adds rfl
theorem adds_del {s : Str} : Adds (del s) := within_of_adds rfl
theorem adds_wt {a : G} {k : W} (ha : Adds a) : Adds (.wt a k) := by
  rintro x y w ⟨w₀, h, _⟩
  exact ha _ _ _ h
theorem adds_star {a : G} (ha : Adds a) : Adds (.star a) := by
  intro x y w h
  induction h with
  | nil => intro c hc; cases hc
  | cons h1 _ ih =>
    intro c hc
    rcases List.mem_append.1 hc with hc | hc
    · exact (ha _ _ _ h1 c hc).imp (fun h => List.mem_append_left _ h) id
    · exact (ih c hc).imp (fun h => List.mem_append_right _ h) id
theorem adds_plus {a : G} (ha : Adds a) : Adds a.plus := adds_add ha (adds_star ha)
theorem adds_ques {a : G} (ha : Adds a) : Adds a.ques := by
  unfold G.ques
  first
    | exact adds_or ha (within_of_adds rfl)
    | exact adds_or (within_of_adds rfl) ha
theorem adds_pri {a b : G} (ha : Adds a) (hb : Adds b) : Adds (priorityUnion a b) := adds_or ha (adds_comp adds_diff hb)
theorem adds_rule {a : G} {l r : Ctx} (ha : Adds a) : Adds (buildRule a l r) := by
  intro x y w h
  exact rewrites_adds (fun hr => ha _ _ _ hr) h.2
theorem adds_insert {s : Str} (h : (s.all fun c => decide (Printed c)) = true) : Adds (Wfst.insert s) := within_of_adds h
theorem adds_addTokens {n : Str} {a : G} (hn : ((n ++ t!" { ").all fun c => decide (Printed c)) = true) (ha : Adds a) :
    Adds (addTokens n a) := adds_add (adds_add (adds_insert hn) ha) (adds_insert (by decide))
theorem adds_deleteTokens {n : Str} {a : G} (ha : Adds a) : Adds (deleteTokens n a) :=
  adds_add (adds_add (adds_add (adds_add adds_del adds_del) ha) adds_del) (adds_ques adds_del)
theorem adds_tagField {n : Str} {a : G} (hn : ((n ++ t!": \"").all fun c => decide (Printed c)) = true) : Adds (tagField n a) :=
  adds_add (adds_add (adds_insert hn) (adds_comp adds_proj (within_of_adds (by decide +kernel)))) (adds_insert (by decide))

/-- Splits a grammar into parts that do not depend on the environment. -/
macro "adds_parts" : tactic => `(tactic| repeat' first
  | assumption
  | decide +kernel
  | exact within_of_adds (by decide +kernel)
  | with_reducible exact adds_cls | with_reducible exact adds_del | with_reducible exact adds_diff
  | with_reducible exact adds_proj
  | with_reducible apply adds_tagField
  | with_reducible apply adds_addTokens | with_reducible apply adds_deleteTokens
  | with_reducible apply adds_rule
  | with_reducible apply adds_ques | with_reducible apply adds_plus | with_reducible apply adds_wt
  | with_reducible apply adds_pri | with_reducible apply adds_comp
  | with_reducible apply adds_add | with_reducible apply adds_or)

theorem adds_yearWithS {e : Env} (he : Adds e.decade) (d : Bool) : Adds (yearWithS e d) := by
  unfold yearWithS
  refine adds_comp (within_of_adds ?_) he
  cases d <;> decide +kernel

theorem adds_fourDigitYear {e : Env} (he : Adds e.decade) (d : Bool) : Adds (fourDigitYear e d) := by
  have := adds_yearWithS he d
  unfold fourDigitYear
  cases d
  · show Adds (_ ||| yearThousand); adds_parts
  · show Adds (priorityUnion _ _); adds_parts

theorem adds_yearG {e : Env} (he : Adds e.decade) : Adds (yearG e) := by
  have := adds_fourDigitYear he true
  have := adds_fourDigitYear he false
  unfold yearG; adds_parts

theorem adds_yearAfter {e : Env} (he : Adds e.decade) : Adds (yearAfter e) := by
  have := adds_yearG he
  unfold yearAfter; adds_parts

theorem adds_dateStructured (e : Env) : Adds (dateStructured e) := by
  unfold dateStructured mdy dmy ymd forSeps lightYear year graphYear; adds_parts

theorem adds_dateVerbalizerG {e : Env} (he : Adds e.decade) : Adds (dateVerbalizerG e) := by
  have := adds_yearG he
  have := adds_yearAfter he
  unfold dateVerbalizerG yearV; adds_parts

theorem adds_rangeG {e : Env} (he : Adds e.decade) : Adds (rangeG e) := by
  have := adds_dateStructured e
  have := adds_dateVerbalizerG he
  unfold rangeG yearRange fourDigitDate twoDigitDate dateG; adds_parts

theorem adds_punctuation (e : Env) : Adds (punctuationRule e).tagger ∧ Adds (punctuationRule e).verbalizer := by
  unfold punctuationRule punctG punctPlus
  exact ⟨by adds_parts, by adds_parts⟩

theorem adds_word (e : Env) : Adds (wordRule e).tagger ∧ Adds (wordRule e).verbalizer := by
  unfold wordRule
  exact ⟨by adds_parts, by adds_parts⟩

theorem adds_rule_tagger {e : Env} (he : Adds e.decade) : ∀ s ∈ rules e, Adds s.rule.tagger := by
  have := adds_dateStructured e
  have := adds_rangeG he
  intro s hs
  simp only [rules, List.mem_cons, List.not_mem_nil, or_false] at hs
  rcases hs with rfl | rfl | rfl | rfl | rfl | rfl | rfl | rfl | rfl | rfl | rfl | rfl | rfl | rfl
  · exact within_of_adds (by decide +kernel)
  · exact within_of_adds (by decide +kernel)
  · exact (adds_word e).1
  · unfold dateRule; adds_parts
  · exact within_of_adds (by decide +kernel)
  · exact within_of_adds (by decide +kernel)
  · exact within_of_adds (by decide +kernel)
  · exact within_of_adds (by decide +kernel)
  · exact within_of_adds (by decide +kernel)
  · exact within_of_adds (by decide +kernel)
  · exact within_of_adds (by decide +kernel)
  · exact within_of_adds (by decide +kernel)
  · exact within_of_adds (by decide +kernel)
  · unfold rangeRule; adds_parts

theorem adds_rule_verbalizer {e : Env} (he : Adds e.decade) : ∀ s ∈ rules e, Adds s.rule.verbalizer := by
  have := adds_dateVerbalizerG he
  have := adds_rangeG he
  intro s hs
  simp only [rules, List.mem_cons, List.not_mem_nil, or_false] at hs
  rcases hs with rfl | rfl | rfl | rfl | rfl | rfl | rfl | rfl | rfl | rfl | rfl | rfl | rfl | rfl
  · exact within_of_adds (by decide +kernel)
  · exact within_of_adds (by decide +kernel)
  · exact (adds_word e).2
  · unfold dateRule; adds_parts
  · exact within_of_adds (by decide +kernel)
  · exact within_of_adds (by decide +kernel)
  · exact within_of_adds (by decide +kernel)
  · exact within_of_adds (by decide +kernel)
  · exact within_of_adds (by decide +kernel)
  · exact within_of_adds (by decide +kernel)
  · exact within_of_adds (by decide +kernel)
  · exact within_of_adds (by decide +kernel)
  · exact within_of_adds (by decide +kernel)
  · unfold rangeRule fieldSp; adds_parts

theorem adds_unionOf {g : G} {gs : List G} (h : ∀ a ∈ g :: gs, Adds a) : Adds (unionOf g gs) := by
  induction gs generalizing g with
  | nil => exact h g (by simp)
  | cons b bs ih => exact adds_or (h g (by simp)) (ih fun a ha => h a (by simp at ha ⊢; tauto))

theorem adds_classify {e : Env} (he : Adds e.decade) : Adds (classify e) := by
  refine adds_unionOf ?_
  intro a ha
  have ha' : a ∈ (rules e).filterMap fun spec => spec.taggerWeight.map fun w => G.wt spec.rule.tagger w := ha
  obtain ⟨s, hs, h1⟩ := List.mem_filterMap.1 ha'
  obtain ⟨w, _, rfl⟩ := Option.map_eq_some_iff.1 h1
  exact adds_wt (adds_rule_tagger he s hs)

theorem adds_verbalizerU {e : Env} (he : Adds e.decade) : Adds (verbalizerU e) := by
  refine adds_unionOf ?_
  intro a ha
  have ha' : a ∈ ((rules e).filter fun spec => spec.verbalize).map fun spec => spec.rule.verbalizer := ha
  obtain ⟨s, hs, rfl⟩ := List.mem_map.1 ha'
  exact adds_rule_verbalizer he s (List.mem_filter.1 hs).1

theorem adds_tagger {e : Env} (he : Adds e.decade) : Adds (taggerOf e (classify e)) := by
  have h1 := adds_classify he
  have h2 := (adds_punctuation e).1
  have h3 : Adds (punct e) := adds_wt h2
  have h4 : Adds (token e (classify e)) := adds_add (adds_add (adds_star h3) h1) (adds_star h3)
  have h5 : Adds DELETE_SPACE := within_of_adds (by decide)
  have h6 : Adds (separator e) := adds_or (within_of_adds (by decide)) h3
  exact adds_comp (adds_or (adds_add (adds_add (adds_add h5 h4) (adds_star (adds_add h6 h4))) h5) h3) (within_of_adds (by decide))

theorem adds_verbalizer {e : Env} (he : Adds e.decade) : Adds (verbalizerOf e (verbalizerU e)) := by
  have h1 := adds_verbalizerU he
  have h2 := (adds_punctuation e).2
  exact adds_comp (adds_star (adds_or (adds_add h1 (adds_or (adds_plus h2) (within_of_adds (by decide))))
    (adds_add h2 (adds_or (adds_plus h2) (within_of_adds (by decide)))))) (within_of_adds (by decide))

theorem repeatFree : Verif.Token.RepeatFree tokenOrders := Verif.Token.builtin_repeatFree _ (by decide)

/-- **C94.** Every character of every result is a character of the text or a printed one of the basic plane, if so is
what the rewriting of decades writes. -/
theorem C94_en_tn (e : Env) (he : ∀ x y w, e.decade.den x y w → ∀ c ∈ y, c ∈ x ∨ Printed c) (tg vg : G) (ht : tagger e = some tg)
    (hv : verbalizer e = some vg) (p : Pipeline W) (hr : Runs p tokenOrders tg vg) (x : Str) (hne : x ≠ []) (n : Int) (fuel : Nat) (out)
    (h : normalize p fuel x (.int n) = some (.ok out)) : ∀ z ∈ out.toList, ∀ c ∈ z, c ∈ x ∨ Printed c := by
  rw [tagger_eq] at ht
  rw [verbalizer_eq] at hv
  cases ht; cases hv
  have he' : Adds e.decade := fun x y w h c hc => (he x y w h c hc).imp id decide_eq_true
  intro z hz d hd
  exact (result_within hr repeatFree (adds_tagger he') (adds_verbalizer he') (by decide) hne h z hz d hd).imp id of_decide_eq_true

/-- An environment that meets the condition: `y` at the end becomes `ies`. -/
def decadeEnv : Env := { someEnv with decade := buildRule (crossS t!"y" t!"ies") .any .edge, decade_ok := rfl }

example : ∀ x y w, decadeEnv.decade.den x y w → ∀ c ∈ y, c ∈ x ∨ Printed c := fun x y w h c hc =>
  (adds_den (p := fun c => decide (Printed c)) (by decide +kernel) h c hc).imp id of_decide_eq_true

/-- A result with characters that the text has not, and with one that only the text may give. -/
example : ((tagger decadeEnv).map fun g => ((g.outputs t!"1980s 𠮷").map Prod.fst).contains
      t!"date { year: \"1980s\" } w { v: \"𠮷\" }") = some true ∧
    ((verbalizer decadeEnv).map fun g => ((g.outputs t!"date { year: \"1980s\" } w { v: \"𠮷\" }").map
      Prod.fst).contains t!"nineteen eighties 𠮷") = some true ∧
    (∀ c ∈ t!"ninetee", c ∉ t!"1980s 𠮷" ∧ Printed c) ∧ ¬ Printed '𠮷' := by
  decide +kernel

end Verif.EnTn
