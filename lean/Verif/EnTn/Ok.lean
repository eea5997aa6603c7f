import Verif.EnTn.Tokens
import Verif.Wfst.Pipeline

/-
The loops of the English normalization grammar read something, so its outputs can be listed.
-/

namespace Verif.EnTn

open Verif.Wfst

theorem ok_add {a b : G} (ha : a.ok = true) (hb : b.ok = true) : (a + b).ok = true :=
  Bool.and_eq_true_iff.2 ⟨ha, hb⟩
theorem ok_or {a b : G} (ha : a.ok = true) (hb : b.ok = true) : (a ||| b).ok = true :=
  Bool.and_eq_true_iff.2 ⟨ha, hb⟩
theorem ok_comp {a b : G} (ha : a.ok = true) (hb : b.ok = true) : (G.comp a b).ok = true :=
  Bool.and_eq_true_iff.2 ⟨ha, hb⟩
theorem ok_diff {a b : G} (ha : a.ok = true) (hb : b.ok = true) : (G.diff a b).ok = true :=
  Bool.and_eq_true_iff.2 ⟨ha, hb⟩
theorem ok_pri {a b : G} (ha : a.ok = true) (hb : b.ok = true) : (priorityUnion a b).ok = true :=
  ok_or ha (ok_comp (ok_diff rfl ha) hb)
theorem ok_ques {a : G} (ha : a.ok = true) : a.ques.ok = true := ha
theorem ok_plus {a : G} (ha : a.ok = true) (hn : a.nullable = false) : a.plus.ok = true := by
  show (a.ok && (a.ok && !a.nullable)) = true
  rw [ha, hn]; rfl
theorem ok_star {a : G} (ha : a.ok = true) (hn : a.nullable = false) : (G.star a).ok = true := by
  show (a.ok && !a.nullable) = true
  rw [ha, hn]; rfl
theorem ok_wt {a : G} {k : W} (ha : a.ok = true) : (G.wt a k).ok = true := ha
theorem ok_proj {a : G} (ha : a.ok = true) : (G.proj a).ok = true := ha
theorem ok_insert {s : Str} : (Wfst.insert s).ok = true := rfl
theorem ok_cls {p : Char → Bool} : (G.cls p).ok = true := rfl
theorem ok_tagField {n : Str} {a : G} (ha : a.ok = true) : (tagField n a).ok = true :=
  ok_add (ok_add ok_insert (ok_comp (ok_proj ha) (by decide +kernel))) ok_insert
theorem ok_del {s : Str} : (del s).ok = true := rfl
theorem ok_addTokens {n : Str} {a : G} (ha : a.ok = true) : (addTokens n a).ok = true :=
  ok_add (ok_add ok_insert ha) ok_insert
theorem ok_deleteTokens {n : Str} {a : G} (ha : a.ok = true) : (deleteTokens n a).ok = true :=
  ok_add (ok_add (ok_add (ok_add ok_del ok_del) ha) ok_del) (ok_ques ok_del)
theorem ok_rule {a : G} {l r : Ctx} (ha : a.ok = true) : (buildRule a l r).ok = true := ha

/-- Splits a grammar into parts that do not depend on the environment. -/
macro "oks" : tactic => `(tactic| repeat' first
  | assumption
  | decide +kernel
  | with_reducible exact ok_insert | with_reducible exact ok_cls | with_reducible exact ok_del
  | with_reducible apply ok_tagField
  | with_reducible apply ok_addTokens | with_reducible apply ok_deleteTokens
  | with_reducible apply ok_rule
  | with_reducible apply ok_ques | with_reducible apply ok_wt | with_reducible apply ok_proj
  | with_reducible apply ok_pri | with_reducible apply ok_comp | with_reducible apply ok_diff
  | with_reducible apply ok_add | with_reducible apply ok_or)

theorem ok_yearWithS (e : Env) (d : Bool) : (yearWithS e d).ok = true := by
  have := e.decade_ok
  unfold yearWithS
  refine ok_comp ?_ this
  cases d <;> decide +kernel

theorem ok_fourDigitYear (e : Env) (d : Bool) : (fourDigitYear e d).ok = true := by
  have := ok_yearWithS e d
  unfold fourDigitYear
  cases d
  · show (_ ||| yearThousand).ok = true; oks
  · show (priorityUnion _ _).ok = true; oks

theorem ok_yearG (e : Env) : (yearG e).ok = true := by
  have := ok_fourDigitYear e true
  have := ok_fourDigitYear e false
  unfold yearG; oks

theorem ok_yearAfter (e : Env) : (yearAfter e).ok = true := by
  have := ok_yearG e
  unfold yearAfter; oks

theorem ok_dateStructured (e : Env) : (dateStructured e).ok = true := by
  have := ok_yearG e
  have := ok_yearAfter e
  unfold dateStructured mdy dmy ymd forSeps lightYear year graphYear; oks

theorem ok_dateVerbalizerG (e : Env) : (dateVerbalizerG e).ok = true := by
  have := ok_yearG e
  have := ok_yearAfter e
  unfold dateVerbalizerG yearV; oks

theorem ok_rangeG (e : Env) : (rangeG e).ok = true := by
  have := ok_dateStructured e
  have := ok_dateVerbalizerG e
  unfold rangeG yearRange fourDigitDate twoDigitDate dateG; oks

theorem ok_punctPlus (e : Env) : (punctPlus e).ok = true := by
  unfold punctPlus
  exact ok_plus (ok_or (ok_or ok_cls (by decide)) (by decide)) rfl

theorem ok_punctuation (e : Env) : (punctuationRule e).tagger.ok = true ∧ (punctuationRule e).verbalizer.ok = true := by
  have := ok_punctPlus e
  unfold punctuationRule punctG
  refine ⟨by oks, ?_⟩
  refine ok_deleteTokens (ok_add (ok_add (ok_add (ok_add ok_del (by decide)) (ok_plus ?_ ?_)) (by decide)) ok_del)
  · oks
  · rfl

theorem ok_word (e : Env) : (wordRule e).tagger.ok = true ∧ (wordRule e).verbalizer.ok = true := ⟨rfl, rfl⟩

theorem ok_rule_tagger (e : Env) : ∀ s ∈ rules e, s.rule.tagger.ok = true := by
  have := ok_dateStructured e
  have := ok_rangeG e
  intro s hs
  simp only [rules, List.mem_cons, List.not_mem_nil, or_false] at hs
  rcases hs with rfl | rfl | rfl | rfl | rfl | rfl | rfl | rfl | rfl | rfl | rfl | rfl | rfl | rfl
  · decide +kernel
  · decide +kernel
  · exact (ok_word e).1
  · unfold dateRule; oks
  · decide +kernel
  · decide +kernel
  · decide +kernel
  · decide +kernel
  · decide +kernel
  · decide +kernel
  · decide +kernel
  · decide +kernel
  · decide +kernel
  · unfold rangeRule; oks

theorem ok_rule_verbalizer (e : Env) : ∀ s ∈ rules e, s.rule.verbalizer.ok = true := by
  have := ok_dateVerbalizerG e
  have := ok_rangeG e
  intro s hs
  simp only [rules, List.mem_cons, List.not_mem_nil, or_false] at hs
  rcases hs with rfl | rfl | rfl | rfl | rfl | rfl | rfl | rfl | rfl | rfl | rfl | rfl | rfl | rfl
  · decide +kernel
  · decide +kernel
  · exact (ok_word e).2
  · unfold dateRule; oks
  · decide +kernel
  · decide +kernel
  · decide +kernel
  · decide +kernel
  · decide +kernel
  · decide +kernel
  · decide +kernel
  · decide +kernel
  · decide +kernel
  · unfold rangeRule fieldSp; oks

theorem ok_unionOf {g : G} {gs : List G} (h : ∀ a ∈ g :: gs, a.ok = true) : (unionOf g gs).ok = true := by
  induction gs generalizing g with
  | nil => exact h g (by simp)
  | cons b bs ih => exact ok_or (h g (by simp)) (ih fun a ha => h a (by simp at ha ⊢; tauto))

theorem ok_classify (e : Env) : (classify e).ok = true := by
  refine ok_unionOf ?_
  intro a ha
  have : ∃ s ∈ rules e, ∃ w, a = G.wt s.rule.tagger w := by
    have ha' : a ∈ (rules e).filterMap fun spec => spec.taggerWeight.map fun w => G.wt spec.rule.tagger w := ha
    obtain ⟨s, hs, h1⟩ := List.mem_filterMap.1 ha'
    obtain ⟨w, _, h2⟩ := Option.map_eq_some_iff.1 h1
    exact ⟨s, hs, w, h2.symm⟩
  obtain ⟨s, hs, w, rfl⟩ := this
  exact ok_wt (ok_rule_tagger e s hs)

theorem ok_verbalizerU (e : Env) : (verbalizerU e).ok = true := by
  refine ok_unionOf ?_
  intro a ha
  have ha' : a ∈ ((rules e).filter fun spec => spec.verbalize).map fun spec => spec.rule.verbalizer := ha
  obtain ⟨s, hs, rfl⟩ := List.mem_map.1 ha'
  exact ok_rule_verbalizer e s (List.mem_filter.1 hs).1

theorem nullable_punct (e : Env) : (punct e).nullable = false := rfl
theorem nullable_verbalizer (e : Env) : (verbalizerU e).nullable = false := rfl

theorem tagger_ok (e : Env) : (taggerOf e (classify e)).ok = true := by
  have h1 := ok_classify e
  have h2 := (ok_punctuation e).1
  have h3 : (punct e).ok = true := ok_wt h2
  have h4 : (token e (classify e)).ok = true :=
    ok_add (ok_add (ok_star h3 (nullable_punct e)) h1) (ok_star h3 (nullable_punct e))
  have h5 : DELETE_SPACE.ok = true := by decide
  have h6 : (separator e).ok = true := ok_or (by decide) h3
  refine ok_comp (ok_or (ok_add (ok_add (ok_add h5 h4) (ok_star (ok_add h6 h4) ?_)) h5) h3) (by decide)
  show ((separator e).nullable && _) = false
  rw [show (separator e).nullable = false from rfl]
  rfl

theorem verbalizer_ok (e : Env) : (verbalizerOf e (verbalizerU e)).ok = true := by
  have h1 := ok_verbalizerU e
  have h2 := (ok_punctuation e).2
  have h3 : (punctuationRule e).verbalizer.nullable = false := rfl
  refine ok_comp (ok_star ?_ ?_) (by decide)
  · exact ok_or (ok_add h1 (ok_or (ok_plus h2 h3) (by decide))) (ok_add h2 (ok_or (ok_plus h2 h3) (by decide)))
  · show (((verbalizerU e).nullable && _) || ((punctuationRule e).verbalizer.nullable && _)) = false
    rw [nullable_verbalizer, h3]
    rfl

end Verif.EnTn
