import Verif.JaTn.Local

/-
Properties of the Japanese normalizer: a text is normalized clause by clause.
-/

namespace Verif.JaTn

open Verif.Wfst
open Verif.NBest (Pipeline normalize)

/-- The marks that no rule but the fallback reads, whatever the switches. -/
def marks : Str := t!"、「」『』【】［］[]〈〉《》…‥;；〜\n\t‘“”\"|｜^＾*＊#＃"
/-- Further ones as long as the table of transliterations is not used. -/
def marksPlain : Str := t!"！？!?（）()_＿&＆’"

theorem marked (k : Config) : Marked (taggerU k) (if k.transliterate then marks else marks ++ marksPlain) := by
  have big : ∀ {g : Bool → G}, (∀ h, shuns (marks ++ marksPlain) (g h) = true) →
      ∃ q', (if k.transliterate then marks else marks ++ marksPlain) ⊆ q' ∧ shuns q' (g k.fullToHalf) = true := by
    intro g h
    refine ⟨_, ?_, h _⟩
    split
    · exact List.subset_append_left _ _
    · exact List.Subset.refl _
  refine marked_union (taggerUnion_eq k) ?_
  intro s hs j hj
  simp only [rules, List.mem_append, List.mem_cons, List.not_mem_nil, or_false] at hs
  rcases hs with hs | hs
  · rcases hs with rfl | rfl | rfl | rfl | rfl | rfl | rfl | rfl | rfl | rfl | rfl
    · exact .inr (big (g := fun h => (cardinalRule h).tagger) (by decide +kernel))
    · exact .inl fun u t w h => char_tagged h
    · exact .inr (big (g := fun h => (dateRule h).tagger) (by decide +kernel))
    · exact .inr (big (g := fun h => (fractionRule h).tagger) (by decide +kernel))
    · exact .inr (big (g := fun h => (mathRule h).tagger) (by decide +kernel))
    · exact .inr (big (g := fun h => (measureRule h).tagger) (by decide +kernel))
    · exact .inr (big (g := fun h => (moneyRule h).tagger) (by decide +kernel))
    · exact .inr (big (g := fun h => (sportRule h).tagger) (by decide +kernel))
    · exact .inr (big (g := fun h => (timeRule h).tagger) (by decide +kernel))
    · exact .inr (big (g := fun h => (whitelistRule h).tagger) (by decide +kernel))
    · cases hj
  · by_cases ht : k.transliterate = true
    · rw [if_pos ht, List.mem_singleton] at hs
      subst hs
      right
      rw [if_pos ht]
      have : ∀ h, shuns marks (transliterationRule h).tagger = true := by decide +kernel
      exact ⟨marks, List.Subset.refl _, this _⟩
    · simp [ht] at hs

/-- **C81.** Around a mark the two sides are normalized by themselves: the best results of a text with a mark in it
are the best results of what is before it, the mark as the switches make it, and the best results of what is
after it. -/
theorem C81_ja_tn (k : Config) (tg vg : G) (ht : tagger k = some tg) (hv : verbalizer k = some vg)
    (p : Pipeline W) (hr : Runs p tokenOrders tg vg) (x y z : Str) (c : Char)
    (hc : c ∈ "、「」『』【】［］[]〈〉《》…‥;；〜\n\t‘“”\"|｜^＾*＊#＃".toList ∨
      k.transliterate = false ∧ c ∈ "！？!?（）()_＿&＆’".toList) :
    Says p (x ++ c :: y) z ↔ ∃ z₁ z₂, Says p x z₁ ∧ Says p y z₂ ∧
      z = z₁ ++ (
        let c := if k.fullToHalf then (fullToHalf.lookup c).getD c else c
        if k.removePuncts && (punctsJa.contains c || isPunct c) then []
        else if k.tagOov && !inCharset c then "<oov>".toList ++ c :: "</oov>".toList else [c]) ++ z₂ := by
  have hm : c ∈ if k.transliterate then marks else marks ++ marksPlain := by
    rcases hc with hc | ⟨h, hc⟩
    · split
      · exact hc
      · exact List.mem_append_left _ hc
    · rw [h]
      exact List.mem_append_right _ hc
  have hv' : vchar c = true := by
    have : ∀ c ∈ marks ++ marksPlain, vchar c = true := by decide
    refine this c ?_
    revert hm
    split
    · exact fun h => List.mem_append_left _ h
    · exact id
  exact says_mark (piped ht hv hr) (fallback k) (onlyChar k) (marked k) hm hv'

/-- **C81.** In particular the first result of a text in two clauses is put together from best results of the
clauses. -/
theorem C81_ja_tn_normalize (k : Config) (tg vg : G) (ht : tagger k = some tg) (hv : verbalizer k = some vg)
    (p : Pipeline W) (hr : Runs p tokenOrders tg vg) (x y : Str) (fuel : Nat) (n : Int) (out : Verif.NBest.Shaped Str)
    (h : normalize p fuel (x ++ '、' :: y) (.int n) = some (.ok out)) :
    ∃ z₁ z₂, Says p x z₁ ∧ Says p y z₂ ∧ out.toList.head? = some (z₁ ++
      (if k.removePuncts then [] else ['、']) ++ z₂) := by
  obtain ⟨z, h1, h2⟩ := says_first (by simp) h
  obtain ⟨z₁, z₂, h3, h4, rfl⟩ := (C81_ja_tn k tg vg ht hv p hr x y z '、' (.inl (by decide))).1 h2
  refine ⟨z₁, z₂, h3, h4, ?_⟩
  rw [h1]
  have e : (fullToHalf.lookup '、').getD '、' = '、' := by decide +kernel
  have e1 : (punctsJa.contains '、' || isPunct '、') = true := by decide +kernel
  have e2 : inCharset '、' = true := by decide +kernel
  simp only [e, ite_self, e1, e2, Bool.and_true, Bool.not_true, Bool.and_false, Bool.false_eq_true, if_false]

/-- For instance `3、5` is said as `3` and `5` are, with the mark between; at `。` this fails, because `3。5` is
read as a decimal. -/
example (tg vg : G) (ht : tagger {} = some tg) (hv : verbalizer {} = some vg)
    (p : Pipeline W) (hr : Runs p tokenOrders tg vg) (z : Str) :
    Says p t!"3、5" z ↔ ∃ z₁ z₂, Says p t!"3" z₁ ∧ Says p t!"5" z₂ ∧ z = z₁ ++ t!"、" ++ z₂ :=
  C81_ja_tn {} tg vg ht hv p hr t!"3" t!"5" z '、' (.inl (by decide))

end Verif.JaTn
