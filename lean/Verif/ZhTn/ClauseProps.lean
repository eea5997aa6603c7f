import Verif.ZhTn.Local

/-
Properties of the Chinese normalizer: a text is normalized clause by clause.
-/

namespace Verif.ZhTn

open Verif.Wfst
open Verif.NBest (Pipeline normalize)

/-- The marks that no rule but the fallback reads. -/
def marks : Str := t!"。、！？!?·「」『』（）()【】［］[]〈〉《》…—‥;；．〜～ー\n\t'’‘“”\"_＿|｜^＾*＊#＃&＆@＠＝"

theorem marked (k : Config) : Marked (taggerU k.removeErhua) marks := by
  refine marked_union (taggerUnion_eq k) ?_
  intro s hs j hj
  simp only [rules, List.mem_cons, List.not_mem_nil, or_false] at hs
  rcases hs with rfl | rfl | rfl | rfl | rfl | rfl | rfl | rfl | rfl | rfl | rfl
  · exact .inr ⟨marks, List.Subset.refl _, by decide +kernel⟩
  · have : ∀ b, shuns marks (whitelistRule b).tagger = true := by decide +kernel
    exact .inr ⟨marks, List.Subset.refl _, this _⟩
  · exact .inr ⟨marks, List.Subset.refl _, by decide +kernel⟩
  · exact .inr ⟨marks, List.Subset.refl _, by decide +kernel⟩
  · exact .inr ⟨marks, List.Subset.refl _, by decide +kernel⟩
  · exact .inr ⟨marks, List.Subset.refl _, by decide +kernel⟩
  · exact .inr ⟨marks, List.Subset.refl _, by decide +kernel⟩
  · exact .inr ⟨marks, List.Subset.refl _, by decide +kernel⟩
  · exact .inr ⟨marks, List.Subset.refl _, by decide +kernel⟩
  · exact .inl fun u t w h => char_tagged h
  · cases hj

set_option maxRecDepth 8000 in
/-- **C81.** Around a mark the two sides are normalized by themselves: the best results of a text with a mark in it
are the best results of what is before it, the mark as the switches make it, and the best results of what is
after it. -/
theorem C81_zh_tn (k : Config) (tg vg : G) (ht : tagger k = some tg) (hv : verbalizer k = some vg)
    (p : Pipeline W) (hr : Runs p tokenOrders tg vg) (x y z : Str) (c : Char)
    (hc : c ∈ "。、！？!?·「」『』（）()【】［］[]〈〉《》…—‥;；．〜～ー\n\t'’‘“”\"_＿|｜^＾*＊#＃&＆@＠＝".toList) :
    Says p (x ++ c :: y) z ↔ ∃ z₁ z₂, Says p x z₁ ∧ Says p y z₂ ∧
      z = z₁ ++ (
        let c := if k.traditionalToSimple then (traditionalToSimple.lookup c).getD c else c
        if k.removeInterjections && (c == '呃' || c == '啊') then []
        else if k.removePuncts && (punctsZh.contains c || isPunct c) then []
        else
          let c := if k.fullToHalf then (fullToHalf.lookup c).getD c else c
          if k.tagOov && !inCharset c then "<oov>".toList ++ c :: "</oov>".toList else [c]) ++ z₂ := by
  have hm : c ∈ marks := hc
  have hv' : vchar c = true := by
    have : ∀ c ∈ marks, vchar c = true := by decide
    exact this c hm
  exact says_mark (piped ht hv hr) (fallback k) (onlyChar k) (marked k) hm hv'

/-- **C81.** With the default switches, the first result of a text of two sentences is put together from best
results of the sentences; the full stop is made half-width. -/
theorem C81_zh_tn_normalize (tg vg : G) (ht : tagger {} = some tg) (hv : verbalizer {} = some vg)
    (p : Pipeline W) (hr : Runs p tokenOrders tg vg) (x y : Str) (fuel : Nat) (n : Int) (out : Verif.NBest.Shaped Str)
    (h : normalize p fuel (x ++ '。' :: y) (.int n) = some (.ok out)) :
    ∃ z₁ z₂, Says p x z₁ ∧ Says p y z₂ ∧ out.toList.head? = some (z₁ ++ '.' :: z₂) := by
  obtain ⟨z, h1, h2⟩ := says_first (by simp) h
  have hm : '。' ∈ marks := by decide
  obtain ⟨z₁, z₂, h3, h4, rfl⟩ := (says_mark (piped ht hv hr) (fallback {}) (onlyChar {}) (marked {})
    hm rfl).1 h2
  refine ⟨z₁, z₂, h3, h4, ?_⟩
  rw [h1]
  have e : (fullToHalf.lookup '。').getD '。' = '.' := by decide +kernel
  have e1 : (traditionalToSimple.lookup '。').getD '。' = '。' := by decide +kernel
  have e2 : ('。' == '呃' || '。' == '啊') = false := by decide
  simp only [e, e1, e2, ite_self, Bool.and_false, Bool.false_and, Bool.false_eq_true, if_false, if_true,
    List.append_assoc, List.cons_append, List.nil_append]

/-- For instance the two numbers of `3。5` are said apart. -/
example (tg vg : G) (ht : tagger {} = some tg) (hv : verbalizer {} = some vg)
    (p : Pipeline W) (hr : Runs p tokenOrders tg vg) (fuel : Nat) (n : Int) (out : Verif.NBest.Shaped Str)
    (h : normalize p fuel t!"3。5" (.int n) = some (.ok out)) :
    ∃ z₁ z₂, Says p t!"3" z₁ ∧ Says p t!"5" z₂ ∧ out.toList.head? = some (z₁ ++ '.' :: z₂) :=
  C81_zh_tn_normalize tg vg ht hv p hr t!"3" t!"5" fuel n out h

end Verif.ZhTn
