import Verif.ZhItn.Local

/-
Properties of the Chinese inverse normalizer: a text is normalized clause by clause.
-/

namespace Verif.ZhItn

open Verif.Wfst
open Verif.NBest (Pipeline normalize)

/-- The marks that no rule but the fallback reads. -/
def marks : Str := t!"，,.:：。、！？!?·「」『』()【】［］[]〈〉《》…—‥;；．〜～ー\n\t'’‘“”\"_＿|｜^＾*＊#＃&＆@＠＝"

theorem marked (k : Config) : Marked (taggerU k) marks := by
  have all : ∀ {g : Config → G}, (∀ a b c d, shuns marks (g ⟨a, b, c, d⟩) = true) → shuns marks (g k) = true :=
    fun h => h _ _ _ _
  refine marked_union (taggerUnion_eq k) ?_
  intro s hs j hj
  simp only [rules, List.mem_cons, List.not_mem_nil, or_false] at hs
  rcases hs with rfl | rfl | rfl | rfl | rfl | rfl | rfl | rfl | rfl | rfl | rfl
  · exact .inr ⟨marks, List.Subset.refl _, by decide +kernel⟩
  · exact .inr ⟨marks, List.Subset.refl _, by decide +kernel⟩
  · have : ∀ b, shuns marks (fractionRule b).tagger = true := by decide +kernel
    exact .inr ⟨marks, List.Subset.refl _, this _⟩
  · exact .inr ⟨marks, List.Subset.refl _, all (g := fun k => (measureRule k).tagger) (by decide +kernel)⟩
  · exact .inr ⟨marks, List.Subset.refl _, all (g := fun k => (moneyRule k).tagger) (by decide +kernel)⟩
  · exact .inr ⟨marks, List.Subset.refl _, by decide +kernel⟩
  · exact .inr ⟨marks, List.Subset.refl _, all (g := fun k => (cardinalRule k).tagger) (by decide +kernel)⟩
  · have : ∀ b, shuns marks (mathRule b).tagger = true := by decide +kernel
    exact .inr ⟨marks, List.Subset.refl _, this _⟩
  · exact .inr ⟨marks, List.Subset.refl _, by decide +kernel⟩
  · exact .inr ⟨marks, List.Subset.refl _, by decide +kernel⟩
  · exact .inl fun u t w h => char_tagged h

set_option maxRecDepth 8000 in
/-- **C81.** Around a mark the two sides are normalized by themselves: the best results of a text with a mark in it
are the best results of what is before it, the mark itself, and the best results of what is
after it. -/
theorem C81_zh_itn (k : Config) (tg vg : G) (ht : tagger k = some tg) (hv : verbalizer k = some vg)
    (p : Pipeline W) (hr : Runs p tokenOrders tg vg) (x y z : Str) (c : Char)
    (hc : c ∈ "，,.:：。、！？!?·「」『』()【】［］[]〈〉《》…—‥;；．〜～ー\n\t'’‘“”\"_＿|｜^＾*＊#＃&＆@＠＝".toList) :
    Says p (x ++ c :: y) z ↔ ∃ z₁ z₂, Says p x z₁ ∧ Says p y z₂ ∧
      z = z₁ ++ (if k.removeInterjections && (c == '呃' || c == '啊') then [] else [c]) ++ z₂ := by
  have hm : c ∈ marks := hc
  have hv' : vchar c = true := by
    have : ∀ c ∈ marks, vchar c = true := by decide
    exact this c hm
  exact says_mark (piped ht hv hr) (fallback k) (onlyChar k) (marked k) hm hv'

/-- **C81.** In particular the first result of a text of two sentences is put together from best results of the
sentences. -/
theorem C81_zh_itn_normalize (k : Config) (tg vg : G) (ht : tagger k = some tg) (hv : verbalizer k = some vg)
    (p : Pipeline W) (hr : Runs p tokenOrders tg vg) (x y : Str) (fuel : Nat) (n : Int) (out : Verif.NBest.Shaped Str)
    (h : normalize p fuel (x ++ '。' :: y) (.int n) = some (.ok out)) :
    ∃ z₁ z₂, Says p x z₁ ∧ Says p y z₂ ∧ out.toList.head? = some (z₁ ++ '。' :: z₂) := by
  obtain ⟨z, h1, h2⟩ := says_first (by simp) h
  have hm : '。' ∈ marks := by decide
  obtain ⟨z₁, z₂, h3, h4, rfl⟩ := (says_mark (piped ht hv hr) (fallback k) (onlyChar k) (marked k)
    hm rfl).1 h2
  refine ⟨z₁, z₂, h3, h4, ?_⟩
  rw [h1]
  have e2 : ('。' == '呃' || '。' == '啊') = false := by decide
  simp only [e2, Bool.and_false, Bool.false_eq_true, if_false, List.append_assoc, List.cons_append, List.nil_append]

set_option maxRecDepth 8000 in
/-- For instance `三，五` is written as `三` and `五` are, with the comma between. -/
example (k : Config) (tg vg : G) (ht : tagger k = some tg) (hv : verbalizer k = some vg)
    (p : Pipeline W) (hr : Runs p tokenOrders tg vg) (z : Str) :
    Says p t!"三，五" z ↔ ∃ z₁ z₂, Says p t!"三" z₁ ∧ Says p t!"五" z₂ ∧ z = z₁ ++ t!"，" ++ z₂ := by
  have h := C81_zh_itn k tg vg ht hv p hr t!"三" t!"五" z '，' (by decide)
  have e : ('，' == '呃' || '，' == '啊') = false := by decide
  simp only [e, Bool.and_false, Bool.false_eq_true, if_false] at h
  exact h

end Verif.ZhItn
