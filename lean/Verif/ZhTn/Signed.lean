import Verif.ZhTn.Value
import Verif.Wfst.Rewrite

/-
Signs, decimals, the reading of a leading 二, percentages and the prefixes 约 and 人均.
-/

namespace Verif.ZhTn

open Verif.Wfst Spec

/-- Each text has at most one output, with one weight. -/
def Functional (g : G) : Prop :=
  ∀ ⦃x y w y' w'⦄, g.den x y w → g.den x y' w' → y = y' ∧ w = w'

/-! ### Digit strings of any length -/

theorem den_digits_star {x y w} : Star digits.den x y w ↔ ∃ ds, Vals x ds ∧ y = ds.map num ∧ w = 0 := by
  constructor
  · intro h
    induction h with
    | nil => exact ⟨[], vals_nil.2 rfl, rfl, rfl⟩
    | cons hr _ ih =>
      obtain ⟨ds, v, hl, _, rfl, rfl⟩ := (reads_digits _ _ _).1 hr
      obtain ⟨es, v', rfl, rfl⟩ := ih
      obtain ⟨a, rfl⟩ := List.length_eq_one_iff.1 hl
      exact ⟨a :: es, v.append v', rfl, rfl⟩
  · rintro ⟨ds, v, rfl, rfl⟩
    induction ds generalizing x with
    | nil => rw [vals_nil.1 v]; exact .nil
    | cons d ds ih =>
      have h1 := v.take 1
      have h2 := v.drop 1
      have e : x = x.take 1 ++ x.drop 1 := (List.take_append_drop 1 x).symm
      rw [e]
      exact Star.cons (y := [num d]) (w := 0) ((reads_digits _ _ _).2 ⟨[d], h1, rfl, rfl, rfl, rfl⟩) (ih h2)

theorem den_digits_plus {x y w} :
    digits.plus.den x y w ↔ ∃ ds, ds ≠ [] ∧ Vals x ds ∧ y = ds.map num ∧ w = 0 := by
  constructor
  · rintro ⟨x₁, y₁, w₁, x₂, y₂, w₂, h1, h2, rfl, rfl, rfl⟩
    obtain ⟨ds, v, hl, _, rfl, rfl⟩ := (reads_digits _ _ _).1 h1
    obtain ⟨es, v', rfl, rfl⟩ := den_digits_star.1 h2
    obtain ⟨a, rfl⟩ := List.length_eq_one_iff.1 hl
    exact ⟨a :: es, by simp, v.append v', rfl, rfl⟩
  · rintro ⟨ds, hn, v, rfl, rfl⟩
    match ds, hn, v with
    | d :: ds, _, v =>
      have h1 := v.take 1
      have h2 := v.drop 1
      exact ⟨x.take 1, [num d], 0, x.drop 1, ds.map num, 0,
        (reads_digits _ _ _).2 ⟨[d], h1, rfl, rfl, rfl, rfl⟩, den_digits_star.2 ⟨ds, h2, rfl, rfl⟩,
        (List.take_append_drop 1 x).symm, rfl, rfl⟩

theorem Vals.digits {x ds} (h : Vals x ds) : Digits x := by
  intro c hc
  have : digitVal c ∈ ds.map some := by rw [← h]; exact List.mem_map_of_mem hc
  obtain ⟨d, _, hd⟩ := List.mem_map.1 this
  rw [← hd]; rfl

theorem Digits.vals {x} (h : Digits x) : ∃ ds, Vals x ds := by
  induction x with
  | nil => exact ⟨[], rfl⟩
  | cons c x ih =>
    obtain ⟨ds, hds⟩ := ih fun d hd => h d (by simp [hd])
    obtain ⟨d, hd⟩ := Option.isSome_iff_exists.1 (h c (by simp))
    exact ⟨d :: ds, by simp [Vals, hd]; exact hds⟩

theorem digitVal_lt {c d} (h : digitVal c = some d) : d < 10 := by
  have : ∀ e ∈ digitTable, e.2 < 10 := by decide
  obtain ⟨l₁, l₂, h, _⟩ := List.lookup_eq_some_iff.1 h
  exact this (c, d) (by rw [h]; simp)

theorem Vals.lt {x ds} (h : Vals x ds) : ∀ d ∈ ds, d < 10 := by
  intro d hd
  have : some d ∈ x.map digitVal := by rw [h]; exact List.mem_map_of_mem hd
  obtain ⟨c, _, hc⟩ := List.mem_map.1 this
  exact digitVal_lt hc

theorem Vals.natOf {x ds} (h : Vals x ds) : natOf x = valOf ds := by
  have key : ∀ (x : Str) (ds : List Nat) (n : Nat), Vals x ds →
      x.foldl (fun n c => 10 * n + (digitVal c).getD 0) n = ds.foldl (fun n d => 10 * n + d) n := by
    intro x
    induction x with
    | nil => intro ds n h; have : ds = [] := by simpa [Vals] using h.symm
             subst this; rfl
    | cons c x ih =>
      intro ds n h
      match ds, h with
      | d :: ds, h =>
        simp only [Vals, List.map_cons, List.cons.injEq] at h
        simp only [List.foldl_cons, h.1, Option.getD_some]
        exact ih ds _ h.2
  exact key x ds 0 h

/-- The longest digit prefix of a text. -/
theorem takeWhile_digits {x t : Str} (hx : Digits x) (ht : ∀ c ∈ t.head?, digitVal c = none) :
    (x ++ t).takeWhile (fun c => (digitVal c).isSome) = x := by
  induction x with
  | nil =>
    cases t with
    | nil => rfl
    | cons c t => simp [List.takeWhile, ht c (by simp)]
  | cons c x ih =>
    rw [List.cons_append, List.takeWhile_cons_of_pos (p := fun c => (digitVal c).isSome) (hx c (by simp)), ih fun d hd => hx d (by simp [hd])]

/-! ### Signed decimals -/

/-- The fractional part. -/
def Frac (x y : Str) : Prop :=
  (x = [] ∧ y = []) ∨ ∃ z es, es ≠ [] ∧ Vals z es ∧ x = '.' :: z ∧ y = '点' :: es.map num

theorem Frac.head {x y} (h : Frac x y) : ∀ c ∈ x.head?, digitVal c = none := by
  rcases h with ⟨rfl, _⟩ | ⟨z, es, _, _, rfl, _⟩
  · simp
  · simp only [List.head?_cons, Option.mem_def, Option.some.injEq]
    rintro c rfl; decide

theorem den_frac {x y w} : (dotG + digits.plus).ques.den x y w ↔ Frac x y ∧ w = 0 := by
  rw [den_ques]
  constructor
  · rintro (⟨rfl, rfl, rfl⟩ | ⟨x₁, y₁, w₁, x₂, y₂, w₂, h1, h2, rfl, rfl, rfl⟩)
    · exact ⟨Or.inl ⟨rfl, rfl⟩, rfl⟩
    · obtain ⟨hm, rfl⟩ := den_tab.1 h1
      obtain ⟨rfl, rfl⟩ : x₁ = ['.'] ∧ y₁ = ['点'] := by
        simpa [dot] using hm
      obtain ⟨es, hn, v, rfl, rfl⟩ := den_digits_plus.1 h2
      exact ⟨Or.inr ⟨x₂, es, hn, v, rfl, rfl⟩, rfl⟩
  · rintro ⟨⟨rfl, rfl⟩ | ⟨z, es, hn, v, rfl, rfl⟩, rfl⟩
    · exact Or.inl ⟨rfl, rfl, rfl⟩
    · exact Or.inr ⟨['.'], ['点'], 0, z, es.map num, 0, den_tab.2 ⟨by simp [dot], rfl⟩,
        den_digits_plus.2 ⟨es, hn, v, rfl, rfl⟩, rfl, rfl, rfl⟩

/-- Sign, integer and fraction, written and spoken. -/
structure SayNum (x y : Str) where
  s : Str
  s' : Str
  sign : (s, s') ∈ ([], []) :: sign
  xi : Str
  ds : List Nat
  vals : Vals xi ds
  yi : Str
  int : SayInt ds yi
  xf : Str
  yf : Str
  frac : Frac xf yf
  hx : x = s ++ (xi ++ xf)
  hy : y = s' ++ (yi ++ yf)

theorem den_signed {x y w} : signed.den x y w ↔ Nonempty (SayNum x y) ∧ w = 0 := by
  unfold signed
  constructor
  · rintro ⟨x₁, y₁, w₁, x₂, y₂, w₂, ⟨x₃, y₃, w₃, x₄, y₄, w₄, h1, h2, rfl, rfl, rfl⟩, h3, rfl, rfl, rfl⟩
    obtain ⟨hf, rfl⟩ := den_frac.1 h3
    obtain ⟨ds, v, hs, rfl⟩ := den_integer.1 h2
    rcases h1 with ⟨rfl, rfl, rfl⟩ | h1
    · exact ⟨⟨⟨[], [], by simp, _, ds, v, _, hs, _, _, hf, by simp, by simp⟩⟩, rfl⟩
    · obtain ⟨hm, rfl⟩ := den_tab.1 h1
      exact ⟨⟨⟨_, _, List.mem_cons_of_mem _ hm, _, ds, v, _, hs, _, _, hf, by simp, by simp⟩⟩, rfl⟩
  · rintro ⟨⟨n⟩, rfl⟩
    have h1 : signG.ques.den n.s n.s' 0 := by
      rcases List.mem_cons.1 n.sign with h | h
      · obtain ⟨h1, h2⟩ := Prod.mk.inj h
        rw [h1, h2]; exact Or.inl ⟨rfl, rfl, rfl⟩
      · exact Or.inr (den_tab.2 ⟨h, rfl⟩)
    have := (G.den.cat (G.den.cat h1 (den_integer.2 ⟨n.ds, n.vals, n.int, rfl⟩)) (den_frac.2 ⟨n.frac, rfl⟩))
    have hx := n.hx
    have hy := n.hy
    rw [← List.append_assoc] at hx hy
    have e : (0 + 0 + 0 : W) = 0 := rfl
    rw [← hx, ← hy, e] at this
    exact this

theorem SayNum.xi_ne {x y} (n : SayNum x y) : n.xi ≠ [] := by
  intro h
  have := n.int.digits.1
  rw [← n.vals.length, h] at this
  cases this

theorem sign_unique {s s' t t' : Str} (h : (s, s') ∈ ([], []) :: sign) (h' : (t, t') ∈ ([], []) :: sign)
    {u v : Str} (hu : ∀ c ∈ u.head?, (digitVal c).isSome) (hu0 : u ≠ [])
    (hv : ∀ c ∈ v.head?, (digitVal c).isSome) (hv0 : v ≠ []) (he : s ++ u = t ++ v) :
    s = t ∧ s' = t' ∧ u = v := by
  have hs : ∀ e ∈ ([], []) :: sign, ∀ c ∈ e.1, digitVal c = none := by decide +kernel
  have hone : ∀ e ∈ (([], []) :: sign : List (Str × Str)), e.1.length ≤ 1 := by decide +kernel
  have hfun : ∀ e ∈ (([], []) :: sign : List (Str × Str)), ∀ e' ∈ (([], []) :: sign : List (Str × Str)),
    e.1 = e'.1 → e.2 = e'.2 := by decide +kernel
  have key : s = t := by
    have l1 := hone _ h
    have l2 := hone _ h'
    have n1 := hs _ h
    have n2 := hs _ h'
    dsimp only at l1 l2 n1 n2
    match s, t, l1, l2, n1, n2, u, hu, hu0, v, hv, hv0, he with
    | [], [], _, _, _, _, _, _, _, _, _, _, _ => rfl
    | [c], [d], _, _, _, _, _, _, _, _, _, _, he => rw [(List.cons.inj he).1]
    | [], [d], _, _, _, n2, c :: u, hu, _, _, _, _, he =>
      have := hu c (by simp)
      rw [(List.cons.inj he).1, n2 d (by simp)] at this; cases this
    | [c], [], _, _, n1, _, _, _, _, d :: v, hv, _, he =>
      have := hv d (by simp)
      rw [← (List.cons.inj he).1, n1 c (by simp)] at this; cases this
  exact ⟨key, hfun _ h _ h' key, by rw [key] at he; exact List.append_cancel_left he⟩

theorem digits_head {x t : Str} (h : Digits x) (h0 : x ≠ []) :
    (∀ c ∈ (x ++ t).head?, (digitVal c).isSome) ∧ x ++ t ≠ [] := by
  cases x with
  | nil => exact absurd rfl h0
  | cons c x =>
    refine ⟨?_, by simp⟩
    simp only [List.cons_append, List.head?_cons, Option.mem_def, Option.some.injEq]
    rintro d rfl; exact h _ (by simp)

theorem Frac.unique {x y y'} (h : Frac x y) (h' : Frac x y') : y = y' := by
  rcases h with ⟨rfl, rfl⟩ | ⟨z, es, _, v, rfl, rfl⟩
  · rcases h' with ⟨_, rfl⟩ | ⟨z', es', _, v', h, _⟩
    · rfl
    · cases h
  · rcases h' with ⟨h, _⟩ | ⟨z', es', _, v', h, rfl⟩
    · cases h
    · cases h; rw [v.unique v']

theorem SayNum.unique {x y y'} (n : SayNum x y) (n' : SayNum x y') : y = y' := by
  have d1 := digits_head (t := n.xf) n.vals.digits n.xi_ne
  have d2 := digits_head (t := n'.xf) n'.vals.digits n'.xi_ne
  obtain ⟨_, hs, hr⟩ := sign_unique n.sign n'.sign d1.1 d1.2 d2.1 d2.2 (n.hx.symm.trans n'.hx)
  have hxi : n.xi = n'.xi := by
    rw [← takeWhile_digits n.vals.digits n.frac.head, hr, takeWhile_digits n'.vals.digits n'.frac.head]
  have hxf : n.xf = n'.xf := by rw [hxi] at hr; exact List.append_cancel_left hr
  have hds : n.ds = n'.ds := n.vals.unique (by rw [hxi]; exact n'.vals)
  have hyi : n.yi = n'.yi := n.int.unique (by rw [hds]; exact n'.int)
  have hyf : n.yf = n'.yf := n.frac.unique (by rw [hxf]; exact n'.frac)
  rw [n.hy, n'.hy, hs, hyi, hyf]

/-! ### 二 at the beginning -/

/-- 二 before a unit becomes 两. -/
def liangF : Str → Str
  | '二' :: c :: t => (if c ∈ ['百', '千', '万', '亿'] then '两' else '二') :: c :: t
  | m => m

theorem den_liangR {u v w} : (crossS t!"二百" t!"两百" ||| crossS t!"二千" t!"两千" ||| crossS t!"二万" t!"两万" |||
    crossS t!"二亿" t!"两亿").den u v w ↔
    ∃ c ∈ ['百', '千', '万', '亿'], u = ['二', c] ∧ v = ['两', c] ∧ w = 0 := by
  simp only [den_or, den_crossS, List.mem_cons, List.not_mem_nil, or_false]
  constructor
  · rintro (((h | h) | h) | h) <;> exact ⟨_, by simp, h⟩
  · rintro ⟨c, rfl | rfl | rfl | rfl, h⟩ <;> simp [h]

theorem den_liang {x y w} : liang.den x y w ↔ VText x ∧ y = liangF x ∧ w = 0 := by
  unfold liang buildRule
  rw [den_rw, rewrites_begin (fun u v w h => by
    obtain ⟨c, _, _, rfl, _⟩ := den_liangR.1 h; simp)]
  have hfire : ∀ {x}, Fires (crossS t!"二百" t!"两百" ||| crossS t!"二千" t!"两千" ||| crossS t!"二万" t!"两万" |||
      crossS t!"二亿" t!"两亿").den .any x ↔ ∃ c ∈ ['百', '千', '万', '亿'], ∃ t, x = '二' :: c :: t := by
    intro x
    constructor
    · rintro ⟨u, v, w, t, rfl, _, h, _⟩
      obtain ⟨c, hc, rfl, _⟩ := den_liangR.1 h
      exact ⟨c, hc, t, rfl⟩
    · rintro ⟨c, hc, t, rfl⟩
      exact ⟨['二', c], ['两', c], 0, t, rfl, by simp, den_liangR.2 ⟨c, hc, rfl, rfl, rfl⟩, rfl⟩
  refine and_congr_right fun _ => ?_
  constructor
  · rintro (⟨u, v, t, rfl, _, h, _, rfl⟩ | ⟨hf, rfl, rfl⟩)
    · obtain ⟨c, hc, rfl, rfl, rfl⟩ := den_liangR.1 h
      exact ⟨by simp only [List.cons_append, List.nil_append, liangF, if_pos hc], rfl⟩
    · refine ⟨?_, rfl⟩
      unfold liangF
      split
      · rename_i c t _
        rw [if_neg]
        intro hc
        rcases hf with hf | hf
        · cases hf
        · exact hf (hfire.2 ⟨c, hc, t, rfl⟩)
      · rfl
  · rintro ⟨rfl, rfl⟩
    by_cases hf : Fires (crossS t!"二百" t!"两百" ||| crossS t!"二千" t!"两千" ||| crossS t!"二万" t!"两万" |||
      crossS t!"二亿" t!"两亿").den .any x
    · obtain ⟨c, hc, t, rfl⟩ := hfire.1 hf
      refine Or.inl ⟨['二', c], ['两', c], t, rfl, by simp, den_liangR.2 ⟨c, hc, rfl, rfl, rfl⟩, rfl, ?_⟩
      simp only [List.cons_append, List.nil_append, liangF, if_pos hc]
    · refine Or.inr ⟨Or.inr hf, ?_, rfl⟩
      unfold liangF
      split
      · rename_i c t _
        rw [if_neg]
        intro hc
        exact hf (hfire.2 ⟨c, hc, t, rfl⟩)
      · rfl

theorem den_plainNumber {x y w} :
    plainNumber.den x y w ↔ (∃ m, Nonempty (SayNum x m) ∧ VText m ∧ y = liangF m) ∧ w = 0 := by
  constructor
  · rintro ⟨m, w₁, w₂, h1, h2, rfl⟩
    obtain ⟨hn, rfl⟩ := den_signed.1 h1
    obtain ⟨hv, rfl, rfl⟩ := den_liang.1 h2
    exact ⟨⟨m, hn, hv, rfl⟩, rfl⟩
  · rintro ⟨⟨m, hn, hv, rfl⟩, rfl⟩
    exact ⟨m, 0, 0, den_signed.2 ⟨hn, rfl⟩, den_liang.2 ⟨hv, rfl, rfl⟩, rfl⟩

theorem plainNumber_functional : Functional plainNumber := by
  intro x y w y' w' h h'
  obtain ⟨⟨m, ⟨n⟩, _, rfl⟩, rfl⟩ := den_plainNumber.1 h
  obtain ⟨⟨m', ⟨n'⟩, _, rfl⟩, rfl⟩ := den_plainNumber.1 h'
  rw [n.unique n']; exact ⟨rfl, rfl⟩

end Verif.ZhTn
