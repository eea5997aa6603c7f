import Verif.ZhTn.Number
import Mathlib.Tactic.IntervalCases
import Mathlib.Tactic.Ring

/-
The spoken integers have the value that is written.
-/

namespace Verif.ZhTn

open Verif.Wfst Spec

/-! ### Running the evaluator over what the grammar writes -/

theorem run_append (s : St) (u v : Str) : s.run (u ++ v) = (s.run u).bind fun s => s.run v := by
  induction u generalizing s with
  | nil => rfl
  | cons c u ih =>
    simp only [List.cons_append, St.run]
    cases s.step c with
    | none => rfl
    | some s' => exact ih s'

theorem step_num {s : St} {d : Nat} (h0 : d ≠ 0) (h : d < 10) (hp : s.pend = none) :
    s.step (num d) = some { s with pend := some d } := by
  have h1 : 1 ≤ d := Nat.one_le_iff_ne_zero.2 h0
  interval_cases d <;> simp [St.step, num, spokenVal, spokenTable, List.lookup, hp]

theorem step_ling (s : St) : s.step '零' =
    if s.pend = none ∧ ¬s.zero then some { s with zero := true } else none := rfl
theorem step_shi (s : St) : s.step '十' = match s.pend with
    | some d => s.place d 1
    | none => if s.big = 3 ∧ s.lead = none ∧ ¬s.zero then s.place 1 1 else none := rfl
theorem step_bai (s : St) : s.step '百' = s.pend.bind fun d => s.place d 2 := rfl
theorem step_qian (s : St) : s.step '千' = s.pend.bind fun d => s.place d 3 := rfl
theorem step_wan (s : St) : s.step '万' = s.close 1 := rfl
theorem step_yi (s : St) : s.step '亿' = s.close 2 := rfl

/-- The value of digits. -/
def valOf (ds : List Nat) : Nat := ds.foldl (fun n d => 10 * n + d) 0

/-- The state after the text `u` is a section worth `v`, closed as one that counts 10^(4b). -/
def Closes (s : St) (u : Str) (b v : Nat) : Prop :=
  ∃ s', s.run u = some s' ∧ s'.big = s.big ∧ (s'.lead.isSome ∨ s'.pend.isSome) ∧
    s'.close b = some { acc := s.acc + v * 10 ^ (4 * b), big := b }

theorem closes_tail4 {acc b a₁ a₂ a₃ a₄ : Nat} (h₁ : a₁ < 10) (h₂ : a₂ < 10) (h₃ : a₃ < 10)
    (h₄ : a₄ < 10) (hn : ¬(a₁ = 0 ∧ a₂ = 0 ∧ a₃ = 0 ∧ a₄ = 0)) (h2 : b ≠ 2) :
    Closes { acc, big := b + 1 } (tail4 a₁ a₂ a₃ a₄) b (1000 * a₁ + 100 * a₂ + 10 * a₃ + a₄) := by
  unfold tail4 say4 tail3 say3 tail2 say2 tail1
  by_cases z₁ : a₁ = 0 <;> by_cases z₂ : a₂ = 0 <;> by_cases z₃ : a₃ = 0 <;> by_cases z₄ : a₄ = 0 <;>
    simp only [z₁, z₂, z₃, z₄, if_true, if_false, ne_eq, not_true_eq_false, not_false_eq_true, and_self] at hn ⊢ <;>
    (refine ⟨_, by
        simp [St.run, step_num, step_ling, step_shi, step_bai, step_qian, St.place, h₁, h₂, h₃, h₄, z₁, z₂, z₃, z₄]
        try rfl, ?_, ?_, ?_⟩ <;> simp [St.close, St.place, h2] <;> ring)

theorem closes_skipped {acc a₁ a₂ a₃ a₄ : Nat} (h₁ : a₁ < 10) (h₂ : a₂ < 10) (h₃ : a₃ < 10)
    (h₄ : a₄ < 10) (hn : ¬(a₁ = 0 ∧ a₂ = 0 ∧ a₃ = 0 ∧ a₄ = 0)) :
    Closes { acc, big := 2 } (if a₁ ≠ 0 then '零' :: say4 a₁ a₂ a₃ a₄ else tail4 a₁ a₂ a₃ a₄) 0
      (1000 * a₁ + 100 * a₂ + 10 * a₃ + a₄) := by
  unfold tail4 say4 tail3 say3 tail2 say2 tail1
  by_cases z₁ : a₁ = 0 <;> by_cases z₂ : a₂ = 0 <;> by_cases z₃ : a₃ = 0 <;> by_cases z₄ : a₄ = 0 <;>
    simp only [z₁, z₂, z₃, z₄, if_true, if_false, ne_eq, not_true_eq_false, not_false_eq_true, and_self] at hn ⊢ <;>
    (refine ⟨_, by
        simp [St.run, step_num, step_ling, step_shi, step_bai, step_qian, St.place, h₁, h₂, h₃, h₄, z₁, z₂, z₃, z₄]
        try rfl, ?_, ?_, ?_⟩ <;> simp [St.close, St.place] <;> ring)

/-- The first section of a number. -/
def sayHead : List Nat → Str
  | [a] => [num a]
  | [a, b] => (if a = 1 then [] else [num a]) ++ '十' :: tail1 b
  | [a, b, c] => say3 a b c
  | [a, b, c, d] => say4 a b c d
  | _ => []

/-- One to four digits, the first not zero. -/
def headOk (ds : List Nat) : Prop := 1 ≤ ds.length ∧ ds.length ≤ 4 ∧ ds.headD 0 ≠ 0

theorem closes_head {ds : List Nat} (h : headOk ds) (hd : ∀ d ∈ ds, d < 10) {b : Nat} (hb : b < 3) :
    Closes {} (sayHead ds) b (valOf ds) := by
  obtain ⟨h1, h4, hz⟩ := h
  match ds, h1, h4, hz, hd with
  | [a], _, _, z₁, hd =>
    have h₁ := hd a (by simp)
    simp only [List.headD_cons] at z₁
    refine ⟨{ pend := some a }, by simp [sayHead, St.run, step_num, h₁, z₁], rfl, ?_, ?_⟩ <;>
      simp [St.close, St.place, hb, valOf]
  | [a, c], _, _, z₁, hd =>
    have h₁ := hd a (by simp)
    have h₂ := hd c (by simp)
    simp only [List.headD_cons] at z₁
    unfold sayHead tail1
    by_cases o : a = 1 <;> by_cases z₂ : c = 0 <;> simp only [o, z₂, if_true, if_false] <;>
    (refine ⟨_, by
        simp [St.run, step_num, step_ling, step_shi, St.place, h₁, h₂, z₁, z₂]
        try rfl, ?_, ?_, ?_⟩ <;> simp [St.close, St.place, hb, valOf] <;> ring)
  | [a₁, a₂, a₃], _, _, z₁, hd =>
    have h₁ := hd a₁ (by simp)
    have h₂ := hd a₂ (by simp)
    have h₃ := hd a₃ (by simp)
    simp only [List.headD_cons] at z₁
    unfold sayHead say3 tail2 say2 tail1
    by_cases z₂ : a₂ = 0 <;> by_cases z₃ : a₃ = 0 <;>
    simp only [z₁, z₂, z₃, if_true, if_false, ne_eq, not_true_eq_false, not_false_eq_true] <;>
    (refine ⟨_, by
        simp [St.run, step_num, step_ling, step_shi, step_bai, step_qian, St.place, h₁, h₂, h₃, z₁, z₂, z₃]
        try rfl, ?_, ?_, ?_⟩ <;> simp [St.close, St.place, hb, valOf] <;> ring)
  | [a₁, a₂, a₃, a₄], _, _, z₁, hd =>
    have h₁ := hd a₁ (by simp)
    have h₂ := hd a₂ (by simp)
    have h₃ := hd a₃ (by simp)
    have h₄ := hd a₄ (by simp)
    simp only [List.headD_cons] at z₁
    unfold sayHead say4 tail3 say3 tail2 say2 tail1
    by_cases z₂ : a₂ = 0 <;> by_cases z₃ : a₃ = 0 <;> by_cases z₄ : a₄ = 0 <;>
    simp only [z₁, z₂, z₃, z₄, if_true, if_false, ne_eq, not_true_eq_false, not_false_eq_true] <;>
    (refine ⟨_, by
        simp [St.run, step_num, step_ling, step_shi, step_bai, step_qian, St.place, h₁, h₂, h₃, h₄, z₁, z₂, z₃, z₄]
        try rfl, ?_, ?_, ?_⟩ <;> simp [St.close, St.place, hb, valOf] <;> ring)

/-- The eight digits after 亿. -/
def tail8 (ds : List Nat) : Str :=
  if (ds.take 4).any (· != 0) then on4 tail4 (ds.take 4) ++ '万' :: on4 tail4 (ds.drop 4)
  else on4 (fun a b c d => if a ≠ 0 then '零' :: say4 a b c d else tail4 a b c d) (ds.drop 4)

theorem valOf_append (ds es : List Nat) : valOf (ds ++ es) = valOf ds * 10 ^ es.length + valOf es := by
  have key : ∀ (es : List Nat) (n : Nat),
      es.foldl (fun n d => 10 * n + d) n = n * 10 ^ es.length + valOf es := by
    intro es
    induction es with
    | nil => intro n; simp [valOf]
    | cons d es ih =>
      intro n
      have e : valOf (d :: es) = es.foldl (fun n d => 10 * n + d) (10 * 0 + d) := rfl
      rw [List.foldl_cons, ih, e, ih, List.length_cons, Nat.pow_succ]
      ring
  rw [valOf, List.foldl_append, key]; rfl

theorem valOf4 (a b c d : Nat) : valOf [a, b, c, d] = 1000 * a + 100 * b + 10 * c + d := by
  simp [valOf]; ring

/-- A closed section, then an empty rest. -/
theorem finish_closed (acc : Nat) {b : Nat} (hb : b ≠ 3) : St.finish { acc, big := b } = some acc := by
  simp [St.finish, hb]

/-- An open section at the end of the text. -/
theorem Closes.finish {s : St} {u : Str} {v : Nat} (h : Closes s u 0 v) :
    (s.run u).bind St.finish = some (s.acc + v) := by
  obtain ⟨s', h1, _, h3, h4⟩ := h
  rw [h1, Option.bind_some, St.finish, if_neg, h4]
  · simp
  · rintro ⟨_, hp, hl, _⟩
    rcases h3 with h | h
    · rw [hl] at h; cases h
    · rw [hp] at h; cases h

/-- A section closed by its unit. -/
theorem Closes.unit {s : St} {u : Str} {b v : Nat} (h : Closes s u b v) {c : Char}
    (hc : ∀ s : St, s.step c = s.close b) (t : Str) :
    s.run (u ++ c :: t) = St.run { acc := s.acc + v * 10 ^ (4 * b), big := b } t := by
  obtain ⟨s', h1, _, _, h4⟩ := h
  rw [run_append, h1, Option.bind_some, St.run, hc, h4, Option.bind_some]

theorem finish_tail4 {acc : Nat} {es : List Nat} (hl : es.length = 4) (hd : ∀ d ∈ es, d < 10) :
    (St.run { acc, big := 1 } (on4 tail4 es)).bind St.finish = some (acc + valOf es) := by
  obtain ⟨a, b, c, d, rfl⟩ := len4 hl
  simp only [on4]
  by_cases hn : a = 0 ∧ b = 0 ∧ c = 0 ∧ d = 0
  · obtain ⟨rfl, rfl, rfl, rfl⟩ := hn
    simp [tail4, St.run, finish_closed, valOf]
  · rw [(closes_tail4 (b := 0) (hd a (by simp)) (hd b (by simp)) (hd c (by simp)) (hd d (by simp)) hn
      (by decide)).finish, valOf4]

theorem finish_tail8 {acc : Nat} {es : List Nat} (hl : es.length = 8) (hd : ∀ d ∈ es, d < 10) :
    (St.run { acc, big := 2 } (tail8 es)).bind St.finish = some (acc + valOf es) := by
  have hdt : ∀ d ∈ es.take 4, d < 10 := fun d h => hd d (List.mem_of_mem_take h)
  have hdd : ∀ d ∈ es.drop 4, d < 10 := fun d h => hd d (List.mem_of_mem_drop h)
  have hv : valOf es = valOf (es.take 4) * 10 ^ 4 + valOf (es.drop 4) := by
    conv_lhs => rw [← List.take_append_drop 4 es, valOf_append]
    simp [hl]
  have hlt : (es.take 4).length = 4 := by simp [hl]
  have hld : (es.drop 4).length = 4 := by simp [hl]
  obtain ⟨p, hp⟩ : ∃ p, p = es.take 4 := ⟨_, rfl⟩
  obtain ⟨q, hq⟩ : ∃ q, q = es.drop 4 := ⟨_, rfl⟩
  rw [tail8, ← hp, ← hq]
  rw [← hp, ← hq] at hv
  rw [← hp] at hlt hdt
  rw [← hq] at hld hdd
  obtain ⟨a, b, c, d, rfl⟩ := len4 hlt
  by_cases hn : a = 0 ∧ b = 0 ∧ c = 0 ∧ d = 0
  · obtain ⟨rfl, rfl, rfl, rfl⟩ := hn
    rw [if_neg (by simp), hv]
    obtain ⟨a, b, c, d, rfl⟩ := len4 hld
    simp only [on4]
    by_cases hn : a = 0 ∧ b = 0 ∧ c = 0 ∧ d = 0
    · obtain ⟨rfl, rfl, rfl, rfl⟩ := hn
      simp [tail4, St.run, finish_closed, valOf]
    · rw [(closes_skipped (hdd a (by simp)) (hdd b (by simp)) (hdd c (by simp)) (hdd d (by simp)) hn).finish,
        valOf4, valOf4]
      simp
  · rw [if_pos (by simp; tauto)]
    rw [show on4 tail4 [a, b, c, d] = tail4 a b c d from rfl,
      (closes_tail4 (b := 1) (hdt a (by simp)) (hdt b (by simp)) (hdt c (by simp)) (hdt d (by simp)) hn
        (by decide)).unit step_wan, finish_tail4 hld hdd, hv, valOf4]
    simp; ring

/-! ### All integers -/

/-- What the grammar writes for the digits of an integer. -/
def SayInt (ds : List Nat) (y : Str) : Prop :=
  (∃ d, ds = [d] ∧ y = [num d]) ∨ (headOk ds ∧ y = sayHead ds) ∨
  (∃ hs es, ds = hs ++ es ∧ headOk hs ∧ es.length = 4 ∧ y = sayHead hs ++ '万' :: on4 tail4 es) ∨
  (∃ hs es, ds = hs ++ es ∧ headOk hs ∧ es.length = 8 ∧ y = sayHead hs ++ '亿' :: tail8 es)

theorem num_ne {d e : Nat} (hd : d < 10) (he : e < 10) (h : num d = num e) : d = e := by
  interval_cases d <;> interval_cases e <;> simp_all [num]

/-- The first character of a section is not 零. -/
theorem sayHead_head {ds : List Nat} (h : headOk ds) (hd : ∀ d ∈ ds, d < 10) (t : Str) :
    sayHead ds ++ t ≠ ['零'] := by
  have hz : ∀ a : Nat, a ≠ 0 → a < 10 → num a ≠ '零' := by
    intro a h0 h e
    exact h0 (num_ne h (by decide) (e.trans rfl))
  obtain ⟨h1, h4, h0⟩ := h
  match ds, h1, h4, h0, hd with
  | [a], _, _, z₁, hd =>
    intro e; exact hz a z₁ (hd a (by simp)) (List.cons.inj e).1
  | [a, c], _, _, z₁, hd =>
    intro e
    have := hz a z₁ (hd a (by simp))
    by_cases o : a = 1 <;> simp [sayHead, o] at e
  | [a₁, a₂, a₃], _, _, z₁, hd => intro e; exact hz _ z₁ (hd _ (by simp)) (List.cons.inj e).1
  | [a₁, a₂, a₃, a₄], _, _, z₁, hd => intro e; exact hz _ z₁ (hd _ (by simp)) (List.cons.inj e).1

theorem SayInt.value {ds : List Nat} {y : Str} (h : SayInt ds y) (hd : ∀ d ∈ ds, d < 10) :
    value y = some (valOf ds) := by
  rcases h with ⟨d, rfl, rfl⟩ | ⟨h, rfl⟩ | ⟨hs, es, rfl, h, hl, rfl⟩ | ⟨hs, es, rfl, h, hl, rfl⟩
  · by_cases h0 : d = 0
    · subst h0; rfl
    · have hk : headOk [d] := ⟨by simp, by simp, h0⟩
      have := sayHead_head hk hd []
      rw [List.append_nil] at this
      show Spec.value (sayHead [d]) = _
      rw [Spec.value, if_neg this]
      have := (closes_head hk hd (b := 0) (by decide)).finish
      simpa using this
  · have := sayHead_head h hd []
    rw [List.append_nil] at this
    rw [Spec.value, if_neg this]
    have := (closes_head h hd (b := 0) (by decide)).finish
    simpa using this
  · have hd1 : ∀ d ∈ hs, d < 10 := fun d h => hd d (by simp [h])
    have hd2 : ∀ d ∈ es, d < 10 := fun d h => hd d (by simp [h])
    rw [Spec.value, if_neg (sayHead_head h hd1 _), (closes_head h hd1 (b := 1) (by decide)).unit step_wan,
      finish_tail4 hl hd2, valOf_append, hl]
    simp
  · have hd1 : ∀ d ∈ hs, d < 10 := fun d h => hd d (by simp [h])
    have hd2 : ∀ d ∈ es, d < 10 := fun d h => hd d (by simp [h])
    rw [Spec.value, if_neg (sayHead_head h hd1 _), (closes_head h hd1 (b := 2) (by decide)).unit step_yi,
      finish_tail8 hl hd2, valOf_append, hl]
    simp

/-- The digit strings the grammar reads as integers: one to twelve digits, the first not zero unless it is
the only one. -/
def IntDigits (ds : List Nat) : Prop := 1 ≤ ds.length ∧ ds.length ≤ 12 ∧ (ds.length = 1 ∨ ds.headD 0 ≠ 0)

theorem SayInt.digits {ds : List Nat} {y : Str} (h : SayInt ds y) : IntDigits ds := by
  have hh : ∀ (hs es : List Nat), headOk hs → (hs ++ es).headD 0 ≠ 0 := by
    intro hs es h
    cases hs with
    | nil => exact absurd h.1 (by simp)
    | cons a hs => exact h.2.2
  rcases h with ⟨d, rfl, rfl⟩ | ⟨h, rfl⟩ | ⟨hs, es, rfl, h, hl, rfl⟩ | ⟨hs, es, rfl, h, hl, rfl⟩
  · exact ⟨by simp, by simp, Or.inl rfl⟩
  · exact ⟨h.1, h.2.1.trans (by decide), Or.inr h.2.2⟩
  · have := h.1; have := h.2.1
    exact ⟨by simp; omega, by simp; omega, Or.inr (hh _ _ h)⟩
  · have := h.1; have := h.2.1
    exact ⟨by simp; omega, by simp; omega, Or.inr (hh _ _ h)⟩

theorem sayInt_exists {ds : List Nat} (h : IntDigits ds) : ∃ y, SayInt ds y := by
  obtain ⟨h1, h12, hz⟩ := h
  by_cases hl1 : ds.length = 1
  · obtain ⟨d, rfl⟩ := List.length_eq_one_iff.1 hl1
    exact ⟨_, Or.inl ⟨d, rfl, rfl⟩⟩
  have hz : ds.headD 0 ≠ 0 := hz.resolve_left hl1
  have htake : ∀ k, 1 ≤ k → (ds.take k).headD 0 ≠ 0 := by
    intro k hk
    cases ds with
    | nil => exact absurd rfl hz
    | cons a ds => rw [List.take_cons (by omega)]; exact hz
  by_cases hl4 : ds.length ≤ 4
  · exact ⟨_, Or.inr (Or.inl ⟨⟨h1, hl4, hz⟩, rfl⟩)⟩
  by_cases hl8 : ds.length ≤ 8
  · refine ⟨_, Or.inr (Or.inr (Or.inl ⟨ds.take (ds.length - 4), ds.drop (ds.length - 4), by simp,
      ⟨by simp; omega, by simp; omega, htake _ (by omega)⟩, by simp; omega, rfl⟩))⟩
  · refine ⟨_, Or.inr (Or.inr (Or.inr ⟨ds.take (ds.length - 8), ds.drop (ds.length - 8), by simp,
      ⟨by simp; omega, by simp; omega, htake _ (by omega)⟩, by simp; omega, rfl⟩))⟩

theorem SayInt.unique {ds : List Nat} {y y' : Str} (h : SayInt ds y) (h' : SayInt ds y') : y = y' := by
  rcases h with ⟨d, rfl, rfl⟩ | ⟨h, rfl⟩ | ⟨hs, es, rfl, h, hl, rfl⟩ | ⟨hs, es, rfl, h, hl, rfl⟩ <;>
    rcases h' with ⟨d', he', rfl⟩ | ⟨h', rfl⟩ | ⟨hs', es', he', h', hl', rfl⟩ | ⟨hs', es', he', h', hl', rfl⟩
  · cases he'; rfl
  · rfl
  · have := congrArg List.length he'; have := h'.1; simp at *; omega
  · have := congrArg List.length he'; have := h'.1; simp at *; omega
  · subst he'; rfl
  · rfl
  · have := congrArg List.length he'; have := h'.1; have := h.2.1; simp at *; omega
  · have := congrArg List.length he'; have := h'.1; have := h.2.1; simp at *; omega
  · have := congrArg List.length he'; have := h.1; simp at *; omega
  · have := h'.2.1; have := h.1; simp at *; omega
  · obtain ⟨rfl, rfl⟩ := List.append_inj' he' (by rw [hl, hl']); rfl
  · have := congrArg List.length he'; have := h'.1; have := h.2.1; simp at *; omega
  · have := congrArg List.length he'; have := h.1; simp at *; omega
  · have := h'.2.1; have := h.1; simp at *; omega
  · have := congrArg List.length he'; have := h.1; have := h'.2.1; simp at *; omega
  · obtain ⟨rfl, rfl⟩ := List.append_inj' he' (by rw [hl, hl']); rfl

/-! ### The grammar writes exactly this -/

theorem den_head {x y w} : head.den x y w ↔ ∃ ds, Vals x ds ∧ headOk ds ∧ y = sayHead ds ∧ w = 0 := by
  unfold head
  rw [den_or, den_or, den_or, reads_thousand x y w, reads_hundred x y w, reads_ten x y w, reads_digit x y w]
  constructor
  · rintro (((⟨ds, v, h, p, rfl, rfl⟩ | ⟨ds, v, h, p, rfl, rfl⟩) | ⟨ds, v, h, p, rfl, rfl⟩) |
      ⟨ds, v, h, p, rfl, rfl⟩)
    · obtain ⟨a, b, c, d, rfl⟩ := len4 h
      exact ⟨_, v, ⟨by simp, by simp, by simpa [on4] using p⟩, rfl, rfl⟩
    · obtain ⟨a, b, c, rfl⟩ := len3 h
      exact ⟨_, v, ⟨by simp, by simp, by simpa [on3] using p⟩, rfl, rfl⟩
    · obtain ⟨a, b, rfl⟩ := len2 h
      exact ⟨_, v, ⟨by simp, by simp, by simpa [on2] using p⟩, rfl, rfl⟩
    · obtain ⟨a, rfl⟩ := List.length_eq_one_iff.1 h
      exact ⟨_, v, ⟨by simp, by simp, by simpa using p⟩, rfl, rfl⟩
  · rintro ⟨ds, v, ⟨h1, h4, hz⟩, rfl, rfl⟩
    match ds, v, h1, h4, hz with
    | [a], v, _, _, hz => exact Or.inr ⟨_, v, rfl, by simpa using hz, rfl, rfl⟩
    | [a, b], v, _, _, hz => exact Or.inl (Or.inr ⟨_, v, rfl, by simpa [on2] using hz, rfl, rfl⟩)
    | [a, b, c], v, _, _, hz => exact Or.inl (Or.inl (Or.inr ⟨_, v, rfl, by simpa [on3] using hz, rfl, rfl⟩))
    | [a, b, c, d], v, _, _, hz =>
      exact Or.inl (Or.inl (Or.inl ⟨_, v, rfl, by simpa [on4] using hz, rfl, rfl⟩))

theorem den_head_unit {g : G} {k f} (h : Reads g k (fun _ => true) f) {u x y w} :
    (head + insert u + g).den x y w ↔ ∃ hs es, Vals x (hs ++ es) ∧ headOk hs ∧ es.length = k ∧
      y = sayHead hs ++ (u ++ f es) ∧ w = 0 := by
  constructor
  · rintro ⟨x₁, y₁, w₁, x₂, y₂, w₂, h1, h2, rfl, rfl, rfl⟩
    obtain ⟨y', rfl, h1'⟩ := den_add_insert.1 h1
    obtain ⟨hs, v1, hk, rfl, rfl⟩ := den_head.1 h1'
    obtain ⟨es, v2, hl, _, rfl, rfl⟩ := (h _ _ _).1 h2
    exact ⟨hs, es, v1.append v2, hk, hl, by simp, rfl⟩
  · rintro ⟨hs, es, v, hk, hl, rfl, rfl⟩
    have v1 := v.take hs.length
    have v2 := v.drop hs.length
    simp only [List.take_left, List.drop_left] at v1 v2
    exact ⟨_, _, _, _, _, _, den_add_insert.2 ⟨_, rfl, den_head.2 ⟨hs, v1, hk, rfl, rfl⟩⟩,
      (h _ _ _).2 ⟨es, v2, hl, rfl, rfl, rfl⟩, by simp, by simp, by simp⟩

theorem reads_rmzero_pow (n : Nat) : Reads (rmzero.pow n) n (fun ds => ds.all (· == 0)) (fun _ => []) := by
  induction n with
  | zero => exact reads_pow_zero.congr (fun ds h => by simp [List.length_eq_zero_iff.1 h]) (fun _ _ _ => rfl)
  | succ n ih =>
    have := reads_rmzero.cat ih
    rw [Nat.add_comm] at this
    refine this.congr ?_ (fun _ _ _ => rfl)
    intro ds h
    match ds, h with
    | a :: ds, _ => simp

theorem all4 (a b c d : Nat) :
    [a, b, c, d].all (· == 0) = !(a != 0 || b != 0 || c != 0 || d != 0) := by
  simp [bne, Bool.and_assoc]

theorem any4 (a b c d : Nat) :
    [a, b, c, d].any (· != 0) = (a != 0 || b != 0 || c != 0 || d != 0) := by
  simp [Bool.or_assoc]

theorem reads_tail8 : Reads ((fourNonzero + insert t!"万" + fourAny)
    ||| (rmzero.pow 4 + ((zeroG + hundred) ||| (rmzero + zeroG + tens) |||
        (rmzero.pow 2 + zeroG + digitG) ||| (insert t!"零" + thousand)))
    ||| rmzero.pow 8) 8 (fun _ => true) tail8 := by
  have hlow : Reads ((zeroG + hundred) ||| (rmzero + zeroG + tens) |||
      (rmzero.pow 2 + zeroG + digitG) ||| (insert t!"零" + thousand)) 4
      (on4 fun a b c d => a != 0 || b != 0 || c != 0 || d != 0)
      (on4 (fun a b c d => if a ≠ 0 then '零' :: say4 a b c d else tail4 a b c d)) := by
    have hz : Reads (insert t!"零" + thousand) 4 (on4 fun a _ _ _ => a != 0)
        (on4 fun a b c d => '零' :: say4 a b c d) := by
      refine ((reads_insert t!"零").cat reads_thousand).congr ?_ ?_
      · intro ds h; obtain ⟨a, b, c, d, rfl⟩ := len4 h; simp [on4]
      · intro ds h _; obtain ⟨a, b, c, d, rfl⟩ := len4 h; simp [on4]
    refine (((reads_zero_hundred.alt reads_zero_zero_tens ?_).alt reads_zeros_digit ?_).alt hz ?_).congr ?_ ?_
    all_goals
      intro ds h; obtain ⟨a, b, c, d, rfl⟩ := len4 h
      by_cases ha : a = 0 <;> by_cases hb : b = 0 <;> by_cases hc : c = 0 <;> by_cases hd : d = 0 <;>
        simp [on4, tail4, ha, hb, hc, hd, bne, beq_eq_false_iff_ne.2]
  have h1 := (reads_fourNonzero.cat (reads_insert t!"万")).cat reads_fourAny
  have h2 := (reads_rmzero_pow 4).cat hlow
  refine ((h1.alt h2 ?_).alt (reads_rmzero_pow 8) ?_).congr ?_ ?_
  all_goals
    intro ds h
    match ds, h with
    | [a, b, c, d, a', b', c', d'], _ =>
      have e8 : [a, b, c, d, a', b', c', d'].all (· == 0) =
          ([a, b, c, d].all (· == 0) && [a', b', c', d'].all (· == 0)) := by simp [Bool.and_assoc]
      have e1 : List.take 4 (List.take (4 + 0) [a, b, c, d, a', b', c', d']) = [a, b, c, d] := rfl
      have e2 : List.take 4 [a, b, c, d, a', b', c', d'] = [a, b, c, d] := rfl
      have e3 : List.drop (4 + 0) [a, b, c, d, a', b', c', d'] = [a', b', c', d'] := rfl
      have e4 : List.drop 4 [a, b, c, d, a', b', c', d'] = [a', b', c', d'] := rfl
      simp only [tail8, e1, e2, e3, e4, e8, on4]
      clear e1 e2 e3 e4 e8 h1 h2 hlow
      by_cases hP : a = 0 ∧ b = 0 ∧ c = 0 ∧ d = 0
      · obtain ⟨rfl, rfl, rfl, rfl⟩ := hP
        by_cases hQ : a' = 0 ∧ b' = 0 ∧ c' = 0 ∧ d' = 0
        · obtain ⟨rfl, rfl, rfl, rfl⟩ := hQ; simp [tail4]
        · have q1 : ((¬a' = 0 ∨ ¬b' = 0) ∨ ¬c' = 0) ∨ ¬d' = 0 := by tauto
          have q2 : a' = 0 → b' = 0 → c' = 0 → ¬d' = 0 := by tauto
          simp [q1, q2] <;> (intro z1 z2 z3 z4; exact absurd ⟨z1, z2, z3, z4⟩ hQ)
      · have p1 : ((¬a = 0 ∨ ¬b = 0) ∨ ¬c = 0) ∨ ¬d = 0 := by tauto
        have p2 : a = 0 → b = 0 → c = 0 → ¬d = 0 := by tauto
        have p3 : ¬a = 0 ∨ ¬b = 0 ∨ ¬c = 0 ∨ ¬d = 0 := by tauto
        simp [p1, p2, p3] <;> (intro z1 z2 z3 z4; exact absurd ⟨z1, z2, z3, z4⟩ hP)

theorem den_integer {x y w} : integer.den x y w ↔ ∃ ds, Vals x ds ∧ SayInt ds y ∧ w = 0 := by
  have hd : (digits ||| ten ||| hundred ||| thousand).den x y w ↔
      digits.den x y w ∨ head.den x y w := by
    have : digitG.den x y w → digits.den x y w := fun h => Or.inr h
    unfold head
    simp only [den_or]; tauto
  unfold integer tenThousand hundredMillion
  rw [den_or, den_or, hd, den_head, den_head_unit reads_fourAny, den_head_unit reads_tail8, reads_digits x y w]
  constructor
  · rintro (((⟨ds, v, h, p, rfl, rfl⟩ | ⟨ds, v, h, rfl, rfl⟩) | ⟨hs, es, v, h, hl, rfl, rfl⟩) |
      ⟨hs, es, v, h, hl, rfl, rfl⟩)
    · obtain ⟨a, rfl⟩ := List.length_eq_one_iff.1 h
      exact ⟨_, v, Or.inl ⟨a, rfl, rfl⟩, rfl⟩
    · exact ⟨_, v, Or.inr (Or.inl ⟨h, rfl⟩), rfl⟩
    · exact ⟨_, v, Or.inr (Or.inr (Or.inl ⟨hs, es, rfl, h, hl, rfl⟩)), rfl⟩
    · exact ⟨_, v, Or.inr (Or.inr (Or.inr ⟨hs, es, rfl, h, hl, rfl⟩)), rfl⟩
  · rintro ⟨ds, v, ⟨d, rfl, rfl⟩ | ⟨h, rfl⟩ | ⟨hs, es, rfl, h, hl, rfl⟩ | ⟨hs, es, rfl, h, hl, rfl⟩, rfl⟩
    · exact Or.inl (Or.inl (Or.inl ⟨_, v, rfl, rfl, rfl, rfl⟩))
    · exact Or.inl (Or.inl (Or.inr ⟨_, v, h, rfl, rfl⟩))
    · exact Or.inl (Or.inr ⟨hs, es, v, h, hl, rfl, rfl⟩)
    · exact Or.inr ⟨hs, es, v, h, hl, rfl, rfl⟩

end Verif.ZhTn
