import Verif.ZhItn.Value
import Verif.ZhTn.Props
import Verif.Wfst.Run
import Verif.Wfst.Turns

/-
The readings of Chinese TN as input of the Chinese inverse grammar.
-/

namespace Verif.ZhItn

open Verif.Wfst Spec
open Verif.ZhTn (num tail1 say2 tail2 say3 tail3 say4 tail4 on4 sayHead headOk SayInt)

/-! ### The strict evaluator of TN and the lenient one agree -/

/-- A state of the strict evaluator and the state of the lenient one on the same text. -/
structure Agree (s : ZhTn.Spec.St) (t : St) : Prop where
  pend : t.pend = s.pend
  sec : t.sec = s.sec
  acc : t.hi + t.wan = s.acc
  wan : s.big ≠ 1 → t.wan = 0
  start : s.big = 3 → s.acc = 0
  place : t.place = if s.zero ∨ s.unit ≤ 1 then 1 else if s.unit = 2 then 10 else if s.unit = 3 then 100 else
    if s.big = 1 then 1000 else 1
  fresh : s.unit = 4 → s.sec = 0
  unit : s.unit ≤ 4
  lead : s.unit = 4 ↔ s.lead = none
  big : s.big ≤ 3

theorem agree_place {s s' : ZhTn.Spec.St} {t : St} (h : Agree s t) {d e : Nat} (he : e = 1 ∨ e = 2 ∨ e = 3)
    (hs : s.place d e = some s') :
    Agree s' { t with sec := t.sec + d * 10 ^ e, pend := none, place := if e = 1 then 1 else if e = 2 then 10 else 100 } := by
  unfold ZhTn.Spec.St.place at hs
  split at hs
  · rename_i hc
    cases hs
    refine ⟨rfl, by simp [h.sec], h.acc, h.wan, h.start, ?_, ?_, ?_, ?_, h.big⟩
    · rcases he with rfl | rfl | rfl <;> simp
    · rintro rfl; omega
    · have := h.unit; dsimp only; omega
    · constructor
      · rintro rfl; omega
      · cases s.lead <;> simp
  · cases hs

/-- What closing a section is worth to the lenient evaluator. -/
theorem agree_close {s s' : ZhTn.Spec.St} {t : St} (h : Agree s t) {b : Nat} (hs : s.close b = some s') :
    s' = { acc := s.acc + (t.sec + t.pend.getD 0 * t.place) * 10 ^ (4 * b), big := b } ∧ b < s.big := by
  unfold ZhTn.Spec.St.close at hs
  cases hp : s.pend with
  | none =>
    rw [hp] at hs
    dsimp only at hs
    split at hs
    · cases hs
    · rw [Option.bind_eq_bind, Option.bind_some] at hs
      cases hl : s.lead with
      | none => rw [hl] at hs; cases hs
      | some pz =>
        obtain ⟨p, z⟩ := pz
        rw [hl] at hs
        dsimp only [Option.bind_eq_bind, Option.bind_some] at hs
        split at hs
        · rename_i hc
          cases hs
          refine ⟨by simp [h.pend, hp, h.sec], hc.1⟩
        · cases hs
  | some d =>
    rw [hp] at hs
    dsimp only at hs
    cases hpl : s.place d 0 with
    | none => rw [hpl] at hs; cases hs
    | some s₁ =>
      rw [hpl] at hs
      unfold ZhTn.Spec.St.place at hpl
      split at hpl
      · rename_i hc
        cases hpl
        dsimp only [Option.bind_eq_bind, Option.bind_some] at hs
        cases hl : (s.lead <|> some (0, s.zero)) with
        | none => rw [hl] at hs; cases hs
        | some pz =>
          obtain ⟨p, z⟩ := pz
          rw [hl] at hs
          dsimp only [Option.bind_some] at hs
          split at hs
          · rename_i hc'
            cases hs
            refine ⟨?_, hc'.1⟩
            have hpl : t.place = 1 := by
              rw [h.place]
              have hu := h.unit
              by_cases h4 : s.unit = 4
              · have hlead := h.lead.1 h4
                rw [hlead] at hl
                cases hl
                by_cases hz : s.zero = true
                · simp [hz]
                · by_cases hb : s.big = 1
                  · have h2 := hc'.2
                    simp [hb, hz] at h2
                  · simp [hb, h4]
              · rcases hc.2 with h' | h'
                · exact absurd h' h4
                · by_cases h1 : 1 < s.unit
                  · simp [h', h1]
                  · simp [Nat.not_lt.1 h1]
            simp [h.pend, hp, h.sec, hpl]
          · cases hs
      · cases hpl

theorem agree_step {s s' : ZhTn.Spec.St} {t : St} (h : Agree s t) {c : Char} (hs : s.step c = some s') :
    ∃ t', t.step c = some t' ∧ Agree s' t' := by
  unfold ZhTn.Spec.St.step at hs
  split at hs
  · -- 零
    rename_i hc; subst hc
    split at hs
    · rename_i hp
      cases hs
      refine ⟨{ t with place := 1 }, by simp [St.step, digitVal, digitTable, List.lookup, h.pend, hp.1], ?_⟩
      exact ⟨h.pend, h.sec, h.acc, h.wan, h.start, by simp, h.fresh, h.unit, h.lead, h.big⟩
    · cases hs
  split at hs
  · -- 十
    rename_i hc; subst hc
    refine ⟨_, step_shi t, ?_⟩
    split at hs
    · rename_i d hp
      have := agree_place h (Or.inl rfl) hs
      simpa [h.pend, hp] using this
    · rename_i hp
      split at hs
      · have := agree_place h (Or.inl rfl) hs
        simpa [h.pend, hp] using this
      · cases hs
  split at hs
  · -- 百
    rename_i hc; subst hc
    cases hp : s.pend with
    | none => rw [hp] at hs; cases hs
    | some d =>
      rw [hp] at hs
      have := agree_place h (Or.inr (Or.inl rfl)) hs
      refine ⟨_, by rw [step_bai, h.pend, hp]; rfl, ?_⟩
      simpa using this
  split at hs
  · -- 千
    rename_i hc; subst hc
    cases hp : s.pend with
    | none => rw [hp] at hs; cases hs
    | some d =>
      rw [hp] at hs
      have := agree_place h (Or.inr (Or.inr rfl)) hs
      refine ⟨_, by rw [step_qian, h.pend, hp]; rfl, ?_⟩
      simpa using this
  split at hs
  · -- 万
    rename_i hc; subst hc
    obtain ⟨rfl, hb⟩ := agree_close h hs
    have hw := h.wan (by omega)
    have ha := h.acc
    refine ⟨_, step_wan t, rfl, rfl, ?_, by simp, by simp, by simp, by simp, by simp, by simp, by simp⟩
    simp only [St.low, hw] at ha ⊢
    omega
  split at hs
  · -- 亿
    rename_i hc; subst hc
    obtain ⟨rfl, hb⟩ := agree_close h hs
    have h3 : s.big = 3 := by have := h.big; omega
    have hw := h.wan (by omega)
    have ha := h.acc
    have h0 := h.start h3
    refine ⟨_, step_yi t, rfl, rfl, ?_, by simp, by simp, by simp, by simp, by simp, by simp, by simp⟩
    simp only [St.low, hw] at ha ⊢
    simp
    omega
  · -- digits
    cases hv : ZhTn.Spec.spokenVal c with
    | none => rw [hv] at hs; cases hs
    | some d =>
      rw [hv] at hs
      dsimp only [Option.bind_some] at hs
      split at hs
      · rename_i hp
        cases hs
        have key : ∀ e ∈ ZhTn.Spec.spokenTable, digitVal e.1 = some e.2 := by decide
        have hm : (c, d) ∈ ZhTn.Spec.spokenTable := by
          obtain ⟨l₁, l₂, h, _⟩ := List.lookup_eq_some_iff.1 hv
          rw [h]; simp
        exact ⟨_, step_digit (key _ hm) (h.pend.trans hp),
          ⟨rfl, h.sec, h.acc, h.wan, h.start, h.place, h.fresh, h.unit, h.lead, h.big⟩⟩
      · cases hs

theorem agree_run {s s' : ZhTn.Spec.St} {t : St} (h : Agree s t) {y : Str} (hs : s.run y = some s') :
    ∃ t', t.run y = some t' ∧ Agree s' t' := by
  induction y generalizing s t with
  | nil => cases hs; exact ⟨t, rfl, h⟩
  | cons c y ih =>
    rw [ZhTn.Spec.St.run] at hs
    cases h1 : s.step c with
    | none => rw [h1] at hs; cases hs
    | some s₁ =>
      rw [h1] at hs
      obtain ⟨t₁, g1, h₁⟩ := agree_step h h1
      obtain ⟨t', g2, h₂⟩ := ih h₁ hs
      exact ⟨t', by rw [St.run, g1]; exact g2, h₂⟩

/-- A numeral that is well formed for TN denotes the same number here. -/
theorem spoken_of_value {y : Str} {n : Nat} (h : ZhTn.Spec.value y = some n) : spoken y = some n := by
  unfold ZhTn.Spec.value at h
  split at h
  · rename_i hy; subst hy; cases h; decide
  · cases hr : ZhTn.Spec.St.run {} y with
    | none => rw [hr] at h; cases h
    | some s =>
      rw [hr, Option.bind_some] at h
      have h0 : Agree {} {} := by constructor <;> simp
      obtain ⟨t, g1, ha⟩ := agree_run h0 hr
      rw [spoken, g1]
      unfold ZhTn.Spec.St.finish at h
      have hacc := ha.acc
      split at h
      · rename_i hc
        cases h
        have hsec := ha.fresh (ha.lead.2 hc.2.2.1)
        simp [St.low, ha.pend, hc.2.1, ha.sec, hsec, hacc]
      · cases hc : s.close 0 with
        | none => rw [hc] at h; cases h
        | some s' =>
          rw [hc] at h
          obtain ⟨rfl, _⟩ := agree_close ha hc
          cases h
          simp [St.low]; omega

/-- Well-formed numerals do not leave out units. -/
theorem not_short {y : Str} {n : Nat} (h : ZhTn.Spec.value y = some n) : ¬ShortAfterWan y := by
  rintro ⟨a, d, b, rfl, hd, hb⟩
  unfold ZhTn.Spec.value at h
  split at h
  · rename_i hy
    have := congrArg List.length hy
    simp at this
    omega
  · rw [ZhTn.run_append] at h
    cases ha : ZhTn.Spec.St.run {} a with
    | none => rw [ha] at h; cases h
    | some s =>
      rw [ha] at h
      have h0 : Agree {} {} := by constructor <;> simp
      obtain ⟨t, _, hag⟩ := agree_run h0 ha
      rw [Option.bind_some, ZhTn.Spec.St.run, ZhTn.step_wan] at h
      cases hc : s.close 1 with
      | none => rw [hc] at h; cases h
      | some s₁ =>
        rw [hc] at h
        obtain ⟨rfl, _⟩ := agree_close hag hc
        generalize s.acc + _ = v at h
        rw [Option.bind_some, ZhTn.Spec.St.run] at h
        -- the digit
        have hd' : ∀ d : Char, (digitVal d).isSome → d ∉ ['零', '十', '百', '千', '万', '亿'] := by
          intro d hd hm
          have : ∀ d ∈ ['零', '十', '百', '千', '万', '亿'], (digitVal d).isSome = false := by decide
          rw [this d hm] at hd; cases hd
        have hd'' := hd' d hd
        simp only [List.mem_cons, List.not_mem_nil, or_false, not_or] at hd''
        cases hv : ZhTn.Spec.spokenVal d with
        | none => simp [ZhTn.Spec.St.step, hd'', hv] at h
        | some k =>
          have e : ZhTn.Spec.St.step { acc := v, big := 1 } d = some { acc := v, big := 1, pend := some k } := by
            simp [ZhTn.Spec.St.step, hd'', hv]
          rw [e, Option.bind_some] at h
          cases b with
          | nil => simp [ZhTn.Spec.St.run, ZhTn.Spec.St.finish, ZhTn.Spec.St.close, ZhTn.Spec.St.place] at h
          | cons u b =>
            have hu := hb u (by simp)
            simp only [List.mem_cons, List.not_mem_nil, or_false, not_or] at hu
            have e : ZhTn.Spec.St.step { acc := v, big := 1, pend := some k } u = none := by
              simp only [ZhTn.Spec.St.step, hu, if_false]
              split
              · simp
              split
              · simp [ZhTn.Spec.St.close, ZhTn.Spec.St.place]
              split
              · simp [ZhTn.Spec.St.close, ZhTn.Spec.St.place]
              · cases ZhTn.Spec.spokenVal u <;> simp
            rw [ZhTn.Spec.St.run, e] at h
            cases h

/-! ### The readings are accepted -/

theorem turns_addzero : Turns addzero [] ['0'] := ⟨0, den_insert.2 ⟨rfl, rfl, rfl⟩⟩
theorem turns_zeros : ∀ k, Turns (addzero.pow k) [] (List.replicate k '0')
  | 0 => ⟨0, rfl, rfl, rfl⟩
  | k + 1 => turns_addzero.add (turns_zeros k)
theorem turns_zeroG : Turns zeroG ['零'] ['0'] := ⟨0, by decide, rfl⟩

theorem turns_num {a : Nat} (h0 : a ≠ 0) (h : a < 10) : Turns digitG [num a] [Nat.digitChar a] := by
  have key : ∀ a < 10, a ≠ 0 → ([num a], [Nat.digitChar a]) ∈ digit := by decide +kernel
  exact ⟨0, key a h h0, rfl⟩

theorem turns_liang : Turns digitG ['两'] ['2'] := ⟨0, by decide +kernel, rfl⟩

theorem turns_tail1 {b : Nat} (h : b < 10) (v : W) :
    Turns (digitG ||| G.wt addzero v) (tail1 b) [Nat.digitChar b] := by
  unfold tail1
  split
  · rename_i hb; subst hb; exact turns_addzero.wt.right
  · rename_i hb; exact (turns_num hb h).left

theorem turns_tens {c : Char} {a b : Nat} (hc : Turns digitG [c] [Nat.digitChar a]) (h : b < 10) :
    Turns tens (c :: '十' :: tail1 b) [Nat.digitChar a, Nat.digitChar b] :=
  (hc.add (turns_del t!"十")).add (turns_tail1 h _)

theorem turns_teen {b : Nat} (h : b < 10) : Turns teen ('十' :: tail1 b) ['1', Nat.digitChar b] :=
  (turns_crossS t!"十" t!"1").add (turns_tail1 h _)

theorem turns_hundred {c : Char} {a b d : Nat} (hc : Turns digitG [c] [Nat.digitChar a]) (hb : b < 10)
    (hd : d < 10) : Turns hundred (c :: '百' :: tail2 b d) [Nat.digitChar a, Nat.digitChar b, Nat.digitChar d] := by
  refine (hc.add (turns_del t!"百")).add (y' := [Nat.digitChar b, Nat.digitChar d]) ?_
  split
  · rename_i h0; exact (turns_tens (turns_num h0 hb) hd).left.left.left.left
  · rename_i h0
    have h0 : b = 0 := not_not.1 h0
    subst h0
    split
    · rename_i h1; exact (turns_zeroG.add (turns_num h1 hd)).wt.right.left.left
    · rename_i h1
      have h1 : d = 0 := not_not.1 h1
      subst h1
      exact (turns_zeros 2).wt.right

theorem turns_thousand {c : Char} {a b d e : Nat} (hc : Turns digitG [c] [Nat.digitChar a]) (hb : b < 10)
    (hd : d < 10) (he : e < 10) : Turns thousand (c :: '千' :: tail3 b d e)
      [Nat.digitChar a, Nat.digitChar b, Nat.digitChar d, Nat.digitChar e] := by
  refine (hc.add (turns_del t!"千")).add (y' := [Nat.digitChar b, Nat.digitChar d, Nat.digitChar e]) ?_
  split
  · rename_i h0; exact (turns_hundred (turns_num h0 hb) hd he).left.left.left.left
  · rename_i h0
    have h0 : b = 0 := not_not.1 h0
    subst h0
    split
    · rename_i h1
      exact (turns_zeroG.add (turns_tens (turns_num h1 hd) he).left).wt.right.left.left.left
    · rename_i h1
      have h1 : d = 0 := not_not.1 h1
      subst h1
      split
      · rename_i h2
        exact ((turns_addzero.add turns_zeroG).add (turns_num h2 he)).wt.right.left.left
      · rename_i h2
        have h2 : e = 0 := not_not.1 h2
        subst h2
        exact (turns_zeros 3).wt.right

theorem turns_afterWan {a b d e : Nat} (ha : a < 10) (hb : b < 10) (hd : d < 10) (he : e < 10) :
    Turns afterWan (tail4 a b d e) [Nat.digitChar a, Nat.digitChar b, Nat.digitChar d, Nat.digitChar e] := by
  unfold tail4
  split
  · rename_i h0; exact (turns_thousand (turns_num h0 ha) hb hd he).left.left.left.left.left
  · rename_i h0
    have h0 : a = 0 := not_not.1 h0
    subst h0
    split
    · rename_i h1
      exact (turns_zeroG.add (turns_hundred (turns_num h1 hb) hd he)).wt.right.left.left.left.left
    · rename_i h1
      have h1 : b = 0 := not_not.1 h1
      subst h1
      split
      · rename_i h2
        exact ((turns_addzero.add turns_zeroG).add (turns_tens (turns_num h2 hd) he).left).wt.right.left.left.left
      · rename_i h2
        have h2 : d = 0 := not_not.1 h2
        subst h2
        split
        · rename_i h3
          exact (((turns_addzero.add turns_addzero).add turns_zeroG).add (turns_num h3 he)).wt.right.left.left
        · rename_i h3
          have h3 : e = 0 := not_not.1 h3
          subst h3
          exact (turns_zeros 4).wt.right

/-- The first section, 二 possibly said 两. -/
def Head (ds : List Nat) (u : Str) : Prop := u = sayHead ds ∨ ∃ t, sayHead ds = '二' :: t ∧ u = '两' :: t

theorem turns_first {a : Nat} (h0 : a ≠ 0) (h : a < 10) {t u : Str}
    (hu : u = num a :: t ∨ ∃ t', num a :: t = '二' :: t' ∧ u = '两' :: t') :
    ∃ c, u = c :: t ∧ Turns digitG [c] [Nat.digitChar a] := by
  rcases hu with rfl | ⟨t', e, rfl⟩
  · exact ⟨_, rfl, turns_num h0 h⟩
  · obtain ⟨e1, rfl⟩ := List.cons.inj e
    have ha : a = 2 := ZhTn.num_ne h (by decide) (e1.trans rfl)
    subst ha
    exact ⟨_, rfl, turns_liang⟩

theorem turns_short_head {ds : List Nat} (h : headOk ds) (hl : ds.length ≤ 2) (hd : ∀ d ∈ ds, d < 10) {u : Str}
    (hu : Head ds u) : Turns (teen ||| tens ||| digitG) u (ds.map Nat.digitChar) := by
  obtain ⟨h1, h4, hz⟩ := h
  match ds, h1, hl, hz, hd with
  | [a], _, _, z, hd =>
    obtain ⟨c, rfl, hc⟩ := turns_first z (hd a (by simp)) hu
    exact hc.right
  | [a, b], _, _, z, hd =>
    have hb := hd b (by simp)
    unfold Head sayHead at hu
    by_cases o : a = 1
    · subst o
      simp only [if_true, List.nil_append] at hu
      rcases hu with rfl | ⟨t, e, _⟩
      · exact (turns_teen hb).left.left
      · simp at e
    · simp only [o, if_false] at hu
      obtain ⟨c, rfl, hc⟩ := turns_first z (hd a (by simp)) hu
      exact (turns_tens hc hb).right.left

theorem turns_long_head {ds : List Nat} (h : headOk ds) (hl : 3 ≤ ds.length) (hd : ∀ d ∈ ds, d < 10) {u : Str}
    (hu : Head ds u) : Turns (thousand ||| hundred) u (ds.map Nat.digitChar) := by
  obtain ⟨h1, h4, hz⟩ := h
  match ds, hl, h4, hz, hd with
  | [a, b, c], _, _, z, hd =>
    obtain ⟨k, rfl, hk⟩ := turns_first z (hd a (by simp)) hu
    exact (turns_hundred hk (hd b (by simp)) (hd c (by simp))).right
  | [a, b, c, d], _, _, z, hd =>
    obtain ⟨k, rfl, hk⟩ := turns_first z (hd a (by simp)) hu
    exact (turns_thousand hk (hd b (by simp)) (hd c (by simp)) (hd d (by simp))).left

theorem turns_head {ds : List Nat} (h : headOk ds) (hd : ∀ d ∈ ds, d < 10) {u : Str} (hu : Head ds u) :
    Turns (thousand ||| hundred ||| teen ||| tens ||| digitG) u (ds.map Nat.digitChar) := by
  by_cases hl : ds.length ≤ 2
  · obtain ⟨w, (h | h) | h⟩ := turns_short_head h hl hd hu
    · exact ⟨w, Or.inl (Or.inl (Or.inr h))⟩
    · exact ⟨w, Or.inl (Or.inr h)⟩
    · exact ⟨w, Or.inr h⟩
  · exact (turns_long_head h (by omega) hd hu).left.left.left

theorem turns_small {m : Bool} {x y : Str} (h : Turns (thousand ||| hundred ||| teen ||| tens ||| digitG) x y) :
    Turns (small m) x y := by
  obtain ⟨w, (((h | h) | h) | h) | h⟩ := h
  · exact ⟨w, Or.inl (Or.inr h)⟩
  · exact ⟨w, Or.inl (Or.inl (Or.inr h))⟩
  · exact ⟨w, Or.inl (Or.inl (Or.inl (Or.inl (Or.inr h))))⟩
  · exact ⟨w, Or.inl (Or.inl (Or.inl (Or.inr h)))⟩
  · exact ⟨w, Or.inl (Or.inl (Or.inl (Or.inl (Or.inl (Or.inr h)))))⟩

/-- The last section, with 零 in front or not. -/
theorem turns_low {a b d e : Nat} (ha : a < 10) (hb : b < 10) (hd : d < 10) (he : e < 10) :
    tail4 a b d e = [] ∧ a = 0 ∧ b = 0 ∧ d = 0 ∧ e = 0 ∨
    (∃ y, Turns (thousand ||| hundred ||| teen ||| tens ||| digitG) (tail4 a b d e) y) ∨
    ∃ t y, tail4 a b d e = '零' :: t ∧ Turns (thousand ||| hundred ||| teen ||| tens ||| digitG) t y := by
  unfold tail4
  split
  · rename_i h0; exact Or.inr (Or.inl ⟨_, (turns_thousand (turns_num h0 ha) hb hd he).left.left.left.left⟩)
  split
  · rename_i h1
    exact Or.inr (Or.inr ⟨_, _, rfl, (turns_hundred (turns_num h1 hb) hd he).right.left.left.left⟩)
  split
  · rename_i h2
    exact Or.inr (Or.inr ⟨_, _, rfl, (turns_tens (turns_num h2 hd) he).right.left⟩)
  split
  · rename_i h3
    exact Or.inr (Or.inr ⟨_, _, rfl, (turns_num h3 he).right⟩)
  · exact Or.inl ⟨rfl, by omega, by omega, by omega, by omega⟩

theorem turns_before_tails {x y : Str} (h : Turns (thousand ||| hundred ||| teen ||| tens ||| digitG) x y) :
    Turns (thousand ||| hundred ||| tens ||| teen ||| digits) x y := by
  obtain ⟨w, (((h | h) | h) | h) | h⟩ := h
  · exact ⟨w, Or.inl (Or.inl (Or.inl (Or.inl h)))⟩
  · exact ⟨w, Or.inl (Or.inl (Or.inl (Or.inr h)))⟩
  · exact ⟨w, Or.inl (Or.inr h)⟩
  · exact ⟨w, Or.inl (Or.inl (Or.inr h))⟩
  · exact ⟨w, Or.inr (Or.inr h)⟩

/-- Two sections with 万. -/
theorem turns_wan {m : Bool} {u : Str} {y : Str}
    (hu : Turns (thousand ||| hundred ||| teen ||| tens ||| digitG) u y)
    {a b d e : Nat} (ha : a < 10) (hb : b < 10) (hd : d < 10) (he : e < 10) :
    ∃ z, Turns (tenThousand m) (u ++ '万' :: tail4 a b d e) z := by
  have hw : ∀ {g : G}, Turns g u y → Turns (g + del t!"万" + afterWan) (u ++ '万' :: tail4 a b d e)
      (y ++ [Nat.digitChar a, Nat.digitChar b, Nat.digitChar d, Nat.digitChar e]) := by
    intro g hg
    have := (hg.add (turns_del t!"万")).add (turns_afterWan ha hb hd he)
    simpa using this
  cases m with
  | true => exact ⟨_, hw hu⟩
  | false =>
    have hk : Turns (thousand ||| hundred) u y → ∃ z, Turns ((thousand ||| hundred) + .lit t!"万" + rmzero +
        (thousand ||| hundred ||| tens ||| teen ||| digits).ques) (u ++ '万' :: tail4 a b d e) z := by
      intro hg
      have h1 := hg.add (turns_lit t!"万")
      rcases turns_low ha hb hd he with ⟨h, _⟩ | ⟨z, hz⟩ | ⟨t, z, h, hz⟩
      · have := (h1.add (turns_ques (del t!"零"))).add
          (turns_ques (thousand ||| hundred ||| tens ||| teen ||| digits))
        rw [h]; exact ⟨_, by simpa only [rmzero, List.append_assoc, List.append_nil] using this⟩
      · have := (h1.add (turns_ques (del t!"零"))).add (turns_before_tails hz).ques
        exact ⟨_, by simpa only [rmzero, List.append_assoc, List.cons_append, List.nil_append] using this⟩
      · have := (h1.add (turns_del t!"零").ques).add (turns_before_tails hz).ques
        rw [h]; exact ⟨_, by simpa only [rmzero, List.append_assoc, List.cons_append, List.nil_append] using this⟩
    obtain ⟨w, (((h | h) | h) | h) | h⟩ := hu
    · obtain ⟨z, hz⟩ := hk ⟨w, Or.inl h⟩; exact ⟨z, hz.right⟩
    · obtain ⟨z, hz⟩ := hk ⟨w, Or.inr h⟩; exact ⟨z, hz.right⟩
    · exact ⟨_, (hw (g := teen ||| tens ||| digitG) ⟨w, Or.inl (Or.inl h)⟩).left⟩
    · exact ⟨_, (hw (g := teen ||| tens ||| digitG) ⟨w, Or.inl (Or.inr h)⟩).left⟩
    · exact ⟨_, (hw (g := teen ||| tens ||| digitG) ⟨w, Or.inr h⟩).left⟩

/-- Two sections below 10^6, or below 10^8 with `enable_million`, are written in digits. -/
theorem turns_wan_digits {m : Bool} {hs : List Nat} (h : headOk hs) (hl : m = true ∨ hs.length ≤ 2)
    (hd : ∀ d ∈ hs, d < 10) {u : Str} (hu : Head hs u) {es : List Nat} (he : es.length = 4)
    (hd' : ∀ d ∈ es, d < 10) :
    Turns (small m) (u ++ '万' :: on4 tail4 es) ((hs ++ es).map Nat.digitChar) := by
  obtain ⟨a, b, c, d, rfl⟩ := ZhTn.len4 he
  have ht := turns_afterWan (hd' a (by simp)) (hd' b (by simp)) (hd' c (by simp)) (hd' d (by simp))
  refine Turns.right ?_
  cases m with
  | true =>
    have := ((turns_head h hd hu).add (turns_del t!"万")).add ht
    simpa [tenThousand, on4] using this
  | false =>
    have := ((turns_short_head h (by simpa using hl) hd hu).add (turns_del t!"万")).add ht
    refine Turns.left ?_
    simpa [on4] using this

theorem liangF_head {hs : List Nat} (h : headOk hs) (t : Str) : ∃ u, Head hs u ∧ ZhTn.liangF (sayHead hs ++ t) = u ++ t := by
  have key : ∀ m : Str, ZhTn.liangF m = m ∨ ∃ t, m = '二' :: t ∧ ZhTn.liangF m = '两' :: t := by
    intro m
    unfold ZhTn.liangF
    split
    · split
      · exact Or.inr ⟨_, rfl, rfl⟩
      · exact Or.inl rfl
    · exact Or.inl rfl
  have hne : sayHead hs ≠ [] := by
    obtain ⟨h1, h4, hz⟩ := h
    match hs, h1, h4 with
    | [a], _, _ => simp [sayHead]
    | [a, b], _, _ => simp [sayHead]
    | [a, b, c], _, _ => simp [sayHead, say3]
    | [a, b, c, d], _, _ => simp [sayHead, say4]
  rcases key (sayHead hs ++ t) with e | ⟨t', e, e'⟩
  · exact ⟨sayHead hs, Or.inl rfl, e⟩
  · cases hsay : sayHead hs with
    | nil => exact absurd hsay hne
    | cons c r =>
      rw [hsay] at e e'
      obtain ⟨rfl, rfl⟩ := List.cons.inj e
      exact ⟨'两' :: r, Or.inr ⟨r, hsay, rfl⟩, e'⟩

/-- The reading of a text of digits. -/
theorem reading {x y : Str} {w : W} (hx : ZhTn.Spec.Digits x) (h : ZhTn.plainNumber.den x y w) :
    ∃ ds m, ZhTn.Vals x ds ∧ SayInt ds m ∧ y = ZhTn.liangF m := by
  obtain ⟨h1, h12, h0⟩ := (ZhTn.C53_readable x hx).1 ⟨y, w, h⟩
  obtain ⟨ds, m, hv, hm⟩ := ZhTn.readable_int hx h1 h12 h0
  let n : ZhTn.SayNum x m := ⟨[], [], by simp, x, ds, hv, m, hm, [], [], Or.inl ⟨rfl, rfl⟩, by simp, by simp⟩
  have hd : ZhTn.plainNumber.den x (ZhTn.liangF m) 0 := ZhTn.den_plainNumber.2 ⟨⟨m, ⟨n⟩, n.vtext, rfl⟩, rfl⟩
  exact ⟨ds, m, hv, hm, (ZhTn.C54_unique.1 x _ _ _ _ h hd).1⟩

theorem integer_of_small {m : Bool} {x y : Str} (h : Turns (small m) x y) : Turns (integer m) x y := by
  have := ((turns_ques (small m + .lit t!"兆" + rmzero)).add (turns_ques (small m + .lit t!"亿" + rmzero))).add h
  simpa [integer] using this

theorem integer_of_yi {m : Bool} {u y t z : Str} (h : Turns (small m) u y) (h' : Turns (small m) t z) :
    Turns (integer m) (u ++ '亿' :: t) (y ++ '亿' :: z) ∧ Turns (integer m) (u ++ '亿' :: '零' :: t) (y ++ '亿' :: z) := by
  constructor
  · have := ((turns_ques (small m + .lit t!"兆" + rmzero)).add
      ((h.add (turns_lit t!"亿")).add (turns_ques (del t!"零"))).ques).add h'
    simpa [integer, rmzero] using this
  · have := ((turns_ques (small m + .lit t!"兆" + rmzero)).add
      ((h.add (turns_lit t!"亿")).add (turns_del t!"零").ques).ques).add h'
    simpa [integer, rmzero] using this

theorem valOf_zero {ds : List Nat} (h : ∀ d ∈ ds, d = 0) : ZhTn.valOf ds = 0 := by
  induction ds with
  | nil => rfl
  | cons d ds ih =>
    have := ZhTn.valOf_append [d] ds
    rw [List.singleton_append, ih fun d hd => h d (by simp [hd]), h d (by simp)] at this
    rw [h d (by simp), this]
    simp [ZhTn.valOf]

theorem accepts_tail {m : Bool} {u y : Str} (hu : Turns (small m) u y) {es : List Nat} (hl : es.length = 8)
    (hd : ∀ d ∈ es, d < 10) (hz : ZhTn.valOf es ≠ 0) :
    ∃ z, Turns (integer m) (u ++ '亿' :: ZhTn.tail8 es) z := by
  match es, hl with
  | [a, b, c, d, e, f, g, h], _ =>
    have ha := hd a (by simp)
    have hb := hd b (by simp)
    have hc := hd c (by simp)
    have hd₁ := hd d (by simp)
    have he := hd e (by simp)
    have hf := hd f (by simp)
    have hg := hd g (by simp)
    have hh := hd h (by simp)
    have e8 : ZhTn.tail8 [a, b, c, d, e, f, g, h] =
        if ([a, b, c, d].any fun x => x != 0) = true then tail4 a b c d ++ '万' :: tail4 e f g h
        else if e ≠ 0 then '零' :: say4 e f g h else tail4 e f g h := rfl
    rw [e8]
    by_cases hany : ([a, b, c, d].any fun x => x != 0) = true
    · rw [if_pos hany]
      rcases turns_low ha hb hc hd₁ with ⟨_, rfl, rfl, rfl, rfl⟩ | ⟨z, ht⟩ | ⟨t, z, et, ht⟩
      · simp at hany
      · obtain ⟨z', hz'⟩ := turns_wan (m := m) ht he hf hg hh
        exact ⟨_, (integer_of_yi hu (Turns.right hz')).1⟩
      · obtain ⟨z', hz'⟩ := turns_wan (m := m) ht he hf hg hh
        rw [et]
        exact ⟨_, (integer_of_yi hu (Turns.right hz')).2⟩
    · rw [if_neg hany]
      have h4 : a = 0 ∧ b = 0 ∧ c = 0 ∧ d = 0 := by simpa using hany
      obtain ⟨rfl, rfl, rfl, rfl⟩ := h4
      by_cases h0 : e ≠ 0
      · rw [if_pos h0]
        exact ⟨_, (integer_of_yi hu (turns_small (turns_thousand (turns_num h0 he) hf hg hh).left.left.left.left)).2⟩
      · rw [if_neg h0]
        rcases turns_low he hf hg hh with ⟨_, rfl, rfl, rfl, rfl⟩ | ⟨z, ht⟩ | ⟨t, z, et, ht⟩
        · exact absurd (valOf_zero (by simp)) hz
        · exact ⟨_, (integer_of_yi hu (turns_small ht)).1⟩
        · rw [et]
          exact ⟨_, (integer_of_yi hu (turns_small ht)).2⟩

theorem accepts {m : Bool} {ds : List Nat} {y : Str} (h : SayInt ds y) (hd : ∀ d ∈ ds, d < 10)
    (hz : ds.length ≤ 8 ∨ ZhTn.valOf ds % 10 ^ 8 ≠ 0) : ∃ z, Turns (integer m) (ZhTn.liangF y) z := by
  rcases h with ⟨d, rfl, rfl⟩ | ⟨hh, rfl⟩ | ⟨hs, es, rfl, hh, he, rfl⟩ | ⟨hs, es, rfl, hh, he, rfl⟩
  · have e : ZhTn.liangF [num d] = [num d] := by
      unfold ZhTn.liangF; split <;> simp_all
    rw [e]
    by_cases h0 : d = 0
    · subst h0
      refine ⟨_, integer_of_small (y := ['0']) ?_⟩
      exact turns_zeroG.left.left.left.left.left.left
    · exact ⟨_, integer_of_small (turns_small (turns_num h0 (hd d (by simp))).right)⟩
  · obtain ⟨u, hu, e⟩ := liangF_head hh []
    rw [List.append_nil, List.append_nil] at e
    rw [e]
    exact ⟨_, integer_of_small (turns_small (turns_head hh hd hu))⟩
  · obtain ⟨u, hu, e⟩ := liangF_head hh ('万' :: on4 tail4 es)
    rw [e]
    obtain ⟨a, b, c, d, rfl⟩ := ZhTn.len4 he
    obtain ⟨z, hz⟩ := turns_wan (m := m) (turns_head hh (fun d h => hd d (by simp [h])) hu) (hd a (by simp))
      (hd b (by simp)) (hd c (by simp)) (hd d (by simp))
    exact ⟨z, integer_of_small (Turns.right hz)⟩
  · obtain ⟨u, hu, e⟩ := liangF_head hh ('亿' :: ZhTn.tail8 es)
    rw [e]
    refine accepts_tail (turns_small (turns_head hh (fun d h => hd d (by simp [h])) hu)) he
      (fun d h => hd d (by simp [h])) ?_
    intro h0
    rcases hz with hz | hz
    · have := hh.1
      rw [List.length_append, he] at hz
      omega
    · rw [ZhTn.valOf_append, h0, he, Nat.add_zero, Nat.mul_mod_left] at hz
      exact hz rfl

/-! ### Readings that end with 亿 -/

/-- All characters `g` reads are in `p`. -/
def readsOnly (p : Char → Bool) : G → Bool
  | .lit s => s.all p
  | .cross a _ => readsOnly p a
  | .tab t => t.all fun e => e.1.all p
  | .cat a b => readsOnly p a && readsOnly p b
  | .alt a b => readsOnly p a && readsOnly p b
  | .star a => readsOnly p a
  | .comp a _ => readsOnly p a
  | .proj a => readsOnly p a
  | .wt a _ => readsOnly p a
  | _ => false

theorem readsOnly_den {p : Char → Bool} {g : G} : ∀ {x y w}, readsOnly p g = true → g.den x y w →
    ∀ c ∈ x, p c = true := by
  induction g with
  | lit s => rintro x y w h ⟨rfl, _⟩; exact List.all_eq_true.1 h
  | cross a v ih => rintro x y w h ⟨_, hd⟩; exact ih h hd
  | tab t => rintro x y w h ⟨hm, _⟩; exact List.all_eq_true.1 (List.all_eq_true.1 h _ hm)
  | cat a b iha ihb =>
    rintro x y w h ⟨x₁, y₁, w₁, x₂, y₂, w₂, h1, h2, rfl, rfl, rfl⟩
    rw [readsOnly, Bool.and_eq_true] at h
    intro c hc
    rcases List.mem_append.1 hc with hc | hc
    · exact iha h.1 h1 c hc
    · exact ihb h.2 h2 c hc
  | alt a b iha ihb =>
    intro x y w h hd
    rw [readsOnly, Bool.and_eq_true] at h
    exact hd.elim (iha h.1) (ihb h.2)
  | star a ih =>
    intro x y w h hd
    rw [readsOnly] at h
    have hd : Star a.den x y w := hd
    induction hd with
    | nil => simp
    | cons h1 h2 ih' =>
      intro c hc
      rcases List.mem_append.1 hc with hc | hc
      · exact ih h h1 c hc
      · exact ih' h2 c hc
  | comp a b iha _ => rintro x y w h ⟨m, w₁, w₂, h1, _, _⟩; exact iha h h1
  | proj a ih => rintro x y w h ⟨_, z, h1⟩; exact ih h h1
  | wt a v ih => rintro x y w h ⟨w₀, h1, _⟩; exact ih h h1
  | _ => intro x y w h; cases h

/-- No number ends with 亿. -/
theorem integer_last {m : Bool} {x y : Str} {w : W} (h : (integer m).den x y w) : x.getLast? ≠ some '亿' := by
  obtain ⟨x₁, y₁, w₁, x₂, y₂, w₂, h1, h2, rfl, rfl, rfl⟩ := h
  have hne : x₂ ≠ [] := by
    rintro rfl
    have := nullable_of_den h2
    revert this
    cases m <;> decide +kernel
  have hc : readsOnly (fun c => c != '亿') (small m) = true := by cases m <;> decide +kernel
  have hall := readsOnly_den hc h2
  intro e
  rw [List.getLast?_append_of_ne_nil _ hne] at e
  have := hall '亿' (List.mem_of_getLast? e)
  simp at this

theorem eq_zero_of_valOf {ds : List Nat} (h : ZhTn.valOf ds = 0) : ∀ d ∈ ds, d = 0 := by
  induction ds with
  | nil => simp
  | cons d ds ih =>
    have e := ZhTn.valOf_append [d] ds
    rw [List.singleton_append, h] at e
    have hd : ZhTn.valOf [d] = d := by simp [ZhTn.valOf]
    rw [hd] at e
    have hp : 0 < 10 ^ ds.length := Nat.pow_pos (by decide)
    have h1 : ZhTn.valOf ds = 0 := by omega
    have h2 : d * 10 ^ ds.length = 0 := by omega
    have h3 : d = 0 := by
      rcases Nat.mul_eq_zero.1 h2 with h | h
      · exact h
      · omega
    intro x hx
    rcases List.mem_cons.1 hx with rfl | hx
    · exact h3
    · exact ih h1 x hx

/-- Nothing is said for eight zeros. -/
theorem tail8_zero {es : List Nat} (hl : es.length = 8) (h : ZhTn.valOf es = 0) : ZhTn.tail8 es = [] := by
  have hz := eq_zero_of_valOf h
  match es, hl with
  | [a, b, c, d, e, f, g, h], _ =>
    rw [hz a (by simp), hz b (by simp), hz c (by simp), hz d (by simp), hz e (by simp), hz f (by simp),
      hz g (by simp), hz h (by simp)]
    rfl

end Verif.ZhItn
