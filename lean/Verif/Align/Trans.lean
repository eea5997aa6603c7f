import Verif.Align.Lemmas

/-! `transduce_with_spans`: the loops against the ownership rule. -/

namespace Verif.Align
open Spec
open Verif.Token (Str)

/-! ### Events -/

/-- Offset after a list of arcs. -/
def inAfter (x : Nat) (as : List Arc) : Nat := x + (as.filter fun a => decide (a.ilabel ≠ 0)).length
def outAfter (o : Nat) (as : List Arc) : Nat := o + (as.filter fun a => decide (a.olabel ≠ 0)).length

theorem events_snoc (x o : Nat) (as : List Arc) (a : Arc) :
    events x o (as ++ [a]) = events x o as ++ [⟨inAfter x as, outAfter o as, a⟩] := by
  induction as generalizing x o with
  | nil => rfl
  | cons b as ih =>
    have h1 : inAfter (if b.ilabel ≠ 0 then x + 1 else x) as = inAfter x (b :: as) := by
      by_cases h : b.ilabel ≠ 0
      · simp [inAfter, h]; omega
      · simp [inAfter, h]
    have h2 : outAfter (if b.olabel ≠ 0 then o + 1 else o) as = outAfter o (b :: as) := by
      by_cases h : b.olabel ≠ 0
      · simp [outAfter, h]; omega
      · simp [outAfter, h]
    rw [List.cons_append, events, ih, h1, h2]
    rfl

theorem inAfter_snoc (x : Nat) (as : List Arc) (a : Arc) :
    inAfter x (as ++ [a]) = inAfter x as + (if a.ilabel ≠ 0 then 1 else 0) := by
  unfold inAfter
  by_cases h : a.ilabel ≠ 0 <;> simp [h, List.filter_append]; omega

theorem outAfter_snoc (x : Nat) (as : List Arc) (a : Arc) :
    outAfter x (as ++ [a]) = outAfter x as + (if a.olabel ≠ 0 then 1 else 0) := by
  unfold outAfter
  by_cases h : a.olabel ≠ 0 <;> simp [h, List.filter_append]; omega

theorem event_le {x o : Nat} {as : List Arc} {e : Event} (h : e ∈ events x o as) :
    e.inp ≤ inAfter x as ∧ e.out ≤ outAfter o as ∧
    (e.consumes → e.inp < inAfter x as) ∧ (e.emits → e.out < outAfter o as) := by
  induction as using List.reverseRecOn with
  | nil => simp [events] at h
  | append_singleton as a ih =>
    rw [events_snoc] at h
    rw [inAfter_snoc, outAfter_snoc]
    rcases List.mem_append.1 h with h | h
    · obtain ⟨h1, h2, h3, h4⟩ := ih h
      exact ⟨by omega, by omega, fun h => by have := h3 h; omega, fun h => by have := h4 h; omega⟩
    · obtain rfl := List.mem_singleton.1 h
      refine ⟨by dsimp only; omega, by dsimp only; omega, ?_, ?_⟩
      · intro h
        have h : a.ilabel ≠ 0 := h
        simp [h]
      · intro h
        have h : a.olabel ≠ 0 := h
        simp [h]

/-- Earlier events have smaller offsets. -/
theorem events_pairwise (x o : Nat) (as : List Arc) :
    (events x o as).Pairwise fun e f => e.inp ≤ f.inp ∧ e.out ≤ f.out ∧
      (e.consumes → e.inp < f.inp) ∧ (e.emits → e.out < f.out) := by
  induction as using List.reverseRecOn with
  | nil => simp [events]
  | append_singleton as a ih =>
    rw [events_snoc, List.pairwise_append]
    refine ⟨ih, by simp, ?_⟩
    intro e he f hf
    obtain rfl := List.mem_singleton.1 hf
    exact event_le he

theorem mem_order {α : Type} {R : α → α → Prop} {l : List α} (h : l.Pairwise R) {a b : α}
    (ha : a ∈ l) (hb : b ∈ l) : a = b ∨ R a b ∨ R b a := by
  induction h with
  | nil => cases ha
  | @cons x l hx _ ih =>
    rcases List.mem_cons.1 ha with rfl | ha' <;> rcases List.mem_cons.1 hb with rfl | hb'
    · exact .inl rfl
    · exact .inr (.inl (hx b hb'))
    · exact .inr (.inr (hx a ha'))
    · exact ih ha' hb'

/-- Every consumed input byte has its event. -/
theorem exists_consuming {x : Nat} {as : List Arc} {o : Nat} {b : Nat} (h1 : x ≤ b)
    (h2 : b < inAfter x as) : ∃ e ∈ events x o as, e.consumes ∧ e.inp = b := by
  induction as using List.reverseRecOn with
  | nil => simp [inAfter] at h2; omega
  | append_singleton as a ih =>
    rw [inAfter_snoc] at h2
    rw [events_snoc]
    by_cases hb : b < inAfter x as
    · obtain ⟨e, he, h⟩ := ih hb
      exact ⟨e, List.mem_append.2 (.inl he), h⟩
    · have ha : a.ilabel ≠ 0 := by
        intro h
        simp [h] at h2
        omega
      refine ⟨_, List.mem_append.2 (.inr (List.mem_singleton.2 rfl)), ha, ?_⟩
      simp [ha] at h2
      dsimp only
      omega

/-! ### Spans -/

theorem good_sorted {n : Nat} {spans : List (Nat × Nat)} (h : GoodSpans n spans) {i j : Nat}
    {p q : Nat × Nat} (hij : i < j) (hp : spans[i]? = some p) (hq : spans[j]? = some q) :
    p.2 ≤ q.1 := by
  obtain ⟨hi, rfl⟩ := List.getElem?_eq_some_iff.1 hp
  obtain ⟨hj, rfl⟩ := List.getElem?_eq_some_iff.1 hq
  exact List.pairwise_iff_getElem.1 h.2 i j hi hj hij

theorem good_lt {n : Nat} {spans : List (Nat × Nat)} (h : GoodSpans n spans) {i : Nat}
    {p : Nat × Nat} (hp : spans[i]? = some p) : p.1 < p.2 ∧ p.2 ≤ n :=
  h.1 p (List.mem_of_getElem? hp)

theorem skipSpans_spec (spans : List (Nat × Nat)) (x t : Nat) :
    t ≤ skipSpans spans x t ∧
    (∀ i p, t ≤ i → i < skipSpans spans x t → spans[i]? = some p → p.2 ≤ x) ∧
    (∀ p, spans[skipSpans spans x t]? = some p → x < p.2) := by
  fun_induction skipSpans spans x t with
  | case1 t h =>
    refine ⟨Nat.le_refl _, fun i p h1 h2 => by omega, fun p hp => ?_⟩
    rw [h] at hp; cases hp
  | case2 t a b h hge _ ih =>
    obtain ⟨i1, i2, i3⟩ := ih
    refine ⟨by omega, fun i p h1 h2 hp => ?_, i3⟩
    by_cases hi : i = t
    · subst hi; rw [h] at hp; obtain rfl := Option.some.inj hp; exact hge
    · exact i2 i p (by omega) h2 hp
  | case3 t a b h hlt =>
    refine ⟨Nat.le_refl _, fun i p h1 h2 => by omega, fun p hp => ?_⟩
    rw [h] at hp; obtain rfl := Option.some.inj hp; dsimp only; omega

/-- `token_index` is the number of the spans that end at or before the offset. -/
def AtToken (spans : List (Nat × Nat)) (x t : Nat) : Prop :=
  (∀ i p, i < t → spans[i]? = some p → p.2 ≤ x) ∧ (∀ p, spans[t]? = some p → x < p.2)

theorem skipSpans_at {spans : List (Nat × Nat)} {x t : Nat}
    (h : ∀ i p, i < t → spans[i]? = some p → p.2 ≤ x) : AtToken spans x (skipSpans spans x t) := by
  obtain ⟨h1, h2, h3⟩ := skipSpans_spec spans x t
  refine ⟨fun i p hi hp => ?_, h3⟩
  by_cases hit : i < t
  · exact h i p hit hp
  · exact h2 i p (by omega) hi hp

theorem atToken_after {n : Nat} {spans : List (Nat × Nat)} (hg : GoodSpans n spans) {x t : Nat}
    (h : AtToken spans x t) {j : Nat} {q : Nat × Nat} (hj : t ≤ j) (hq : spans[j]? = some q) :
    x < q.2 := by
  rcases Nat.lt_or_eq_of_le hj with hlt | rfl
  · have ht : t < spans.length := Nat.lt_trans hlt (List.getElem?_eq_some_iff.1 hq).1
    have hp := List.getElem?_eq_getElem ht
    have := h.2 _ hp
    have h2 := good_sorted hg hlt hp hq
    have h3 := good_lt hg hq
    omega
  · exact h.2 q hq

theorem atToken_contains {n : Nat} {spans : List (Nat × Nat)} (hg : GoodSpans n spans) {x t : Nat}
    (h : AtToken spans x t) {i : Nat} {p : Nat × Nat} (hp : spans[i]? = some p) (h1 : p.1 ≤ x)
    (h2 : x < p.2) : i = t := by
  by_contra hne
  rcases Nat.lt_or_gt_of_ne hne with hlt | hgt
  · have := h.1 i p hlt hp; omega
  · have ht : t < spans.length := Nat.lt_trans hgt (List.getElem?_eq_some_iff.1 hp).1
    have hq := List.getElem?_eq_getElem ht
    have h3 := h.2 _ hq
    have h4 := good_sorted hg hgt hq hp
    omega

/-! ### The owner -/

theorem inside_iff {n : Nat} {spans : List (Nat × Nat)} (hg : GoodSpans n spans) {x t : Nat}
    (h : AtToken spans x t) (i : Nat) :
    Inside spans x i ↔ i = t ∧ ∃ p, spans[t]? = some p ∧
      ((p.1 < x ∧ x < p.2) ∨ (t = 0 ∧ x = p.1)) := by
  constructor
  · rintro ⟨p, hp, hx⟩
    have : i = t := by
      refine atToken_contains hg h hp ?_ ?_
      · omega
      · have := good_lt hg hp; omega
    subst this
    exact ⟨rfl, p, hp, hx⟩
  · rintro ⟨rfl, hp⟩; exact hp

/-- For every arc that emits, the code's owner is the owner of the rule. -/
theorem transOwner_iff {n : Nat} {spans : List (Nat × Nat)} (hg : GoodSpans n spans)
    {ws : List Bool} {space : Nat → Prop} (hws : ∀ o b, ws[o]? = some b → (space o ↔ b = true))
    {s : TransState} {t : Nat} {arc : Arc} (h : AtToken spans s.inputOffset t)
    (hem : arc.olabel ≠ 0) {r : Option Nat} (hr : transOwner spans ws s t arc = .ok r) (i : Nat) :
    r = some i ↔ Owns spans space ⟨s.inputOffset, s.outputOffset, arc⟩ i := by
  unfold transOwner at hr
  unfold Owns Event.consumes
  dsimp only
  by_cases hc : arc.ilabel ≠ 0
  · rw [if_pos hc] at hr
    have key : ∀ j, (∃ p, spans[j]? = some p ∧ p.1 ≤ s.inputOffset ∧ s.inputOffset < p.2) →
        j = t := fun j ⟨p, hp, h1, h2⟩ => atToken_contains hg h hp h1 h2
    cases ht : spans[t]? with
    | none =>
      rw [ht] at hr
      obtain rfl := Except.ok.inj hr
      simp only [reduceCtorEq, hc, not_true, true_and, not_false_eq_true, false_and, or_false, false_iff, ne_eq]
      intro hex
      obtain rfl := key i hex
      obtain ⟨p, hp, _⟩ := hex
      rw [ht] at hp; cases hp
    | some q =>
      obtain ⟨a, b⟩ := q
      rw [ht] at hr
      dsimp only at hr
      split at hr
      · rename_i hin
        obtain rfl := Except.ok.inj hr
        simp only [Option.some.injEq, hc, not_true, true_and, not_false_eq_true, false_and, or_false, ne_eq]
        constructor
        · rintro rfl; exact ⟨_, ht, hin⟩
        · exact fun hex => (key i hex).symm
      · rename_i hin
        obtain rfl := Except.ok.inj hr
        simp only [reduceCtorEq, hc, not_true, true_and, not_false_eq_true, false_and, or_false, false_iff, ne_eq]
        intro hex
        obtain rfl := key i hex
        obtain ⟨p, hp, h12⟩ := hex
        rw [ht] at hp
        obtain rfl := Option.some.inj hp
        exact hin h12
  · rw [if_neg hc] at hr
    simp only [hc, false_and, false_or, not_false_eq_true, true_and]
    rw [if_neg hem] at hr
    -- the inner owner
    generalize hown : insideOwner spans s.inputOffset t = own at hr
    have hins : ∀ j, own = some j ↔ Inside spans s.inputOffset j := by
      intro j
      rw [inside_iff hg h, ← hown]
      unfold insideOwner
      cases ht : spans[t]? with
      | none => simp
      | some q =>
        obtain ⟨a, b⟩ := q
        dsimp only
        split
        · rename_i hin
          simp only [Option.some.injEq]
          constructor
          · rintro rfl; exact ⟨rfl, _, rfl, hin⟩
          · rintro ⟨rfl, _⟩; rfl
        · rename_i hin
          simp only [reduceCtorEq, Option.some.injEq, false_iff]
          rintro ⟨_, p, rfl, hp⟩
          exact hin hp
    cases hw : ws[s.outputOffset]? with
    | none => rw [hw] at hr; cases hr
    | some b =>
      rw [hw] at hr
      have hsp := hws _ _ hw
      dsimp only at hr
      cases own with
      | some k =>
        rw [if_neg (by simp)] at hr
        obtain rfl := Except.ok.inj hr
        rw [hins]
        constructor
        · exact .inl
        · rintro (hi | ⟨hno, _⟩)
          · exact hi
          · exact absurd ((hins k).1 rfl) (hno k)
      | none =>
        have hno : ∀ j, ¬ Inside spans s.inputOffset j := fun j hj => by
          have := (hins j).2 hj; cases this
        by_cases hb : b = true
        · rw [if_neg (by simp [hb])] at hr
          obtain rfl := Except.ok.inj hr
          simp only [reduceCtorEq, false_iff]
          rintro (hi | ⟨_, hn, _⟩)
          · exact hno i hi
          · exact hn (hsp.2 hb)
        · rw [if_pos ⟨rfl, by simpa using hb⟩] at hr
          have hns : ¬ space s.outputOffset := fun hs => hb (hsp.1 hs)
          have hlast : ∀ j, (∃ p, spans[j]? = some p ∧ p.2 ≤ s.inputOffset ∧
              ∀ k q, j < k → spans[k]? = some q → s.inputOffset < q.2) → j + 1 = t := by
            rintro j ⟨p, hp, h1, h2⟩
            by_contra hne
            rcases Nat.lt_or_ge j t with hlt | hge
            · have hj1 : j + 1 < t := by omega
              cases hq : spans[j + 1]? with
              | some q =>
                have := h2 (j + 1) q (by omega) hq
                have := h.1 (j + 1) q hj1 hq
                omega
              | none =>
                -- then the span number t - 1 does not exist either: t is at most the length
                exact absurd rfl (fun _ : True = True => by
                  have hl := List.getElem?_eq_none_iff.1 hq
                  have hjl := (List.getElem?_eq_some_iff.1 hp).1
                  cases t with
                  | zero => omega
                  | succ t' =>
                    dsimp only at hr
                    rw [List.getElem?_eq_none (by omega)] at hr
                    cases hr)
            · have := atToken_after hg h hge hp
              omega
          cases t with
          | zero =>
            dsimp only at hr
            obtain rfl := Except.ok.inj hr
            simp only [reduceCtorEq, false_iff]
            rintro (hi | ⟨_, _, hex⟩)
            · exact hno i hi
            · have := hlast i hex; omega
          | succ t' =>
            dsimp only at hr
            cases hp : spans[t']? with
            | none => rw [hp] at hr; cases hr
            | some q =>
              obtain ⟨a, c⟩ := q
              have hc' := h.1 t' _ (by omega) hp
              dsimp only at hc'
              rw [hp] at hr
              dsimp only at hr
              rw [if_pos hc'] at hr
              obtain rfl := Except.ok.inj hr
              simp only [Option.some.injEq]
              constructor
              · rintro rfl
                refine .inr ⟨hno, hns, _, hp, hc', ?_⟩
                intro j q hj hq
                exact atToken_after hg h hj hq
              · rintro (hi | ⟨_, _, hex⟩)
                · exact absurd hi (hno i)
                · have := hlast i hex; omega

theorem owns_unique_span {spans : List (Nat × Nat)} {space : Nat → Prop} {e : Event} {i : Nat}
    (h : Owns spans space e i) : ∃ p, spans[i]? = some p := by
  rcases h with ⟨_, p, hp, _⟩ | ⟨_, p, hp, _⟩ | ⟨_, _, _, p, hp, _⟩ <;> exact ⟨p, hp⟩

/-- Owners never go back along a path. -/
theorem owns_mono {n : Nat} {spans : List (Nat × Nat)} (hg : GoodSpans n spans)
    {space : Nat → Prop} {e f : Event} {i j : Nat} (hle : e.inp ≤ f.inp)
    (hlt : e.consumes → e.inp < f.inp) (hi : Owns spans space e i) (hj : Owns spans space f j) :
    i ≤ j := by
  by_contra hc
  have hji : j < i := by omega
  have hins : ∀ {x k}, Inside spans x k → ∃ p, spans[k]? = some p ∧ p.1 ≤ x ∧ x < p.2 := by
    rintro x k ⟨p, hp, h⟩
    have := good_lt hg hp
    exact ⟨p, hp, by omega, by omega⟩
  -- where the later event is
  have hj' : (∃ q, spans[j]? = some q ∧ f.inp < q.2) ∨
      ((∀ k, ¬ Inside spans f.inp k) ∧ ∀ k q, j < k → spans[k]? = some q → f.inp < q.2) := by
    rcases hj with ⟨_, q, hq, _, h⟩ | ⟨_, h⟩ | ⟨_, h1, _, q, _, _, h2⟩
    · exact .inl ⟨q, hq, h⟩
    · obtain ⟨q, hq, _, h⟩ := hins h; exact .inl ⟨q, hq, h⟩
    · exact .inr ⟨h1, h2⟩
  rcases hi with ⟨hcons, p, hp, h1, h2⟩ | ⟨hcons, h⟩ | ⟨_, _, _, p, hp, h1, _⟩
  · have hlt := hlt hcons
    rcases hj' with ⟨q, hq, hx⟩ | ⟨hno, hall⟩
    · have := good_sorted hg hji hq hp; omega
    · have := hall i p hji hp
      exact hno i ⟨p, hp, .inl ⟨by omega, this⟩⟩
  · obtain ⟨p, hp, h⟩ := h
    have h : p.1 < e.inp ∧ e.inp < p.2 := by
      rcases h with h | h
      · exact h
      · omega
    rcases hj' with ⟨q, hq, hx⟩ | ⟨hno, hall⟩
    · have := good_sorted hg hji hq hp; omega
    · have := hall i p hji hp
      exact hno i ⟨p, hp, .inl ⟨by omega, this⟩⟩
  · rcases hj' with ⟨q, hq, hx⟩ | ⟨hno, hall⟩
    · have := good_sorted hg hji hq hp
      have := good_lt hg hp
      omega
    · have := hall i p hji hp; omega

theorem owns_start {n : Nat} {spans : List (Nat × Nat)} (hg : GoodSpans n spans)
    {space : Nat → Prop} {e : Event} {i j : Nat} (hij : i < j) (hj : Owns spans space e j)
    {p : Nat × Nat} (hp : spans[i]? = some p) : p.1 < e.inp := by
  have h1 := good_lt hg hp
  rcases hj with ⟨_, q, hq, h, _⟩ | ⟨_, q, hq, h⟩ | ⟨_, _, _, q, hq, h, _⟩
  · have := good_sorted hg hij hp hq; omega
  · have := good_sorted hg hij hp hq; omega
  · have := good_sorted hg hij hp hq; have := good_lt hg hq; omega

end Verif.Align
