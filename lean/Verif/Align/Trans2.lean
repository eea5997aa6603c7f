import Verif.Align.Trans

/-! `transduce_with_spans`: loop invariant and result. -/

namespace Verif.Align
open Spec
open Verif.Token (Str)

open Classical in
/-- Output offsets of the bytes owned by token `i`, in order. -/
noncomputable def owned (spans : List (Nat × Nat)) (space : Nat → Prop) (as : List Arc) (i : Nat) :
    List Nat :=
  ((events 0 0 as).filter fun e => decide (e.emits ∧ Owns spans space e i)).map Event.out

theorem mem_owned {spans : List (Nat × Nat)} {space : Nat → Prop} {as : List Arc} {i o : Nat} :
    o ∈ owned spans space as i ↔
      ∃ e ∈ events 0 0 as, e.emits ∧ Owns spans space e i ∧ e.out = o := by
  unfold owned
  simp only [List.mem_map, List.mem_filter, decide_eq_true_eq]
  constructor
  · rintro ⟨e, ⟨h1, h2, h3⟩, h4⟩; exact ⟨e, h1, h2, h3, h4⟩
  · rintro ⟨e, h1, h2, h3, h4⟩; exact ⟨e, ⟨h1, h2, h3⟩, h4⟩

open Classical in
theorem owned_snoc (spans : List (Nat × Nat)) (space : Nat → Prop) (as : List Arc) (a : Arc)
    (i : Nat) : owned spans space (as ++ [a]) i = owned spans space as i ++
      if a.olabel ≠ 0 ∧ Owns spans space ⟨inAfter 0 as, outAfter 0 as, a⟩ i then [outAfter 0 as]
      else [] := by
  unfold owned
  rw [events_snoc, List.filter_append, List.map_append]
  congr 1
  by_cases h : a.olabel ≠ 0 ∧ Owns spans space ⟨inAfter 0 as, outAfter 0 as, a⟩ i
  · rw [if_pos h, List.filter_cons_of_pos (by rw [decide_eq_true_eq]; exact h)]; rfl
  · rw [if_neg h, List.filter_cons_of_neg (by rw [decide_eq_true_eq]; exact h)]; rfl

theorem owned_sorted (spans : List (Nat × Nat)) (space : Nat → Prop) (as : List Arc) (i : Nat) :
    (owned spans space as i).Pairwise (· < ·) := by
  classical
  unfold owned
  rw [List.pairwise_map]
  refine ((events_pairwise 0 0 as).sublist List.filter_sublist).imp_of_mem ?_
  intro e f he _ h
  have := (List.mem_filter.1 he).2
  rw [decide_eq_true_eq] at this
  exact h.2.2.2 this.1

theorem record_fst (starts ends : List (Option Nat)) (o f n i : Nat) :
    (record starts ends o f n).1[i]? =
      if i = o ∧ starts[o]? = some none then some (some f) else starts[i]? := by
  unfold record
  dsimp only
  by_cases h : starts[o]? = some none
  · rw [h]
    dsimp only
    by_cases hi : i = o
    · subst hi
      have := (List.getElem?_eq_some_iff.1 h).1
      simp [this]
    · rw [List.getElem?_set_ne (Ne.symm hi), if_neg (fun hh => hi hh.1)]
  · rw [if_neg (fun hh => h hh.2)]
    split
    · rename_i h'; exact absurd h' h
    · rfl

theorem record_snd (starts ends : List (Option Nat)) (o f n i : Nat) :
    (record starts ends o f n).2[i]? =
      if i = o ∧ o < ends.length then some (some n) else ends[i]? := by
  unfold record
  dsimp only
  rw [List.getElem?_set]
  by_cases hi : i = o
  · subst hi
    by_cases hl : i < ends.length
    · simp [hl]
    · simp [hl]
  · simp [hi, Ne.symm hi, eq_comm]

theorem record_length (starts ends : List (Option Nat)) (o f n : Nat) :
    (record starts ends o f n).1.length = starts.length ∧
    (record starts ends o f n).2.length = ends.length := by
  unfold record
  refine ⟨?_, by simp⟩
  dsimp only
  split <;> simp

/-- What the loop of `transduce_with_spans` knows after the arcs `as`. -/
structure TInv (spans : List (Nat × Nat)) (space : Nat → Prop) (as : List Arc) (s : TransState) :
    Prop where
  inp : s.inputOffset = inAfter 0 as
  out : s.outputOffset = outAfter 0 as
  len1 : s.emittedStarts.length = spans.length
  len2 : s.emittedEnds.length = spans.length
  starts : ∀ i, i < spans.length → s.emittedStarts[i]? = some (owned spans space as i).head?
  ends : ∀ i, i < spans.length →
    s.emittedEnds[i]? = some ((owned spans space as i).getLast?.map (· + 1))
  token : ∀ i p, i < s.tokenIndex → spans[i]? = some p → p.2 ≤ s.inputOffset
  bound : ∀ e ∈ events 0 0 as, e.consumes → s.boundaryOffsets e.inp = some e.out

theorem transStep_inv {n : Nat} {spans : List (Nat × Nat)} (hg : GoodSpans n spans)
    {ws : List Bool} {space : Nat → Prop} (hws : ∀ o b, ws[o]? = some b → (space o ↔ b = true))
    {as : List Arc} {a : Arc} {s s' : TransState} (hi : TInv spans space as s)
    (hs : transStep spans ws s a = .ok s') : TInv spans space (as ++ [a]) s' := by
  have hat := skipSpans_at hi.token
  unfold transStep at hs
  dsimp only at hs
  cases ho : transOwner spans ws s (skipSpans spans s.inputOffset s.tokenIndex) a with
  | error e => rw [ho] at hs; cases hs
  | ok owner =>
    rw [ho] at hs
    dsimp only at hs
    have hown : ∀ i, a.olabel ≠ 0 →
        (owner = some i ↔ Owns spans space ⟨inAfter 0 as, outAfter 0 as, a⟩ i) := by
      intro i hem
      rw [← hi.inp, ← hi.out]
      exact transOwner_iff hg hws hat hem ho i
    -- the marks, token by token
    generalize hm : transMarks s owner a = marks at hs
    unfold transMarks at hm
    obtain rfl := Except.ok.inj hs
    have hmarks : marks.1.length = spans.length ∧ marks.2.length = spans.length ∧
        ∀ i, i < spans.length →
          marks.1[i]? = some (owned spans space (as ++ [a]) i).head? ∧
          marks.2[i]? = some ((owned spans space (as ++ [a]) i).getLast?.map (· + 1)) := by
      classical
      by_cases hem : a.olabel ≠ 0
      · cases owner with
        | none =>
          subst hm
          refine ⟨hi.len1, hi.len2, fun i hl => ?_⟩
          have : ¬ Owns spans space ⟨inAfter 0 as, outAfter 0 as, a⟩ i := fun h => by
            have := (hown i hem).2 h; cases this
          rw [owned_snoc, if_neg (fun h => this h.2), List.append_nil]
          exact ⟨hi.starts i hl, hi.ends i hl⟩
        | some o =>
          simp only [if_pos hem] at hm
          subst hm
          obtain ⟨l1, l2⟩ := record_length s.emittedStarts s.emittedEnds o s.outputOffset
            (s.outputOffset + 1)
          refine ⟨l1.trans hi.len1, l2.trans hi.len2, fun i hl => ?_⟩
          rw [record_fst, record_snd, owned_snoc]
          by_cases hio : i = o
          · subst hio
            rw [if_pos (⟨hem, (hown i hem).1 rfl⟩ :
              a.olabel ≠ 0 ∧ Owns spans space ⟨inAfter 0 as, outAfter 0 as, a⟩ i)]
            rw [hi.starts i hl, hi.ends i hl, hi.len2, hi.out]
            refine ⟨?_, by rw [if_pos ⟨rfl, hl⟩]; simp⟩
            cases hE : owned spans space as i with
            | nil => simp
            | cons x l => simp
          · have : ¬ Owns spans space ⟨inAfter 0 as, outAfter 0 as, a⟩ i := fun h => by
              have := (hown i hem).2 h
              exact hio (Option.some.inj this).symm
            have hn : ¬ (a.olabel ≠ 0 ∧ Owns spans space ⟨inAfter 0 as, outAfter 0 as, a⟩ i) :=
              fun h => this h.2
            simp only [hio, false_and, if_false, if_neg hn, List.append_nil]
            exact ⟨hi.starts i hl, hi.ends i hl⟩
      · have : marks = (s.emittedStarts, s.emittedEnds) := by
          rw [← hm]
          cases owner with
          | none => rfl
          | some o => simp only [if_neg hem]
        subst this
        refine ⟨hi.len1, hi.len2, fun i hl => ?_⟩
        rw [owned_snoc, if_neg (fun h => hem h.1), List.append_nil]
        exact ⟨hi.starts i hl, hi.ends i hl⟩
    refine ⟨?_, ?_, hmarks.1, hmarks.2.1, fun i hl => (hmarks.2.2 i hl).1,
      fun i hl => (hmarks.2.2 i hl).2, ?_, ?_⟩
    · dsimp only; rw [inAfter_snoc, hi.inp]
    · dsimp only; rw [outAfter_snoc, hi.out]
    · intro i p hlt hp
      have := hat.1 i p hlt hp
      dsimp only
      omega
    · intro e he hc
      dsimp only
      rw [events_snoc] at he
      rcases List.mem_append.1 he with he | he
      · have := (event_le he).2.2.1 hc
        rw [hi.inp, if_neg (by omega)]
        exact hi.bound e he hc
      · obtain rfl := List.mem_singleton.1 he
        dsimp only
        rw [hi.inp, if_pos rfl, hi.out]

theorem runTrans_inv {n : Nat} {spans : List (Nat × Nat)} (hg : GoodSpans n spans)
    {ws : List Bool} {space : Nat → Prop} (hws : ∀ o b, ws[o]? = some b → (space o ↔ b = true))
    {rest : List Arc} : ∀ {as : List Arc} {s s' : TransState}, TInv spans space as s →
    runLoop (transStep spans ws) s rest = .ok s' → TInv spans space (as ++ rest) s' := by
  induction rest with
  | nil =>
    intro as s s' hi h
    obtain rfl := Except.ok.inj h
    simpa using hi
  | cons a rest ih =>
    intro as s s' hi h
    unfold runLoop at h
    cases hs : transStep spans ws s a with
    | error e => rw [hs] at h; cases h
    | ok s1 =>
      rw [hs] at h
      have := ih (transStep_inv hg hws hi hs) h
      simpa using this

theorem tinv_init (spans : List (Nat × Nat)) (space : Nat → Prop) :
    TInv spans space [] { emittedStarts := List.replicate spans.length none,
                          emittedEnds := List.replicate spans.length none } := by
  refine ⟨rfl, rfl, by simp, by simp, ?_, ?_, ?_, ?_⟩
  · intro i hl; simp [hl, owned, events]
  · intro i hl; simp [hl, owned, events]
  · intro i p h; exact absurd h (Nat.not_lt_zero _)
  · intro e he; simp [events] at he

/-! ### The final loop -/

/-- Byte ranges of the final loop when no check fails. -/
def layout (bo : Nat → Option Nat) (oo : Nat) :
    Nat → List ((Nat × Nat) × Option Nat × Option Nat) → List (Nat × Nat)
  | _, [] => []
  | prev, (p, some a, some b) :: rest => (a, b) :: layout bo oo b rest
  | prev, (p, _, _) :: rest =>
    let o := max ((bo p.1).getD oo) prev
    (o, o) :: layout bo oo o rest

/-- Marks in order: what the loop invariant gives for the zipped lists. -/
def Marked (bo : Nat → Option Nat) (oo : Nat) (L : List ((Nat × Nat) × Option Nat × Option Nat)) :
    Prop :=
  (∀ x ∈ L, (x.2.1 = none ∧ x.2.2 = none) ∨ ∃ a b, x.2.1 = some a ∧ x.2.2 = some b ∧ a < b) ∧
  L.Pairwise fun x y => ∀ c, y.2.1 = some c →
    (∀ b, x.2.2 = some b → b ≤ c) ∧ (x.2.1 = none → (bo x.1.1).getD oo ≤ c)

theorem transResult_layout (b2c bo : Nat → Option Nat) (oo : Nat) :
    ∀ (L : List ((Nat × Nat) × Option Nat × Option Nat)) (prev : Nat),
    Marked bo oo L → (∀ x ∈ L, ∀ c, x.2.1 = some c → prev ≤ c) →
    (∀ e, transResult b2c bo oo prev L = .error e → e = .splitCodePoint) ∧
    (∀ outs, transResult b2c bo oo prev L = .ok outs →
      List.Forall₂ (fun r xy => b2c r.1 = some xy.1 ∧ b2c r.2 = some xy.2)
        (layout bo oo prev L) outs) ∧
    (∀ r ∈ layout bo oo prev L, prev ≤ r.1 ∧ r.1 ≤ r.2) ∧
    (layout bo oo prev L).Pairwise (fun r r' => r.2 ≤ r'.1) := by
  intro L
  induction L with
  | nil =>
    intro prev _ _
    refine ⟨fun e h => by simp [transResult] at h, fun outs h => ?_, by simp [layout], by simp [layout]⟩
    obtain rfl := Except.ok.inj h
    exact .nil
  | cons x L ih =>
    intro prev hm hp
    obtain ⟨hm1, hm2⟩ := hm
    obtain ⟨hm3, hm4⟩ := List.pairwise_cons.1 hm2
    have hmL : Marked bo oo L := ⟨fun y hy => hm1 y (by simp [hy]), hm4⟩
    obtain ⟨⟨ps, pe⟩, es, ee⟩ := x
    -- the range of the head and the facts needed for the tail
    have key : ∃ a b, (prev ≤ a ∧ a ≤ b) ∧ (∀ y ∈ L, ∀ c, y.2.1 = some c → b ≤ c) ∧
        layout bo oo prev (((ps, pe), es, ee) :: L) = (a, b) :: layout bo oo b L ∧
        transResult b2c bo oo prev (((ps, pe), es, ee) :: L) =
          match b2c a, b2c b with
          | some x, some y =>
            match transResult b2c bo oo b L with
            | .error e => .error e
            | .ok l => .ok ((x, y) :: l)
          | _, _ => .error .splitCodePoint := by
      rcases hm1 _ (List.mem_cons_self ..) with ⟨h1, h2⟩ | ⟨a, b, h1, h2, hab⟩
      · dsimp only at h1 h2
        subst h1 h2
        refine ⟨max ((bo ps).getD oo) prev, max ((bo ps).getD oo) prev, ⟨by omega, by omega⟩,
          ?_, rfl, rfl⟩
        intro y hy c hc
        have h3 := (hm3 y hy c hc).2 rfl
        have h4 := hp y (by simp [hy]) c hc
        dsimp only at h3
        omega
      · dsimp only at h1 h2
        subst h1 h2
        have hpa := hp _ (List.mem_cons_self ..) a rfl
        refine ⟨a, b, ⟨hpa, by omega⟩, ?_, rfl, ?_⟩
        · intro y hy c hc
          exact (hm3 y hy c hc).1 b rfl
        · rw [transResult]
          simp only [if_neg (Nat.not_lt.2 hpa)]
          rfl
    obtain ⟨a, b, ⟨h1, h2⟩, h3, h4, h5⟩ := key
    obtain ⟨i1, i2, i3, i4⟩ := ih b hmL h3
    rw [h4, h5]
    refine ⟨?_, ?_, ?_, ?_⟩
    · intro e he
      split at he
      · split at he
        · rename_i e' h'
          obtain rfl := Except.error.inj he
          exact i1 _ h'
        · cases he
      · exact (Except.error.inj he).symm
    · intro outs ho
      split at ho
      · rename_i x y hx hy
        split at ho
        · cases ho
        · rename_i l hl
          obtain rfl := Except.ok.inj ho
          exact .cons ⟨hx, hy⟩ (i2 l hl)
      · cases ho
    · intro r hr
      rcases List.mem_cons.1 hr with rfl | hr
      · exact ⟨h1, h2⟩
      · have := i3 r hr; omega
    · refine List.pairwise_cons.2 ⟨fun r hr => (i3 r hr).1, i4⟩

theorem layout_get (bo : Nat → Option Nat) (oo : Nat) :
    ∀ (L : List ((Nat × Nat) × Option Nat × Option Nat)) (prev k : Nat) (p : Nat × Nat)
      (es ee : Option Nat), L[k]? = some (p, es, ee) →
    ∃ r, (layout bo oo prev L)[k]? = some r ∧
      (∀ a b, es = some a → ee = some b → r = (a, b)) ∧
      (es = none → ∃ q, (k = 0 ∧ q = prev ∨
          ∃ j r', k = j + 1 ∧ (layout bo oo prev L)[j]? = some r' ∧ q = r'.2) ∧
        r = (max ((bo p.1).getD oo) q, max ((bo p.1).getD oo) q)) := by
  intro L
  induction L with
  | nil => intro prev k p es ee h; simp at h
  | cons x L ih =>
    intro prev k p es ee h
    obtain ⟨p0, es0, ee0⟩ := x
    -- layout of a cons
    have hcons : ∃ r0, layout bo oo prev ((p0, es0, ee0) :: L) = r0 :: layout bo oo r0.2 L ∧
        (∀ a b, es0 = some a → ee0 = some b → r0 = (a, b)) ∧
        (es0 = none → r0 = (max ((bo p0.1).getD oo) prev, max ((bo p0.1).getD oo) prev)) := by
      cases es0 with
      | none => exact ⟨_, rfl, fun a b h => (by cases h), fun _ => rfl⟩
      | some a =>
        cases ee0 with
        | none => exact ⟨_, rfl, fun a b _ h => (by cases h), fun h => (by cases h)⟩
        | some b =>
          exact ⟨(a, b), rfl, fun a' b' h h' => (by cases h; cases h'; rfl), fun h => (by cases h)⟩
    obtain ⟨r0, e0, e1, e2⟩ := hcons
    rw [e0]
    cases k with
    | zero =>
      simp only [List.getElem?_cons_zero, Option.some.injEq, Prod.mk.injEq] at h
      obtain ⟨rfl, rfl, rfl⟩ := h
      exact ⟨r0, rfl, e1, fun h => ⟨prev, .inl ⟨rfl, rfl⟩, e2 h⟩⟩
    | succ k =>
      rw [List.getElem?_cons_succ] at h
      obtain ⟨r, g1, g2, g3⟩ := ih r0.2 k p es ee h
      refine ⟨r, by simpa using g1, g2, fun hn => ?_⟩
      obtain ⟨q, hq, hr⟩ := g3 hn
      refine ⟨q, .inr ?_, hr⟩
      rcases hq with ⟨rfl, rfl⟩ | ⟨j, r', rfl, hj, rfl⟩
      · exact ⟨0, r0, rfl, rfl, rfl⟩
      · exact ⟨j + 1, r', rfl, by simpa using hj, rfl⟩

end Verif.Align
