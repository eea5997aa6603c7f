import Verif.Align.Spec
import Mathlib.Data.List.Basic
import Mathlib.Data.List.Induction
import Mathlib.Data.List.GetD
import Mathlib.Tactic.Linarith

/-! Lemmas on boundaries, spans and linear paths. -/

namespace Verif.Align
open Spec
open Verif.Token (Str)

/-! ### Boundaries -/

theorem bytePos_zero (text : Str) : bytePos text 0 = 0 := rfl

theorem bytes_append (a b : Str) : bytes (a ++ b) = bytes a ++ bytes b := by simp [bytes]

theorem bytes_length_singleton (c : Char) : (bytes [c]).length = c.utf8Size := by
  simp [bytes]

theorem bytePos_succ {text : Str} {i : Nat} {c : Char} (h : text[i]? = some c) :
    bytePos text (i + 1) = bytePos text i + c.utf8Size := by
  obtain ⟨hi, rfl⟩ := List.getElem?_eq_some_iff.1 h
  unfold bytePos
  rw [List.take_succ_eq_append_getElem hi, bytes_append, List.length_append, bytes_length_singleton]

theorem bytePos_append_left {a : Str} (b : Str) {i : Nat} (h : i ≤ a.length) :
    bytePos (a ++ b) i = bytePos a i := by
  unfold bytePos
  rw [List.take_append_of_le_length h]

theorem bytePos_ge {text : Str} {i : Nat} (h : text.length ≤ i) :
    bytePos text i = bytePos text text.length := by
  unfold bytePos
  rw [List.take_of_length_le h, List.take_length]

theorem bytePos_lt_succ {text : Str} {i : Nat} (h : i < text.length) :
    bytePos text i < bytePos text (i + 1) := by
  rw [bytePos_succ (List.getElem?_eq_getElem h)]
  have := Char.utf8Size_pos text[i]
  omega

theorem bytePos_lt {text : Str} {i j : Nat} (h : i < j) (hj : j ≤ text.length) :
    bytePos text i < bytePos text j := by
  induction j with
  | zero => omega
  | succ j ih =>
    have h1 := bytePos_lt_succ (text := text) (i := j) (by omega)
    by_cases hij : i = j
    · subst hij; exact h1
    · have := ih (by omega) (by omega)
      omega

theorem bytePos_mono {text : Str} {i j : Nat} (h : i ≤ j) (hj : j ≤ text.length) :
    bytePos text i ≤ bytePos text j := by
  rcases Nat.lt_or_eq_of_le h with h | h
  · exact Nat.le_of_lt (bytePos_lt h hj)
  · rw [h]

theorem bytePos_le_iff {text : Str} {i j : Nat} (hi : i ≤ text.length) (hj : j ≤ text.length) :
    bytePos text i ≤ bytePos text j ↔ i ≤ j := by
  constructor
  · intro h
    by_contra hc
    have := bytePos_lt (text := text) (i := j) (j := i) (by omega) hi
    omega
  · exact fun h => bytePos_mono h hj

theorem bytePos_inj {text : Str} {i j : Nat} (hi : i ≤ text.length) (hj : j ≤ text.length)
    (h : bytePos text i = bytePos text j) : i = j := by
  have h1 := (bytePos_le_iff hi hj).1 (by omega)
  have h2 := (bytePos_le_iff hj hi).1 (by omega)
  omega

/-- State of the `_text_boundaries` loop after the text. -/
theorem foldl_boundStep (text : Str) :
    let s := text.foldl boundStep {}
    s.offset = bytePos text text.length ∧ s.index = text.length + 1 ∧
    s.characterToByte = (List.range (text.length + 1)).map (bytePos text) ∧
    (∀ b i, s.byteToCharacter b = some i ↔ i ≤ text.length ∧ bytePos text i = b) ∧
    s.byteIsWhitespace = text.flatMap fun c => List.replicate c.utf8Size (isSpace c) := by
  induction text using List.reverseRecOn with
  | nil =>
    refine ⟨rfl, rfl, rfl, ?_, rfl⟩
    intro b i
    simp only [List.foldl_nil, List.length_nil, Nat.le_zero]
    by_cases hb : b = 0
    · subst hb
      simp only [if_true, Option.some.injEq]
      constructor
      · rintro rfl; exact ⟨rfl, rfl⟩
      · rintro ⟨rfl, _⟩; rfl
    · simp only [hb, if_false, reduceCtorEq, false_iff]
      rintro ⟨rfl, h⟩
      exact hb h.symm
  | append_singleton t c ih =>
    rw [List.foldl_append, List.foldl_cons, List.foldl_nil]
    generalize List.foldl boundStep {} t = st at ih
    obtain ⟨h1, h2, h3, h4, h5⟩ := ih
    have hlen : (t ++ [c]).length = t.length + 1 := by simp
    have hs : bytePos (t ++ [c]) (t.length + 1) = bytePos t t.length + c.utf8Size := by
      rw [bytePos_succ (c := c) (by simp), bytePos_append_left _ (Nat.le_refl _)]
    unfold boundStep encodedLength
    dsimp only
    rw [hlen, h1, h2]
    refine ⟨hs.symm, rfl, ?_, ?_, ?_⟩
    · rw [h3, List.range_succ (n := t.length + 1), List.map_append]
      congr 1
      · apply List.map_congr_left
        intro i hi
        rw [bytePos_append_left _ (by simpa [Nat.lt_succ_iff] using hi)]
      · simp [hs]
    · intro b i
      split
      · rename_i hb
        subst hb
        constructor
        · intro h
          obtain rfl := Option.some.inj h
          exact ⟨Nat.le_refl _, hs⟩
        · rintro ⟨hi, hp⟩
          rw [← hs] at hp
          rw [bytePos_inj (by rw [hlen]; exact hi) (by rw [hlen]) hp]
      · rename_i hb
        rw [h4]
        constructor
        · rintro ⟨hi, hp⟩
          exact ⟨by omega, by rw [bytePos_append_left _ hi]; exact hp⟩
        · rintro ⟨hi, hp⟩
          have : i ≠ t.length + 1 := by
            rintro rfl
            exact hb (by rw [← hp, hs])
          refine ⟨by omega, ?_⟩
          rw [← bytePos_append_left [c] (by omega)]
          exact hp
    · rw [h5]; simp

theorem characterToByte_get (text : Str) (i : Nat) :
    (textBoundaries text).characterToByte[i]? =
      if i ≤ text.length then some (bytePos text i) else none := by
  have h : (textBoundaries text).characterToByte =
      (List.range (text.length + 1)).map (bytePos text) := (foldl_boundStep text).2.2.1
  rw [h, List.getElem?_map]
  by_cases hi : i ≤ text.length
  · rw [if_pos hi, List.getElem?_range (by omega)]; rfl
  · rw [if_neg hi, List.getElem?_eq_none (by simp; omega)]; rfl

theorem characterToByte_last (text : Str) :
    (textBoundaries text).characterToByte.getLast? = some (bytePos text text.length) := by
  have h : (textBoundaries text).characterToByte =
      (List.range (text.length + 1)).map (bytePos text) := (foldl_boundStep text).2.2.1
  rw [h, List.range_succ, List.map_append]
  simp

theorem byteToCharacter_iff (text : Str) (b i : Nat) :
    (textBoundaries text).byteToCharacter b = some i ↔ i ≤ text.length ∧ bytePos text i = b :=
  (foldl_boundStep text).2.2.2.1 b i

theorem byteIsWhitespace_eq (text : Str) :
    (textBoundaries text).byteIsWhitespace =
      text.flatMap fun c => List.replicate c.utf8Size (isSpace c) :=
  (foldl_boundStep text).2.2.2.2

theorem byteIsWhitespace_get (text : Str) (o : Nat) (b : Bool) :
    (textBoundaries text).byteIsWhitespace[o]? = some b ↔
      ∃ i c, text[i]? = some c ∧ isSpace c = b ∧ bytePos text i ≤ o ∧ o < bytePos text (i + 1) := by
  rw [byteIsWhitespace_eq]
  induction text generalizing o with
  | nil => simp
  | cons c text ih =>
    have hsucc : ∀ i, bytePos (c :: text) (i + 1) = c.utf8Size + bytePos text i := by
      intro i
      unfold bytePos
      rw [List.take_succ_cons, ← List.singleton_append, bytes_append, List.length_append,
        bytes_length_singleton]
    rw [List.flatMap_cons]
    by_cases ho : o < c.utf8Size
    · rw [List.getElem?_append_left (by simpa using ho), List.getElem?_replicate, if_pos ho]
      constructor
      · intro h
        exact ⟨0, c, rfl, Option.some.inj h, Nat.zero_le _, by rw [hsucc, bytePos_zero]; omega⟩
      · rintro ⟨i, d, h1, h2, h3, h4⟩
        cases i with
        | zero => simp at h1; subst h1; rw [h2]
        | succ i => rw [hsucc] at h3; omega
    · rw [List.getElem?_append_right (by simpa using ho), List.length_replicate, ih]
      constructor
      · rintro ⟨i, d, h1, h2, h3, h4⟩
        exact ⟨i + 1, d, h1, h2, by rw [hsucc]; omega, by rw [hsucc]; omega⟩
      · rintro ⟨i, d, h1, h2, h3, h4⟩
        cases i with
        | zero => rw [hsucc, bytePos_zero] at h4; omega
        | succ i =>
          rw [hsucc] at h3 h4
          exact ⟨i, d, h1, h2, by omega, by omega⟩

/-! ### Spans -/

/-- Character ranges in order, inside the text, possibly empty. -/
def OrderedSpans (limit : Nat) (spans : List (Nat × Nat)) : Prop :=
  (∀ p ∈ spans, p.1 ≤ p.2 ∧ p.2 ≤ limit) ∧ spans.Pairwise fun p q => p.2 ≤ q.1

theorem byteSpansLoop_ok (text : Str) (re : Bool) : ∀ (prev : Nat) (spans r : List (Nat × Nat)),
    byteSpansLoop text.length (textBoundaries text).characterToByte re prev spans = .ok r ↔
      (OrderedSpans text.length spans ∧ (∀ p ∈ spans, prev ≤ p.1) ∧
        (re = true → ∀ p ∈ spans, p.1 ≠ p.2) ∧ r = byteSpans text spans) := by
  intro prev spans
  induction spans generalizing prev with
  | nil => intro r; simp [byteSpansLoop, OrderedSpans, byteSpans, eq_comm]
  | cons p spans ih =>
    obtain ⟨a, b⟩ := p
    intro r
    unfold byteSpansLoop
    split
    · rename_i hbad
      simp only [reduceCtorEq, false_iff]
      rintro ⟨⟨h1, _⟩, h2, _, _⟩
      have := h1 (a, b) (by simp)
      have := h2 (a, b) (by simp)
      dsimp only at *
      omega
    · rename_i hgood
      split
      · rename_i he
        simp only [reduceCtorEq, false_iff]
        rintro ⟨_, _, h3, _⟩
        exact h3 he.1 (a, b) (by simp) he.2
      · rename_i he
        rw [characterToByte_get, characterToByte_get, if_pos (by omega), if_pos (by omega)]
        dsimp only
        cases hrec : byteSpansLoop text.length (textBoundaries text).characterToByte re b spans with
        | error e =>
          simp only [reduceCtorEq, false_iff]
          rintro ⟨⟨h1, h1'⟩, h2, h3, _⟩
          have := (ih b (byteSpans text spans)).2 ⟨⟨fun p hp => h1 p (by simp [hp]),
            (List.pairwise_cons.1 h1').2⟩, fun p hp => (List.pairwise_cons.1 h1').1 p hp,
            fun h p hp => h3 h p (by simp [hp]), rfl⟩
          rw [hrec] at this
          cases this
        | ok l =>
          obtain ⟨⟨g1, g1'⟩, g2, g3, rfl⟩ := (ih b l).1 hrec
          simp only [Except.ok.injEq]
          constructor
          · rintro rfl
            refine ⟨⟨?_, List.pairwise_cons.2 ⟨fun q hq => g2 q hq, g1'⟩⟩, ?_, ?_, rfl⟩
            · intro p hp
              rcases List.mem_cons.1 hp with rfl | hp
              · dsimp only; omega
              · exact g1 p hp
            · intro p hp
              rcases List.mem_cons.1 hp with rfl | hp
              · dsimp only; omega
              · have := g2 p hp; omega
            · intro h p hp
              rcases List.mem_cons.1 hp with rfl | hp
              · exact fun h' => he ⟨h, h'⟩
              · exact g3 h p hp
          · rintro ⟨_, _, _, rfl⟩; rfl

theorem characterSpans_ok (text : Str) (spans r : List (Nat × Nat)) :
    characterSpansToByteSpans text (textBoundaries text).characterToByte spans = .ok r ↔
      OrderedSpans text.length spans ∧ r = byteSpans text spans := by
  unfold characterSpansToByteSpans
  rw [byteSpansLoop_ok]
  simp

theorem characterSpans_ok' (text : Str) (spans r : List (Nat × Nat)) :
    characterSpansToByteSpans text (textBoundaries text).characterToByte spans true = .ok r ↔
      GoodSpans text.length spans ∧ r = byteSpans text spans := by
  unfold characterSpansToByteSpans
  rw [byteSpansLoop_ok]
  unfold OrderedSpans GoodSpans
  constructor
  · rintro ⟨⟨h1, h2⟩, _, h3, h4⟩
    refine ⟨⟨fun p hp => ?_, h2⟩, h4⟩
    have := h1 p hp
    have := h3 rfl p hp
    omega
  · rintro ⟨⟨h1, h2⟩, h4⟩
    refine ⟨⟨fun p hp => ?_, h2⟩, by simp, fun _ p hp => ?_, h4⟩
    · have := h1 p hp; omega
    · have := h1 p hp; omega

theorem goodSpans_bytes {text : Str} {spans : List (Nat × Nat)} (h : GoodSpans text.length spans) :
    GoodSpans (bytePos text text.length) (byteSpans text spans) := by
  obtain ⟨h1, h2⟩ := h
  refine ⟨?_, ?_⟩
  · intro p hp
    obtain ⟨q, hq, rfl⟩ := List.mem_map.1 hp
    have := h1 q hq
    exact ⟨bytePos_lt this.1 this.2, bytePos_mono this.2 (Nat.le_refl _)⟩
  · unfold byteSpans
    rw [List.pairwise_map]
    refine h2.imp_of_mem ?_
    intro p q _ hq hpq
    have := h1 q hq
    exact bytePos_mono hpq (by omega)

/-! ### Linear paths -/

theorem walk_head {arcs : List (List Arc)} {s : Nat} {states : List Nat} {as : List Arc}
    (h : Walk arcs s states as) : s ∈ states := by cases h <;> simp

theorem linearLoop_none (arcs : List (List Arc)) (visited : List Nat) (s : Nat) (as : List Arc) :
    linearLoop arcs visited s = (as, none) ↔
      ∃ states, Walk arcs s states as ∧ ∀ x ∈ states, x ∉ visited := by
  fun_induction linearLoop arcs visited s generalizing as with
  | case1 visited s hv =>
    simp only [Prod.mk.injEq, reduceCtorEq, and_false, false_iff]
    rintro ⟨states, hw, hx⟩
    exact hx s (walk_head hw) hv
  | case2 visited s hv hs =>
    simp only [Prod.mk.injEq, and_true]
    constructor
    · rintro rfl; exact ⟨[s], .done (.inl hs), by simpa using hv⟩
    · rintro ⟨_, hw, _⟩
      cases hw with
      | done => rfl
      | step h => rw [hs] at h; cases h
  | case3 visited s hv hs =>
    simp only [Prod.mk.injEq, and_true]
    constructor
    · rintro rfl; exact ⟨[s], .done (.inr hs), by simpa using hv⟩
    · rintro ⟨_, hw, _⟩
      cases hw with
      | done => rfl
      | step h => rw [hs] at h; cases h
  | case4 visited s hv a hs _ r ih =>
    simp only [Prod.mk.injEq]
    constructor
    · rintro ⟨rfl, h2⟩
      obtain ⟨states, hw, hx⟩ := (ih r.1).1 (by rw [← h2])
      refine ⟨s :: states, .step hs hw (fun h => hx s h (by simp)), ?_⟩
      intro x hx'
      rcases List.mem_cons.1 hx' with rfl | hx'
      · exact hv
      · exact fun h => hx x hx' (by simp [h])
    · rintro ⟨_, hw, hx⟩
      cases hw with
      | done h => rcases h with h | h <;> rw [hs] at h <;> cases h
      | @step _ a' states rest h hw hn =>
        rw [hs] at h
        obtain rfl : a = a' := by simpa using h
        have := (ih rest).2 ⟨states, hw, by
          intro x hx' h
          rcases List.mem_cons.1 h with rfl | h
          · exact hn hx'
          · exact hx x (by simp [hx']) h⟩
        have h1 : r = (rest, none) := this
        exact ⟨by rw [h1], by rw [h1]⟩
  | case5 visited s hv a b l hs =>
    simp only [Prod.mk.injEq, reduceCtorEq, and_false, false_iff]
    rintro ⟨_, hw, _⟩
    cases hw with
    | done h => rcases h with h | h <;> rw [hs] at h <;> cases h
    | step h => rw [hs] at h; cases h

end Verif.Align
