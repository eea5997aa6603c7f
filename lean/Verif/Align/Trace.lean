import Verif.Align.Trans2

/-! `trace_input_spans`: loop invariant and result. -/

namespace Verif.Align
open Spec
open Verif.Token (Str)

/-- What the loop of `trace_input_spans` knows: recorded ranges are non-empty, behind the input
offset, in the order of the tokens, and belong to tokens up to the current one. -/
structure RInv (spans : List (Nat × Nat)) (s : TraceState) : Prop where
  len1 : s.consumedStarts.length = spans.length
  len2 : s.consumedEnds.length = spans.length
  both : ∀ i, i < spans.length →
    (s.consumedStarts[i]? = some none ∧ s.consumedEnds[i]? = some none) ∨
    ∃ a b, s.consumedStarts[i]? = some (some a) ∧ s.consumedEnds[i]? = some (some b) ∧
      a < b ∧ b ≤ s.inputOffset
  ahead : ∀ i, s.tokenIndex < i → i < spans.length → s.consumedStarts[i]? = some none
  sorted : ∀ (i j a b : Nat), i < j → s.consumedEnds[i]? = some (some b) →
    s.consumedStarts[j]? = some (some a) → b ≤ a

theorem traceOwner_token {spans : List (Nat × Nat)} {ws : List Bool} {s : TraceState} {t : Nat}
    {arc : Arc} {o : Nat} (h : traceOwner spans ws s t arc = .ok (some o)) :
    o = t ∧ t < spans.length ∧ arc.ilabel ≠ 0 := by
  unfold traceOwner at h
  split at h
  · cases h
  · rename_i start stop hsp
    have hl := (List.getElem?_eq_some_iff.1 hsp).1
    split at h
    · rename_i hc
      split at h
      · simp only [Except.ok.injEq, Option.some.injEq] at h
        exact ⟨h.symm, hl, hc.1⟩
      · split at h
        · cases h
        · split at h
          · cases h
          · simp only [Except.ok.injEq, Option.some.injEq] at h
            exact ⟨h.symm, hl, hc.1⟩
    · split at h
      · rename_i hc
        split at h
        · cases h
        · split at h
          · simp only [Except.ok.injEq, Option.some.injEq] at h
            exact ⟨h.symm, hl, hc.1⟩
          · cases h
      · cases h

theorem traceStep_inv {spans : List (Nat × Nat)} {ws : List Bool} {s s' : TraceState} {a : Arc}
    (hi : RInv spans s) (hs : traceStep spans ws s a = .ok s') : RInv spans s' := by
  unfold traceStep at hs
  dsimp only at hs
  have hskip := (skipSpans_spec spans s.outputOffset s.tokenIndex).1
  generalize skipSpans spans s.outputOffset s.tokenIndex = t at hs hskip
  cases ho : traceOwner spans ws s t a with
  | error e => rw [ho] at hs; cases hs
  | ok owner =>
    rw [ho] at hs
    obtain rfl := Except.ok.inj hs
    cases owner with
    | none =>
      refine ⟨hi.len1, hi.len2, ?_, ?_, hi.sorted⟩
      · intro i hl
        rcases hi.both i hl with h | ⟨x, y, h1, h2, h3, h4⟩
        · exact .inl h
        · exact .inr ⟨x, y, h1, h2, h3, by dsimp only; omega⟩
      · intro i h hl
        exact hi.ahead i (by dsimp only at h; omega) hl
    | some o =>
      obtain ⟨rfl, hl, hc⟩ := traceOwner_token ho
      rw [if_pos hc]
      have hfst := record_fst s.consumedStarts s.consumedEnds o s.inputOffset (s.inputOffset + 1)
      have hsnd := record_snd s.consumedStarts s.consumedEnds o s.inputOffset (s.inputOffset + 1)
      have hlen : (record s.consumedStarts s.consumedEnds o s.inputOffset (s.inputOffset + 1)).1.length
          = spans.length := by
        rw [← hi.len1]; unfold record; dsimp only; split <;> simp
      have hlen2 : (record s.consumedStarts s.consumedEnds o s.inputOffset (s.inputOffset + 1)).2.length
          = spans.length := by
        rw [← hi.len2]; unfold record; simp
      rw [hi.len2] at hsnd
      unfold traceMarks
      dsimp only
      generalize record s.consumedStarts s.consumedEnds o s.inputOffset (s.inputOffset + 1) = m
        at hfst hsnd hlen hlen2
      refine ⟨hlen, hlen2, ?_, ?_, ?_⟩
      · intro i hl'
        dsimp only
        rw [hfst, hsnd]
        by_cases hio : i = o
        · subst hio
          refine .inr ?_
          have hend : (if i = i ∧ i < spans.length then some (some (s.inputOffset + 1))
            else s.consumedEnds[i]?) = some (some (s.inputOffset + 1)) := if_pos ⟨rfl, hl⟩
          rw [hend]
          rcases hi.both i hl with ⟨h1, h2⟩ | ⟨x, y, h1, h2, h3, h4⟩
          · exact ⟨s.inputOffset, _, if_pos ⟨rfl, h1⟩, rfl, by omega, by omega⟩
          · exact ⟨x, _, by rw [if_neg (fun h => by rw [h1] at h; cases h.2)]; exact h1, rfl,
              by omega, by omega⟩
        · simp only [hio, false_and, if_false]
          rcases hi.both i hl' with h | ⟨x, y, h1, h2, h3, h4⟩
          · exact .inl h
          · exact .inr ⟨x, y, h1, h2, h3, by omega⟩
      · intro i h hl'
        dsimp only at h ⊢
        rw [hfst, if_neg (fun h' => by omega)]
        exact hi.ahead i (by omega) hl'
      · intro i j x y hij hy hx
        dsimp only at hy hx
        rw [hsnd] at hy
        rw [hfst] at hx
        by_cases hjo : j = o
        · subst hjo
          rw [if_neg (fun h => by omega)] at hy
          have hyle : y ≤ s.inputOffset := by
            have hil : i < spans.length := by omega
            rcases hi.both i hil with ⟨_, h⟩ | ⟨_, y', _, h2, _, h4⟩
            · rw [h] at hy; cases hy
            · rw [h2] at hy
              obtain rfl := Option.some.inj (Option.some.inj hy)
              exact h4
          by_cases hn : s.consumedStarts[j]? = some none
          · rw [if_pos ⟨rfl, hn⟩] at hx
            obtain rfl := Option.some.inj (Option.some.inj hx)
            exact hyle
          · rw [if_neg (fun h => hn h.2)] at hx
            exact hi.sorted i j x y hij hy hx
        · rw [if_neg (fun h => hjo h.1)] at hx
          have hjl : j < spans.length := by
            rw [← hi.len1]; exact (List.getElem?_eq_some_iff.1 hx).1
          by_cases hio : i = o
          · subst hio
            have := hi.ahead j (by omega) hjl
            rw [this] at hx
            cases hx
          · rw [if_neg (fun h => hio h.1)] at hy
            exact hi.sorted i j x y hij hy hx

theorem runTrace_inv {spans : List (Nat × Nat)} {ws : List Bool} {as : List Arc} :
    ∀ {s s' : TraceState}, RInv spans s → runLoop (traceStep spans ws) s as = .ok s' →
      RInv spans s' := by
  induction as with
  | nil => intro s s' hi h; obtain rfl := Except.ok.inj h; exact hi
  | cons a as ih =>
    intro s s' hi h
    unfold runLoop at h
    cases hs : traceStep spans ws s a with
    | error e => rw [hs] at h; cases h
    | ok s1 => rw [hs] at h; exact ih (traceStep_inv hi hs) h

theorem rinv_init (spans : List (Nat × Nat)) :
    RInv spans ⟨List.replicate spans.length none, List.replicate spans.length none, 0, 0, 0⟩ := by
  refine ⟨by simp, by simp, ?_, ?_, ?_⟩
  · intro i hl; exact .inl ⟨by simp [hl], by simp [hl]⟩
  · intro i _ hl; simp [hl]
  · intro i j a b _ h _
    dsimp only at h
    rw [List.getElem?_replicate] at h
    split at h <;> simp at h

theorem traceResult_ok (b2c : Nat → Option Nat) :
    ∀ (L : List (Option Nat × Option Nat)) (outs : List (Nat × Nat)),
    traceResult b2c L = .ok outs → List.Forall₂ (fun m xy => ∃ a b, m = (some a, some b) ∧
      b2c a = some xy.1 ∧ b2c b = some xy.2) L outs := by
  intro L
  induction L with
  | nil => intro outs h; obtain rfl := Except.ok.inj h; exact .nil
  | cons m L ih =>
    intro outs h
    obtain ⟨start, stop⟩ := m
    unfold traceResult at h
    split at h
    · cases h
    · rename_i a
      split at h
      · rename_i x y hx hy
        split at h
        · cases h
        · rename_i l hl
          obtain rfl := Except.ok.inj h
          cases stop with
          | none => cases hy
          | some b => exact .cons ⟨a, b, rfl, hx, hy⟩ (ih l hl)
      · cases h

theorem forall₂_get {α β : Type} {R : α → β → Prop} {l : List α} {m : List β}
    (h : List.Forall₂ R l m) : l.length = m.length ∧
      ∀ (i : Nat) (y : β), m[i]? = some y → ∃ x, l[i]? = some x ∧ R x y := by
  induction h with
  | nil => exact ⟨rfl, fun i y h => by simp at h⟩
  | cons h _ ih =>
    refine ⟨by simp [ih.1], fun i y hy => ?_⟩
    cases i with
    | zero => simp at hy; subst hy; exact ⟨_, rfl, h⟩
    | succ i => simpa using ih.2 i y (by simpa using hy)

theorem trace_ok {inputText outputText : Str} {path : Fst} {spans outs : List (Nat × Nat)}
    (h : traceInputSpans inputText outputText path spans = .ok outs) :
    OrderedSpans outputText.length spans ∧ outs.length = spans.length ∧
      GoodSpans inputText.length outs := by
  unfold traceInputSpans at h
  dsimp only at h
  cases hsp : characterSpansToByteSpans outputText (textBoundaries outputText).characterToByte spans with
  | error e => rw [hsp] at h; cases h
  | ok bs =>
    rw [hsp] at h
    obtain ⟨hord, rfl⟩ := (characterSpans_ok outputText spans bs).1 hsp
    dsimp only at h
    cases hrun : runLoop (traceStep (byteSpans outputText spans)
        (textBoundaries inputText).byteIsWhitespace)
        ⟨List.replicate (byteSpans outputText spans).length none,
          List.replicate (byteSpans outputText spans).length none, 0, 0, 0⟩ (linearArcs path).1 with
    | error e => rw [hrun] at h; cases h
    | ok s =>
      rw [hrun] at h
      have hinv := runTrace_inv (rinv_init _) hrun
      dsimp only at h
      split at h
      · cases h
      · obtain ⟨hlen, hget⟩ := forall₂_get (traceResult_ok _ _ _ h)
        have hbl : (byteSpans outputText spans).length = spans.length := by simp [byteSpans]
        have hel : ∀ (i : Nat) (xy : Nat × Nat), outs[i]? = some xy → xy.1 ≤ inputText.length ∧ xy.2 ≤ inputText.length ∧
            s.consumedStarts[i]? = some (some (bytePos inputText xy.1)) ∧
            s.consumedEnds[i]? = some (some (bytePos inputText xy.2)) := by
          intro i xy hxy
          obtain ⟨m, hm, a, b, rfl, ha, hb⟩ := hget i xy hxy
          obtain ⟨h1, h2⟩ := List.getElem?_zip_eq_some.1 hm
          have ha := (byteToCharacter_iff _ _ _).1 ha
          have hb := (byteToCharacter_iff _ _ _).1 hb
          exact ⟨ha.1, hb.1, by rw [ha.2]; exact h1, by rw [hb.2]; exact h2⟩
        have hol : outs.length = spans.length := by
          rw [← hlen, List.length_zip, hinv.len1, hinv.len2, hbl, Nat.min_self]
        refine ⟨hord, hol, ?_, ?_⟩
        · intro xy hxy
          obtain ⟨i, hi, rfl⟩ := List.mem_iff_getElem.1 hxy
          obtain ⟨g1, g2, g3, g4⟩ := hel i _ (List.getElem?_eq_getElem hi)
          refine ⟨?_, g2⟩
          rcases hinv.both i (by omega) with ⟨h', _⟩ | ⟨a, b, h1, h2, h3, _⟩
          · rw [h'] at g3; cases g3
          · rw [g3] at h1
            rw [g4] at h2
            have h1 := Option.some.inj (Option.some.inj h1)
            have h2 := Option.some.inj (Option.some.inj h2)
            by_contra hc
            have := bytePos_mono (text := inputText) (Nat.not_lt.1 hc) g1
            omega
        · rw [List.pairwise_iff_getElem]
          intro i j hi hj hij
          obtain ⟨g1, g2, g3, g4⟩ := hel i _ (List.getElem?_eq_getElem hi)
          obtain ⟨k1, k2, k3, k4⟩ := hel j _ (List.getElem?_eq_getElem hj)
          have := hinv.sorted i j _ _ hij g4 k3
          exact (bytePos_le_iff g2 k1).1 this

end Verif.Align
