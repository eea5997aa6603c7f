import Verif.Align.Trace2

/-! When the two mapping functions cannot fail. -/

namespace Verif.Align
open Spec
open Verif.Token (Str)

theorem skipSpans_le (spans : List (Nat × Nat)) (x t : Nat) (h : t ≤ spans.length) :
    skipSpans spans x t ≤ spans.length := by
  fun_induction skipSpans spans x t with
  | case1 t hs => exact h
  | case2 t a b hs hge _ ih => exact ih (List.getElem?_eq_some_iff.1 hs).1
  | case3 => exact h

theorem outAfter_append (o : Nat) (as bs : List Arc) :
    outAfter o (as ++ bs) = outAfter (outAfter o as) bs := by
  unfold outAfter; simp [List.filter_append]; omega

theorem inAfter_append (o : Nat) (as bs : List Arc) :
    inAfter o (as ++ bs) = inAfter (inAfter o as) bs := by
  unfold inAfter; simp [List.filter_append]; omega

theorem transOwner_total {spans : List (Nat × Nat)} {ws : List Bool} {s : TransState} {t : Nat}
    {a : Arc} (ht : t ≤ spans.length) (hw : a.olabel ≠ 0 → s.outputOffset < ws.length) :
    ∃ r, transOwner spans ws s t a = .ok r := by
  unfold transOwner
  by_cases hc : a.ilabel ≠ 0
  · rw [if_pos hc]
    cases spans[t]? with
    | none => exact ⟨_, rfl⟩
    | some p =>
      dsimp only
      split <;> exact ⟨_, rfl⟩
  · rw [if_neg hc]
    dsimp only
    by_cases hem : a.olabel = 0
    · rw [if_pos hem]; exact ⟨_, rfl⟩
    · rw [if_neg hem, List.getElem?_eq_getElem (hw hem)]
      dsimp only
      split
      · cases t with
        | zero => exact ⟨_, rfl⟩
        | succ t' =>
          dsimp only
          rw [List.getElem?_eq_getElem (by omega)]
          dsimp only
          split <;> exact ⟨_, rfl⟩
      · exact ⟨_, rfl⟩

theorem runTrans_total {spans : List (Nat × Nat)} {ws : List Bool} :
    ∀ (as : List Arc) (s : TransState), s.tokenIndex ≤ spans.length →
      outAfter s.outputOffset as ≤ ws.length → ∃ s', runLoop (transStep spans ws) s as = .ok s' := by
  intro as
  induction as with
  | nil => intro s _ _; exact ⟨s, rfl⟩
  | cons a as ih =>
    intro s ht hw
    have ht' := skipSpans_le spans s.inputOffset s.tokenIndex ht
    have hcons : outAfter s.outputOffset (a :: as) =
        outAfter (s.outputOffset + if a.olabel ≠ 0 then 1 else 0) as := by
      unfold outAfter
      by_cases h : a.olabel ≠ 0
      · simp [h]; omega
      · simp [h]
    rw [hcons] at hw
    have hw' : a.olabel ≠ 0 → s.outputOffset < ws.length := by
      intro h
      rw [if_pos h] at hw
      unfold outAfter at hw
      omega
    obtain ⟨r, hr⟩ := transOwner_total (s := s) ht' hw'
    unfold runLoop transStep
    dsimp only
    rw [hr]
    dsimp only
    exact ih _ ht' hw

theorem linear_of_walk {path : Fst} {start : Nat} {states : List Nat} {arcs : List Arc}
    (hs : path.start = some start) (hw : Walk path.arcs start states arcs) :
    linearArcs path = (arcs, none) := by
  unfold linearArcs
  rw [hs]
  exact (linearLoop_none path.arcs [] start arcs).2 ⟨states, hw, by simp⟩

theorem bytes_length_eq (text : Str) : (textBoundaries text).byteIsWhitespace.length =
    bytePos text text.length := by
  rw [byteIsWhitespace_eq]
  unfold bytePos
  rw [List.take_length]
  unfold bytes
  rw [List.length_flatMap, List.length_flatMap]
  congr 1
  apply List.map_congr_left
  intro c _
  simp

theorem trans_total {text sel : Str} {path : Fst} {spans : List (Nat × Nat)} {start : Nat}
    {states : List Nat} {arcs : List Arc} (hgood : GoodSpans text.length spans)
    (hs : path.start = some start) (hw : Walk path.arcs start states arcs)
    (hin : inAfter 0 arcs = bytePos text text.length)
    (hout : outAfter 0 arcs = bytePos sel sel.length) :
    (∃ outs, transduceWithSpans text path sel spans = .ok (sel, outs)) ∨
      transduceWithSpans text path sel spans = .error .splitCodePoint := by
  have hg := goodSpans_bytes hgood
  have hlin := linear_of_walk hs hw
  obtain ⟨s, hrun⟩ := runTrans_total (spans := byteSpans text spans)
    (ws := (textBoundaries sel).byteIsWhitespace) arcs
    { emittedStarts := List.replicate (byteSpans text spans).length none,
      emittedEnds := List.replicate (byteSpans text spans).length none } (Nat.zero_le _)
    (by rw [bytes_length_eq]; dsimp only; omega)
  have hinv := runTrans_inv hg (fun o b h => spaceByte_iff sel o b h)
    (tinv_init (byteSpans text spans) (SpaceByte sel)) hrun
  rw [List.nil_append] at hinv
  have hfin := final_of_inv hinv
  have hmk := marked_of_final (oo := s.outputOffset) hg hfin hin.symm
  obtain ⟨r1, _, _, _⟩ := transResult_layout (textBoundaries sel).byteToCharacter _
    s.outputOffset _ 0 hmk (fun _ _ _ _ => Nat.zero_le _)
  unfold transduceWithSpans
  dsimp only
  rw [(characterSpans_ok' text spans _).2 ⟨hgood, rfl⟩]
  dsimp only
  rw [if_neg (by rw [hs]; simp), hlin]
  dsimp only
  rw [hrun]
  dsimp only
  rw [characterToByte_last, characterToByte_last, hinv.inp, hinv.out, hin, hout,
    if_neg (by simp)]
  rw [hinv.inp, hinv.out, hin, hout] at r1
  cases hres : transResult (textBoundaries sel).byteToCharacter _ _ 0 _ with
  | error e => exact .inr (by rw [r1 e hres])
  | ok outs => exact .inl ⟨outs, rfl⟩

theorem traceOwner_total {spans : List (Nat × Nat)} {ws : List Bool} {s : TraceState} {t : Nat}
    {a : Arc} (hw : a.ilabel ≠ 0 → s.inputOffset < ws.length) :
    ∃ r, traceOwner spans ws s t a = .ok r := by
  unfold traceOwner
  cases spans[t]? with
  | none => exact ⟨_, rfl⟩
  | some p =>
    dsimp only
    split
    · rename_i h
      split
      · exact ⟨_, rfl⟩
      · rw [List.getElem?_eq_getElem (hw h.1)]
        dsimp only
        split <;> exact ⟨_, rfl⟩
    · split
      · rename_i h
        rw [List.getElem?_eq_getElem (hw h.1)]
        dsimp only
        split <;> exact ⟨_, rfl⟩
      · exact ⟨_, rfl⟩

theorem runTrace_total {spans : List (Nat × Nat)} {ws : List Bool} :
    ∀ (as : List Arc) (s : TraceState), inAfter s.inputOffset as ≤ ws.length →
      ∃ s', runLoop (traceStep spans ws) s as = .ok s' := by
  intro as
  induction as with
  | nil => intro s _; exact ⟨s, rfl⟩
  | cons a as ih =>
    intro s hw
    have hcons : inAfter s.inputOffset (a :: as) =
        inAfter (s.inputOffset + if a.ilabel ≠ 0 then 1 else 0) as := by
      unfold inAfter
      by_cases h : a.ilabel ≠ 0
      · simp [h]; omega
      · simp [h]
    rw [hcons] at hw
    have hw' : a.ilabel ≠ 0 → s.inputOffset < ws.length := by
      intro h
      rw [if_pos h] at hw
      unfold inAfter at hw
      omega
    obtain ⟨r, hr⟩ := traceOwner_total (spans := spans) (t := skipSpans spans s.outputOffset s.tokenIndex) hw'
    unfold runLoop traceStep
    dsimp only
    rw [hr]
    dsimp only
    exact ih _ hw

theorem traceResult_error (b2c : Nat → Option Nat) (L : List (Option Nat × Option Nat)) (e : Err)
    (h : traceResult b2c L = .error e) : e = .noInput ∨ e = .splitCodePoint := by
  induction L with
  | nil => cases h
  | cons m L ih =>
    obtain ⟨start, stop⟩ := m
    unfold traceResult at h
    split at h
    · exact .inl (Except.error.inj h).symm
    · split at h
      · split at h
        · rename_i h'
          obtain rfl := Except.error.inj h
          exact ih h'
        · cases h
      · exact .inr (Except.error.inj h).symm

theorem trace_total {text tagged : Str} {path : Fst} {spans : List (Nat × Nat)} {start : Nat}
    {states : List Nat} {arcs : List Arc} (hord : OrderedSpans tagged.length spans)
    (hs : path.start = some start) (hw : Walk path.arcs start states arcs)
    (hin : inAfter 0 arcs = bytePos text text.length) :
    (∃ outs, traceInputSpans text tagged path spans = .ok outs) ∨
      traceInputSpans text tagged path spans = .error .noInput ∨
      traceInputSpans text tagged path spans = .error .splitCodePoint := by
  have hlin := linear_of_walk hs hw
  obtain ⟨s, hrun⟩ := runTrace_total (spans := byteSpans tagged spans)
    (ws := (textBoundaries text).byteIsWhitespace) arcs
    ⟨List.replicate (byteSpans tagged spans).length none,
      List.replicate (byteSpans tagged spans).length none, 0, 0, 0⟩
    (by rw [bytes_length_eq]; dsimp only; omega)
  unfold traceInputSpans
  dsimp only
  rw [(characterSpans_ok tagged spans _).2 ⟨hord, rfl⟩]
  dsimp only
  rw [hlin]
  dsimp only
  rw [hrun]
  dsimp only
  cases hres : traceResult (textBoundaries text).byteToCharacter
      (s.consumedStarts.zip s.consumedEnds) with
  | ok outs => exact .inl ⟨outs, rfl⟩
  | error e =>
    rcases traceResult_error _ _ _ hres with rfl | rfl
    · exact .inr (.inl rfl)
    · exact .inr (.inr rfl)

end Verif.Align
