import Verif.Align.Trace
import Verif.Align.Trans3

/-! `trace_input_spans`: the recorded ranges against the ownership rule. -/

namespace Verif.Align
open Spec
open Verif.Token (Str)

open Classical in
/-- Input offsets recorded for token `i`: its arcs without the leading deleted white space. -/
noncomputable def touched (spans : List (Nat × Nat)) (space : Nat → Prop) (as : List Arc) (i : Nat) :
    List Event :=
  ((events 0 0 as).filter fun e => decide (Touches spans space e i)).dropWhile
    fun e => decide (DeletedSpace space e)

theorem dropWhile_snoc {α : Type} (p : α → Bool) (l : List α) (x : α) :
    (l ++ [x]).dropWhile p =
      if l.dropWhile p = [] ∧ p x = true then [] else l.dropWhile p ++ [x] := by
  induction l with
  | nil => by_cases h : p x = true <;> simp [List.dropWhile_cons, h]
  | cons y l ih =>
    rw [List.cons_append, List.dropWhile_cons, List.dropWhile_cons]
    by_cases h : p y = true
    · rw [if_pos h, if_pos h, ih]
    · rw [if_neg h, if_neg h, if_neg (by simp)]; rfl

open Classical in
theorem touched_snoc (spans : List (Nat × Nat)) (space : Nat → Prop) (as : List Arc) (a : Arc)
    (i : Nat) : touched spans space (as ++ [a]) i = touched spans space as i ++
      if Touches spans space ⟨inAfter 0 as, outAfter 0 as, a⟩ i ∧
        (touched spans space as i = [] → ¬ DeletedSpace space ⟨inAfter 0 as, outAfter 0 as, a⟩)
      then [⟨inAfter 0 as, outAfter 0 as, a⟩] else [] := by
  unfold touched
  rw [events_snoc, List.filter_append]
  generalize (⟨inAfter 0 as, outAfter 0 as, a⟩ : Event) = e
  by_cases h : Touches spans space e i
  · rw [List.filter_cons_of_pos (by rw [decide_eq_true_eq]; exact h), List.filter_nil, dropWhile_snoc]
    generalize ((events 0 0 as).filter fun e => decide (Touches spans space e i)).dropWhile
      (fun e => decide (DeletedSpace space e)) = l
    by_cases hl : l = []
    · by_cases hd : DeletedSpace space e
      · simp [hl, hd]
      · simp [hl, hd, h]
    · simp [hl, h]
  · rw [List.filter_cons_of_neg (by rw [decide_eq_true_eq]; exact h), List.filter_nil,
      if_neg (fun hh => h hh.1), List.append_nil, List.append_nil]

structure SInv (spans : List (Nat × Nat)) (space : Nat → Prop) (as : List Arc) (s : TraceState) :
    Prop where
  inp : s.inputOffset = inAfter 0 as
  out : s.outputOffset = outAfter 0 as
  len1 : s.consumedStarts.length = spans.length
  len2 : s.consumedEnds.length = spans.length
  starts : ∀ i, i < spans.length →
    s.consumedStarts[i]? = some ((touched spans space as i).head?.map Event.inp)
  ends : ∀ i, i < spans.length →
    s.consumedEnds[i]? = some ((touched spans space as i).getLast?.map fun e => e.inp + 1)
  token : ∀ i p, i < s.tokenIndex → spans[i]? = some p → p.2 ≤ s.outputOffset

theorem traceOwner_iff {spans : List (Nat × Nat)} {ws : List Bool} {space : Nat → Prop}
    (hle : ∀ p ∈ spans, p.1 ≤ p.2)
    (hws : ∀ o b, ws[o]? = some b → (space o ↔ b = true)) {as : List Arc} {s : TraceState}
    (hi : SInv spans space as s) {t : Nat} (hat : AtToken spans s.outputOffset t)
    {arc : Arc} {r : Option Nat} (hr : traceOwner spans ws s t arc = .ok r) (i : Nat) :
    r = some i ↔ Touches spans space ⟨inAfter 0 as, outAfter 0 as, arc⟩ i ∧
      (touched spans space as i = [] →
        ¬ DeletedSpace space ⟨inAfter 0 as, outAfter 0 as, arc⟩) := by
  rw [← hi.inp, ← hi.out]
  -- only the current token can be touched
  have hcur : Touches spans space ⟨s.inputOffset, s.outputOffset, arc⟩ i → i = t := by
    rintro ⟨_, p, hp, hbefore, h⟩
    by_contra hne
    have hlt : s.outputOffset < p.2 := by rcases h with h | h; exact h.2.1; exact h.1
    rcases Nat.lt_or_gt_of_ne hne with h1 | h1
    · have := hat.1 i p h1 hp; omega
    · have htl : t < spans.length := Nat.lt_trans h1 (List.getElem?_eq_some_iff.1 hp).1
      have hq := List.getElem?_eq_getElem htl
      have h2 := hbefore t _ h1 hq
      have h3 := hat.2 _ hq
      dsimp only at h2
      omega
  unfold traceOwner at hr
  cases ht : spans[t]? with
  | none =>
    rw [ht] at hr
    obtain rfl := Except.ok.inj hr
    simp only [reduceCtorEq, false_iff]
    rintro ⟨h, _⟩
    obtain rfl := hcur h
    obtain ⟨_, p, hp, _⟩ := h
    rw [ht] at hp; cases hp
  | some q =>
    obtain ⟨a, b⟩ := q
    have htl := (List.getElem?_eq_some_iff.1 ht).1
    have hab : a ≤ b := hle _ (List.mem_of_getElem? ht)
    have hlt := hat.2 _ ht
    have hst := hi.starts t htl
    dsimp only at hlt
    rw [ht] at hr
    dsimp only at hr
    -- the arc touches the current token exactly under the code's two conditions
    have htouch : Touches spans space ⟨s.inputOffset, s.outputOffset, arc⟩ t ↔
        (arc.ilabel ≠ 0 ∧ a ≤ s.outputOffset ∧ s.outputOffset < b ∧
          (s.outputOffset ≠ a ∨ arc.olabel ≠ 0)) ∨
        (arc.ilabel ≠ 0 ∧ arc.olabel ≠ 0 ∧ s.outputOffset + 1 = a ∧ ¬ space s.inputOffset) := by
      constructor
      · rintro ⟨hc, p, hp, _, h⟩
        rw [ht] at hp
        obtain rfl := Option.some.inj hp
        rcases h with h | h
        · exact .inl ⟨hc, h⟩
        · exact .inr ⟨hc, h.2⟩
      · rintro (⟨hc, h⟩ | ⟨hc, h⟩)
        · exact ⟨hc, _, ht, fun j q hj hq => hat.1 j q hj hq, .inl h⟩
        · exact ⟨hc, _, ht, fun j q hj hq => hat.1 j q hj hq, .inr ⟨hlt, h⟩⟩
    have hempty : touched spans space as t = [] ↔ s.consumedStarts[t]? = some none := by
      rw [hst]
      cases touched spans space as t <;> simp
    -- reduce to the current token
    have hred : ∀ {P : Prop}, (r = some t ↔ P) → (r = none ∨ r = some t) →
        (P ↔ Touches spans space ⟨s.inputOffset, s.outputOffset, arc⟩ t ∧
          (touched spans space as t = [] →
            ¬ DeletedSpace space ⟨s.inputOffset, s.outputOffset, arc⟩)) →
        (r = some i ↔ Touches spans space ⟨s.inputOffset, s.outputOffset, arc⟩ i ∧
          (touched spans space as i = [] →
            ¬ DeletedSpace space ⟨s.inputOffset, s.outputOffset, arc⟩)) := by
      intro P h1 h2 h3
      by_cases hit : i = t
      · subst hit; exact h1.trans h3
      · constructor
        · intro h
          rcases h2 with h2 | h2 <;> rw [h2] at h
          · cases h
          · exact absurd (Option.some.inj h).symm hit
        · rintro ⟨h, _⟩; exact absurd (hcur h) hit
    by_cases hc1 : arc.ilabel ≠ 0 ∧ a ≤ s.outputOffset ∧ s.outputOffset < b ∧
        (s.outputOffset ≠ a ∨ arc.olabel ≠ 0)
    · rw [if_pos hc1] at hr
      have hT := htouch.2 (.inl hc1)
      by_cases hem : arc.olabel ≠ 0
      · rw [if_pos hem] at hr
        obtain rfl := Except.ok.inj hr
        refine hred (P := True) (by simp) (.inr rfl) ?_
        simp only [true_iff]
        exact ⟨hT, fun _ hd => hd.1 hem⟩
      · rw [if_neg hem] at hr
        cases hw : ws[s.inputOffset]? with
        | none => rw [hw] at hr; cases hr
        | some w =>
          rw [hw] at hr
          have hsp := hws _ _ hw
          dsimp only at hr
          have hds : DeletedSpace space ⟨s.inputOffset, s.outputOffset, arc⟩ ↔ w = true := by
            rw [← hsp]
            exact ⟨fun h => h.2, fun h => ⟨hem, h⟩⟩
          split at hr
          · rename_i hdel
            obtain rfl := Except.ok.inj hr
            refine hred (P := False) (by simp) (.inl rfl) ?_
            simp only [false_iff]
            rintro ⟨_, h⟩
            exact h (hempty.2 hdel.2) (hds.2 hdel.1)
          · rename_i hdel
            obtain rfl := Except.ok.inj hr
            refine hred (P := True) (by simp) (.inr rfl) ?_
            simp only [true_iff]
            exact ⟨hT, fun h hd => hdel ⟨hds.1 hd, hempty.1 h⟩⟩
    · rw [if_neg hc1] at hr
      by_cases hc2 : arc.ilabel ≠ 0 ∧ arc.olabel ≠ 0 ∧ s.outputOffset + 1 = a
      · rw [if_pos hc2] at hr
        cases hw : ws[s.inputOffset]? with
        | none => rw [hw] at hr; cases hr
        | some w =>
          rw [hw] at hr
          have hsp := hws _ _ hw
          dsimp only at hr
          by_cases hwf : w = false
          · rw [if_pos hwf] at hr
            obtain rfl := Except.ok.inj hr
            refine hred (P := True) (by simp) (.inr rfl) ?_
            simp only [true_iff]
            refine ⟨htouch.2 (.inr ⟨hc2.1, hc2.2.1, hc2.2.2, fun h => ?_⟩), fun _ hd => hd.1 hc2.2.1⟩
            have := hsp.1 h
            rw [hwf] at this; cases this
          · rw [if_neg hwf] at hr
            obtain rfl := Except.ok.inj hr
            refine hred (P := False) (by simp) (.inl rfl) ?_
            simp only [false_iff]
            rintro ⟨h, _⟩
            rcases htouch.1 h with h | h
            · exact hc1 h
            · exact h.2.2.2 (hsp.2 (by simpa using hwf))
      · rw [if_neg hc2] at hr
        obtain rfl := Except.ok.inj hr
        refine hred (P := False) (by simp) (.inl rfl) ?_
        simp only [false_iff]
        rintro ⟨h, _⟩
        rcases htouch.1 h with h | h
        · exact hc1 h
        · exact hc2 ⟨h.1, h.2.1, h.2.2.1⟩

theorem traceStep_sinv {spans : List (Nat × Nat)} {ws : List Bool} {space : Nat → Prop}
    (hle : ∀ p ∈ spans, p.1 ≤ p.2)
    (hws : ∀ o b, ws[o]? = some b → (space o ↔ b = true)) {as : List Arc} {a : Arc}
    {s s' : TraceState} (hi : SInv spans space as s) (hs : traceStep spans ws s a = .ok s') :
    SInv spans space (as ++ [a]) s' := by
  have hat := skipSpans_at hi.token
  unfold traceStep at hs
  dsimp only at hs
  generalize skipSpans spans s.outputOffset s.tokenIndex = t at hs hat
  cases ho : traceOwner spans ws s t a with
  | error e => rw [ho] at hs; cases hs
  | ok owner =>
    rw [ho] at hs
    dsimp only at hs
    have hown := fun i => traceOwner_iff hle hws hi hat ho i
    generalize hm : traceMarks s owner (s.inputOffset + if a.ilabel ≠ 0 then 1 else 0) = marks at hs
    unfold traceMarks at hm
    obtain rfl := Except.ok.inj hs
    have hmarks : marks.1.length = spans.length ∧ marks.2.length = spans.length ∧
        ∀ i, i < spans.length →
          marks.1[i]? = some ((touched spans space (as ++ [a]) i).head?.map Event.inp) ∧
          marks.2[i]? = some ((touched spans space (as ++ [a]) i).getLast?.map fun e => e.inp + 1) := by
      classical
      cases owner with
      | none =>
        subst hm
        refine ⟨hi.len1, hi.len2, fun i hl => ?_⟩
        dsimp only
        rw [touched_snoc, if_neg (fun h => by have := (hown i).2 h; cases this), List.append_nil]
        exact ⟨hi.starts i hl, hi.ends i hl⟩
      | some o =>
        have hc := (traceOwner_token ho).2.2
        rw [if_pos hc] at hm
        subst hm
        obtain ⟨l1, l2⟩ := record_length s.consumedStarts s.consumedEnds o s.inputOffset
          (s.inputOffset + 1)
        refine ⟨l1.trans hi.len1, l2.trans hi.len2, fun i hl => ?_⟩
        dsimp only
        rw [record_fst, record_snd, touched_snoc]
        by_cases hio : i = o
        · subst hio
          rw [if_pos ((hown i).1 rfl), hi.starts i hl, hi.ends i hl, hi.len2, hi.inp]
          refine ⟨?_, ?_⟩
          · cases touched spans space as i <;> simp
          · simp [hl]
        · have hn := fun h => hio (Option.some.inj ((hown i).2 h)).symm
          simp only [hio, false_and, if_false, if_neg hn, List.append_nil]
          exact ⟨hi.starts i hl, hi.ends i hl⟩
    refine ⟨?_, ?_, hmarks.1, hmarks.2.1, fun i hl => (hmarks.2.2 i hl).1,
      fun i hl => (hmarks.2.2 i hl).2, ?_⟩
    · dsimp only; rw [inAfter_snoc, hi.inp]
    · dsimp only; rw [outAfter_snoc, hi.out]
    · intro i p hlt hp
      have := hat.1 i p hlt hp
      dsimp only
      omega

theorem runTrace_sinv {spans : List (Nat × Nat)} {ws : List Bool} {space : Nat → Prop}
    (hle : ∀ p ∈ spans, p.1 ≤ p.2)
    (hws : ∀ o b, ws[o]? = some b → (space o ↔ b = true)) {rest : List Arc} :
    ∀ {as : List Arc} {s s' : TraceState}, SInv spans space as s →
    runLoop (traceStep spans ws) s rest = .ok s' → SInv spans space (as ++ rest) s' := by
  induction rest with
  | nil =>
    intro as s s' hi h
    obtain rfl := Except.ok.inj h
    simpa using hi
  | cons a rest ih =>
    intro as s s' hi h
    unfold runLoop at h
    cases hs : traceStep spans ws s a with
    | error e => rw [hs] at h; cases h
    | ok s1 =>
      rw [hs] at h
      have := ih (traceStep_sinv hle hws hi hs) h
      simpa using this

theorem sinv_init (spans : List (Nat × Nat)) (space : Nat → Prop) :
    SInv spans space [] ⟨List.replicate spans.length none, List.replicate spans.length none, 0, 0, 0⟩ := by
  refine ⟨rfl, rfl, by simp, by simp, ?_, ?_, ?_⟩
  · intro i hl; simp [hl, touched, events]
  · intro i hl; simp [hl, touched, events]
  · intro i p h; exact absurd h (Nat.not_lt_zero _)

theorem walk_of_linear {path : Fst} (h : (linearArcs path).2 = none) :
    ∃ start states, path.start = some start ∧ Walk path.arcs start states (linearArcs path).1 := by
  unfold linearArcs at h ⊢
  cases hst : path.start with
  | none => rw [hst] at h; cases h
  | some start =>
    rw [hst] at h
    dsimp only at h ⊢
    obtain ⟨states, hw, _⟩ := (linearLoop_none path.arcs [] start
      (linearLoop path.arcs [] start).1).1 (by rw [← h])
    exact ⟨start, states, rfl, hw⟩

theorem trace_rule {inputText outputText : Str} {path : Fst} {spans outs : List (Nat × Nat)}
    (h : traceInputSpans inputText outputText path spans = .ok outs) :
    ∃ start states arcs, path.start = some start ∧ Walk path.arcs start states arcs ∧
      ∀ k r, (byteSpans inputText outs)[k]? = some r → ∃ e f,
        (touched (byteSpans outputText spans) (SpaceByte inputText) arcs k).head? = some e ∧
        (touched (byteSpans outputText spans) (SpaceByte inputText) arcs k).getLast? = some f ∧
        r = (e.inp, f.inp + 1) := by
  unfold traceInputSpans at h
  dsimp only at h
  cases hsp : characterSpansToByteSpans outputText (textBoundaries outputText).characterToByte spans with
  | error e => rw [hsp] at h; cases h
  | ok bs =>
    rw [hsp] at h
    obtain ⟨hord, rfl⟩ := (characterSpans_ok outputText spans bs).1 hsp
    dsimp only at h
    have hle : ∀ p ∈ byteSpans outputText spans, p.1 ≤ p.2 := by
      intro p hp
      obtain ⟨q, hq, rfl⟩ := List.mem_map.1 hp
      have := hord.1 q hq
      exact bytePos_mono this.1 this.2
    cases hrun : runLoop (traceStep (byteSpans outputText spans)
        (textBoundaries inputText).byteIsWhitespace)
        ⟨List.replicate (byteSpans outputText spans).length none,
          List.replicate (byteSpans outputText spans).length none, 0, 0, 0⟩ (linearArcs path).1 with
    | error e => rw [hrun] at h; cases h
    | ok s =>
      rw [hrun] at h
      have hinv := runTrace_sinv hle (fun o b h => spaceByte_iff inputText o b h)
        (sinv_init (byteSpans outputText spans) (SpaceByte inputText)) hrun
      rw [List.nil_append] at hinv
      dsimp only at h
      cases hstop : (linearArcs path).2 with
      | some e => rw [hstop] at h; cases h
      | none =>
        rw [hstop] at h
        dsimp only at h
        obtain ⟨start, states, hs, hw⟩ := walk_of_linear hstop
        refine ⟨start, states, _, hs, hw, ?_⟩
        intro k r hr
        obtain ⟨hlen, hget⟩ := forall₂_get (traceResult_ok _ _ _ h)
        unfold byteSpans at hr
        rw [List.getElem?_map] at hr
        cases hk : outs[k]? with
        | none => rw [hk] at hr; cases hr
        | some xy =>
          rw [hk] at hr
          obtain rfl := Option.some.inj hr
          obtain ⟨m, hm, a, b, rfl, ha, hb⟩ := hget k xy hk
          obtain ⟨h1, h2⟩ := List.getElem?_zip_eq_some.1 hm
          have ha := ((byteToCharacter_iff _ _ _).1 ha).2
          have hb := ((byteToCharacter_iff _ _ _).1 hb).2
          have hkl : k < (byteSpans outputText spans).length := by
            rw [← hinv.len1]; exact (List.getElem?_eq_some_iff.1 h1).1
          have g1 := hinv.starts k hkl
          have g2 := hinv.ends k hkl
          dsimp only at h1 h2
          rw [h1] at g1
          rw [h2] at g2
          have g1 := Option.some.inj g1
          have g2 := Option.some.inj g2
          obtain ⟨e, he, rfl⟩ := Option.map_eq_some_iff.1 g1.symm
          obtain ⟨f, hf, rfl⟩ := Option.map_eq_some_iff.1 g2.symm
          exact ⟨e, f, he, hf, by simp only [ha, hb]⟩

end Verif.Align
