import Verif.Align.Trans2

/-! `transduce_with_spans`: the whole function. -/

namespace Verif.Align
open Spec
open Verif.Token (Str)

theorem spaceByte_iff (text : Str) (o : Nat) (b : Bool)
    (h : (textBoundaries text).byteIsWhitespace[o]? = some b) : SpaceByte text o ↔ b = true := by
  constructor
  · rintro ⟨i, c, h1, h2, h3, h4⟩
    have := (byteIsWhitespace_get text o true).2 ⟨i, c, h1, h2, h3, h4⟩
    rw [h] at this
    exact Option.some.inj this
  · rintro rfl
    obtain ⟨i, c, h1, h2, h3, h4⟩ := (byteIsWhitespace_get text o true).1 h
    exact ⟨i, c, h1, h2, h3, h4⟩

/-- The arguments of the final loop. -/
structure Final (spans : List (Nat × Nat)) (space : Nat → Prop) (as : List Arc)
    (bo : Nat → Option Nat) (L : List ((Nat × Nat) × Option Nat × Option Nat)) : Prop where
  len : L.length = spans.length
  get : ∀ k p, spans[k]? = some p → L[k]? =
    some (p, (owned spans space as k).head?, (owned spans space as k).getLast?.map (· + 1))
  bound : ∀ e ∈ events 0 0 as, e.consumes → bo e.inp = some e.out

theorem final_of_inv {spans : List (Nat × Nat)} {space : Nat → Prop} {as : List Arc}
    {s : TransState} (h : TInv spans space as s) :
    Final spans space as
      (fun b => if b = s.inputOffset then some s.outputOffset else s.boundaryOffsets b)
      (spans.zip (s.emittedStarts.zip s.emittedEnds)) := by
  refine ⟨by simp [h.len1, h.len2], ?_, ?_⟩
  · intro k p hp
    have hl := (List.getElem?_eq_some_iff.1 hp).1
    exact List.getElem?_zip_eq_some.2 ⟨hp, List.getElem?_zip_eq_some.2
      ⟨h.starts k hl, h.ends k hl⟩⟩
  · intro e he hc
    have := (event_le he).2.2.1 hc
    rw [h.inp, if_neg (by omega)]
    exact h.bound e he hc

theorem owned_ordered {n : Nat} {spans : List (Nat × Nat)} (hg : GoodSpans n spans)
    {space : Nat → Prop} {as : List Arc} {i j a b : Nat} (hij : i < j)
    (ha : a ∈ owned spans space as i) (hb : b ∈ owned spans space as j) : a < b := by
  obtain ⟨e, he, e1, e2, rfl⟩ := mem_owned.1 ha
  obtain ⟨f, hf, f1, f2, rfl⟩ := mem_owned.1 hb
  rcases mem_order (events_pairwise 0 0 as) he hf with rfl | h | h
  · have := owns_unique hg e2 f2
    omega
  · exact h.2.2.2 e1
  · have := owns_mono hg h.1 h.2.2.1 f2 e2
    omega
where
  owns_unique {n : Nat} {spans : List (Nat × Nat)} (hg : GoodSpans n spans)
    {space : Nat → Prop} {e : Event} {i j : Nat} (hi : Owns spans space e i)
    (hj : Owns spans space e j) : i = j := by
    have step : ∀ {i j}, Owns spans space e i → Owns spans space e j → ¬ i < j := by
      intro i j hi hj hij
      have hx : ∀ {p}, spans[i]? = some p → p.1 < e.inp := fun hp => owns_start hg hij hj hp
      obtain ⟨q, hq⟩ := owns_unique_span hj
      have hins : ∀ {x k}, Inside spans x k → ∃ p, spans[k]? = some p ∧ p.1 ≤ x ∧ x < p.2 := by
        rintro x k ⟨p, hp, h⟩
        have := good_lt hg hp
        exact ⟨p, hp, by omega, by omega⟩
      have hlow : q.1 ≤ e.inp := by
        have := good_lt hg hq
        rcases hj with ⟨_, q', hq', h, _⟩ | ⟨_, q', hq', h⟩ | ⟨_, _, _, q', hq', h, _⟩ <;>
          (rw [hq] at hq'; obtain rfl := Option.some.inj hq'; omega)
      rcases hi with ⟨_, p, hp, _, h⟩ | ⟨_, h⟩ | ⟨hc, hno, _, p, hp, _, h⟩
      · have := good_sorted hg hij hp hq; omega
      · obtain ⟨p, hp, _, h⟩ := hins h
        have := good_sorted hg hij hp hq; omega
      · have := h j q hij hq
        rcases hj with ⟨hc', _⟩ | ⟨_, h'⟩ | ⟨_, _, _, q', hq', h', _⟩
        · exact hc hc'
        · exact hno j h'
        · rw [hq] at hq'; obtain rfl := Option.some.inj hq'; omega
    have h1 := step hi hj
    have h2 := step hj hi
    omega

theorem marked_of_final {n : Nat} {spans : List (Nat × Nat)} (hg : GoodSpans n spans)
    {space : Nat → Prop} {as : List Arc} {bo : Nat → Option Nat} {oo : Nat}
    {L : List ((Nat × Nat) × Option Nat × Option Nat)} (h : Final spans space as bo L)
    (hn : n = inAfter 0 as) : Marked bo oo L := by
  have hget : ∀ k (hk : k < L.length), ∃ p, spans[k]? = some p ∧ L[k] =
      (p, (owned spans space as k).head?, (owned spans space as k).getLast?.map (· + 1)) := by
    intro k hk
    have hk' : k < spans.length := by rw [← h.len]; exact hk
    have hp := List.getElem?_eq_getElem hk'
    have := h.get k _ hp
    rw [List.getElem?_eq_getElem hk] at this
    exact ⟨_, hp, Option.some.inj this⟩
  constructor
  · intro x hx
    obtain ⟨k, hk, rfl⟩ := List.mem_iff_getElem.1 hx
    obtain ⟨p, hp, he⟩ := hget k hk
    rw [he]
    cases ho : owned spans space as k with
    | nil => exact .inl ⟨rfl, rfl⟩
    | cons a l =>
      refine .inr ⟨a, (a :: l).getLast (by simp) + 1, rfl, ?_, ?_⟩
      · rw [List.getLast?_eq_some_getLast (by simp)]; rfl
      · have hs := owned_sorted spans space as k
        rw [ho] at hs
        have hm : (a :: l).getLast (by simp) ∈ a :: l := List.getLast_mem _
        rcases List.mem_cons.1 hm with h' | h'
        · omega
        · have := (List.pairwise_cons.1 hs).1 _ h'; omega
  · rw [List.pairwise_iff_getElem]
    intro i j hi hj hij c hc
    obtain ⟨p, hp, he⟩ := hget i hi
    obtain ⟨q, hq, hf⟩ := hget j hj
    rw [hf] at hc
    rw [he]
    have hcm : c ∈ owned spans space as j := List.mem_of_mem_head? hc
    constructor
    · intro b hb
      dsimp only at hb
      cases hl : (owned spans space as i).getLast? with
      | none => rw [hl] at hb; cases hb
      | some d =>
        rw [hl] at hb
        obtain rfl := Option.some.inj hb
        have hd : d ∈ owned spans space as i := List.mem_of_mem_getLast? hl
        exact owned_ordered hg hij hd hcm
    · intro _
      obtain ⟨f, hf', f1, f2, rfl⟩ := mem_owned.1 hcm
      have hlt := owns_start hg hij f2 hp
      have hpn := good_lt hg hp
      obtain ⟨e, he', e1, e2⟩ := exists_consuming (x := 0) (o := 0) (as := as) (b := p.1)
        (Nat.zero_le _) (by omega)
      have hb := h.bound e he' e1
      rw [e2] at hb
      dsimp only
      rw [hb]
      rcases mem_order (events_pairwise 0 0 as) he' hf' with rfl | h' | h'
      · exact Nat.le_refl _
      · exact h'.2.1
      · have := h'.1; omega

/-- What a successful `transduce_with_spans` returns. -/
structure Transduced (text : Str) (path : Fst) (sel : Str) (spans outs : List (Nat × Nat)) : Prop where
  good : GoodSpans text.length spans
  walk : ∃ start states arcs, path.start = some start ∧ Walk path.arcs start states arcs ∧
    inAfter 0 arcs = bytePos text text.length ∧ outAfter 0 arcs = bytePos sel sel.length ∧
    outs.length = spans.length ∧
    ∀ k p r, (byteSpans text spans)[k]? = some p → (byteSpans sel outs)[k]? = some r →
      (∀ a b, (owned (byteSpans text spans) (SpaceByte sel) arcs k).head? = some a →
        (owned (byteSpans text spans) (SpaceByte sel) arcs k).getLast? = some b → r = (a, b + 1)) ∧
      (owned (byteSpans text spans) (SpaceByte sel) arcs k = [] →
        ∃ q e, e ∈ events 0 0 arcs ∧ e.consumes ∧ e.inp = p.1 ∧
          (k = 0 ∧ q = 0 ∨ ∃ j r', k = j + 1 ∧ (byteSpans sel outs)[j]? = some r' ∧ q = r'.2) ∧
          r = (max e.out q, max e.out q))
  inside : ∀ r ∈ outs, r.1 ≤ r.2 ∧ r.2 ≤ sel.length
  sorted : outs.Pairwise fun r r' => r.2 ≤ r'.1

theorem transduce_cases (text : Str) (path : Fst) (sel : Str) (spans : List (Nat × Nat)) :
    transduceWithSpans text path sel spans ≠ .error .overlap ∧
    ∀ sel' outs, transduceWithSpans text path sel spans = .ok (sel', outs) →
      sel' = sel ∧ Transduced text path sel spans outs := by
  unfold transduceWithSpans
  dsimp only
  cases hsp : characterSpansToByteSpans text (textBoundaries text).characterToByte spans true with
  | error e =>
    refine ⟨?_, fun _ _ h => by cases h⟩
    intro h
    obtain rfl := Except.error.inj h
    exact spans_error hsp
  | ok bs =>
    obtain ⟨hgood, rfl⟩ := (characterSpans_ok' text spans bs).1 hsp
    have hg := goodSpans_bytes hgood
    dsimp only
    by_cases hst : path.start = none
    · rw [if_pos hst]
      exact ⟨by simp, fun _ _ h => by cases h⟩
    rw [if_neg hst]
    cases hrun : runLoop (transStep (byteSpans text spans) (textBoundaries sel).byteIsWhitespace)
        { emittedStarts := List.replicate (byteSpans text spans).length none,
          emittedEnds := List.replicate (byteSpans text spans).length none } (linearArcs path).1 with
    | error e =>
      refine ⟨?_, fun _ _ h => by cases h⟩
      intro h
      obtain rfl := Except.error.inj h
      exact run_error _ hrun
    | ok s =>
      dsimp only
      have hinv := runTrans_inv hg (fun o b h => spaceByte_iff sel o b h)
        (tinv_init (byteSpans text spans) (SpaceByte sel)) hrun
      rw [List.nil_append] at hinv
      cases hstop : (linearArcs path).2 with
      | some e =>
        refine ⟨?_, fun _ _ h => by cases h⟩
        intro h
        obtain rfl := Except.error.inj h
        exact linear_error _ hstop
      | none =>
        dsimp only
        rw [characterToByte_last, characterToByte_last]
        by_cases hoff : some (bytePos text text.length) ≠ some s.inputOffset ∨
            some (bytePos sel sel.length) ≠ some s.outputOffset
        · rw [if_pos hoff]
          exact ⟨by simp, fun _ _ h => by cases h⟩
        rw [if_neg hoff]
        push Not at hoff
        obtain ⟨hoff1, hoff2⟩ := hoff
        have hoff1 := Option.some.inj hoff1
        have hoff2 := Option.some.inj hoff2
        have hfin := final_of_inv hinv
        have hn : bytePos text text.length = inAfter 0 (linearArcs path).1 := by
          rw [hoff1, hinv.inp]
        have hmk := marked_of_final (oo := s.outputOffset) hg hfin hn
        obtain ⟨r1, r2, r3, r4⟩ := transResult_layout (textBoundaries sel).byteToCharacter _
          s.outputOffset _ 0 hmk (fun _ _ _ _ => Nat.zero_le _)
        generalize hbo : (fun b => if b = s.inputOffset then some s.outputOffset
          else s.boundaryOffsets b) = bo at hfin hmk r1 r2 r3 r4 ⊢
        generalize hL : (byteSpans text spans).zip (s.emittedStarts.zip s.emittedEnds) = L
          at hfin hmk r1 r2 r3 r4 ⊢
        cases hres : transResult (textBoundaries sel).byteToCharacter bo s.outputOffset 0 L with
        | error e =>
          refine ⟨?_, fun _ _ h => by cases h⟩
          intro h
          obtain rfl := Except.error.inj h
          cases r1 _ hres
        | ok outs =>
          refine ⟨by simp, ?_⟩
          intro sel' outs' h
          simp only [Except.ok.injEq, Prod.mk.injEq] at h
          obtain ⟨rfl, rfl⟩ := h
          refine ⟨rfl, ?_⟩
          have hall := r2 _ hres
          -- the byte ranges are those of the returned character ranges
          have hlay : layout bo s.outputOffset 0 L = byteSpans sel outs ∧
              ∀ r ∈ outs, r.1 ≤ sel.length ∧ r.2 ≤ sel.length := by
            clear hres r1 r2 r3 r4
            generalize layout bo s.outputOffset 0 L = lay at hall
            induction hall with
            | nil => exact ⟨rfl, by simp⟩
            | @cons r xy l l' h _ ih =>
              have h1 := (byteToCharacter_iff sel _ _).1 h.1
              have h2 := (byteToCharacter_iff sel _ _).1 h.2
              refine ⟨?_, ?_⟩
              · rw [ih.1]
                unfold byteSpans
                rw [List.map_cons, h1.2, h2.2]
              · intro r' hr'
                rcases List.mem_cons.1 hr' with rfl | hr'
                · exact ⟨h1.1, h2.1⟩
                · exact ih.2 r' hr'
          obtain ⟨hlay, hin⟩ := hlay
          rw [hlay] at r3 r4
          have hlen : outs.length = spans.length := by
            have h1 : (layout bo s.outputOffset 0 L).length = outs.length := by
              rw [hlay]; simp [byteSpans]
            have h2 : (layout bo s.outputOffset 0 L).length = L.length := by
              clear * -
              generalize 0 = prev
              induction L generalizing prev with
              | nil => rfl
              | cons x L ih =>
                obtain ⟨p, es, ee⟩ := x
                cases es <;> cases ee <;> simp [layout, ih]
            rw [← h1, h2, hfin.len]
            simp [byteSpans]
          obtain ⟨start, hstart⟩ := Option.ne_none_iff_exists'.1 hst
          have hwalk : ∃ states, Walk path.arcs start states (linearArcs path).1 := by
            unfold linearArcs at hstop ⊢
            rw [hstart] at hstop ⊢
            obtain ⟨states, hw, _⟩ := (linearLoop_none path.arcs [] start
              (linearLoop path.arcs [] start).1).1 (by rw [← hstop])
            exact ⟨states, hw⟩
          obtain ⟨states, hwalk⟩ := hwalk
          refine ⟨hgood, ⟨start, states, _, hstart, hwalk, hn.symm, by rw [hoff2, hinv.out],
            hlen, ?_⟩, ?_, ?_⟩
          · intro k p r hp hr
            obtain ⟨r', g1, g2, g3⟩ := layout_get bo s.outputOffset L 0 k p _ _ (hfin.get k p hp)
            rw [hlay, hr] at g1
            obtain rfl := Option.some.inj g1
            refine ⟨?_, ?_⟩
            · intro a b ha hb
              exact g2 a (b + 1) ha (by rw [hb]; rfl)
            · intro hE
              rw [hE] at g3
              obtain ⟨q, hq, hr'⟩ := g3 rfl
              have hpn := good_lt hg hp
              obtain ⟨e, he, e1, e2⟩ := exists_consuming (x := 0) (o := 0)
                (as := (linearArcs path).1) (b := p.1) (Nat.zero_le _) (by omega)
              have hb := hfin.bound e he e1
              rw [e2] at hb
              rw [hb] at hr'
              rw [hlay] at hq
              exact ⟨q, e, he, e1, e2, hq, hr'⟩
          · intro r hr
            have h1 := hin r hr
            have h2 := (r3 (bytePos sel r.1, bytePos sel r.2) (List.mem_map.2 ⟨r, hr, rfl⟩)).2
            exact ⟨(bytePos_le_iff h1.1 h1.2).1 h2, h1.2⟩
          · unfold byteSpans at r4
            rw [List.pairwise_map] at r4
            refine r4.imp_of_mem ?_
            intro r r' hr hr' h
            exact (bytePos_le_iff (hin r hr).2 (hin r' hr').1).1 h
where
  spans_error {text : Str} {spans : List (Nat × Nat)} {re : Bool}
      (h : characterSpansToByteSpans text (textBoundaries text).characterToByte spans re =
        .error .overlap) : False := by
    unfold characterSpansToByteSpans at h
    generalize 0 = prev at h
    induction spans generalizing prev with
    | nil => cases h
    | cons p spans ih =>
      unfold byteSpansLoop at h
      split at h
      · cases h
      · split at h
        · cases h
        · split at h
          · split at h
            · rename_i h'
              obtain rfl := Except.error.inj h
              exact ih _ h'
            · cases h
          · cases h
  linear_error (path : Fst) (h : (linearArcs path).2 = some .overlap) : False := by
    unfold linearArcs at h
    split at h
    · cases h
    · rename_i s hst
      clear hst
      generalize ([] : List Nat) = v at h
      fun_induction linearLoop path.arcs v s with
      | case1 => cases h
      | case2 => cases h
      | case3 => cases h
      | case4 visited s hv a hs _ r ih => exact ih h
      | case5 => cases h
  run_error {spans : List (Nat × Nat)} {ws : List Bool} {as : List Arc} (s : TransState)
      (h : runLoop (transStep spans ws) s as = .error .overlap) : False := by
    induction as generalizing s with
    | nil => cases h
    | cons a as ih =>
      unfold runLoop at h
      split at h
      · rename_i hs
        obtain rfl := Except.error.inj h
        unfold transStep at hs
        dsimp only at hs
        split at hs
        · rename_i ho
          obtain rfl := Except.error.inj hs
          unfold transOwner at ho
          dsimp only at ho
          repeat' (first | cases ho | split at ho)
        · cases hs
      · exact ih _ h

end Verif.Align
