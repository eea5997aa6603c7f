import Verif.Align.Total
import Mathlib.Data.List.TakeWhile

/-!
Properties C18-C21 and C61-C63 of the alignment code (tn/alignment.py).

Every theorem is for all texts, all transducer paths and all span lists; nothing is assumed of the
path except what is written in the statement.
-/

namespace Verif.Align
open Spec
open Verif.Token (Str)

/-! ### C20: characters and bytes -/

/-- **C20.** The character table lists the byte offset of every character boundary and nothing
else. -/
theorem C20_character_to_byte (text : Str) (i b : Nat) :
    (textBoundaries text).characterToByte[i]? = some b ↔
      i ≤ text.length ∧ b = (bytes (text.take i)).length := by
  rw [characterToByte_get]
  split
  · rename_i h
    simp only [Option.some.injEq, h, true_and]
    exact eq_comm
  · rename_i h; simp [h]

example : (textBoundaries "aé中".toList).characterToByte = [0, 1, 3, 6] := by decide +kernel

/-- **C20.** The two tables are inverse to each other: a byte offset is in the byte table exactly
when it is a character boundary. -/
theorem C20_inverse (text : Str) (b i : Nat) :
    (textBoundaries text).byteToCharacter b = some i ↔
      (textBoundaries text).characterToByte[i]? = some b := by
  rw [byteToCharacter_iff, C20_character_to_byte]
  exact and_congr_right fun _ => eq_comm

example : (textBoundaries "aé中".toList).byteToCharacter 3 = some 2 ∧
    (textBoundaries "aé中".toList).byteToCharacter 2 = none := by decide +kernel

/-- **C20.** Cutting characters `i..j` of a text and encoding is cutting the encoded text at the
table's offsets. -/
theorem C20_slice (text : Str) (i j x y : Nat) (hij : i ≤ j)
    (hx : (textBoundaries text).characterToByte[i]? = some x)
    (hy : (textBoundaries text).characterToByte[j]? = some y) :
    bytes ((text.drop i).take (j - i)) = ((bytes text).drop x).take (y - x) := by
  obtain ⟨hi, rfl⟩ := (C20_character_to_byte text i x).1 hx
  obtain ⟨hj, rfl⟩ := (C20_character_to_byte text j y).1 hy
  have h1 : text = text.take i ++ ((text.drop i).take (j - i) ++ text.drop j) := by
    conv_lhs => rw [← List.take_append_drop i text, ← List.take_append_drop (j - i) (text.drop i)]
    rw [List.drop_drop, Nat.add_sub_cancel' hij]
  have h2 : text.take j = text.take i ++ (text.drop i).take (j - i) := by
    conv_lhs => rw [h1, ← List.append_assoc]
    rw [List.take_append_of_le_length (by simp; omega), List.take_of_length_le (by simp; omega)]
  have h3 : bytes text = bytes (text.take i) ++
      (bytes ((text.drop i).take (j - i)) ++ bytes (text.drop j)) := by
    conv_lhs => rw [h1, bytes_append, bytes_append]
  rw [h3, h2, bytes_append, List.length_append, Nat.add_sub_cancel_left, List.drop_left,
    List.take_left]

example : bytes (("aé中".toList.drop 1).take 1) = (((bytes "aé中".toList).drop 1).take 2) := by
  decide +kernel

/-- **C20.** The white-space table says of every byte whether its character is white space. -/
theorem C20_white_space (text : Str) (o : Nat) (b : Bool) :
    (textBoundaries text).byteIsWhitespace[o]? = some b ↔
      ∃ i c, text[i]? = some c ∧ isSpace c = b ∧
        (bytes (text.take i)).length ≤ o ∧ o < (bytes (text.take (i + 1))).length :=
  byteIsWhitespace_get text o b

example : (textBoundaries "é b".toList).byteIsWhitespace = [false, false, true, false] := by
  decide +kernel

/-- **C20.** Span conversion accepts exactly the ordered ranges inside the text and converts their
ends exactly. -/
theorem C20_spans (text : Str) (spans r : List (Nat × Nat)) :
    (characterSpansToByteSpans text (textBoundaries text).characterToByte spans = .ok r ↔
      ((∀ p ∈ spans, p.1 ≤ p.2 ∧ p.2 ≤ text.length) ∧ spans.Pairwise fun p q => p.2 ≤ q.1) ∧
        r = byteSpans text spans) ∧
    (characterSpansToByteSpans text (textBoundaries text).characterToByte spans true = .ok r ↔
      GoodSpans text.length spans ∧ r = byteSpans text spans) :=
  ⟨characterSpans_ok text spans r, characterSpans_ok' text spans r⟩

example : (characterSpansToByteSpans "é 中b".toList (textBoundaries "é 中b".toList).characterToByte
    [(0, 1), (2, 4)] true).toOption =
    some [(0, 2), (3, 7)] := by decide +kernel

/-! ### C62: reading the path -/

/-- **C62.** Reading a path ends for every automaton, and ends without an error exactly when the
automaton is one line of arcs from its start state through different states. -/
theorem C62_linear (path : Fst) (arcs : List Arc) :
    linearArcs path = (arcs, none) ↔
      ∃ start states, path.start = some start ∧ Walk path.arcs start states arcs := by
  constructor
  · intro h
    obtain ⟨start, states, h1, h2⟩ := walk_of_linear (path := path) (by rw [h])
    rw [h] at h2
    exact ⟨start, states, h1, h2⟩
  · rintro ⟨start, states, h1, h2⟩
    exact linear_of_walk h1 h2

/-- The path used in the examples: input `ab c`, output `XéZ`, the white space is deleted and `Z`
comes late. -/
def demoPath : Fst :=
  ⟨some 0, [[⟨97, 88, 1⟩], [⟨98, 0xC3, 2⟩], [⟨0, 0xA9, 3⟩], [⟨32, 0, 4⟩], [⟨99, 0, 5⟩],
    [⟨0, 90, 6⟩], []]⟩

example : (linearArcs demoPath).1.length = 6 ∧ (linearArcs demoPath).2 = none := by decide +kernel

/-! ### C18: output spans -/

/-- **C18.** The internal overlap check never fails. -/
theorem C18_no_overlap (text : Str) (path : Fst) (sel : Str) (spans : List (Nat × Nat)) :
    transduceWithSpans text path sel spans ≠ .error .overlap :=
  (transduce_cases text path sel spans).1

/-- **C18.** One output range per token, inside the output, in order, without overlap. -/
theorem C18_spans (text : Str) (path : Fst) (sel sel' : Str) (spans outs : List (Nat × Nat))
    (h : transduceWithSpans text path sel spans = .ok (sel', outs)) :
    sel' = sel ∧ outs.length = spans.length ∧
      (∀ r ∈ outs, r.1 ≤ r.2 ∧ r.2 ≤ sel.length) ∧ outs.Pairwise fun r r' => r.2 ≤ r'.1 := by
  obtain ⟨h1, h2⟩ := (transduce_cases text path sel spans).2 sel' outs h
  obtain ⟨_, _, _, _, _, _, _, hlen, _⟩ := h2.walk
  exact ⟨h1, hlen, h2.inside, h2.sorted⟩

example : (transduceWithSpans "ab c".toList demoPath "XéZ".toList [(0, 2), (3, 4)]).toOption =
    some ("XéZ".toList, [(0, 2), (2, 3)]) := by decide +kernel

/-- **C63.** For ordered non-empty spans and a linear path that consumes the whole input and writes
the whole output, the only way to fail is that a span would begin or end inside a code point. -/
theorem C63_transduce_total (text sel : Str) (path : Fst) (spans : List (Nat × Nat)) (start : Nat)
    (states : List Nat) (arcs : List Arc) (hgood : GoodSpans text.length spans)
    (hs : path.start = some start) (hw : Walk path.arcs start states arcs)
    (hin : ((arcs.filter fun a => decide (a.ilabel ≠ 0))).length = (bytes text).length)
    (hout : ((arcs.filter fun a => decide (a.olabel ≠ 0))).length = (bytes sel).length) :
    (∃ outs, transduceWithSpans text path sel spans = .ok (sel, outs)) ∨
      transduceWithSpans text path sel spans = .error .splitCodePoint := by
  refine trans_total hgood hs hw ?_ ?_
  · unfold inAfter bytePos; rw [List.take_length]; omega
  · unfold outAfter bytePos; rw [List.take_length]; omega

/-- **C63.** A success is only possible on such a path. -/
theorem C63_checked (text sel sel' : Str) (path : Fst) (spans outs : List (Nat × Nat))
    (h : transduceWithSpans text path sel spans = .ok (sel', outs)) :
    GoodSpans text.length spans ∧ ∃ start states arcs, path.start = some start ∧
      Walk path.arcs start states arcs ∧
      ((arcs.filter fun a => decide (a.ilabel ≠ 0))).length = (bytes text).length ∧
      ((arcs.filter fun a => decide (a.olabel ≠ 0))).length = (bytes sel).length := by
  have h2 := ((transduce_cases text path sel spans).2 sel' outs h).2
  obtain ⟨start, states, arcs, w1, w2, w3, w4, _, _⟩ := h2.walk
  refine ⟨h2.good, start, states, arcs, w1, w2, ?_, ?_⟩
  · unfold inAfter bytePos at w3; rw [List.take_length] at w3; omega
  · unfold outAfter bytePos at w4; rw [List.take_length] at w4; omega

/-- **C63.** The same for the trace of the tagger, which also fails for a token without input. -/
theorem C63_trace_total (text tagged : Str) (path : Fst) (spans : List (Nat × Nat)) (start : Nat)
    (states : List Nat) (arcs : List Arc)
    (hord : (∀ p ∈ spans, p.1 ≤ p.2 ∧ p.2 ≤ tagged.length) ∧ spans.Pairwise fun p q => p.2 ≤ q.1)
    (hs : path.start = some start) (hw : Walk path.arcs start states arcs)
    (hin : ((arcs.filter fun a => decide (a.ilabel ≠ 0))).length = (bytes text).length) :
    (∃ outs, traceInputSpans text tagged path spans = .ok outs) ∨
      traceInputSpans text tagged path spans = .error .noInput ∨
      traceInputSpans text tagged path spans = .error .splitCodePoint := by
  refine trace_total hord hs hw ?_
  unfold inAfter bytePos; rw [List.take_length]; omega

/-- A path that meets the hypotheses. -/
example : Walk demoPath.arcs 0 [0, 1, 2, 3, 4, 5, 6]
    [⟨97, 88, 1⟩, ⟨98, 0xC3, 2⟩, ⟨0, 0xA9, 3⟩, ⟨32, 0, 4⟩, ⟨99, 0, 5⟩, ⟨0, 90, 6⟩] := by
  refine .step rfl (.step rfl (.step rfl (.step rfl (.step rfl (.step rfl (.done (.inr rfl)) ?_)
    ?_) ?_) ?_) ?_) ?_ <;> decide

/-! ### C19: input spans -/

/-- **C19.** One input range per token, non-empty, inside the input, in order, without overlap. -/
theorem C19_spans (inputText outputText : Str) (path : Fst) (spans outs : List (Nat × Nat))
    (h : traceInputSpans inputText outputText path spans = .ok outs) :
    outs.length = spans.length ∧
      (∀ r ∈ outs, r.1 < r.2 ∧ r.2 ≤ inputText.length) ∧ outs.Pairwise fun r r' => r.2 ≤ r'.1 := by
  obtain ⟨_, h2, h3, h4⟩ := trace_ok h
  exact ⟨h2, h3, h4⟩

example : (traceInputSpans "ab c".toList "XéZ".toList
    ⟨some 0, [[⟨97, 88, 1⟩], [⟨98, 0xC3, 2⟩], [⟨0, 0xA9, 3⟩], [⟨32, 0, 4⟩], [⟨99, 90, 5⟩], []]⟩
    [(0, 2), (2, 3)]).toOption =
    some [(0, 2), (3, 4)] := by decide +kernel

/-! ### C21: ownership of output -/

/-- **C21.** On the line of arcs of the path, a token's byte range is from its first owned output
byte to its last; a token that owns no output has an empty range, after all output written before
its first input byte is consumed and after the range of the token before it. -/
theorem C21_ownership (text : Str) (path : Fst) (sel sel' : Str) (spans outs : List (Nat × Nat))
    (h : transduceWithSpans text path sel spans = .ok (sel', outs)) :
    ∃ start states arcs, path.start = some start ∧ Walk path.arcs start states arcs ∧
      ∀ (k : Nat) (p r : Nat × Nat), (byteSpans text spans)[k]? = some p → (byteSpans sel outs)[k]? = some r →
        (∀ e ∈ events 0 0 arcs, e.emits → Owns (byteSpans text spans) (SpaceByte sel) e k →
          r.1 ≤ e.out ∧ e.out < r.2) ∧
        (r.1 < r.2 →
          (∃ e ∈ events 0 0 arcs, e.emits ∧ Owns (byteSpans text spans) (SpaceByte sel) e k ∧
            e.out = r.1) ∧
          (∃ e ∈ events 0 0 arcs, e.emits ∧ Owns (byteSpans text spans) (SpaceByte sel) e k ∧
            e.out + 1 = r.2)) ∧
        ((∀ e ∈ events 0 0 arcs, e.emits → ¬ Owns (byteSpans text spans) (SpaceByte sel) e k) →
          r.1 = r.2 ∧ ∃ before e, e ∈ events 0 0 arcs ∧ e.consumes ∧ e.inp = p.1 ∧
            (k = 0 ∧ before = 0 ∨
              ∃ j r', k = j + 1 ∧ (byteSpans sel outs)[j]? = some r' ∧ before = r'.2) ∧
            r.1 = max e.out before) := by
  obtain ⟨rfl, h2⟩ := (transduce_cases text path sel spans).2 sel' outs h
  obtain ⟨start, states, arcs, w1, w2, _, _, _, w3⟩ := h2.walk
  refine ⟨start, states, arcs, w1, w2, ?_⟩
  intro k p r hp hr
  obtain ⟨g1, g2⟩ := w3 k p r hp hr
  have hsort := owned_sorted (byteSpans text spans) (SpaceByte sel') arcs k
  have hmem : ∀ o, o ∈ owned (byteSpans text spans) (SpaceByte sel') arcs k ↔ _ :=
    fun o => mem_owned
  generalize owned (byteSpans text spans) (SpaceByte sel') arcs k = E at *
  cases hE : E with
  | nil =>
    subst hE
    obtain ⟨q, e, e1, e2, e3, e4, rfl⟩ := g2 rfl
    refine ⟨?_, ?_, ?_⟩
    · intro e' h1 h2 h3
      exact absurd ((hmem e'.out).2 ⟨e', h1, h2, h3, rfl⟩) (by simp)
    · intro hlt; exact absurd hlt (Nat.lt_irrefl _)
    · intro _; exact ⟨rfl, q, e, e1, e2, e3, e4, rfl⟩
  | cons a l =>
    obtain ⟨b, hb⟩ : ∃ b, E.getLast? = some b := by
      rw [hE]; exact ⟨_, List.getLast?_eq_some_getLast (by simp)⟩
    have ha : E.head? = some a := by rw [hE]; rfl
    obtain rfl := g1 a b ha hb
    have ham : a ∈ E := List.mem_of_mem_head? ha
    have hbm : b ∈ E := List.mem_of_mem_getLast? hb
    have hle : ∀ o ∈ E, a ≤ o ∧ o ≤ b := by
      intro o ho
      constructor
      · rw [hE] at ho hsort
        rcases List.mem_cons.1 ho with rfl | ho
        · exact Nat.le_refl _
        · exact Nat.le_of_lt ((List.pairwise_cons.1 hsort).1 o ho)
      · obtain ⟨pre, hpre⟩ := List.getLast?_eq_some_iff.1 hb
        rw [hpre] at ho hsort
        rcases List.mem_append.1 ho with ho | ho
        · exact Nat.le_of_lt ((List.pairwise_append.1 hsort).2.2 o ho b (by simp))
        · rw [List.mem_singleton.1 ho]
    refine ⟨?_, ?_, ?_⟩
    · intro e' h1 h2 h3
      have := hle _ ((hmem e'.out).2 ⟨e', h1, h2, h3, rfl⟩)
      dsimp only
      omega
    · intro _
      obtain ⟨e, e1, e2, e3, rfl⟩ := (hmem a).1 ham
      obtain ⟨f, f1, f2, f3, rfl⟩ := (hmem b).1 hbm
      exact ⟨⟨e, e1, e2, e3, rfl⟩, ⟨f, f1, f2, f3, rfl⟩⟩
    · intro hno
      obtain ⟨e, e1, e2, e3, _⟩ := (hmem a).1 ham
      exact absurd e3 (hno e e1 e2)

/-- **C21.** Output written strictly inside a token's input range is inside the token's output
range. -/
theorem C21_inside (text : Str) (path : Fst) (sel sel' : Str) (spans outs : List (Nat × Nat))
    (h : transduceWithSpans text path sel spans = .ok (sel', outs)) :
    ∃ start states arcs, path.start = some start ∧ Walk path.arcs start states arcs ∧
      ∀ (k : Nat) (p r : Nat × Nat), (byteSpans text spans)[k]? = some p → (byteSpans sel outs)[k]? = some r →
        ∀ e ∈ events 0 0 arcs, e.emits → p.1 < e.inp → e.inp < p.2 →
          r.1 ≤ e.out ∧ e.out < r.2 := by
  obtain ⟨start, states, arcs, w1, w2, w3⟩ := C21_ownership text path sel sel' spans outs h
  refine ⟨start, states, arcs, w1, w2, ?_⟩
  intro k p r hp hr e he hem h1 h2
  refine (w3 k p r hp hr).1 e he hem ?_
  by_cases hc : e.consumes
  · exact .inl ⟨hc, p, hp, by omega, h2⟩
  · exact .inr (.inl ⟨hc, p, hp, .inl ⟨h1, h2⟩⟩)

/-- **C21.** White space written on a boundary without consuming input is nobody's: it neither
begins nor ends a range. -/
theorem C21_separator (text : Str) (path : Fst) (sel sel' : Str) (spans outs : List (Nat × Nat))
    (h : transduceWithSpans text path sel spans = .ok (sel', outs)) :
    ∃ start states arcs, path.start = some start ∧ Walk path.arcs start states arcs ∧
      ∀ (k : Nat) (r : Nat × Nat), (byteSpans sel outs)[k]? = some r → r.1 < r.2 →
        ∀ e ∈ events 0 0 arcs, e.emits → ¬ e.consumes → SpaceByte sel e.out →
          (∀ j, ¬ Inside (byteSpans text spans) e.inp j) → e.out ≠ r.1 ∧ e.out + 1 ≠ r.2 := by
  obtain ⟨start, states, arcs, w1, w2, w3⟩ := C21_ownership text path sel sel' spans outs h
  have hlen := (C18_spans text path sel sel' spans outs h).2.1
  refine ⟨start, states, arcs, w1, w2, ?_⟩
  intro k r hr hlt e he hem hc hsp hno
  have hk : k < (byteSpans text spans).length := by
    have := (List.getElem?_eq_some_iff.1 hr).1
    simp only [byteSpans, List.length_map] at this ⊢
    omega
  obtain ⟨⟨f, f1, f2, f3, f4⟩, ⟨g, g1, g2, g3, g4⟩⟩ :=
    (w3 k _ r (List.getElem?_eq_getElem hk) hr).2.1 hlt
  have hsame : ∀ f ∈ events 0 0 arcs, f.emits → e.out = f.out → e = f := by
    intro f hf hfe heq
    rcases mem_order (events_pairwise 0 0 arcs) he hf with h | h | h
    · exact h
    · have := h.2.2.2 hem; omega
    · have := h.2.2.2 hfe; omega
  have hnot : ¬ Owns (byteSpans text spans) (SpaceByte sel) e k := by
    rintro (⟨h, _⟩ | ⟨_, h⟩ | ⟨_, _, h, _⟩)
    · exact hc h
    · exact hno k h
    · exact h hsp
  constructor
  · intro heq
    obtain rfl := hsame f f1 f2 (by omega)
    exact hnot f3
  · intro heq
    obtain rfl := hsame g g1 g2 (by omega)
    exact hnot g3

/-- `a`, a separator written without consuming, `b`: the separator is outside both ranges. -/
example : (transduceWithSpans "ab".toList
    ⟨some 0, [[⟨97, 97, 1⟩], [⟨0, 32, 2⟩], [⟨98, 98, 3⟩], []]⟩ "a b".toList [(0, 1), (1, 2)]).toOption =
    some ("a b".toList, [(0, 1), (2, 3)]) := by decide +kernel

/-- Late output that is not white space belongs to the token before, and a token without output is
empty after it. -/
example : (transduceWithSpans "ab".toList
    ⟨some 0, [[⟨97, 0, 1⟩], [⟨0, 88, 2⟩], [⟨98, 0, 3⟩], []]⟩ "X".toList [(0, 1), (1, 2)]).toOption =
    some ("X".toList, [(0, 1), (1, 1)]) := by decide +kernel

/-! ### C61: ownership of input -/

/-- **C61.** A token's input byte range begins with its first arc that is not deleted white space
and ends with its last arc. -/
theorem C61_trace_rule (inputText outputText : Str) (path : Fst) (spans outs : List (Nat × Nat))
    (h : traceInputSpans inputText outputText path spans = .ok outs) :
    ∃ start states arcs, path.start = some start ∧ Walk path.arcs start states arcs ∧
      ∀ (k : Nat) (r : Nat × Nat), (byteSpans inputText outs)[k]? = some r → ∃ e f,
        e ∈ events 0 0 arcs ∧ f ∈ events 0 0 arcs ∧ e.inp = r.1 ∧ f.inp + 1 = r.2 ∧
        Touches (byteSpans outputText spans) (SpaceByte inputText) e k ∧
        ¬ DeletedSpace (SpaceByte inputText) e ∧
        (∀ e' ∈ events 0 0 arcs, Touches (byteSpans outputText spans) (SpaceByte inputText) e' k →
          ¬ DeletedSpace (SpaceByte inputText) e' → e.inp ≤ e'.inp) ∧
        Touches (byteSpans outputText spans) (SpaceByte inputText) f k ∧
        (∀ f' ∈ events 0 0 arcs, Touches (byteSpans outputText spans) (SpaceByte inputText) f' k →
          f'.inp ≤ f.inp) := by
  classical
  obtain ⟨start, states, arcs, w1, w2, w3⟩ := trace_rule h
  refine ⟨start, states, arcs, w1, w2, ?_⟩
  intro k r hr
  obtain ⟨e, f, he, hf, rfl⟩ := w3 k r hr
  unfold touched at he hf
  have hsort : ((events 0 0 arcs).filter fun e => decide
      (Touches (byteSpans outputText spans) (SpaceByte inputText) e k)).Pairwise
      fun e f => e.inp < f.inp := by
    refine ((events_pairwise 0 0 arcs).sublist List.filter_sublist).imp_of_mem ?_
    intro e f he _ h
    have := (List.mem_filter.1 he).2
    rw [decide_eq_true_eq] at this
    exact h.2.2.1 this.1
  have hmem : ∀ e, e ∈ (events 0 0 arcs).filter (fun e => decide
      (Touches (byteSpans outputText spans) (SpaceByte inputText) e k)) ↔
      e ∈ events 0 0 arcs ∧ Touches (byteSpans outputText spans) (SpaceByte inputText) e k := by
    intro e; rw [List.mem_filter, decide_eq_true_eq]
  generalize (events 0 0 arcs).filter (fun e => decide
      (Touches (byteSpans outputText spans) (SpaceByte inputText) e k)) = T at *
  have hsplit := List.takeWhile_append_dropWhile (p := fun e => decide
    (DeletedSpace (SpaceByte inputText) e)) (l := T)
  have htake : ∀ x ∈ T.takeWhile (fun e => decide (DeletedSpace (SpaceByte inputText) e)),
      DeletedSpace (SpaceByte inputText) x := by
    intro x hx
    have := List.mem_takeWhile_imp hx
    rwa [decide_eq_true_eq] at this
  have hhead : ¬ DeletedSpace (SpaceByte inputText) e := by
    have := List.head?_dropWhile_not (p := fun e => decide
      (DeletedSpace (SpaceByte inputText) e)) (l := T)
    rw [he] at this
    simpa using this
  generalize T.dropWhile (fun e => decide (DeletedSpace (SpaceByte inputText) e)) = D at *
  generalize T.takeWhile (fun e => decide (DeletedSpace (SpaceByte inputText) e)) = A at *
  have heD : e ∈ D := List.mem_of_mem_head? he
  have hfD : f ∈ D := List.mem_of_mem_getLast? hf
  have heT : e ∈ T := by rw [← hsplit]; exact List.mem_append.2 (.inr heD)
  have hfT : f ∈ T := by rw [← hsplit]; exact List.mem_append.2 (.inr hfD)
  rw [← hsplit] at hsort
  obtain ⟨s1, s2, s3⟩ := List.pairwise_append.1 hsort
  refine ⟨e, f, ((hmem e).1 heT).1, ((hmem f).1 hfT).1, rfl, rfl, ((hmem e).1 heT).2, hhead, ?_,
    ((hmem f).1 hfT).2, ?_⟩
  · intro e' h1 h2 h3
    have : e' ∈ A ++ D := by rw [hsplit]; exact (hmem e').2 ⟨h1, h2⟩
    rcases List.mem_append.1 this with h | h
    · exact absurd (htake e' h) h3
    · cases D with
      | nil => cases heD
      | cons d D =>
        obtain rfl := Option.some.inj he
        rcases List.mem_cons.1 h with rfl | h
        · exact Nat.le_refl _
        · exact Nat.le_of_lt ((List.pairwise_cons.1 s2).1 e' h)
  · intro f' h1 h2
    have : f' ∈ A ++ D := by rw [hsplit]; exact (hmem f').2 ⟨h1, h2⟩
    rcases List.mem_append.1 this with h | h
    · exact Nat.le_of_lt (s3 f' h f hfD)
    · obtain ⟨pre, hpre⟩ := List.getLast?_eq_some_iff.1 hf
      rw [hpre] at h s2
      rcases List.mem_append.1 h with h | h
      · exact Nat.le_of_lt ((List.pairwise_append.1 s2).2.2 f' h f (by simp))
      · rw [List.mem_singleton.1 h]

/-- White space deleted in front of a token is not part of its range. -/
example : (traceInputSpans " ab".toList "xy".toList
    ⟨some 0, [[⟨32, 0, 1⟩], [⟨97, 120, 2⟩], [⟨98, 121, 3⟩], []]⟩ [(0, 2)]).toOption =
    some [(1, 3)] := by decide +kernel

end Verif.Align
