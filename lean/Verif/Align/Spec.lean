import Verif.Align.Model

/-
Specification of the alignment claims, written over the list of arcs of a path and without the
loops' state.
-/

namespace Verif.Align.Spec
open Verif.Align (Arc)

open Verif.Token (Str)

/-- UTF-8 bytes of a text (Lean's own encoder). -/
def bytes (text : Str) : List UInt8 := text.flatMap String.utf8EncodeChar

/-- Byte offset of the boundary before character number `i`. -/
def bytePos (text : Str) (i : Nat) : Nat := (bytes (text.take i)).length

/-- Character ranges as byte ranges. -/
def byteSpans (text : Str) (spans : List (Nat × Nat)) : List (Nat × Nat) :=
  spans.map fun p => (bytePos text p.1, bytePos text p.2)

/-- Ranges are non-empty, in order, without overlap and end at `limit` at most. -/
def GoodSpans (limit : Nat) (spans : List (Nat × Nat)) : Prop :=
  (∀ p ∈ spans, p.1 < p.2 ∧ p.2 ≤ limit) ∧ spans.Pairwise fun p q => p.2 ≤ q.1

instance (limit : Nat) (spans : List (Nat × Nat)) : Decidable (GoodSpans limit spans) := by
  unfold GoodSpans; infer_instance

/-- An arc together with the number of input and output bytes before it. -/
structure Event where
  inp : Nat
  out : Nat
  arc : Arc
  deriving Repr, DecidableEq

def Event.consumes (e : Event) : Prop := e.arc.ilabel ≠ 0
def Event.emits (e : Event) : Prop := e.arc.olabel ≠ 0

instance (e : Event) : Decidable e.consumes := by unfold Event.consumes; infer_instance
instance (e : Event) : Decidable e.emits := by unfold Event.emits; infer_instance

/-- The arcs of a path with their offsets. -/
def events : Nat → Nat → List Arc → List Event
  | _, _, [] => []
  | x, o, a :: rest =>
    ⟨x, o, a⟩ :: events (if a.ilabel ≠ 0 then x + 1 else x) (if a.olabel ≠ 0 then o + 1 else o) rest

/-- Input position `x` is inside token `i` without being on its first boundary, or it is the first
boundary of the very first token. -/
def Inside (spans : List (Nat × Nat)) (x i : Nat) : Prop :=
  ∃ p, spans[i]? = some p ∧ ((p.1 < x ∧ x < p.2) ∨ (i = 0 ∧ x = p.1))

/-- The documented ownership rule (`transduce_with_spans`' docstring): output belongs to the token
whose input range the arc consumes from or is inside of; output that is not white space, emitted
on a boundary without consuming, belongs to the preceding token. -/
def Owns (spans : List (Nat × Nat)) (space : Nat → Prop) (e : Event) (i : Nat) : Prop :=
  (e.consumes ∧ ∃ p, spans[i]? = some p ∧ p.1 ≤ e.inp ∧ e.inp < p.2) ∨
  (¬ e.consumes ∧ Inside spans e.inp i) ∨
  (¬ e.consumes ∧ (∀ j, ¬ Inside spans e.inp j) ∧ ¬ space e.out ∧
    ∃ p, spans[i]? = some p ∧ p.2 ≤ e.inp ∧ ∀ j q, i < j → spans[j]? = some q → e.inp < q.2)

/-- Byte number `o` of the text belongs to a white-space character. -/
def SpaceByte (text : Str) (o : Nat) : Prop :=
  ∃ i c, text[i]? = some c ∧ Verif.Align.isSpace c = true ∧ bytePos text i ≤ o ∧ o < bytePos text (i + 1)

/-- The rule of `trace_input_spans` for one consuming arc: it belongs to the token whose output
range it writes into (or, after the first byte of that range, stands in without writing), or to the
next token when it writes the single byte just before that token from a byte that is not white
space (the opening quote's neighbour of a literal). -/
def Touches (spans : List (Nat × Nat)) (space : Nat → Prop) (e : Event) (i : Nat) : Prop :=
  e.consumes ∧ ∃ p, spans[i]? = some p ∧ (∀ j q, j < i → spans[j]? = some q → q.2 ≤ e.out) ∧
    ((p.1 ≤ e.out ∧ e.out < p.2 ∧ (e.out ≠ p.1 ∨ e.emits)) ∨
     (e.out < p.2 ∧ e.emits ∧ e.out + 1 = p.1 ∧ ¬ space e.inp))

/-- A white-space byte that is consumed without output. -/
def DeletedSpace (space : Nat → Prop) (e : Event) : Prop := ¬ e.emits ∧ space e.inp

/-- A walk along single arcs through pairwise different states to a state without arcs. -/
inductive Walk (arcs : List (List Arc)) : Nat → List Nat → List Arc → Prop
  | done {s} : (arcs[s]? = none ∨ arcs[s]? = some []) → Walk arcs s [s] []
  | step {s a states rest} : arcs[s]? = some [a] → Walk arcs a.nextstate states rest →
      s ∉ states → Walk arcs s (s :: states) (a :: rest)

end Verif.Align.Spec
