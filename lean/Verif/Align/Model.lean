import Verif.Token.Model

/-
Model of /repo/tn/alignment.py: character/byte boundaries, linear paths, and the two tracing loops.

The composition and `shortestpath` calls (lines 120-121, 188-191) are not modelled: the path they
return is an argument, a finite automaton of arcs. `path.string()` is an argument too. Nothing is
assumed about either; the theorems say where an assumption is needed.
Python raises are values of `Except Err`.
-/

namespace Verif.Align
open Verif.Token (Str)

/-- How the functions of alignment.py can fail. -/
inductive Err where
  | noPath              -- "no WFST path for the requested input"
  | notLinear           -- "shortest WFST path is not linear"
  | cycle               -- "shortest WFST path contains a cycle"
  | badSpans            -- "token spans must be ordered, non-overlapping character ranges"
  | emptySpan           -- ValueError "input spans must be non-empty character ranges"
  | noInput             -- "tagged token did not consume any input"
  | splitCodePoint      -- "WFST path split a Unicode code point"
  | offsetMismatch      -- "WFST path offsets do not match its input/output strings"
  | overlap             -- "token output spans overlap or are out of order"
  | index               -- IndexError of a tuple or list access
  deriving Repr, DecidableEq

/-- `str.isspace()` for one character (CPython's `_PyUnicode_IsWhitespace`). -/
def isSpace (c : Char) : Bool :=
  let n := c.toNat
  (0x09 ≤ n && n ≤ 0x0D) || (0x1C ≤ n && n ≤ 0x20) || n == 0x85 || n == 0xA0 || n == 0x1680 ||
    (0x2000 ≤ n && n ≤ 0x200A) || n == 0x2028 || n == 0x2029 || n == 0x202F || n == 0x205F ||
    n == 0x3000

/-- `len(char.encode("utf-8"))`; `Char.utf8Size` is Lean's own. -/
def encodedLength (c : Char) : Nat := c.utf8Size

/-- Result of `_text_boundaries`. The dictionary is a finite map given as a function. -/
structure Boundaries where
  characterToByte : List Nat
  byteToCharacter : Nat → Option Nat
  byteIsWhitespace : List Bool

/-- Loop variables of `_text_boundaries`, alignment.py:72-76. -/
structure BoundState where
  characterToByte : List Nat := [0]
  byteToCharacter : Nat → Option Nat := fun b => if b = 0 then some 0 else none
  byteIsWhitespace : List Bool := []
  offset : Nat := 0
  /-- `index` of the `enumerate(text, 1)` step to come -/
  index : Nat := 1

/-- Loop body of `_text_boundaries`, alignment.py:77-81. -/
def boundStep (s : BoundState) (char : Char) : BoundState :=
  let n := encodedLength char
  let offset := s.offset + n
  { byteIsWhitespace := s.byteIsWhitespace ++ List.replicate n (isSpace char)
    offset := offset
    characterToByte := s.characterToByte ++ [offset]
    byteToCharacter := fun b => if b = offset then some s.index else s.byteToCharacter b
    index := s.index + 1 }

/-- `_text_boundaries`, alignment.py:71-82. -/
def textBoundaries (text : Str) : Boundaries :=
  let s := text.foldl boundStep {}
  ⟨s.characterToByte, s.byteToCharacter, s.byteIsWhitespace⟩

/-- The loop of `_character_spans_to_byte_spans`, alignment.py:86-95. Spans are natural numbers (a
negative start is below `previous_end` and rejected by the same test). -/
def byteSpansLoop (textLength : Nat) (characterToByte : List Nat) (rejectEmpty : Bool) :
    Nat → List (Nat × Nat) → Except Err (List (Nat × Nat))
  | _, [] => .ok []
  | previousEnd, (start, stop) :: rest =>
    if start < previousEnd ∨ stop < start ∨ stop > textLength then .error .badSpans
    else if rejectEmpty = true ∧ start = stop then .error .emptySpan
    else
      match characterToByte[start]?, characterToByte[stop]? with
      | some a, some b =>
        match byteSpansLoop textLength characterToByte rejectEmpty stop rest with
        | .error e => .error e
        | .ok l => .ok ((a, b) :: l)
      | _, _ => .error .index

/-- `_character_spans_to_byte_spans`, alignment.py:85-95. -/
def characterSpansToByteSpans (text : Str) (characterToByte : List Nat) (spans : List (Nat × Nat))
    (rejectEmpty : Bool := false) : Except Err (List (Nat × Nat)) :=
  byteSpansLoop text.length characterToByte rejectEmpty 0 spans

/-- An arc of a byte transducer; label 0 is epsilon. -/
structure Arc where
  ilabel : Nat
  olabel : Nat
  nextstate : Nat
  deriving Repr, DecidableEq

/-- A path automaton: start state (`none` is -1) and the arcs of each state. -/
structure Fst where
  start : Option Nat
  arcs : List (List Arc)
  deriving Repr, DecidableEq

/-- Number of states not in `visited`; only used for termination. -/
def unvisited (n : Nat) (visited : List Nat) : Nat :=
  ((List.range n).filter fun s => !visited.contains s).length

theorem unvisited_lt {n s : Nat} {visited : List Nat} (hs : s < n) (hv : s ∉ visited) :
    unvisited n (s :: visited) < unvisited n visited := by
  unfold unvisited
  have h1 : ((List.range n).filter fun x => !(s :: visited).contains x) =
      ((List.range n).filter fun x => !visited.contains x).filter fun x => !(x == s) := by
    rw [List.filter_filter]
    congr 1
    funext x
    simp only [List.contains_cons, Bool.not_or]
  rw [h1]
  exact List.length_filter_lt_length_iff_exists.2 ⟨s, by simpa using ⟨hs, hv⟩, by simp⟩

/-- The loop of `_linear_arcs`, alignment.py:103-114. The generator is the list of the arcs that it
yields and how it stops: `none` for a return, `some e` for a raise. -/
def linearLoop (arcs : List (List Arc)) (visited : List Nat) (state : Nat) :
    List Arc × Option Err :=
  if hv : state ∈ visited then ([], some .cycle)
  else
    match hs : arcs[state]? with
    | none => ([], none)
    | some [] => ([], none)
    | some [arc] =>
      have := unvisited_lt (List.getElem?_eq_some_iff.1 hs).1 hv
      let r := linearLoop arcs (state :: visited) arc.nextstate
      (arc :: r.1, r.2)
    | some (_ :: _ :: _) => ([], some .notLinear)
termination_by unvisited arcs.length visited

/-- `_linear_arcs`, alignment.py:98-114. -/
def linearArcs (path : Fst) : List Arc × Option Err :=
  match path.start with
  | none => ([], some .noPath)
  | some state => linearLoop path.arcs [] state

/-- The `while` loops of alignment.py:133-134 and 205-206: skip the spans that end at or before
`offset`. -/
def skipSpans (spans : List (Nat × Nat)) (offset : Nat) (tokenIndex : Nat) : Nat :=
  match h : spans[tokenIndex]? with
  | none => tokenIndex
  | some (_, stop) =>
    if offset ≥ stop then
      have := (List.getElem?_eq_some_iff.1 h).1
      skipSpans spans offset (tokenIndex + 1)
    else tokenIndex
termination_by spans.length - tokenIndex

/-! ### trace_input_spans -/

/-- Loop variables of `trace_input_spans`, alignment.py:125-129. -/
structure TraceState where
  consumedStarts : List (Option Nat)
  consumedEnds : List (Option Nat)
  inputOffset : Nat := 0
  outputOffset : Nat := 0
  tokenIndex : Nat := 0

/-- Choice of the owner, alignment.py:135-144. -/
def traceOwner (spans : List (Nat × Nat)) (whitespace : List Bool) (s : TraceState)
    (tokenIndex : Nat) (arc : Arc) : Except Err (Option Nat) :=
  match spans[tokenIndex]? with
  | none => .ok none
  | some (start, stop) =>
    if arc.ilabel ≠ 0 ∧ start ≤ s.outputOffset ∧ s.outputOffset < stop ∧
        (s.outputOffset ≠ start ∨ arc.olabel ≠ 0) then
      if arc.olabel ≠ 0 then .ok (some tokenIndex)
      else
        match whitespace[s.inputOffset]? with
        | none => .error .index
        | some isWhitespace =>
          if isWhitespace = true ∧ s.consumedStarts[tokenIndex]? = some none then .ok none
          else .ok (some tokenIndex)
    else if arc.ilabel ≠ 0 ∧ arc.olabel ≠ 0 ∧ s.outputOffset + 1 = start then
      match whitespace[s.inputOffset]? with
      | none => .error .index
      | some isWhitespace => if isWhitespace = false then .ok (some tokenIndex) else .ok none
    else .ok none

/-- `starts[owner]`/`ends[owner]` updates, alignment.py:145-148 and 223-226. -/
def record (starts ends : List (Option Nat)) (owner first next : Nat) :
    List (Option Nat) × List (Option Nat) :=
  ((match starts[owner]? with
    | some none => starts.set owner (some first)
    | _ => starts),
   ends.set owner (some next))

/-- `consumed_starts` and `consumed_ends` after an arc, alignment.py:145-148. -/
def traceMarks (s : TraceState) (owner : Option Nat) (nextInputOffset : Nat) :
    List (Option Nat) × List (Option Nat) :=
  match owner with
  | none => (s.consumedStarts, s.consumedEnds)
  | some o => record s.consumedStarts s.consumedEnds o s.inputOffset nextInputOffset

/-- Loop body of `trace_input_spans`, alignment.py:131-150. -/
def traceStep (spans : List (Nat × Nat)) (whitespace : List Bool) (s : TraceState) (arc : Arc) :
    Except Err TraceState :=
  let nextInputOffset := s.inputOffset + (if arc.ilabel ≠ 0 then 1 else 0)
  let tokenIndex := skipSpans spans s.outputOffset s.tokenIndex
  match traceOwner spans whitespace s tokenIndex arc with
  | .error e => .error e
  | .ok owner =>
    let marks := traceMarks s owner nextInputOffset
    .ok { consumedStarts := marks.1
          consumedEnds := marks.2
          inputOffset := nextInputOffset
          outputOffset := s.outputOffset + (if arc.olabel ≠ 0 then 1 else 0)
          tokenIndex := tokenIndex }

/-- A loop whose body can raise. -/
def runLoop {σ : Type} (step : σ → Arc → Except Err σ) : σ → List Arc → Except Err σ
  | s, [] => .ok s
  | s, a :: rest =>
    match step s a with
    | .error e => .error e
    | .ok s' => runLoop step s' rest

/-- Final loop of `trace_input_spans`, alignment.py:152-160. -/
def traceResult (byteToCharacter : Nat → Option Nat) :
    List (Option Nat × Option Nat) → Except Err (List (Nat × Nat))
  | [] => .ok []
  | (start, stop) :: rest =>
    match start with
    | none => .error .noInput
    | some a =>
      match byteToCharacter a, stop.bind byteToCharacter with
      | some x, some y =>
        match traceResult byteToCharacter rest with
        | .error e => .error e
        | .ok l => .ok ((x, y) :: l)
      | _, _ => .error .splitCodePoint

/-- `trace_input_spans`, alignment.py:117-160, for the path found on line 121. -/
def traceInputSpans (inputText outputText : Str) (path : Fst) (outputSpans : List (Nat × Nat)) :
    Except Err (List (Nat × Nat)) :=
  let input := textBoundaries inputText
  let output := textBoundaries outputText
  match characterSpansToByteSpans outputText output.characterToByte outputSpans with
  | .error e => .error e
  | .ok spans =>
    let arcs := linearArcs path
    let empty := List.replicate spans.length none
    match runLoop (traceStep spans input.byteIsWhitespace) ⟨empty, empty, 0, 0, 0⟩ arcs.1 with
    | .error e => .error e
    | .ok s =>
      match arcs.2 with
      | some e => .error e
      | none => traceResult input.byteToCharacter (s.consumedStarts.zip s.consumedEnds)

/-! ### transduce_with_spans -/

/-- Loop variables of `transduce_with_spans`, alignment.py:196-201. -/
structure TransState where
  emittedStarts : List (Option Nat)
  emittedEnds : List (Option Nat)
  boundaryOffsets : Nat → Option Nat := fun _ => none
  inputOffset : Nat := 0
  outputOffset : Nat := 0
  tokenIndex : Nat := 0

/-- The owner of an arc that consumes nothing, alignment.py:214-217. -/
def insideOwner (spans : List (Nat × Nat)) (inputOffset tokenIndex : Nat) : Option Nat :=
  match spans[tokenIndex]? with
  | none => none
  | some (start, stop) =>
    if (start < inputOffset ∧ inputOffset < stop) ∨ (tokenIndex = 0 ∧ inputOffset = start) then
      some tokenIndex
    else none

/-- Choice of the owner, alignment.py:207-222. -/
def transOwner (spans : List (Nat × Nat)) (whitespace : List Bool) (s : TransState)
    (tokenIndex : Nat) (arc : Arc) : Except Err (Option Nat) :=
  if arc.ilabel ≠ 0 then
    match spans[tokenIndex]? with
    | none => .ok none
    | some (start, stop) =>
      if start ≤ s.inputOffset ∧ s.inputOffset < stop then .ok (some tokenIndex) else .ok none
  else
    let owner := insideOwner spans s.inputOffset tokenIndex
    if arc.olabel = 0 then .ok owner
    else
      match whitespace[s.outputOffset]? with
      | none => .error .index
      | some isBoundaryWhitespace =>
        if owner = none ∧ isBoundaryWhitespace = false then
          match tokenIndex with
          | 0 => .ok none
          | previous + 1 =>
            match spans[previous]? with
            | none => .error .index
            | some (_, stop) => if stop ≤ s.inputOffset then .ok (some previous) else .ok none
        else .ok owner

/-- `emitted_starts` and `emitted_ends` after an arc, alignment.py:223-226. -/
def transMarks (s : TransState) (owner : Option Nat) (arc : Arc) :
    List (Option Nat) × List (Option Nat) :=
  match owner with
  | none => (s.emittedStarts, s.emittedEnds)
  | some o =>
    if arc.olabel ≠ 0 then record s.emittedStarts s.emittedEnds o s.outputOffset (s.outputOffset + 1)
    else (s.emittedStarts, s.emittedEnds)

/-- Loop body of `transduce_with_spans`, alignment.py:203-228. -/
def transStep (spans : List (Nat × Nat)) (whitespace : List Bool) (s : TransState) (arc : Arc) :
    Except Err TransState :=
  let boundaryOffsets := fun b => if b = s.inputOffset then some s.outputOffset else s.boundaryOffsets b
  let tokenIndex := skipSpans spans s.inputOffset s.tokenIndex
  match transOwner spans whitespace s tokenIndex arc with
  | .error e => .error e
  | .ok owner =>
    let marks := transMarks s owner arc
    .ok { emittedStarts := marks.1
          emittedEnds := marks.2
          boundaryOffsets := boundaryOffsets
          inputOffset := s.inputOffset + (if arc.ilabel ≠ 0 then 1 else 0)
          outputOffset := s.outputOffset + (if arc.olabel ≠ 0 then 1 else 0)
          tokenIndex := tokenIndex }

/-- Final loop of `transduce_with_spans`, alignment.py:236-250. -/
def transResult (byteToCharacter : Nat → Option Nat) (boundaryOffsets : Nat → Option Nat)
    (outputOffset : Nat) :
    Nat → List ((Nat × Nat) × Option Nat × Option Nat) → Except Err (List (Nat × Nat))
  | _, [] => .ok []
  | previousEnd, ((inputStart, _), emittedStart, emittedEnd) :: rest =>
    let range : Except Err (Nat × Nat) :=
      match emittedStart, emittedEnd with
      | some a, some b => if a < previousEnd then .error .overlap else .ok (a, b)
      | some _, none => .error .index
      | none, _ =>
        let o := max ((boundaryOffsets inputStart).getD outputOffset) previousEnd
        .ok (o, o)
    match range with
    | .error e => .error e
    | .ok (a, b) =>
      match byteToCharacter a, byteToCharacter b with
      | some x, some y =>
        match transResult byteToCharacter boundaryOffsets outputOffset b rest with
        | .error e => .error e
        | .ok l => .ok ((x, y) :: l)
      | _, _ => .error .splitCodePoint

/-- `transduce_with_spans`, alignment.py:163-251, for the path found on line 191 and the string
`selectedOutput` that `path.string()` returns on line 194. -/
def transduceWithSpans (inputText : Str) (path : Fst) (selectedOutput : Str)
    (inputSpans : List (Nat × Nat)) : Except Err (Str × List (Nat × Nat)) :=
  let input := textBoundaries inputText
  match characterSpansToByteSpans inputText input.characterToByte inputSpans true with
  | .error e => .error e
  | .ok spans =>
    if path.start = none then .error .noPath
    else
      let output := textBoundaries selectedOutput
      let arcs := linearArcs path
      let empty := List.replicate spans.length none
      match runLoop (transStep spans output.byteIsWhitespace)
          { emittedStarts := empty, emittedEnds := empty } arcs.1 with
      | .error e => .error e
      | .ok s =>
        match arcs.2 with
        | some e => .error e
        | none =>
          let boundaryOffsets := fun b =>
            if b = s.inputOffset then some s.outputOffset else s.boundaryOffsets b
          if input.characterToByte.getLast? ≠ some s.inputOffset ∨
              output.characterToByte.getLast? ≠ some s.outputOffset then .error .offsetMismatch
          else
            match transResult output.byteToCharacter boundaryOffsets s.outputOffset 0
                (spans.zip (s.emittedStarts.zip s.emittedEnds)) with
            | .error e => .error e
            | .ok l => .ok (selectedOutput, l)

end Verif.Align
