import Verif.Token.Model
import Verif.Align.Model
import Mathlib.Algebra.Order.Group.Defs
import Mathlib.Data.List.Nodup
import Mathlib.Data.List.Perm.Subperm

/-
Model of the n-best search in tn/processor.py (`_UniqueOutputPathStream`, lines 68-116, and
`Processor.tag`, `normalize`, `normalize_with_mapping`, `_normalization_candidates`,
`_normalize_candidate_with_mapping`, lines 294-488).

`shortestpath` is an oracle: a `Lattice` holds the best weight of every output string and, for every
`n`, the answer of `shortestpath(lattice, nshortest=n, unique=True)`. The fields say what the
answer is; ties are broken in any way and differently for every `n`. Weights are a linearly ordered
additive group (rounding of floats is not modelled).
-/

namespace Verif.NBest
open Verif.Token (Str)

variable {W : Type} [LinearOrder W]

/-- A lattice projected to its outputs, with the answers of `shortestpath`. -/
structure Lattice (W : Type) [LinearOrder W] where
  /-- Weight of the best path with this output, `none` when there is no such path. -/
  best : Str → Option W
  /-- The paths of `shortestpath(lattice, nshortest=n, unique=True)` in the order of `paths()`. -/
  shortest : Nat → List (Str × W)
  sound : ∀ n p, p ∈ shortest n → best p.1 = some p.2
  nodup : ∀ n, ((shortest n).map Prod.fst).Nodup
  sorted : ∀ n, (shortest n).Pairwise fun p q => p.2 ≤ q.2
  atMost : ∀ n, (shortest n).length ≤ n
  /-- A short answer has all outputs. -/
  complete : ∀ n x w, (shortest n).length < n → best x = some w → (x, w) ∈ shortest n
  /-- Outputs that are not in the answer are not lighter than those in it. -/
  lightest : ∀ n x w p, best x = some w → (x, w) ∉ shortest n → p ∈ shortest n → p.2 ≤ w

/-- `_WeightedOutput`, processor.py:46-50. -/
structure WeightedOutput (W : Type) where
  text : Str
  weight : W
  rank : Nat
  deriving DecidableEq

/-- `_UniqueOutputPathStream`'s variables, processor.py:71-78. `yielded` lists the set's elements,
newest first; the rank -1 of unyielded items is left out. -/
structure Stream (W : Type) [LinearOrder W] where
  lattice : Lattice W
  items : List (Str × W) := []
  yielded : List Str := []
  nextRank : Nat := 0
  limit : Nat := 0
  exhausted : Bool := false

/-- The inner loop of `_expand`, processor.py:86-96, with the set `seen`. -/
def collect (yielded : List Str) : List Str → List (Str × W) → List (Str × W)
  | _, [] => []
  | seen, (output, weight) :: rest =>
    if output ∉ seen ∧ output ∉ yielded then
      (output, weight) :: collect yielded (output :: seen) rest
    else collect yielded seen rest

/-- `_expand`, processor.py:80-100. -/
def Stream.expand (s : Stream W) : Stream W :=
  if s.exhausted then s
  else
    let limit := if s.limit = 0 then 1 else s.limit * 2
    let paths := s.lattice.shortest limit
    { s with
      items := collect s.yielded [] paths
      limit := limit
      exhausted := decide (paths.length < limit) }

theorem mem_collect (yielded : List Str) (seen : List Str) (l : List (Str × W)) (p : Str × W)
    (hn : (l.map Prod.fst).Nodup) (hs : ∀ q ∈ l, q.1 ∉ seen) :
    p ∈ collect yielded seen l ↔ p ∈ l ∧ p.1 ∉ yielded := by
  induction l generalizing seen with
  | nil => simp [collect]
  | cons q l ih =>
    obtain ⟨x, w⟩ := q
    rw [List.map_cons, List.nodup_cons] at hn
    have hx : x ∉ seen := hs (x, w) (by simp)
    unfold collect
    have hs1 : ∀ q ∈ l, q.1 ∉ x :: seen := by
      intro q hq h
      rcases List.mem_cons.1 h with h | h
      · exact hn.1 (List.mem_map.2 ⟨q, hq, h⟩)
      · exact hs q (by simp [hq]) h
    have hs2 : ∀ q ∈ l, q.1 ∉ seen := fun q hq => hs q (by simp [hq])
    split
    · rename_i h
      rw [List.mem_cons, ih _ hn.2 hs1, List.mem_cons]
      constructor
      · rintro (rfl | h')
        · exact ⟨.inl rfl, h.2⟩
        · exact ⟨.inr h'.1, h'.2⟩
      · rintro ⟨rfl | h', h''⟩
        · exact .inl rfl
        · exact .inr ⟨h', h''⟩
    · rename_i h
      have hy : x ∈ yielded := by
        by_contra hc; exact h ⟨hx, hc⟩
      rw [ih _ hn.2 hs2, List.mem_cons]
      constructor
      · exact fun h' => ⟨.inr h'.1, h'.2⟩
      · rintro ⟨rfl | h', h''⟩
        · exact absurd hy h''
        · exact ⟨h', h''⟩

/-- More paths than yielded outputs leave an item (only used for termination). -/
theorem expand_progress (s : Stream W) (he : s.expand.exhausted = false)
    (hi : s.expand.items = []) : s.limit < s.expand.limit ∧ s.expand.limit ≤ s.yielded.length := by
  unfold Stream.expand at *
  by_cases hx : s.exhausted = true
  · simp only [hx, if_true, Bool.true_eq_false] at he
  · simp only [hx, Bool.false_eq_true, if_false] at he hi ⊢
    have hlen := s.lattice.nodup (if s.limit = 0 then 1 else s.limit * 2)
    have hmem := fun p => mem_collect s.yielded []
      (s.lattice.shortest (if s.limit = 0 then 1 else s.limit * 2)) p hlen (by simp)
    rw [hi] at hmem
    simp only [decide_eq_false_iff_not, Nat.not_lt] at he
    have hsub : (s.lattice.shortest (if s.limit = 0 then 1 else s.limit * 2)).map Prod.fst ⊆
        s.yielded := by
      intro x hx
      obtain ⟨p, hp, rfl⟩ := List.mem_map.1 hx
      by_contra hc
      exact absurd ((hmem p).2 ⟨hp, hc⟩) (by simp)
    have := (hlen.subperm hsub).length_le
    rw [List.length_map] at this
    refine ⟨?_, Nat.le_trans he this⟩
    split <;> omega

theorem expand_yielded (s : Stream W) : s.expand.yielded = s.yielded := by
  unfold Stream.expand; split <;> rfl

/-- The loop of `peek`, processor.py:103-104. -/
def Stream.peekLoop (s : Stream W) : Stream W :=
  if s.items = [] ∧ s.exhausted = false then
    if h : s.expand.items = [] ∧ s.expand.exhausted = false then
      have : s.expand.yielded.length + 1 - s.expand.limit < s.yielded.length + 1 - s.limit := by
        have h1 := expand_progress s h.2 h.1
        rw [expand_yielded]
        omega
      s.expand.peekLoop
    else s.expand
  else s
termination_by s.yielded.length + 1 - s.limit

/-- `peek`, processor.py:102-108: the answer and the changed stream. -/
def Stream.peek (s : Stream W) : Option (WeightedOutput W) × Stream W :=
  let s := s.peekLoop
  match s.items with
  | [] => (none, s)
  | (text, weight) :: _ => (some ⟨text, weight, s.nextRank⟩, s)

/-- `pop`, processor.py:110-116. -/
def Stream.pop (s : Stream W) : Option (WeightedOutput W) × Stream W :=
  match s.peek with
  | (none, s) => (none, s)
  | (some item, s) =>
    (some item, { s with yielded := item.text :: s.yielded
                         items := s.items.drop 1
                         nextRank := s.nextRank + 1 })

/-! ### The search -/

variable [AddCommGroup W]

/-- `_NormalizationCandidate`, processor.py:53-61. -/
structure Candidate (W : Type) where
  tagged : Str
  output : Str
  taggerWeight : W
  verbalizerWeight : W
  bestVerbalizerWeight : W
  taggerRank : Nat
  verbalizerRank : Nat
  deriving DecidableEq

/-- `_NormalizationCandidate.weight`, processor.py:63-65. -/
def Candidate.weight (c : Candidate W) : W :=
  c.taggerWeight + c.verbalizerWeight - c.bestVerbalizerWeight

/-- `candidate.weight, candidate.tagger_rank, candidate.verbalizer_rank`, processor.py:388-390. -/
abbrev Key (W : Type) := W × Nat × Nat

def Candidate.key (c : Candidate W) : Key W := (c.weight, c.taggerRank, c.verbalizerRank)

/-- `<` of Python tuples. -/
def keyLt (a b : Key W) : Prop :=
  a.1 < b.1 ∨ (a.1 = b.1 ∧ (a.2.1 < b.2.1 ∨ (a.2.1 = b.2.1 ∧ a.2.2 < b.2.2)))

instance (a b : Key W) : Decidable (keyLt a b) := by unfold keyLt; infer_instance

/-- An entry of the heap `frontier`. The serial number is left out: it is only compared when two
entries have the same tagger rank, which never happens (`Inv.ranks`). -/
structure Entry (W : Type) [LinearOrder W] where
  candidate : Candidate W
  stream : Stream W

/-- `heapq.heappop(frontier)`: the smallest entry and the others. -/
def popMin : List (Entry W) → Option (Entry W × List (Entry W))
  | [] => none
  | e :: es =>
    match popMin es with
    | none => some (e, [])
    | some (m, rest) =>
      if keyLt m.candidate.key e.candidate.key then some (m, e :: rest) else some (e, m :: rest)

/-- What a pipeline consists of: the parser's field orders, the lattice of the tagger for an input
(`accep(escape(input)) @ self.tagger`) and of the verbalizer for a reordered tagging, and the paths
used by the alignment. -/
structure Pipeline (W : Type) [LinearOrder W] where
  orders : Verif.Token.Orders
  tagger : Str → Lattice W
  verbalizer : Str → Lattice W
  /-- The path of alignment.py:119-120 for `(input_text, output_text)`. -/
  tagPath : Str → Str → Verif.Align.Fst
  /-- The path of alignment.py:188-191 and `path.string()` for `(input_text, output_text)`. -/
  verbPath : Str → Str → Verif.Align.Fst × Str
  /-- `shortestpath(escape(input) @ self.tagger, nshortest=1, unique=True).string()` in `tag`. -/
  tagOne : Str → Option Str

/-- Exceptions. -/
inductive Err where
  | value
  | runtime
  | parse (e : Verif.Token.Err)
  | align (e : Verif.Align.Err)
  | fst
  deriving Repr, DecidableEq

/-- Loop variables of `_normalization_candidates`, processor.py:357-361. -/
structure Search (W : Type) [LinearOrder W] where
  tagger : Stream W
  frontier : List (Entry W) := []
  candidates : List (Candidate W) := []
  seenOutputs : List Str := []

/-- `parser.reorder(tagged)`, token_parser.py:198-200. -/
def reorder (orders : Verif.Token.Orders) (tagged : Str) : Except Err Str :=
  match Verif.Token.reorderWithSpans orders tagged with
  | .error e => .error (.parse e)
  | .ok r => .ok r.1

/-- `activate_next_tag`, processor.py:363-396. The Boolean is the returned value. -/
def activateNextTag (p : Pipeline W) (s : Search W) : Except Err (Bool × Search W) :=
  match s.tagger.pop with
  | (none, tagger) => .ok (false, { s with tagger := tagger })
  | (some taggedPath, tagger) =>
    match reorder p.orders taggedPath.text with
    | .error e => .error e
    | .ok reordered =>
      match ({ lattice := p.verbalizer reordered } : Stream W).pop with
      | (none, _) => .ok (true, { s with tagger := tagger })
      | (some v, stream) =>
        let candidate : Candidate W :=
          { tagged := taggedPath.text, output := v.text
            taggerWeight := taggedPath.weight, verbalizerWeight := v.weight
            bestVerbalizerWeight := v.weight
            taggerRank := taggedPath.rank, verbalizerRank := v.rank }
        .ok (true, { s with tagger := tagger, frontier := ⟨candidate, stream⟩ :: s.frontier })

/-- The part of the loop after the frontier entry is taken, processor.py:418-444. -/
def acceptEntry (s : Search W) (e : Entry W) (rest : List (Entry W)) : Search W :=
  let frontier :=
    match e.stream.pop with
    | (none, _) => rest
    | (some v, stream) =>
      ⟨{ tagged := e.candidate.tagged, output := v.text
         taggerWeight := e.candidate.taggerWeight, verbalizerWeight := v.weight
         bestVerbalizerWeight := e.candidate.bestVerbalizerWeight
         taggerRank := e.candidate.taggerRank, verbalizerRank := v.rank }, stream⟩ :: rest
  if e.candidate.output ∈ s.seenOutputs then { s with frontier := frontier }
  else { s with frontier := frontier
                candidates := s.candidates ++ [e.candidate]
                seenOutputs := e.candidate.output :: s.seenOutputs }

/-- Result of one iteration: go on, or leave the loop by `break`. -/
inductive Next (W : Type) [LinearOrder W] where
  | continue (s : Search W)
  | break (s : Search W)

/-- One iteration of the loop, processor.py:399-444. -/
def step (p : Pipeline W) (s : Search W) : Except Err (Next W) :=
  let peeked := s.tagger.peek
  let s := { s with tagger := peeked.2 }
  match popMin s.frontier with
  | none =>
    match activateNextTag p s with
    | .error e => .error e
    | .ok (false, s) => .ok (.break s)
    | .ok (true, s) => .ok (.continue s)
  | some (e, rest) =>
    match peeked.1 with
    | none => .ok (.continue (acceptEntry s e rest))
    | some tag =>
      if keyLt (tag.weight, tag.rank, 0) e.candidate.key then
        match activateNextTag p s with
        | .error e => .error e
        | .ok (_, s) => .ok (.continue s)
      else .ok (.continue (acceptEntry s e rest))

/-- The loop and the final check, processor.py:398-448. `none`: not finished within `fuel`
iterations (the Python loop has no bound). -/
def loop (p : Pipeline W) (nbest : Nat) : Nat → Search W → Option (Except Err (List (Candidate W)))
  | fuel, s =>
    if s.candidates.length < nbest then
      match fuel with
      | 0 => none
      | fuel + 1 =>
        match step p s with
        | .error e => some (.error e)
        | .ok (.break s) => some (if s.candidates = [] then .error .runtime else .ok s.candidates)
        | .ok (.continue s) => loop p nbest fuel s
    else some (if s.candidates = [] then .error .runtime else .ok s.candidates)

/-- `_normalization_candidates`, processor.py:356-448. -/
def candidates (p : Pipeline W) (fuel : Nat) (input : Str) (nbest : Nat) :
    Option (Except Err (List (Candidate W))) :=
  loop p nbest fuel { tagger := { lattice := p.tagger input } }

/-! ### Entry points -/

/-- Values that can be passed for `nbest`. -/
inductive PyValue where
  | bool (b : Bool)
  | int (n : Int)
  | other
  deriving Repr, DecidableEq

/-- `_validate_nbest`, processor.py:294-297. -/
def validateNbest : PyValue → Except Err Nat
  | .bool _ => .error .value
  | .other => .error .value
  | .int n => if n < 1 then .error .value else .ok n.toNat

/-- A result or a list of results, depending on `nbest`. -/
inductive Shaped (α : Type) where
  | one (a : α)
  | many (l : List α)
  deriving Repr, DecidableEq

/-- `outputs[0] if nbest == 1 else outputs`. -/
def shape {α : Type} (nbest : Nat) (l : List α) : Except Err (Shaped α) :=
  if nbest = 1 then
    match l with
    | [] => .error .runtime
    | a :: _ => .ok (.one a)
  else .ok (.many l)

/-- `tag`, processor.py:299-313. -/
def tag (p : Pipeline W) (input : Str) (nbest : PyValue) : Except Err (Shaped Str) :=
  match validateNbest nbest with
  | .error e => .error e
  | .ok n =>
    if input.length = 0 then shape n [[]]
    else if n = 1 then
      match p.tagOne input with
      | none => .error .fst
      | some t => .ok (.one t)
    else .ok (.many (((p.tagger input).shortest n).map Prod.fst))

/-- `normalize`, processor.py:332-338. -/
def normalize (p : Pipeline W) (fuel : Nat) (input : Str) (nbest : PyValue) :
    Option (Except Err (Shaped Str)) :=
  match validateNbest nbest with
  | .error e => some (.error e)
  | .ok n =>
    if input = [] then some (shape n [[]])
    else
      match candidates p fuel input n with
      | none => none
      | some (.error e) => some (.error e)
      | some (.ok cs) => some (shape n (cs.map fun c => c.output))

/-- `kind` of a mapping, alignment.py:29. -/
inductive Kind where
  | equal
  | delete
  | replace
  deriving Repr, DecidableEq

/-- `NormalizationMapping`, alignment.py:26-36. -/
structure Mapping where
  kind : Kind
  tokenType : Str
  inputStart : Nat
  inputEnd : Nat
  outputStart : Nat
  outputEnd : Nat
  inputText : Str
  outputText : Str
  deriving Repr, DecidableEq

/-- `NormalizationResult`, alignment.py. -/
structure Result where
  inputText : Str
  outputText : Str
  mappings : List Mapping
  deriving Repr, DecidableEq

/-- Python's `text[a:b]` for non-negative bounds. -/
def slice (text : Str) (a b : Nat) : Str := (text.take b).drop a

/-- `kind`, processor.py:469-474. -/
def kindOf (source spoken : Str) : Kind :=
  if source = spoken then .equal else if spoken = [] then .delete else .replace

/-- The loop over the tokens, processor.py:465-486. -/
def mappings (input output : Str) (includeIdentity : Bool) :
    List (Verif.Token.Token × (Nat × Nat) × (Nat × Nat)) → List Mapping
  | [] => []
  | (token, (inputStart, inputEnd), (outputStart, outputEnd)) :: rest =>
    let source := slice input inputStart inputEnd
    let spoken := slice output outputStart outputEnd
    let kind := kindOf source spoken
    if includeIdentity = true ∨ kind ≠ .equal then
      ⟨kind, token.name, inputStart, inputEnd, outputStart, outputEnd, source, spoken⟩ ::
        mappings input output includeIdentity rest
    else mappings input output includeIdentity rest

/-- `_verbalize_tagged(tagged, trace_tokens=True, output_text=...)`, processor.py:321-330: the
output, the parser's tokens and the output spans. -/
def verbalizeTagged (p : Pipeline W) (tagged outputText : Str) :
    Except Err (Str × List Verif.Token.Token × List (Nat × Nat)) :=
  match Verif.Token.parse tagged, Verif.Token.reorderWithSpans p.orders tagged with
  | .error e, _ => .error (.parse e)
  | .ok _, .error e => .error (.parse e)
  | .ok tokens, .ok (reordered, tokenSpans) =>
    let path := p.verbPath reordered outputText
    match Verif.Align.transduceWithSpans reordered path.1 path.2 tokenSpans with
    | .error e => .error (.align e)
    | .ok (output, spans) => .ok (output, tokens, spans)

/-- `(token.start, token.end)` of every token; `parse` sets every end. -/
def tokenSpans (tokens : List Verif.Token.Token) : List (Nat × Nat) :=
  tokens.map fun t => (t.start, t.stop.getD 0)

/-- `_normalize_candidate_with_mapping`, processor.py:450-488. -/
def normalizeCandidate (p : Pipeline W) (input : Str) (c : Candidate W) (includeIdentity : Bool) :
    Except Err Result :=
  match verbalizeTagged p c.tagged c.output with
  | .error e => .error e
  | .ok (output, tokens, outputSpans) =>
    match Verif.Align.traceInputSpans input c.tagged (p.tagPath input c.tagged)
        (tokenSpans tokens) with
    | .error e => .error (.align e)
    | .ok inputSpans =>
      .ok ⟨input, output, mappings input output includeIdentity
        (tokens.zip (inputSpans.zip outputSpans))⟩

/-- The list comprehension of processor.py:353; the first exception is raised. -/
def mapM' {α β : Type} (f : α → Except Err β) : List α → Except Err (List β)
  | [] => .ok []
  | a :: l =>
    match f a with
    | .error e => .error e
    | .ok b =>
      match mapM' f l with
      | .error e => .error e
      | .ok bs => .ok (b :: bs)

/-- `normalize_with_mapping`, processor.py:340-354. -/
def normalizeWithMapping (p : Pipeline W) (fuel : Nat) (input : Str) (nbest : PyValue)
    (includeIdentity : Bool := false) : Option (Except Err (Shaped Result)) :=
  match validateNbest nbest with
  | .error e => some (.error e)
  | .ok n =>
    if input = [] then some (shape n [⟨[], [], []⟩])
    else
      match candidates p fuel input n with
      | none => none
      | some (.error e) => some (.error e)
      | some (.ok cs) =>
        match mapM' (fun c => normalizeCandidate p input c includeIdentity) cs with
        | .error e => some (.error e)
        | .ok rs => some (shape n rs)

end Verif.NBest
