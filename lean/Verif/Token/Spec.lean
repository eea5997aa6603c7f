/-
Specification of the tagged-token wire format, written without the parser's helpers.
It is the grammar that docs/python-rule-architecture.md and the tests describe:
a stream is a sequence of blocks `name { key: "value" ... }`.
-/

namespace Verif.Token.Spec

/-- Text. -/
abbrev Str := List Char

/-- A token as a user thinks of it: a type and its fields in order. -/
structure Tok where
  name : Str
  fields : List (Str × Str)
  deriving Repr, DecidableEq

/-- ASCII letters and underscore. -/
def NameChar (c : Char) : Prop :=
  ('a' ≤ c ∧ c ≤ 'z') ∨ ('A' ≤ c ∧ c ≤ 'Z') ∨ c = '_'

instance (c : Char) : Decidable (NameChar c) := by unfold NameChar; infer_instance

/-- Token types and field names: one or more letters or underscores. -/
def IsName (s : Str) : Prop := s ≠ [] ∧ ∀ c ∈ s, NameChar c

instance (s : Str) : Decidable (IsName s) := by unfold IsName; infer_instance

/-- A (possibly empty) run of spaces. -/
def Spaces (s : Str) : Prop := ∀ c ∈ s, c = ' '

/-- `Value written meaning`: the text between the quotes and the value it denotes. A backslash
makes the next quote or backslash literal; before any other character it stands for itself. -/
inductive Value : Str → Str → Prop
  | nil : Value [] []
  | plain {c w v} : c ≠ '"' → c ≠ '\\' → Value w v → Value (c :: w) (c :: v)
  | escaped {c w v} : c = '"' ∨ c = '\\' → Value w v → Value ('\\' :: c :: w) (c :: v)
  | other {c w v} : c ≠ '"' → c ≠ '\\' → Value w v → Value ('\\' :: c :: w) ('\\' :: c :: v)

/-- Text from after the opening brace up to and including the closing brace. -/
inductive Fields : Str → List (Str × Str) → Prop
  | close {sp} : Spaces sp → Fields (sp ++ ['}']) []
  | field {sp k w v rest fs} : Spaces sp → IsName k → Value w v → Fields rest fs →
      Fields (sp ++ (k ++ ([':', ' ', '"'] ++ (w ++ ('"' :: rest))))) ((k, v) :: fs)

/-- One written token. -/
inductive Block : Str → Tok → Prop
  | mk {n body fs} : IsName n → Fields body fs →
      Block (n ++ ([' ', '{', ' '] ++ body)) ⟨n, fs⟩

/-- A stream of written tokens with any number of spaces around them. -/
inductive Stream : Str → List Tok → Prop
  | done {sp} : Spaces sp → Stream sp []
  | block {sp b t rest ts} : Spaces sp → Block b t → Stream rest ts →
      Stream (sp ++ (b ++ rest)) (t :: ts)

/-- Field names of a token are pairwise different. -/
def Distinct (t : Tok) : Prop := (t.fields.map Prod.fst).Nodup

instance (t : Tok) : Decidable (Distinct t) := by unfold Distinct; infer_instance

/-- Escaping, one character at a time. -/
def esc (v : Str) : Str :=
  v.flatMap fun c => if c = '"' ∨ c = '\\' then ['\\', c] else [c]

/-- The canonical way to write a token. -/
def write (t : Tok) : Str :=
  t.name ++ " {".toList ++
    t.fields.flatMap (fun f => " ".toList ++ f.1 ++ ": \"".toList ++ esc f.2 ++ "\"".toList) ++
    " }".toList

/-- The canonical way to write a stream: tokens separated by one space. -/
def writeAll (ts : List Tok) : Str := (" ".toList).intercalate (ts.map write)

/-- A token that can be written: proper names, no repeated field. Values are arbitrary. -/
def Writable (t : Tok) : Prop :=
  IsName t.name ∧ (∀ f ∈ t.fields, IsName f.1) ∧ Distinct t

instance (t : Tok) : Decidable (Writable t) := by unfold Writable; infer_instance

/-- A token is exempt from reordering if its type has no schema or it says so itself. -/
def Exempt (schema : Str → Option (List Str)) (t : Tok) : Prop :=
  schema t.name = none ∨ ("preserve_order".toList, "true".toList) ∈ t.fields

/-- Schema order: declared fields that are present, in the declared order, then the rest in the
written order. -/
def canonical (declared : List Str) (fields : List (Str × Str)) : List (Str × Str) :=
  declared.flatMap (fun k => fields.filter (fun f => f.1 = k)) ++
    fields.filter (fun f => f.1 ∉ declared)

end Verif.Token.Spec
