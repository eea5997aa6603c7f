import Verif.Cli.Model

/-
What the command line should do, without the parser: which argument vectors spell which options,
what a list of options asks for, and which lines a content has.
-/

namespace Verif.Cli

/-- `p` names an option of the table: it is one of its strings, or a long option's string is the
only one that `p` abbreviates. -/
def Designates (tbl : Table) (p : Str) (a : Act) : Prop :=
  (p, a) ∈ tbl ∨
    ((∀ b, (p, b) ∉ tbl) ∧ ['-', '-'] <+: p ∧ p ≠ ['-', '-'] ∧
      ∃ k, (k, a) ∈ tbl ∧ p <+: k ∧ ∀ e ∈ tbl, p <+: e.1 → e = (k, a))

/-- `s` can be the value of an option when it stands alone: it does not look like an option. -/
def Argument (digit : Char → Bool) (tbl : Table) (s : Str) : Prop :=
  s.head? ≠ some '-' ∨ s = ['-'] ∨
    (s ≠ ['-', '-'] ∧ (['-', '-'] <+: s → ∀ e ∈ tbl, ¬ (partition s).1 <+: e.1) ∧
      (∀ e ∈ tbl, e.1 ≠ s.take 2) ∧
      (negativeNumber digit s = true ∨ ' ' ∈ s))

/-- `argv` spells the options `items`. -/
inductive Spelled (digit : Char → Bool) (tbl : Table) :
    List Str → List (Act × Option Str) → Prop
  | nil : Spelled digit tbl [] []
  | joined {p v : Str} {a : Act} {rest items} : '=' ∉ p → Designates tbl p a → a.arity ≠ .zero →
      Spelled digit tbl rest items → Spelled digit tbl ((p ++ '=' :: v) :: rest) ((a, some v) :: items)
  | bare {p : Str} {a : Act} {rest items} : Designates tbl p a → a.arity ≠ .one →
      (∀ v, rest.head? = some v → ¬ Argument digit tbl v) →
      Spelled digit tbl rest items → Spelled digit tbl (p :: rest) ((a, none) :: items)
  | valued {p v : Str} {a : Act} {rest items} : Designates tbl p a → a.arity ≠ .zero →
      Argument digit tbl v →
      Spelled digit tbl rest items → Spelled digit tbl (p :: v :: rest) ((a, some v) :: items)

/-- The last value `f` finds in a list, or the default. -/
def lastOr (f : α → Option β) (dflt : β) (items : List α) : β :=
  (items.filterMap f).getLast?.getD dflt

/-- `s` is `true`, `false` in any mixture of cases. -/
def Says (s : Str) (b : Bool) : Prop :=
  s.map lower = (if b then "true" else "false").toList

/-- What an item asks for the switch `d`. -/
def asks (d : Str) : Act × Option Str → Option Bool
  | (.on e, none) => if e = d then some true else none
  | (.on e, some s) => if e = d then some (s.map lower = "true".toList) else none
  | (.off e, _) => if e = d then some false else none
  | _ => none

/-- The values given to an option that takes one. -/
def valueOf (a : Act) (i : Act × Option Str) : Option Str := if i.1 = a then i.2 else none

/-- The items are acceptable: no help, every truth value is one, the languages exist, not both a
text and a file. -/
structure Acceptable (items : List (Act × Option Str)) : Prop where
  noHelp : ∀ v, (Act.help, v) ∉ items
  truth : ∀ d s, (Act.on d, some s) ∈ items → ∃ b, Says s b
  known : ∀ l, (Act.language, some l) ∈ items → l ∈ languages
  single : ∀ s t, (Act.text, some s) ∈ items → (Act.file, some t) ∉ items

/-- The namespace the items ask for. -/
structure Result (ns : Namespace) (items : List (Act × Option Str)) (r : Namespace) : Prop where
  text : r.text = lastOr (fun i => (valueOf .text i).map some) ns.text items
  file : r.file = lastOr (fun i => (valueOf .file i).map some) ns.file items
  cacheDir : r.cacheDir = lastOr (fun i => (valueOf .cacheDir i).map some) ns.cacheDir items
  overwrite : r.overwrite = (ns.overwrite || items.any (fun i => i.1 = .overwrite))
  language : r.language = lastOr (valueOf .language) ns.language items
  flags : ∀ d b, find d ns.flags = some b → find d r.flags = some (lastOr (asks d) b items)
  names : r.flags.map (·.1) = ns.flags.map (·.1)

/-- A line ending is one of the three. -/
def LineEnd (t : Str) : Prop := t = ['\n'] ∨ t = ['\r', '\n'] ∨ t = ['\r']

/-- Text without line endings. -/
def NoEol (t : Str) : Prop := '\n' ∉ t ∧ '\r' ∉ t

/-- The lines of a content under universal newlines. -/
inductive HasLines : List Char → List Str → Prop
  | nil : HasLines [] []
  | last {t : Str} : t ≠ [] → NoEol t → HasLines t [t]
  | more {t e c : List Char} {ts} : NoEol t → LineEnd e → (e = ['\r'] → c.head? ≠ some '\n') →
      HasLines c ts → HasLines (t ++ e ++ c) (t :: ts)

/-- What is printed for a list of texts when nothing fails. -/
def printed (tag verb : Str → Str) (texts : List Str) : List Str :=
  texts.flatMap (fun t => [tag t, verb (tag t)])

end Verif.Cli
