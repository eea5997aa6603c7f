import Mathlib.Data.List.Basic

/-
The command line of both directions (tn/cli.py), with the part of `argparse` (CPython 3.11) that
its parsers use: options only, no positionals, `nargs` one of none, `'?'` and 0, abbreviations,
`--name=value`, `--`, one mutually exclusive group and the help option.

`SystemExit` is the value `Stop`; the text of messages is not modelled.  `str.lower` is applied
only to compare with "true" and "false"; the only non-ASCII characters that lower to ASCII are
U+0130 (to `i` and a combining dot) and U+212A (to `k`), so ASCII lowering decides the same.
-/

namespace Verif.Cli

abbrev Str := List Char

/-- How `argparse` ends the program: `help` is `SystemExit(0)`, `usage` is `SystemExit(2)`. -/
inductive Stop where
  | help
  | usage
deriving DecidableEq, Repr

/-- The actions the parsers register, cli.py:33-72 and 121: `on`/`off` are the two of
`_add_boolean` for one `dest`. -/
inductive Act where
  | help
  | text
  | file
  | cacheDir
  | overwrite
  | language
  | on (dest : Str)
  | off (dest : Str)
deriving DecidableEq, Repr

/-- `parser._option_string_actions`: option strings in order of registration. -/
abbrev Table := List (Str × Act)

/-- `d.get(k)` -/
def find (s : Str) : List (Str × α) → Option α
  | [] => none
  | (k, v) :: rest => if k = s then some v else find s rest

/-- `s.partition('=')`: the part before the first `=` and, if there is one, the part after. -/
def partition : Str → Str × Option Str
  | [] => ([], none)
  | c :: s => if c = '=' then ([], some s) else (c :: (partition s).1, (partition s).2)

/-- `_get_option_tuples`, argparse.py, for an argument of at least two characters whose first is
`-`; the last component tells the separator `''` of a joined short option from `=`. -/
def optionTuples (tbl : Table) (s : Str) : List (Act × Option Str × Bool) :=
  if (s.drop 1).head? = some '-' then
    (tbl.filter (fun e => (partition s).1.isPrefixOf e.1)).map
      (fun e => (e.2, (partition s).2, false))
  else
    (tbl.filter (fun e => e.1 = s.take 2 || s.isPrefixOf e.1)).map
      (fun e => if e.1 = s.take 2 then (e.2, some (s.drop 2), true) else (e.2, none, false))

/-- `_negative_number_matcher`, `^-\d+$|^-\d*\.\d+$`; `$` also matches before a final newline.
`digit` is the class `\d`. -/
def negativeNumber (digit : Char → Bool) (s : Str) : Bool :=
  let t := if s.getLast? = some '\n' then s.dropLast else s
  match t with
  | '-' :: r =>
    (r ≠ [] && r.all digit) ||
      (match r.dropWhile digit with
       | '.' :: f => f ≠ [] && f.all digit
       | _ => false)
  | _ => false

/-- How an argument is classified before parsing: `A`, `O` or `-` in `arg_string_pattern`. -/
inductive Cls where
  | arg
  | dashes
  /-- an option, `none` if unknown; the explicit argument; whether it is joined to a short one -/
  | opt (act : Option Act) (explicit : Option Str) (joined : Bool)
deriving DecidableEq, Repr

/-- `_parse_optional`, argparse.py -/
def parseOptional (digit : Char → Bool) (tbl : Table) (s : Str) : Except Stop Cls :=
  if s.head? ≠ some '-' then .ok .arg
  else
    match find s tbl with
    | some a => .ok (.opt (some a) none false)
    | none =>
      if s.length = 1 then .ok .arg
      else
        match (partition s).2, find (partition s).1 tbl with
        | some v, some a => .ok (.opt (some a) (some v) false)
        | _, _ =>
          match optionTuples tbl s with
          | [t] => .ok (.opt (some t.1) t.2.1 t.2.2)
          | _ :: _ :: _ => .error .usage
          | [] =>
            if negativeNumber digit s then .ok .arg
            else if ' ' ∈ s then .ok .arg
            else .ok (.opt none none false)

/-- The scan of `_parse_known_args`: everything after `--` is an argument. -/
def classify (digit : Char → Bool) (tbl : Table) : List Str → Except Stop (List (Str × Cls))
  | [] => .ok []
  | s :: rest =>
    if s = ['-', '-'] then .ok ((s, .dashes) :: rest.map (fun t => (t, .arg)))
    else
      match parseOptional digit tbl s with
      | .error e => .error e
      | .ok c =>
        match classify digit tbl rest with
        | .error e => .error e
        | .ok cs => .ok ((s, c) :: cs)

/-- The namespace; `flags` holds the boolean destinations. -/
structure Namespace where
  text : Option Str
  file : Option Str
  cacheDir : Option Str
  overwrite : Bool
  language : Str
  flags : List (Str × Bool)
deriving DecidableEq, Repr

/-- `setattr(namespace, dest, value)` on the boolean part -/
def setFlag (d : Str) (v : Bool) : List (Str × Bool) → List (Str × Bool)
  | [] => [(d, v)]
  | (k, w) :: rest => if k = d then (k, v) :: rest else (k, w) :: setFlag d v rest

/-- Lowering of ASCII letters; see the head of this file. -/
def lower (c : Char) : Char := if 'A' ≤ c ∧ c ≤ 'Z' then Char.ofNat (c.toNat + 32) else c

/-- `_parse_bool`, cli.py:22-30, on a text -/
def parseBool (s : Str) : Except Stop Bool :=
  if s.map lower = "true".toList then .ok true
  else if s.map lower = "false".toList then .ok false
  else .error .usage

/-- `LANGUAGES`, cli.py:19 -/
def languages : List Str := ["zh".toList, "en".toList, "ja".toList]

/-- How many arguments an action takes: none, `'?'` or one (`nargs`). -/
inductive Arity where
  | zero
  | optional
  | one
deriving DecidableEq, Repr

/-- cli.py:40-72; `store_true`, `store_false` and the help action take none. -/
def Act.arity : Act → Arity
  | .help => .zero
  | .text => .one
  | .file => .one
  | .cacheDir => .one
  | .overwrite => .zero
  | .language => .one
  | .on _ => .optional
  | .off _ => .zero

/-- `take_action` of `_parse_known_args` for an action with its argument, if any: conversion, the
check of the mutually exclusive group (a text is never the default `None`, so a present option
always counts), the effect.  The help action prints and exits. -/
def takeAction (ns : Namespace) (a : Act) (v : Option Str) : Except Stop Namespace :=
  match a, v with
  | .help, _ => .error .help
  | .text, some s => if ns.file.isSome then .error .usage else .ok { ns with text := some s }
  | .file, some s => if ns.text.isSome then .error .usage else .ok { ns with file := some s }
  | .cacheDir, some s => .ok { ns with cacheDir := some s }
  | .overwrite, none => .ok { ns with overwrite := true }
  | .language, some s =>
    if s ∈ languages then .ok { ns with language := s } else .error .usage
  | .on d, none => .ok { ns with flags := setFlag d true ns.flags }
  | .on d, some s =>
    match parseBool s with
    | .ok b => .ok { ns with flags := setFlag d b ns.flags }
    | .error e => .error e
  | .off d, none => .ok { ns with flags := setFlag d false ns.flags }
  | _, _ => .error .usage

/-- What follows a joined `-h`: further letters are options of their own; all ways end the
program. -/
def helpTail : Str → Stop
  | [] => .help
  | '-' :: _ => .usage
  | ['h'] => .help
  | 'h' :: '=' :: _ => .usage
  | 'h' :: t => helpTail t
  | _ => .help

/-- The loop of `_parse_known_args` without positionals: the namespace and the extra arguments. -/
def loop : List (Str × Cls) → Namespace → Except Stop (Namespace × List Str)
  | [], ns => .ok (ns, [])
  | (s, .arg) :: rest, ns =>
    match loop rest ns with
    | .ok (ns', ex) => .ok (ns', s :: ex)
    | .error e => .error e
  | (s, .dashes) :: rest, ns =>
    match loop rest ns with
    | .ok (ns', ex) => .ok (ns', s :: ex)
    | .error e => .error e
  | (s, .opt none _ _) :: rest, ns =>
    match loop rest ns with
    | .ok (ns', ex) => .ok (ns', s :: ex)
    | .error e => .error e
  | (_, .opt (some a) (some v) joined) :: rest, ns =>
    if a.arity = .zero then
      .error (if joined then helpTail v else .usage)
    else
      match takeAction ns a (some v) with
      | .ok ns' => loop rest ns'
      | .error e => .error e
  | (_, .opt (some a) none _) :: (s, .arg) :: rest, ns =>
    if a.arity = .zero then
      match takeAction ns a none with
      | .error e => .error e
      | .ok ns' =>
        match loop rest ns' with
        | .ok (ns'', ex) => .ok (ns'', s :: ex)
        | .error e => .error e
    else
      match takeAction ns a (some s) with
      | .ok ns' => loop rest ns'
      | .error e => .error e
  | (_, .opt (some a) none _) :: rest, ns =>
    if a.arity = .one then .error .usage
    else
      match takeAction ns a none with
      | .ok ns' => loop rest ns'
      | .error e => .error e

/-- `parse_known_args` from given defaults -/
def parseKnown (digit : Char → Bool) (tbl : Table) (ns : Namespace) (argv : List Str) :
    Except Stop (Namespace × List Str) :=
  match classify digit tbl argv with
  | .error e => .error e
  | .ok cs => loop cs ns

/-- `ArgumentParser.parse_args`: extra arguments are an error. -/
def parseAll (digit : Char → Bool) (tbl : Table) (ns : Namespace) (argv : List Str) :
    Except Stop Namespace :=
  match parseKnown digit tbl ns argv with
  | .error e => .error e
  | .ok (ns', []) => .ok ns'
  | .ok (_, _ :: _) => .error .usage

/-! ## The parsers of cli.py -/

/-- `direction` -/
inductive Dir where
  | tn
  | itn
deriving DecidableEq, Repr

/-- `name.replace("_", "-")` -/
def hyphen (name : Str) : Str := name.map (fun c => if c = '_' then '-' else c)

/-- Registering option strings; a name given twice is one key. -/
def two (a b : Str) (act : Act) : Table := if a = b then [(a, act)] else [(a, act), (b, act)]

/-- `_add_boolean`, cli.py:33-58 -/
def addBoolean (name : Str) : Table :=
  two ("--".toList ++ name) ("--".toList ++ hyphen name) (.on name) ++
    two ("--no-".toList ++ name) ("--no-".toList ++ hyphen name) (.off name)

/-- `_add_common_arguments`, cli.py:61-72, after the help option `argparse` adds itself. -/
def commonTable : Table :=
  [("-h".toList, .help), ("--help".toList, .help), ("--text".toList, .text),
    ("--file".toList, .file), ("--cache_dir".toList, .cacheDir), ("--cache-dir".toList, .cacheDir),
    ("--overwrite_cache".toList, .overwrite), ("--overwrite-cache".toList, .overwrite),
    ("--language".toList, .language)]

/-- The booleans of `_add_tn_arguments` and `_add_itn_arguments` with their defaults,
cli.py:75-99. -/
def booleans (d : Dir) (language : Str) : List (Str × Bool) :=
  match d with
  | .tn =>
    if language = "zh".toList then
      [("remove_interjections".toList, true), ("remove_erhua".toList, true),
        ("traditional_to_simple".toList, true), ("remove_puncts".toList, false),
        ("full_to_half".toList, true), ("tag_oov".toList, false)]
    else if language = "ja".toList then
      [("transliterate".toList, false), ("remove_interjections".toList, false),
        ("remove_puncts".toList, false), ("full_to_half".toList, true), ("tag_oov".toList, false)]
    else []
  | .itn =>
    (if language = "zh".toList ∨ language = "ja".toList then
      [("enable_standalone_number".toList, true), ("enable_0_to_9".toList, false),
        ("enable_million".toList, false)]
    else []) ++
    (if language = "zh".toList then [("remove_interjections".toList, true)]
     else if language = "ja".toList then [("full_to_half".toList, false)]
     else [])

/-- `create_parser(direction, language)`, cli.py:102-116: the option strings. -/
def table (d : Dir) (language : Str) : Table :=
  commonTable ++ (booleans d language).flatMap (fun b => addBoolean b.1)

/-- `setattr` if the attribute is missing: defaults are set in order of registration. -/
def setDefault (d : Str) (v : Bool) (l : List (Str × Bool)) : List (Str × Bool) :=
  if (find d l).isSome then l else l ++ [(d, v)]

/-- The boolean defaults: for every switch the action of `--name`, then that of `--no-name`, whose
default is `True` (`store_false`). -/
def defaultFlags : List (Str × Bool) → List (Str × Bool) → List (Str × Bool)
  | [], l => l
  | (name, v) :: rest, l => defaultFlags rest (setDefault name true (setDefault name v l))

/-- The namespace before parsing. -/
def initial (d : Dir) (language : Str) : Namespace :=
  { text := none, file := none, cacheDir := none, overwrite := false, language := "zh".toList,
    flags := defaultFlags (booleans d language) [] }

/-- `_selected_language`, cli.py:119-123 -/
def selectedLanguage (digit : Char → Bool) (argv : List Str) : Except Stop Str :=
  match parseKnown digit [("--language".toList, .language)]
      { text := none, file := none, cacheDir := none, overwrite := false,
        language := "zh".toList, flags := [] } argv with
  | .error e => .error e
  | .ok (ns, _) => .ok ns.language

/-- `parse_args`, cli.py:126-129 -/
def parseArgs (digit : Char → Bool) (d : Dir) (argv : List Str) : Except Stop Namespace :=
  match selectedLanguage digit argv with
  | .error e => .error e
  | .ok l => parseAll digit (table d l) (initial d l) argv

/-! ## Making the processor -/

/-- The six processor classes. -/
inductive Cls6 where
  | tnZh
  | tnJa
  | tnEn
  | itnZh
  | itnJa
  | itnEn
deriving DecidableEq, Repr

/-- A constructor call: the class, `cache_dir`, `overwrite_cache` and the other keywords. -/
structure Call where
  cls : Cls6
  cacheDir : Option Str
  overwrite : Bool
  kwargs : List (Str × Bool)
deriving DecidableEq, Repr

/-- `name=args.name` for a list of names; `none` is `AttributeError`. -/
def keywords (ns : Namespace) : List Str → Option (List (Str × Bool))
  | [] => some []
  | n :: rest =>
    match find n ns.flags, keywords ns rest with
    | some v, some kw => some ((n, v) :: kw)
    | _, _ => none

/-- The names `create_processor` forwards, cli.py:132-179. -/
def forwarded : Cls6 → List Str
  | .tnZh => ["remove_interjections".toList, "remove_erhua".toList,
      "traditional_to_simple".toList, "remove_puncts".toList, "full_to_half".toList,
      "tag_oov".toList]
  | .tnJa => ["transliterate".toList, "remove_interjections".toList, "remove_puncts".toList,
      "full_to_half".toList, "tag_oov".toList]
  | .tnEn => []
  | .itnZh => ["remove_interjections".toList, "enable_standalone_number".toList,
      "enable_0_to_9".toList, "enable_million".toList]
  | .itnJa => ["full_to_half".toList, "enable_standalone_number".toList, "enable_0_to_9".toList,
      "enable_million".toList]
  | .itnEn => []

/-- The branches of `create_processor`, cli.py:137-179. -/
def selectClass (d : Dir) (language : Str) : Cls6 :=
  match d with
  | .tn => if language = "zh".toList then .tnZh else if language = "ja".toList then .tnJa else .tnEn
  | .itn =>
    if language = "zh".toList then .itnZh else if language = "ja".toList then .itnJa else .itnEn

/-- `create_processor`, cli.py:132-179; `none` is `AttributeError`. -/
def createProcessor (d : Dir) (ns : Namespace) : Option Call :=
  match keywords ns (forwarded (selectClass d ns.language)) with
  | none => none
  | some kw => some ⟨selectClass d ns.language, ns.cacheDir, ns.overwrite, kw⟩

/-! ## The constructors -/

/-- The boolean parameters of the constructors with their defaults:
tn/chinese/normalizer.py:42-52, tn/japanese/normalizer.py:44-53, tn/english/normalizer.py:44,
itn/chinese/inverse_normalizer.py:44-52, itn/japanese/inverse_normalizer.py:43-51,
itn/english/inverse_normalizer.py:46. -/
def signature : Cls6 → List (Str × Bool)
  | .tnZh => [("remove_interjections".toList, true), ("remove_erhua".toList, true),
      ("traditional_to_simple".toList, true), ("remove_puncts".toList, false),
      ("full_to_half".toList, true), ("tag_oov".toList, false)]
  | .tnJa => [("transliterate".toList, false), ("remove_interjections".toList, false),
      ("remove_puncts".toList, false), ("full_to_half".toList, true), ("tag_oov".toList, false)]
  | .tnEn => []
  | .itnZh => [("remove_interjections".toList, true), ("enable_standalone_number".toList, true),
      ("enable_0_to_9".toList, false), ("enable_million".toList, false)]
  | .itnJa => [("full_to_half".toList, false), ("enable_standalone_number".toList, true),
      ("enable_0_to_9".toList, false), ("enable_million".toList, false)]
  | .itnEn => []

/-- Binding keywords to parameters: `none` is `TypeError` (unknown or repeated keyword). -/
def bind (sig : List (Str × Bool)) : List (Str × Bool) → Option (List (Str × Bool))
  | [] => some sig
  | (k, v) :: kw =>
    if (find k sig).isSome ∧ (find k kw).isNone then bind (setFlag k v sig) kw else none

/-- The dictionary each constructor passes to `build_fst` as `cache_config`, from its parameters:
the keys in the order of the sources, each with the parameter it is read from. -/
def configKeys : Cls6 → List (Str × Str)
  | .tnZh => [("full_to_half".toList, "full_to_half".toList),
      ("remove_erhua".toList, "remove_erhua".toList),
      ("remove_interjections".toList, "remove_interjections".toList),
      ("remove_puncts".toList, "remove_puncts".toList), ("tag_oov".toList, "tag_oov".toList),
      ("traditional_to_simple".toList, "traditional_to_simple".toList)]
  | .tnJa => [("full_to_half".toList, "full_to_half".toList),
      ("remove_interjections".toList, "remove_interjections".toList),
      ("remove_puncts".toList, "remove_puncts".toList), ("tag_oov".toList, "tag_oov".toList),
      ("transliterate".toList, "transliterate".toList)]
  | .tnEn => []
  | .itnZh => [("enable_0_to_9".toList, "enable_0_to_9".toList),
      ("enable_million".toList, "enable_million".toList),
      ("enable_standalone_number".toList, "enable_standalone_number".toList),
      ("remove_interjections".toList, "remove_interjections".toList)]
  | .itnJa => [("enable_0_to_9".toList, "enable_0_to_9".toList),
      ("enable_million".toList, "enable_million".toList),
      ("enable_standalone_number".toList, "enable_standalone_number".toList),
      ("full_to_half".toList, "full_to_half".toList)]
  | .itnEn => []

/-- The cache prefix and the order type of each class, same files. -/
def cacheName : Cls6 → Str × Str
  | .tnZh => ("zh_tn".toList, "tn".toList)
  | .tnJa => ("ja_tn".toList, "tn".toList)
  | .tnEn => ("en_tn".toList, "tn".toList)
  | .itnZh => ("zh_itn".toList, "itn".toList)
  | .itnJa => ("ja_itn".toList, "itn".toList)
  | .itnEn => ("en_itn".toList, "itn".toList)

/-- `cache_config` for given parameter values -/
def cacheConfig (c : Cls6) (params : List (Str × Bool)) : List (Str × Bool) :=
  (configKeys c).filterMap (fun k => (find k.2 params).map (fun v => (k.1, v)))

/-! ## Running -/

/-- `_without_line_ending`, cli.py:182-189 -/
def withoutLineEnding (line : Str) : Str :=
  if line.getLast? = some '\n' then
    if line.dropLast.getLast? = some '\r' then line.dropLast.dropLast else line.dropLast
  else if line.getLast? = some '\r' then line.dropLast
  else line

/-- Exceptions: `OSError`s are caught around the file loop, others are not. -/
inductive Exc where
  | os
  | other
  | exit (s : Stop)
deriving DecidableEq, Repr

/-- The processor and the output: `tag`, `verbalize` and `print` may raise.  `print` is given the
number of lines printed before. -/
structure Machine where
  tag : Str → Except Exc Str
  verbalize : Str → Except Exc Str
  print : Nat → Str → Option Exc

/-- Lines an input object gives, then the end or an exception. -/
structure Lines where
  lines : List Str
  ending : Option Exc

/-- `print(text, file=stdout)` after `out` -/
def emit (M : Machine) (out : List Str) (t : Str) : List Str × Option Exc :=
  match M.print out.length t with
  | some e => (out, some e)
  | none => (out ++ [t], none)

/-- `_process_line`, cli.py:192-195: the lines printed so far and the exception. -/
def processLine (M : Machine) (out : List Str) (t : Str) : List Str × Option Exc :=
  match M.tag t with
  | .error e => (out, some e)
  | .ok tagged =>
    match emit M out tagged with
    | (out', some e) => (out', some e)
    | (out', none) =>
      match M.verbalize tagged with
      | .error e => (out', some e)
      | .ok v => emit M out' v

/-- `for line in input: _process_line(...)`, cli.py:213-214 and 219-220 -/
def processLines (M : Machine) (ending : Option Exc) :
    List Str → List Str → List Str × Option Exc
  | [], out => (out, ending)
  | line :: rest, out =>
    match processLine M out (withoutLineEnding line) with
    | (out', some e) => (out', some e)
    | (out', none) => processLines M ending rest out'

/-- `run`, cli.py:198-221: what is printed and how it ends.  `make` is `processor_factory`, `files`
opens a file by name (an exception of `open` is an input without lines). -/
def run (digit : Char → Bool) (make : Dir → Namespace → Except Exc Machine)
    (files : Str → Lines) (stdin : Lines) (d : Dir) (argv : List Str) : List Str × Option Exc :=
  match parseArgs digit d argv with
  | .error e => ([], some (.exit e))
  | .ok ns =>
    match make d ns with
    | .error e => ([], some e)
    | .ok M =>
      match ns.text with
      | some t => processLine M [] t
      | none =>
        match ns.file with
        | some f =>
          match processLines M (files f).ending (files f).lines [] with
          | (out, some .os) => (out, some (.exit .usage))
          | r => r
        | none => processLines M stdin.ending stdin.lines []

/-- Universal newlines of `open(..., encoding="utf-8")`: `\r\n` and `\r` are read as `\n`; `prev`
tells whether the character before was `\r`. -/
def universal (prev : Bool) : List Char → List Char
  | [] => []
  | c :: s =>
    if c = '\r' then '\n' :: universal true s
    else if c = '\n' ∧ prev = true then universal false s
    else c :: universal false s

/-- Iteration over a text file: the lines with their `\n`; the last may have none. -/
def keepLines : List Char → List Str
  | [] => []
  | c :: s =>
    if c = '\n' then [c] :: keepLines s
    else
      match keepLines s with
      | [] => [[c]]
      | l :: ls => (c :: l) :: ls

/-- The lines that reading a file of the given content gives. -/
def fileLines (content : List Char) : List Str := keepLines (universal false content)

end Verif.Cli
