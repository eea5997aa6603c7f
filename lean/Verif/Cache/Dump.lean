import Verif.Cache.Json
import Verif.Cpp.Lemmas

/-
Python's `json` module as far as tn/cache.py uses it: `json.dumps` with `ensure_ascii=False` and
`sort_keys=True` (cache.py:91, 813-820) and `json.loads` (cache.py:575).

A dict is the list of its items sorted by key, so `canon` is the identity on what Python has; it is
what `sort_keys` and the construction of a dict from pairs (a later item replaces an earlier one with
the same key) do to a list of items. Texts with lone surrogates do not exist here: `loads` refuses an
escape that denotes one. The limit on the number of digits of an integer is not modelled. The value of
a float literal is the parameter `fl`.
-/

namespace Verif.Cache

/-- Code points in order: Python's `<` on `str`. -/
def strLt : Str → Str → Bool
  | [], [] => false
  | [], _ :: _ => true
  | _ :: _, [] => false
  | a :: as, b :: bs => a.toNat < b.toNat || (a = b && strLt as bs)

/-- `d[key] = value` for a dict kept in the order of its keys. -/
def insertKey {α : Type} (k : Str) (v : α) : List (Str × α) → List (Str × α)
  | [] => [(k, v)]
  | (l, w) :: rest =>
    if k = l then (k, v) :: rest
    else if strLt k l then (k, v) :: (l, w) :: rest
    else (l, w) :: insertKey k v rest

/-- `dict(pairs)`. -/
def dictOf {α : Type} (pairs : List (Str × α)) : List (Str × α) :=
  pairs.foldl (fun d p => insertKey p.1 p.2 d) []

mutual
/-- All dicts in order. -/
def canon : Json → Json
  | .arr l => .arr (canonArr l)
  | .obj l => .obj (dictOf (canonObj l))
  | v => v
def canonArr : List Json → List Json
  | [] => []
  | a :: as => canon a :: canonArr as
def canonObj : List (Str × Json) → List (Str × Json)
  | [] => []
  | (k, a) :: as => (k, canon a) :: canonObj as
end

/-! ### Writing -/

/-- A digit. -/
def digit (n : Nat) : Char := Char.ofNat (48 + n % 10)

/-- The digits of a number before the last one, and the last one. -/
def decimal (n : Nat) : Str := if n < 10 then [digit n] else decimal (n / 10) ++ [digit n]
  termination_by n

/-- `int.__repr__`. -/
def writeInt (i : Int) : Str :=
  match i with
  | .ofNat n => decimal n
  | .negSucc n => '-' :: decimal (n + 1)

/-- A lower-case hexadecimal digit. -/
def hexDigit (n : Nat) : Char := if n < 10 then Char.ofNat (48 + n) else Char.ofNat (87 + n)

/-- `ESCAPE_DCT` and the replacement function of `py_encode_basestring`. -/
def escapeChar (c : Char) : Str :=
  if c = '"' then ['\\', '"']
  else if c = '\\' then ['\\', '\\']
  else if c = '\n' then ['\\', 'n']
  else if c = '\r' then ['\\', 'r']
  else if c = '\t' then ['\\', 't']
  else if c = '\x0c' then ['\\', 'f']
  else if c = '\x08' then ['\\', 'b']
  else if c.toNat < 32 then ['\\', 'u', '0', '0', hexDigit (c.toNat / 16), hexDigit (c.toNat % 16)]
  else [c]

def quote (s : Str) : Str := '"' :: s.flatMap escapeChar ++ ['"']

/-- `separators`. -/
structure Style where
  item : Str
  key : Str

/-- `_canonical_json`, cache.py:90-91. -/
def compact : Style := ⟨[','], [':']⟩
/-- The default of `json.dump`, used by `_write_manifest`, cache.py:816. -/
def spaced : Style := ⟨[',', ' '], [':', ' ']⟩

mutual
def write (st : Style) : Json → Str
  | .null => ['n', 'u', 'l', 'l']
  | .bool true => ['t', 'r', 'u', 'e']
  | .bool false => ['f', 'a', 'l', 's', 'e']
  | .int i => writeInt i
  | .flt _ t => t
  | .str s => quote s
  | .arr l => '[' :: writeArr st true l
  | .obj l => '{' :: writeObj st true l
/-- The rest of a list; `first` says whether an element came before. -/
def writeArr (st : Style) (first : Bool) : List Json → Str
  | [] => [']']
  | a :: as => (if first then [] else st.item) ++ (write st a ++ writeArr st false as)
def writeObj (st : Style) (first : Bool) : List (Str × Json) → Str
  | [] => ['}']
  | (k, a) :: as =>
    (if first then [] else st.item) ++ (quote k ++ (st.key ++ (write st a ++ writeObj st false as)))
end

/-- `json.dumps(v, ensure_ascii=False, sort_keys=True, separators=…)`. -/
def dumpText (st : Style) (v : Json) : Str := write st (canon v)

/-- `_canonical_json`, cache.py:90-91. -/
def canonicalJson (v : Json) : List UInt8 := Cpp.encAll (dumpText compact v)

/-- What `_write_manifest` writes, cache.py:813-818. -/
def manifestBytes (v : Json) : List UInt8 := Cpp.encAll (dumpText spaced v ++ ['\n'])

/-! ### Reading -/

/-- `[ \t\n\r]*`. -/
def skipWs : Str → Str
  | c :: r => if c = ' ' ∨ c = '\t' ∨ c = '\n' ∨ c = '\r' then skipWs r else c :: r
  | [] => []

def isDigit (c : Char) : Bool := 48 ≤ c.toNat && c.toNat ≤ 57

/-- A run of digits and the rest. -/
def spanDigits : Str → Str × Str
  | c :: r => if isDigit c then ((spanDigits r).map (c :: ·) id) else ([], c :: r)
  | [] => ([], [])

/-- `int(digits)`. -/
def numOf (s : Str) : Nat := s.foldl (fun n c => 10 * n + (c.toNat - 48)) 0

/-- `(0|[1-9][0-9]*)` and the rest. -/
def parseNatural (s : Str) : Option (Str × Str) :=
  match s with
  | '0' :: r => some (['0'], r)
  | _ => match spanDigits s with
    | ([], _) => none
    | p => some p

/-- `(\.[0-9]+)?`. -/
def parseFrac (s : Str) : Str × Str :=
  match s with
  | '.' :: r => match spanDigits r with
    | ([], _) => ([], s)
    | (d, r') => ('.' :: d, r')
  | _ => ([], s)

/-- `([eE][-+]?[0-9]+)?`. -/
def parseExp (s : Str) : Str × Str :=
  let body (e : Str) (r : Str) : Str × Str := match spanDigits r with
    | ([], _) => ([], s)
    | (d, r') => (e ++ d, r')
  match s with
  | c :: r =>
    if c = 'e' ∨ c = 'E' then
      match r with
      | '+' :: r' => body [c, '+'] r'
      | '-' :: r' => body [c, '-'] r'
      | _ => body [c] r
    else ([], s)
  | [] => ([], s)

/-- A number after its sign. -/
def parseUnsigned (fl : Str → Option Int × Str) (neg : Bool) (s : Str) : Option (Json × Str) :=
  match parseNatural s with
  | none => none
  | some (d, r) =>
    let (f, r) := parseFrac r
    let (e, r) := parseExp r
    if f = [] ∧ e = [] then some (.int (if neg then -(numOf d : Int) else numOf d), r)
    else
      let v := fl ((if neg then ['-'] else []) ++ d ++ f ++ e)
      some (.flt v.1 v.2, r)

/-- A number: `NUMBER_RE` of `json.scanner`. -/
def parseNumber (fl : Str → Option Int × Str) (s : Str) : Option (Json × Str) :=
  match s with
  | [] => none
  | c :: r => if c = '-' then parseUnsigned fl true r else parseUnsigned fl false (c :: r)

/-- The value of a hexadecimal digit. -/
def hexVal (c : Char) : Option Nat :=
  if 48 ≤ c.toNat ∧ c.toNat ≤ 57 then some (c.toNat - 48)
  else if 97 ≤ c.toNat ∧ c.toNat ≤ 102 then some (c.toNat - 87)
  else if 65 ≤ c.toNat ∧ c.toNat ≤ 70 then some (c.toNat - 55)
  else none

/-- Four hexadecimal digits. -/
def parseHex4 : Str → Option (Nat × Str)
  | a :: b :: c :: d :: r => do
    let a ← hexVal a
    let b ← hexVal b
    let c ← hexVal c
    let d ← hexVal d
    some (((a * 16 + b) * 16 + c) * 16 + d, r)
  | _ => none

/-- After `\u`: one escape, or two that denote a surrogate pair. -/
def parseUnicode (s : Str) : Option (Char × Str) :=
  match parseHex4 s with
  | none => none
  | some (n, r) =>
    if 0xd800 ≤ n ∧ n ≤ 0xdbff then
      match r with
      | '\\' :: 'u' :: r' => match parseHex4 r' with
        | some (m, r'') =>
          if 0xdc00 ≤ m ∧ m ≤ 0xdfff then
            some (Char.ofNat (0x10000 + (n - 0xd800) * 1024 + (m - 0xdc00)), r'')
          else none
        | none => none
      | _ => none
    else if 0xdc00 ≤ n ∧ n ≤ 0xdfff then none
    else some (Char.ofNat n, r)

/-- `BACKSLASH` of `json.decoder`. -/
def backslash (c : Char) : Option Char :=
  if c = '"' then some '"'
  else if c = '\\' then some '\\'
  else if c = '/' then some '/'
  else if c = 'b' then some '\x08'
  else if c = 'f' then some '\x0c'
  else if c = 'n' then some '\n'
  else if c = 'r' then some '\r'
  else if c = 't' then some '\t'
  else none

/-- `scanstring` after the opening quote, with `strict=True`. The number bounds the length. -/
def parseString : Nat → Str → Option (Str × Str)
  | 0, _ => none
  | n + 1, s =>
    match s with
    | [] => none
    | c :: r =>
      if c = '"' then some ([], r)
      else if c = '\\' then
        match r with
        | e :: r' =>
          if e = 'u' then do
            let (x, r'') ← parseUnicode r'
            let (xs, rest) ← parseString n r''
            some (x :: xs, rest)
          else do
            let x ← backslash e
            let (xs, rest) ← parseString n r'
            some (x :: xs, rest)
        | [] => none
      else if c.toNat < 32 then none
      else do
        let (xs, rest) ← parseString n r
        some (c :: xs, rest)

mutual
/-- `scan_once`. The number bounds the depth of calls. -/
def parseValue (fl : Str → Option Int × Str) : Nat → Str → Option (Json × Str)
  | 0, _ => none
  | n + 1, s =>
    match s with
    | '"' :: r => do
      let (x, rest) ← parseString (r.length + 1) r
      some (.str x, rest)
    | '{' :: r =>
      match skipWs r with
      | '}' :: r' => some (.obj [], r')
      | r' => do
        let (ps, rest) ← parseMembers fl n r'
        some (.obj (dictOf ps), rest)
    | '[' :: r =>
      match skipWs r with
      | ']' :: r' => some (.arr [], r')
      | r' => do
        let (vs, rest) ← parseElements fl n r'
        some (.arr vs, rest)
    | 'n' :: 'u' :: 'l' :: 'l' :: r => some (.null, r)
    | 't' :: 'r' :: 'u' :: 'e' :: r => some (.bool true, r)
    | 'f' :: 'a' :: 'l' :: 's' :: 'e' :: r => some (.bool false, r)
    | 'N' :: 'a' :: 'N' :: r => some (.flt none ['n', 'a', 'n'], r)
    | 'I' :: 'n' :: 'f' :: 'i' :: 'n' :: 'i' :: 't' :: 'y' :: r => some (.flt none ['i', 'n', 'f'], r)
    | '-' :: 'I' :: 'n' :: 'f' :: 'i' :: 'n' :: 'i' :: 't' :: 'y' :: r =>
      some (.flt none ['-', 'i', 'n', 'f'], r)
    | _ => parseNumber fl s
/-- `JSONArray` after the opening bracket of a list that is not empty. -/
def parseElements (fl : Str → Option Int × Str) : Nat → Str → Option (List Json × Str)
  | 0, _ => none
  | n + 1, s => do
    let (v, r) ← parseValue fl n s
    match skipWs r with
    | ']' :: r' => some ([v], r')
    | ',' :: r' => do
      let (vs, rest) ← parseElements fl n (skipWs r')
      some (v :: vs, rest)
    | _ => none
/-- `JSONObject` after the opening brace of a dict that is not empty. -/
def parseMembers (fl : Str → Option Int × Str) : Nat → Str → Option (List (Str × Json) × Str)
  | 0, _ => none
  | n + 1, s =>
    match s with
    | '"' :: r => do
      let (k, r1) ← parseString (r.length + 1) r
      match skipWs r1 with
      | ':' :: r2 => do
        let (v, r3) ← parseValue fl n (skipWs r2)
        match skipWs r3 with
        | '}' :: r' => some ([(k, v)], r')
        | ',' :: r' => do
          let (ps, rest) ← parseMembers fl n (skipWs r')
          some ((k, v) :: ps, rest)
        | _ => none
      | _ => none
    | _ => none
end

/-- `json.loads` of a text. -/
def loadText (fl : Str → Option Int × Str) (s : Str) : Option Json :=
  match parseValue fl (2 * s.length + 2) (skipWs s) with
  | some (v, rest) => if skipWs rest = [] then some v else none
  | none => none

/-- `bytes.decode("utf-8")`, by Lean's own decoder. -/
def decodeUtf8 (b : List UInt8) : Option Str := b.toByteArray.utf8Decode?.map Array.toList

/-- `json.loads(b.decode("utf-8"))`, cache.py:575. A byte order mark is refused by both. -/
def loadBytes (fl : Str → Option Int × Str) (b : List UInt8) : Option Json :=
  (decodeUtf8 b).bind (loadText fl)

end Verif.Cache
