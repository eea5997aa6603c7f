/-
Model of /repo/tn/token_parser.py (all 217 lines).

Python `str` is `List Char` (lone surrogates are not modelled). The sentinel
`EOS = "<EOS>"` (line 18) is five characters long, hence never equal to a one-character string;
it is modelled by `none` in the field `char`. Every `raise TokenParseError` is a value of
`Except Err`. Loops are recursive functions whose termination is proved from the state.
-/

deriving instance DecidableEq for Except

namespace Verif.Token

/-- Python `str`. -/
abbrev Str := List Char

/-- The different `raise TokenParseError(...)` statements of token_parser.py
(lines 63, 99, 136, 140, 142, 149, 154, 159, 166, 194); all are the same Python class. -/
inductive Err where
  | duplicateField (key name : Str)
  | emptyStream
  | expectedChars (exp : Str) (pos : Nat)
  | keyAtEnd
  | keyIsWhitespace (pos : Nat)
  | invalidKey (pos : Nat)
  | valueAtEnd
  | unterminatedValue (pos : Nat)
  | unterminatedEscape (pos : Nat)
  | unterminatedToken (name : Str)
  deriving Repr, DecidableEq

/-- `str.replace` for a one-character pattern, as used in token_parser.py:45. -/
def replaceChar (s : Str) (pat : Char) (by_ : Str) : Str :=
  s.flatMap fun c => if c = pat then by_ else [c]

/-- `escape_value`, token_parser.py:43-45: first backslashes are doubled, then quotes escaped. -/
def escapeValue (value : Str) : Str :=
  replaceChar (replaceChar value '\\' ['\\', '\\']) '"' ['\\', '"']

/-- `class Token`, token_parser.py:52-59. `members` is the Python dict in insertion order. -/
structure Token where
  name : Str
  start : Nat
  stop : Option Nat := none
  order : List Str := []
  members : List (Str × Str) := []
  deriving Repr, DecidableEq

/-- Schema mapping `orders` (token type ↦ field list). -/
abbrev Orders := Str → Option (List Str)

/-- `Token.append`, token_parser.py:61-65. -/
def Token.append (t : Token) (key value : Str) : Except Err Token :=
  if (t.members.lookup key).isSome then
    .error (.duplicateField key t.name)
  else
    .ok { t with order := t.order ++ [key], members := t.members ++ [(key, value)] }

/-- The field order chosen by `Token.string`, token_parser.py:69-74. -/
def Token.chosenOrder (t : Token) (orders : Orders) : List Str :=
  match orders t.name with
  | none => t.order
  | some canonical =>
    if t.members.lookup "preserve_order".toList = some "true".toList then t.order
    else canonical ++ t.order.filter (fun key => !canonical.contains key)

/-- The text `' {}: "{}"'.format(key, escape_value(value))`, token_parser.py:79. -/
def fieldText (key value : Str) : Str :=
  [' '] ++ key ++ [':', ' ', '"'] ++ escapeValue value ++ ['"']

/-- `Token.string`, token_parser.py:67-80. The `for` loop with `continue` is a fold. -/
def Token.string (t : Token) (orders : Orders) : Str :=
  let body := (t.chosenOrder orders).foldl
    (fun output key =>
      match t.members.lookup key with
      | none => output
      | some value => output ++ fieldText key value)
    (t.name ++ [' ', '{'])
  body ++ [' ', '}']

/-- Mutable fields `text`, `index`, `char` of `TokenParser`, token_parser.py:97-103. -/
structure St where
  text : Str
  index : Nat
  char : Option Char
  deriving Repr, DecidableEq

/-- Number of `read` calls left before `char` is EOS (only used for termination). -/
def St.measure (s : St) : Nat :=
  match s.char with
  | none => 0
  | some _ => (s.text.length - s.index) + 1

/-- `load`, token_parser.py:97-103 (`self.tokens = []` is the initial accumulator of `parse`). -/
def load (input : Str) : Except Err St :=
  match input with
  | [] => .error .emptyStream
  | c :: _ => .ok { text := input, index := 0, char := some c }

/-- `read`, token_parser.py:105-111. -/
def read (s : St) : Bool × St :=
  if s.index < s.text.length - 1 then
    (true, { s with index := s.index + 1, char := s.text[s.index + 1]? })
  else
    (false, { s with char := none })

theorem read_measure {s : St} {c : Char} (h : s.char = some c) :
    (read s).2.measure < s.measure := by
  unfold read
  split
  · rename_i hlt
    have : s.text[s.index + 1]? = some (s.text[s.index + 1]'(by omega)) := by
      rw [List.getElem?_eq_getElem]
    simp only [St.measure, h, this]
    omega
  · simp [St.measure, h]

/-- The `while` loop of `parse_ws`, token_parser.py:115-116; `notEos` is the loop variable. -/
def parseWsLoop (notEos : Bool) (s : St) : Bool × St :=
  if hc : notEos = true ∧ s.char = some ' ' then
    have := read_measure hc.2
    let r := read s
    parseWsLoop r.1 r.2
  else (notEos, s)
termination_by s.measure

/-- `parse_ws`, token_parser.py:113-117. -/
def parseWs (s : St) : Bool × St :=
  parseWsLoop (s.char != none) s

/-- `parse_char`, token_parser.py:119-123. -/
def parseChar (s : St) (exp : Char) : Bool × St :=
  if s.char = some exp then (true, (read s).2) else (false, s)

/-- `parse_chars`, token_parser.py:125-132; `start` is fixed before the loop. -/
def parseCharsFrom (start : Nat) (s : St) : Str → Bool × St
  | [] => (true, s)
  | x :: xs =>
    match parseChar s x with
    | (true, s') => parseCharsFrom start s' xs
    | (false, s') => (false, { s' with index := start, char := s'.text[start]? })

/-- `parse_chars`, token_parser.py:125-132. -/
def parseChars (s : St) (exp : Str) : Bool × St := parseCharsFrom s.index s exp

/-- `expect_chars`, token_parser.py:134-136. -/
def expectChars (s : St) (exp : Str) : Except Err St :=
  match parseChars s exp with
  | (true, s') => .ok s'
  | (false, s') => .error (.expectedChars exp s'.index)

/-- `string.whitespace` of Python: space, \t, \n, \r, \x0b, \x0c. -/
def pyWhitespace : Str := [' ', '\t', '\n', '\r', '\x0b', '\x0c']

/-- `self.char in string.ascii_letters + "_"`, token_parser.py:145. -/
def isKeyChar (c : Char) : Bool :=
  "abcdefghijklmnopqrstuvwxyzABCDEFGHIJKLMNOPQRSTUVWXYZ_".toList.contains c

/-- The `while` loop of `parse_key`, token_parser.py:145-147. -/
def parseKeyLoop (s : St) (key : Str) : Str × St :=
  match hc : s.char with
  | none => (key, s)
  | some c =>
    if isKeyChar c then
      have := read_measure hc
      parseKeyLoop (read s).2 (key ++ [c])
    else (key, s)
termination_by s.measure

/-- `parse_key`, token_parser.py:138-150. -/
def parseKey (s : St) : Except Err (Str × St) :=
  match s.char with
  | none => .error .keyAtEnd
  | some c =>
    if pyWhitespace.contains c then .error (.keyIsWhitespace s.index)
    else
      match parseKeyLoop s [] with
      | ([], s') => .error (.invalidKey s'.index)
      | (k :: ks, s') => .ok (k :: ks, s')

theorem parseKeyLoop_measure (s : St) (key : Str) :
    (parseKeyLoop s key).2.measure ≤ s.measure := by
  fun_induction parseKeyLoop s key with
  | case1 => exact Nat.le_refl _
  | case2 s key c hc hk hlt ih => exact Nat.le_trans ih (Nat.le_of_lt hlt)
  | case3 => exact Nat.le_refl _

theorem parseKey_measure {s s' : St} {k : Str} (h : parseKey s = .ok (k, s')) :
    s'.measure < s.measure := by
  unfold parseKey at h
  split at h
  · cases h
  · rename_i c hc
    split at h
    · cases h
    · rw [parseKeyLoop.eq_def] at h
      split at h
      · rename_i h2
        split at h2
        · simp at h
        · split at h2 <;> simp at h
      · rename_i k0 ks s1 h2
        simp only [Except.ok.injEq, Prod.mk.injEq] at h
        split at h2
        · simp_all
        · rename_i c' hc'
          split at h2
          · have h3 := parseKeyLoop_measure (read s).2 ([] ++ [c'])
            rw [h2] at h3
            rw [← h.2]
            exact Nat.lt_of_le_of_lt h3 (read_measure hc')
          · simp at h2

theorem parseChar_measure {s s' : St} {x : Char} (h : parseChar s x = (true, s')) :
    s'.measure < s.measure := by
  unfold parseChar at h
  split at h
  · rename_i hc
    cases h
    exact read_measure hc
  · simp at h

theorem parseCharsFrom_measure {start : Nat} {s s' : St} {xs : Str}
    (h : parseCharsFrom start s xs = (true, s')) : s'.measure ≤ s.measure := by
  induction xs generalizing s with
  | nil => cases h; exact Nat.le_refl _
  | cons x xs ih =>
    unfold parseCharsFrom at h
    split at h
    · rename_i s1 h1
      exact Nat.le_trans (ih h) (Nat.le_of_lt (parseChar_measure h1))
    · simp at h

theorem expectChars_measure {s s' : St} {xs : Str} (h : expectChars s xs = .ok s') :
    s'.measure ≤ s.measure := by
  unfold expectChars at h
  split at h
  · rename_i s1 h1
    cases h
    exact parseCharsFrom_measure h1
  · cases h

/-- The `while` loop of `parse_value`, token_parser.py:157-171. -/
def parseValueLoop (s : St) (value : Str) : Except Err (Str × St) :=
  match hc : s.char with
  | none => .error (.unterminatedValue s.index)
  | some c =>
    if c = '"' then .ok (value, s)
    else
      have h1 := read_measure hc
      let s1 := (read s).2
      if c = '\\' then
        match hc1 : s1.char with
        | none => .error (.unterminatedEscape s1.index)
        | some d =>
          have _h2 : (read (read s).2).2.measure < s.measure := Nat.lt_trans (read_measure hc1) h1
          let s2 := (read s1).2
          if d = '"' ∨ d = '\\' then parseValueLoop s2 (value ++ [d])
          else parseValueLoop s2 (value ++ ['\\', d])
      else parseValueLoop s1 (value ++ [c])
termination_by s.measure

/-- `parse_value`, token_parser.py:152-172. -/
def parseValue (s : St) : Except Err (Str × St) :=
  match s.char with
  | none => .error .valueAtEnd
  | some _ => parseValueLoop s []

theorem parseValueLoop_measure {s s' : St} {value v : Str}
    (h : parseValueLoop s value = .ok (v, s')) : s'.measure ≤ s.measure := by
  fun_induction parseValueLoop s value with
  | case1 => cases h
  | case2 => cases h; exact Nat.le_refl _
  | case3 => cases h
  | case4 => rename_i h2 ih; exact Nat.le_trans (ih h) (Nat.le_of_lt h2)
  | case5 => rename_i h2 ih; exact Nat.le_trans (ih h) (Nat.le_of_lt h2)
  | case6 s value c hc hq h1 s1 hb ih => exact Nat.le_trans (ih h) (Nat.le_of_lt h1)

theorem parseValue_measure {s s' : St} {v : Str}
    (h : parseValue s = .ok (v, s')) : s'.measure ≤ s.measure := by
  unfold parseValue at h
  split at h
  · cases h
  · exact parseValueLoop_measure h

theorem parseWsLoop_measure (b : Bool) (s : St) :
    (parseWsLoop b s).2.measure ≤ s.measure := by
  fun_induction parseWsLoop b s with
  | case1 b s hc hlt r ih => exact Nat.le_trans ih (Nat.le_of_lt hlt)
  | case2 => exact Nat.le_refl _

/-- The inner `while` loop of `parse` over the fields of one token, token_parser.py:183-192.
Returns the token, whether the closing brace was read, and the state. -/
def parseFields (s : St) (token : Token) : Except Err (Token × Bool × St) :=
  match hw : parseWs s with
  | (false, s1) => .ok (token, false, s1)
  | (true, s1) =>
    have m1 : s1.measure ≤ s.measure := by
      have := parseWsLoop_measure (s.char != none) s
      unfold parseWs at hw; rw [hw] at this; exact this
    if s1.char = some '}' then
      .ok (token, true, (parseChar s1 '}').2)
    else
      match hk : parseKey s1 with
      | .error e => .error e
      | .ok (key, s2) =>
        have m2 := parseKey_measure hk
        match h3 : expectChars s2 [':', ' ', '"'] with
        | .error e => .error e
        | .ok s3 =>
          have m3 := expectChars_measure h3
          match h4 : parseValue s3 with
          | .error e => .error e
          | .ok (value, s4) =>
            have m4 := parseValue_measure h4
            match h5 : expectChars s4 ['"'] with
            | .error e => .error e
            | .ok s5 =>
              have m5 := expectChars_measure h5
              match token.append key value with
              | .error e => .error e
              | .ok token' => parseFields s5 token'
termination_by s.measure

theorem parseFields_measure {s s' : St} {t t' : Token} {b : Bool}
    (h : parseFields s t = .ok (t', b, s')) : s'.measure ≤ s.measure := by
  fun_induction parseFields s t with
  | case1 s token s1 hw =>
    cases h
    have := parseWsLoop_measure (s.char != none) s
    unfold parseWs at hw; rw [hw] at this; exact this
  | case2 s token s1 hw m1 hc =>
    cases h
    refine Nat.le_trans ?_ m1
    simp only [parseChar, hc, if_true]
    exact Nat.le_of_lt (read_measure hc)
  | case3 => cases h
  | case4 => cases h
  | case5 => cases h
  | case6 => cases h
  | case7 => cases h
  | case8 s token s1 hw m1 hc key s2 hk m2 s3 h3 m3 value s4 h4 m4 s5 h5 m5 token' hap ih =>
    have := ih h
    omega

/-- The outer `while` loop of `parse`, token_parser.py:176-196; `tokens` is `self.tokens`. -/
def parseLoop (s : St) (tokens : List Token) : Except Err (List Token) :=
  match hw : parseWs s with
  | (false, _) => .ok tokens
  | (true, s1) =>
    have m1 : s1.measure ≤ s.measure := by
      have := parseWsLoop_measure (s.char != none) s
      unfold parseWs at hw; rw [hw] at this; exact this
    let tokenStart := s1.index
    match hk : parseKey s1 with
    | .error e => .error e
    | .ok (name, s2) =>
      have m2 := parseKey_measure hk
      match h3 : expectChars s2 [' ', '{', ' '] with
      | .error e => .error e
      | .ok s3 =>
        have m3 := expectChars_measure h3
        match h4 : parseFields s3 { name := name, start := tokenStart } with
        | .error e => .error e
        | .ok (_, false, _) => .error (.unterminatedToken name)
        | .ok (token, true, s4) =>
          have m4 := parseFields_measure h4
          let stop := if s4.char = none then s4.text.length else s4.index
          parseLoop s4 (tokens ++ [{ token with stop := some stop }])
termination_by s.measure

/-- `parse`, token_parser.py:174-196. Returns `self.tokens`. -/
def parse (input : Str) : Except Err (List Token) :=
  match load input with
  | .error e => .error e
  | .ok s => parseLoop s []

/-- `" ".join(...)`, token_parser.py:217. -/
def joinSpace : List Str → Str
  | [] => []
  | [x] => x
  | x :: y :: rest => x ++ [' '] ++ joinSpace (y :: rest)

/-- Loop state of `reorder_with_spans`, token_parser.py:206-208. -/
structure ReorderSt where
  serialized : List Str := []
  spans : List (Nat × Nat) := []
  offset : Nat := 0

/-- Loop body of `reorder_with_spans`, token_parser.py:210-216. -/
def reorderStep (orders : Orders) (r : ReorderSt) (token : Token) : ReorderSt :=
  let value := token.string orders
  let start := if r.serialized.isEmpty then r.offset else r.offset + 1
  let offset := start + value.length
  { serialized := r.serialized ++ [value], spans := r.spans ++ [(start, offset)], offset := offset }

/-- `reorder_with_spans`, token_parser.py:202-217. -/
def reorderWithSpans (orders : Orders) (input : Str) : Except Err (Str × List (Nat × Nat)) :=
  match parse input with
  | .error e => .error e
  | .ok tokens =>
    let r := tokens.foldl (reorderStep orders) {}
    .ok (joinSpace r.serialized, r.spans)

/-- `reorder`, token_parser.py:198-200. -/
def reorder (orders : Orders) (input : Str) : Except Err Str :=
  match reorderWithSpans orders input with
  | .error e => .error e
  | .ok (output, _) => .ok output

/-- A Python dict literal from strings to lists of strings. -/
def ordersOf (l : List (String × List String)) : Orders := fun name =>
  (l.find? fun p => p.1.toList = name).map fun p => p.2.map String.toList

/-- `TN_ORDERS`, token_parser.py:19-25. -/
def tnOrdersList : List (String × List String) :=
  [("date", ["year", "month", "day"]),
   ("fraction", ["denominator", "numerator"]),
   ("measure", ["denominator", "numerator", "value"]),
   ("money", ["value", "currency"]),
   ("time", ["noon", "hour", "minute", "second"])]

/-- `EN_TN_ORDERS`, token_parser.py:26-29. -/
def enTnOrdersList : List (String × List String) :=
  [("date", ["preserve_order", "text", "day", "month", "year"]),
   ("money", ["integer_part", "fractional_part", "quantity", "currency_maj"])]

/-- `ITN_ORDERS`, token_parser.py:30-38. -/
def itnOrdersList : List (String × List String) :=
  [("date", ["year", "month", "day", "preserve_order"]),
   ("fraction", ["sign", "numerator", "denominator"]),
   ("measure", ["numerator", "denominator", "value", "units"]),
   ("money", ["currency", "value", "decimal", "quantity"]),
   ("time", ["hour", "minute", "second", "noon", "zone"]),
   ("telephone", ["country_code", "number_part"]),
   ("electronic", ["username", "domain", "protocol"])]

/-- Argument of `TokenParser.__init__`. -/
inductive OrderArg where
  | mapping (o : Orders)
  | name (s : String)

/-- `TokenParser.__init__`, token_parser.py:85-95; `none` is `NotImplementedError`. -/
def initOrders : OrderArg → Option Orders
  | .mapping o => some o
  | .name s =>
    if s = "tn" then some (ordersOf tnOrdersList)
    else if s = "itn" then some (ordersOf itnOrdersList)
    else if s = "en_tn" then some (ordersOf enTnOrdersList)
    else none

end Verif.Token
