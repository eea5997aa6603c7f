import Verif.Token.Model

/-
Model of the C++ runtime: /repo/runtime/utils/wetext_string.cc,
/repo/runtime/processor/wetext_token_parser.{h,cc} and the pipeline selection of
/repo/runtime/processor/wetext_processor.cc.

`std::string` is a list of bytes. The sentinel `EOS = "<EOS>"` (wetext_token_parser.cc:23) has five
bytes and every piece of `SplitUTF8StringToChars` has at most four, so it is modelled by `none`.
`throw std::invalid_argument` and the aborting `CHECK`/`LOG(FATAL)` are values of `Except CErr`.
-/

namespace Verif.Cpp

abbrev Bytes := List UInt8

/-- How a C++ call can fail. -/
inductive CErr where
  /-- `throw std::invalid_argument` -/
  | invalidArgument
  /-- a failed `CHECK_LE` or `LOG(FATAL)`: the process aborts -/
  | fatal
  deriving Repr, DecidableEq

/-- A C++ string literal (all literals of the runtime are ASCII). -/
def lit (s : String) : Bytes := s.toList.map fun c => UInt8.ofNat c.toNat

/-- `UTF8CharLength`, wetext_string.cc:22-44; `none` is the failed `CHECK_LE` of line 24. -/
def utf8CharLength (ch : UInt8) : Option Nat :=
  if ¬ (ch &&& 0xF8) ≤ 0xF0 then none
  else if ch &&& 0x80 = 0x00 then some 1
  else if ch &&& 0xE0 = 0xC0 then some 2
  else if ch &&& 0xF0 = 0xE0 then some 3
  else if ch &&& 0xF8 = 0xF0 then some 4
  else some 1

theorem utf8CharLength_pos {ch : UInt8} {n : Nat} (h : utf8CharLength ch = some n) : 1 ≤ n := by
  unfold utf8CharLength at h
  repeat' split at h
  all_goals simp at h
  all_goals omega

/-- `SplitUTF8StringToChars`, wetext_string.cc:56-64. The index loop is a recursion on the bytes not
yet consumed; `substr` truncates at the end of the string, as `take` does. -/
def splitUTF8 : Bytes → Option (List Bytes)
  | [] => some []
  | b :: rest =>
    match h : utf8CharLength b with
    | none => none
    | some n =>
      have := utf8CharLength_pos h
      (splitUTF8 ((b :: rest).drop n)).map ((b :: rest).take n :: ·)
termination_by s => s.length

/-- `UTF8StringLength`, wetext_string.cc:46-54. -/
def utf8StringLength : Bytes → Option Nat
  | [] => some 0
  | b :: rest =>
    match h : utf8CharLength b with
    | none => none
    | some n =>
      have := utf8CharLength_pos h
      (utf8StringLength ((b :: rest).drop n)).map (· + 1)
termination_by s => s.length

/-- `WHITESPACE`, wetext_string.cc:20. -/
def whitespace : Bytes := [0x20, 0x0A, 0x0D, 0x09, 0x0C, 0x0B]

/-- `Ltrim`, wetext_string.cc:66-69 (`findIdx?` is `find_first_not_of`). -/
def ltrim (str : Bytes) : Bytes :=
  match str.findIdx? (fun b => !whitespace.contains b) with
  | none => []
  | some start => str.drop start

/-- `Rtrim`, wetext_string.cc:71-74 (`find_last_not_of` counts from the end). -/
def rtrim (str : Bytes) : Bytes :=
  match str.reverse.findIdx? (fun b => !whitespace.contains b) with
  | none => []
  | some fromEnd =>
    let stop := str.length - 1 - fromEnd
    str.take (stop + 1)

/-- `Trim`, wetext_string.cc:76. -/
def trim (str : Bytes) : Bytes := rtrim (ltrim str)

/-- `std::string::find`: the first position at which `d` occurs in `s`. -/
def find (d : Bytes) : Bytes → Option Nat
  | [] => if d = [] then some 0 else none
  | b :: rest => if d.isPrefixOf (b :: rest) then some 0 else (find d rest).map (· + 1)

theorem find_le {d s : Bytes} {p : Nat} (h : find d s = some p) : p + d.length ≤ s.length := by
  induction s generalizing p with
  | nil =>
    unfold find at h
    split at h
    · rename_i hd; cases h; simp [hd]
    · cases h
  | cons b s ih =>
    unfold find at h
    split at h
    · rename_i hp
      cases h
      have := (List.isPrefixOf_iff_prefix.1 hp).length_le
      omega
    · rw [Option.map_eq_some_iff] at h
      obtain ⟨q, hq, rfl⟩ := h
      have := ih hq
      simp only [List.length_cons]
      omega

/-- `Split`, wetext_string.cc:78-87, for a non-empty delimiter (with an empty one the C++ loop does
not terminate). -/
def split (delim : Bytes) (hd : delim ≠ []) (s : Bytes) : List Bytes :=
  match h : find delim s with
  | none => [s]
  | some pos =>
    have h1 := find_le h
    have h2 := List.length_pos_iff.2 hd
    s.take pos :: split delim hd (s.drop (pos + delim.length))
termination_by s.length

/-- `struct Token`, wetext_token_parser.h:34-37. `members` (an `unordered_map`) is an association
list without repeated keys. -/
structure Token where
  name : Bytes
  order : List Bytes := []
  members : List (Bytes × Bytes) := []
  deriving Repr, DecidableEq

/-- `members[key] = value` on an `unordered_map`. -/
def assign (m : List (Bytes × Bytes)) (key value : Bytes) : List (Bytes × Bytes) :=
  if (m.lookup key).isSome then m.map (fun p => if p.1 = key then (key, value) else p)
  else m ++ [(key, value)]

/-- `Token::Append`, wetext_token_parser.h:41-44. -/
def Token.append (t : Token) (key value : Bytes) : Token :=
  { t with order := t.order ++ [key], members := assign t.members key value }

/-- Field orders: `unordered_map<string, vector<string>>`. -/
abbrev Orders := Bytes → Option (List Bytes)

/-- `Token::String`, wetext_token_parser.h:46-61. The overwritten `order` member is not used again. -/
def Token.string (t : Token) (orders : Orders) : Bytes :=
  let order :=
    match orders t.name with
    | some o =>
      if t.members.lookup (lit "preserve_order") = none ∨
          t.members.lookup (lit "preserve_order") ≠ some (lit "true") then o
      else t.order
    | none => t.order
  let output := order.foldl
    (fun output key =>
      match t.members.lookup key with
      | none => output
      | some value => output ++ lit " " ++ key ++ lit ": \"" ++ value ++ lit "\"")
    (t.name ++ lit " {")
  output ++ lit " }"

/-- State `text_`, `index_`, `ch_` of `TokenParser`, wetext_token_parser.h:87-89. -/
structure St where
  text : List Bytes
  index : Nat
  ch : Option Bytes
  deriving Repr, DecidableEq

/-- Only used for termination. -/
def St.measure (s : St) : Nat :=
  match s.ch with
  | none => 0
  | some _ => (s.text.length - s.index) + 1

/-- `TokenParser::Load`, wetext_token_parser.cc:71-79. -/
def load (input : Bytes) : Except CErr St :=
  match splitUTF8 input with
  | none => .error .fatal
  | some [] => .error .invalidArgument
  | some (c :: cs) => .ok { text := c :: cs, index := 0, ch := some c }

/-- `TokenParser::Read`, wetext_token_parser.cc:81-89. -/
def read (s : St) : Bool × St :=
  if s.index < s.text.length - 1 then
    (true, { s with index := s.index + 1, ch := s.text[s.index + 1]? })
  else
    (false, { s with ch := none })

theorem read_measure {s : St} {c : Bytes} (h : s.ch = some c) :
    (read s).2.measure < s.measure := by
  unfold read
  split
  · rename_i hlt
    have : s.text[s.index + 1]? = some (s.text[s.index + 1]'(by omega)) := by
      rw [List.getElem?_eq_getElem]
    simp only [St.measure, h, this]
    omega
  · simp [St.measure, h]

/-- The loop of `TokenParser::ParseWs`, wetext_token_parser.cc:93-95. -/
def parseWsLoop (notEos : Bool) (s : St) : Bool × St :=
  if hc : notEos = true ∧ s.ch = some (lit " ") then
    have := read_measure hc.2
    let r := read s
    parseWsLoop r.1 r.2
  else (notEos, s)
termination_by s.measure

/-- `TokenParser::ParseWs`, wetext_token_parser.cc:91-97. -/
def parseWs (s : St) : Bool × St := parseWsLoop (s.ch != none) s

/-- `TokenParser::ParseChar`, wetext_token_parser.cc:99-105. -/
def parseChar (s : St) (exp : Bytes) : Bool × St :=
  if s.ch = some exp then (true, (read s).2) else (false, s)

/-- The loop of `TokenParser::ParseChars`, wetext_token_parser.cc:111-117. -/
def parseCharsFrom (start : Nat) (s : St) : List Bytes → Bool × St
  | [] => (true, s)
  | x :: xs =>
    match parseChar s x with
    | (true, s') => parseCharsFrom start s' xs
    | (false, s') => (false, { s' with index := start, ch := s'.text[start]? })

/-- `TokenParser::ParseChars`, wetext_token_parser.cc:107-119. The literal arguments are ASCII, so
`SplitUTF8StringToChars(exp)` is the list of its one-byte strings. -/
def parseChars (s : St) (exp : String) : Bool × St :=
  parseCharsFrom s.index s ((lit exp).map fun b => [b])

/-- `UTF8_WHITESPACE`, wetext_token_parser.cc:24-25 (the last element is one two-byte string). -/
def utf8Whitespace : List Bytes := [lit " ", [0x09], [0x0A], [0x0D], [0x0B, 0x0C]]

/-- `ASCII_LETTERS`, wetext_token_parser.cc:26-30. -/
def asciiLetters : List Bytes :=
  (lit "abcdefghijklmnopqrstuvwxyzABCDEFGHIJKLMNOPQRSTUVWXYZ_").map fun b => [b]

/-- The loop of `TokenParser::ParseKey`, wetext_token_parser.cc:128-131. -/
def parseKeyLoop (s : St) (key : Bytes) : Bytes × St :=
  match hc : s.ch with
  | none => (key, s)
  | some c =>
    if asciiLetters.contains c then
      have := read_measure hc
      parseKeyLoop (read s).2 (key ++ c)
    else (key, s)
termination_by s.measure

/-- `TokenParser::ParseKey`, wetext_token_parser.cc:121-137. -/
def parseKey (s : St) : Except CErr (Bytes × St) :=
  match s.ch with
  | none => .error .invalidArgument
  | some c =>
    if utf8Whitespace.contains c then .error .invalidArgument
    else
      let r := parseKeyLoop s []
      if r.1 = [] then .error .invalidArgument else .ok r

/-- The loop of `TokenParser::ParseValue`, wetext_token_parser.cc:145-159. -/
def parseValueLoop (s : St) (value : Bytes) : Except CErr (Bytes × St) :=
  match hc : s.ch with
  | none => .error .invalidArgument
  | some c =>
    if c = lit "\"" then .ok (value, s)
    else
      have h1 := read_measure hc
      if c = lit "\\" then
        match hc1 : (read s).2.ch with
        | none => .error .invalidArgument
        | some d =>
          have _h2 : (read (read s).2).2.measure < s.measure := Nat.lt_trans (read_measure hc1) h1
          parseValueLoop (read (read s).2).2 (value ++ c ++ d)
      else parseValueLoop (read s).2 (value ++ c)
termination_by s.measure

/-- `TokenParser::ParseValue`, wetext_token_parser.cc:139-161. -/
def parseValue (s : St) : Except CErr (Bytes × St) :=
  match s.ch with
  | none => .error .invalidArgument
  | some _ => parseValueLoop s []

theorem parseKeyLoop_measure (s : St) (key : Bytes) :
    (parseKeyLoop s key).2.measure ≤ s.measure := by
  fun_induction parseKeyLoop s key with
  | case1 => exact Nat.le_refl _
  | case2 s key c hc hk hlt ih => exact Nat.le_trans ih (Nat.le_of_lt hlt)
  | case3 => exact Nat.le_refl _

theorem parseKeyLoop_some {s : St} {c : Bytes} (h : s.ch = some c) (key : Bytes) :
    parseKeyLoop s key =
      if asciiLetters.contains c then parseKeyLoop (read s).2 (key ++ c) else (key, s) := by
  rw [parseKeyLoop]; split <;> simp_all

theorem parseKey_measure {s : St} {r : Bytes × St} (h : parseKey s = .ok r) :
    r.2.measure < s.measure := by
  unfold parseKey at h
  split at h
  · cases h
  · rename_i c hc
    split at h
    · cases h
    · dsimp only at h
      split at h
      · cases h
      · rename_i hne
        cases h
        rw [parseKeyLoop_some hc] at hne ⊢
        split at hne
        · rename_i hk
          rw [if_pos hk]
          exact Nat.lt_of_le_of_lt (parseKeyLoop_measure _ _) (read_measure hc)
        · exact absurd rfl hne

theorem parseChar_measure {s s' : St} {x : Bytes} (h : parseChar s x = (true, s')) :
    s'.measure < s.measure := by
  unfold parseChar at h
  split at h
  · rename_i hc
    cases h
    exact read_measure hc
  · simp at h

theorem parseCharsFrom_measure {start : Nat} {s s' : St} {xs : List Bytes}
    (h : parseCharsFrom start s xs = (true, s')) : s'.measure ≤ s.measure := by
  induction xs generalizing s with
  | nil => cases h; exact Nat.le_refl _
  | cons x xs ih =>
    unfold parseCharsFrom at h
    split at h
    · rename_i s1 h1
      exact Nat.le_trans (ih h) (Nat.le_of_lt (parseChar_measure h1))
    · simp at h

theorem parseValueLoop_measure {s s' : St} {value v : Bytes}
    (h : parseValueLoop s value = .ok (v, s')) : s'.measure ≤ s.measure := by
  fun_induction parseValueLoop s value with
  | case1 => cases h
  | case2 => cases h; exact Nat.le_refl _
  | case3 => cases h
  | case4 => rename_i h2 ih; exact Nat.le_trans (ih h) (Nat.le_of_lt h2)
  | case5 => rename_i h1 _ ih; exact Nat.le_trans (ih h) (Nat.le_of_lt h1)

theorem parseValue_measure {s s' : St} {v : Bytes}
    (h : parseValue s = .ok (v, s')) : s'.measure ≤ s.measure := by
  unfold parseValue at h
  split at h
  · cases h
  · exact parseValueLoop_measure h

theorem parseWsLoop_measure (b : Bool) (s : St) :
    (parseWsLoop b s).2.measure ≤ s.measure := by
  fun_induction parseWsLoop b s with
  | case1 b s hc hlt r ih => exact Nat.le_trans ih (Nat.le_of_lt hlt)
  | case2 => exact Nat.le_refl _

/-- The inner loop of `TokenParser::Parse`, wetext_token_parser.cc:173-188. -/
def parseFields (s : St) (token : Token) : Except CErr (Token × Bool × St) :=
  match hw : parseWs s with
  | (false, s1) => .ok (token, false, s1)
  | (true, s1) =>
    have m1 : s1.measure ≤ s.measure := by
      have := parseWsLoop_measure (s.ch != none) s
      unfold parseWs at hw; rw [hw] at this; exact this
    if s1.ch = some (lit "}") then
      .ok (token, true, (parseChar s1 (lit "}")).2)
    else
      match hk : parseKey s1 with
      | .error e => .error e
      | .ok (key, s2) =>
        have m2 : s2.measure < s1.measure := parseKey_measure hk
        match h3 : parseChars s2 ": \"" with
        | (false, _) => .error .invalidArgument
        | (true, s3) =>
          have m3 := parseCharsFrom_measure h3
          match h4 : parseValue s3 with
          | .error e => .error e
          | .ok (value, s4) =>
            have m4 := parseValue_measure h4
            match h5 : parseChar s4 (lit "\"") with
            | (false, _) => .error .invalidArgument
            | (true, s5) =>
              have m5 := parseChar_measure h5
              parseFields s5 (token.append key value)
termination_by s.measure

theorem parseFields_measure {s s' : St} {t t' : Token} {b : Bool}
    (h : parseFields s t = .ok (t', b, s')) : s'.measure ≤ s.measure := by
  fun_induction parseFields s t with
  | case1 s token s1 hw =>
    cases h
    have := parseWsLoop_measure (s.ch != none) s
    unfold parseWs at hw; rw [hw] at this; exact this
  | case2 s token s1 hw m1 hc =>
    cases h
    refine Nat.le_trans ?_ m1
    simp only [parseChar, hc, if_true]
    exact Nat.le_of_lt (read_measure hc)
  | case3 => cases h
  | case4 => cases h
  | case5 => cases h
  | case6 => cases h
  | case7 s token s1 hw m1 hc key s2 hk m2 s3 h3 m3 value s4 h4 m4 s5 h5 m5 ih =>
    have := ih h
    omega

/-- The outer loop of `TokenParser::Parse`, wetext_token_parser.cc:165-193. -/
def parseLoop (s : St) (tokens : List Token) : Except CErr (List Token) :=
  match hw : parseWs s with
  | (false, _) => .ok tokens
  | (true, s1) =>
    have m1 : s1.measure ≤ s.measure := by
      have := parseWsLoop_measure (s.ch != none) s
      unfold parseWs at hw; rw [hw] at this; exact this
    match hk : parseKey s1 with
    | .error e => .error e
    | .ok (name, s2) =>
      have m2 : s2.measure < s1.measure := parseKey_measure hk
      match h3 : parseChars s2 " { " with
      | (false, _) => .error .invalidArgument
      | (true, s3) =>
        have m3 := parseCharsFrom_measure h3
        match h4 : parseFields s3 { name := name } with
        | .error e => .error e
        | .ok (_, false, _) => .error .invalidArgument
        | .ok (token, true, s4) =>
          have m4 := parseFields_measure h4
          parseLoop s4 (tokens ++ [token])
termination_by s.measure

/-- `TokenParser::Parse`, wetext_token_parser.cc:163-193. -/
def parse (input : Bytes) : Except CErr (List Token) :=
  match load input with
  | .error e => .error e
  | .ok s => parseLoop s []

/-- `TokenParser::Reorder`, wetext_token_parser.cc:196-203. -/
def reorder (orders : Orders) (input : Bytes) : Except CErr Bytes :=
  match parse input with
  | .error e => .error e
  | .ok tokens =>
    .ok (trim (tokens.foldl (fun output token => output ++ (token.string orders ++ lit " ")) []))

/-- An `unordered_map<string, vector<string>>` literal. -/
def ordersOf (l : List (String × List String)) : Orders := fun name =>
  (l.find? fun p => lit p.1 = name).map fun p => p.2.map lit

/-- `ZH_TN_ORDERS`, wetext_token_parser.cc:31-36. -/
def zhTnOrdersList : List (String × List String) :=
  [("date", ["year", "month", "day"]),
   ("fraction", ["denominator", "numerator"]),
   ("measure", ["denominator", "numerator", "value"]),
   ("money", ["value", "currency"]),
   ("time", ["noon", "hour", "minute", "second"])]

/-- `JA_TN_ORDERS`, wetext_token_parser.cc:37-38. -/
def jaTnOrdersList : List (String × List String) :=
  [("date", ["year", "month", "day"]), ("money", ["value", "currency"])]

/-- `EN_TN_ORDERS`, wetext_token_parser.cc:40-42. -/
def enTnOrdersList : List (String × List String) :=
  [("date", ["preserve_order", "text", "day", "month", "year"]),
   ("money", ["integer_part", "fractional_part", "quantity", "currency_maj"])]

/-- `ITN_ORDERS`, wetext_token_parser.cc:43-50. -/
def itnOrdersList : List (String × List String) :=
  [("date", ["year", "month", "day", "preserve_order"]),
   ("fraction", ["sign", "numerator", "denominator"]),
   ("measure", ["numerator", "denominator", "value", "units"]),
   ("money", ["currency", "value", "decimal", "quantity"]),
   ("time", ["hour", "minute", "second", "noon", "zone"]),
   ("telephone", ["country_code", "number_part"]),
   ("electronic", ["username", "domain", "protocol"])]

/-- `enum ParseType`, wetext_token_parser.h:64-71. -/
inductive ParseType where
  | zhTn | zhItn | enTn | enItn | jaTn | jaItn
  deriving Repr, DecidableEq

/-- `TokenParser::TokenParser`, wetext_token_parser.cc:52-65: the schema of a parse type (the
`LOG(FATAL)` branch is unreachable for the six enumerators). -/
def schemaOf : ParseType → List (String × List String)
  | .zhTn => zhTnOrdersList
  | .zhItn => itnOrdersList
  | .enItn => itnOrdersList
  | .jaItn => itnOrdersList
  | .enTn => enTnOrdersList
  | .jaTn => jaTnOrdersList

/-- `TOKEN_ORDERS` of the Python pipelines: tn/chinese/normalizer.py:31-37,
tn/japanese/normalizer.py:33-39. -/
def pyTnOrders : List (String × List String) :=
  [("date", ["year", "month", "day"]),
   ("fraction", ["denominator", "numerator"]),
   ("measure", ["denominator", "numerator", "value"]),
   ("money", ["value", "currency"]),
   ("time", ["noon", "hour", "minute", "second"])]

/-- `TOKEN_ORDERS` of tn/english/normalizer.py:36-39. -/
def pyEnTnOrders : List (String × List String) :=
  [("date", ["preserve_order", "text", "day", "month", "year"]),
   ("money", ["integer_part", "fractional_part", "quantity", "currency_maj"])]

/-- `TOKEN_ORDERS` of itn/chinese/inverse_normalizer.py:31-39, itn/english/inverse_normalizer.py:33-41
and itn/japanese/inverse_normalizer.py:30-38. -/
def pyItnOrders : List (String × List String) :=
  [("date", ["year", "month", "day", "preserve_order"]),
   ("fraction", ["sign", "numerator", "denominator"]),
   ("measure", ["numerator", "denominator", "value", "units"]),
   ("money", ["currency", "value", "decimal", "quantity"]),
   ("time", ["hour", "minute", "second", "noon", "zone"]),
   ("telephone", ["country_code", "number_part"]),
   ("electronic", ["username", "domain", "protocol"])]

/-- The `token_orders` argument that each Python pipeline passes to `Processor`. -/
def pySchemaOf : ParseType → List (String × List String)
  | .zhTn => pyTnOrders
  | .jaTn => pyTnOrders
  | .enTn => pyEnTnOrders
  | .zhItn => pyItnOrders
  | .enItn => pyItnOrders
  | .jaItn => pyItnOrders

/-- Pipeline selection of `Processor::Processor`, wetext_processor.cc:27-42; `none` is `LOG(FATAL)`. -/
def parseTypeOf (taggerPath : Bytes) : Option ParseType :=
  if (find (lit "zh_tn_") taggerPath).isSome then some .zhTn
  else if (find (lit "zh_itn_") taggerPath).isSome then some .zhItn
  else if (find (lit "en_tn_") taggerPath).isSome then some .enTn
  else if (find (lit "en_itn_") taggerPath).isSome then some .enItn
  else if (find (lit "ja_tn_") taggerPath).isSome then some .jaTn
  else if (find (lit "ja_itn_") taggerPath).isSome then some .jaItn
  else none

/-- `Processor::Tag`, `Verbalize` and `Normalize`, wetext_processor.cc:64-86. The composition with a
transducer and its shortest path are the parameters `tagger` and `verbalizer`. -/
def tag (tagger : Bytes → Bytes) (input : Bytes) : Bytes :=
  if input = [] then [] else tagger input

/-- `Processor::Verbalize`, wetext_processor.cc:71-82 (NUL bytes are erased from the output). -/
def verbalize (type : ParseType) (verbalizer : Bytes → Bytes) (input : Bytes) :
    Except CErr Bytes :=
  if input = [] then .ok []
  else
    match reorder (ordersOf (schemaOf type)) input with
    | .error e => .error e
    | .ok output => .ok ((verbalizer output).filter (fun b => b != 0))

/-- `Processor::Normalize`, wetext_processor.cc:84-86. -/
def normalize (type : ParseType) (tagger verbalizer : Bytes → Bytes) (input : Bytes) :
    Except CErr Bytes :=
  verbalize type verbalizer (tag tagger input)

end Verif.Cpp
