import Verif.EnTn.Data
import Verif.EnTn.WhitelistData
import Verif.Token.Model
import Verif.Wfst.Run

/-
Model of the English text normalization grammar: /repo/tn/english/normalizer.py and all rule files
under /repo/tn/english/rules/ but roman.py (which the pipeline uses only in a branch it does not
take). Each graph is the expression the Python code builds with `deterministic=False` (`Telephone`
defaults to `True`), with the data tables of Data.lean and WhitelistData.lean. `a |= b` is
`a = a | b` (a new graph); `optimize()` calls are left out (see Verif/Wfst/Basic.lean).

Two parts of the grammar are parameters, gathered in `Env`; one binary data file is replaced by the
grammar `names` (see there).
-/

namespace Verif.EnTn

open Verif.Wfst
open Verif.Token (Orders ordersOf)

/-- What the grammar is built from besides the modelled code. -/
structure Env where
  /-- Characters whose Unicode category begins with `P` (punctuation.py:47-50). -/
  isP : Char → Bool
  /-- `cdrewrite(cross("y", "ies") | insert("s"), "", "[EOS]", VCHAR).star`, date.py:65-70. It is built
  with `VCHAR` (one character) where `cdrewrite` wants the closure of an alphabet, for which pynini
  documents no meaning; nothing is assumed of it but that its loops read something. -/
  decade : G
  decade_ok : decade.ok = true
  /-- No white space and no NUL is punctuation. -/
  isP_plain : ∀ c, isP c = true → isSpace c = false ∧ vchar c = true
  /-- No digit is punctuation. -/
  isP_digit : ∀ c, isP c = true → isDigit c = false

/-- `invert(string_file(path))`. -/
def inv (t : List (Str × Str)) : List (Str × Str) := t.map Prod.swap
/-- `closure(a, n)`, `a ** (n, ...)`: at least `n` copies. -/
def atLeast (n : Nat) (a : G) : G := a.pow n + .star a
/-- `closure(a, m, m + n)`, `a ** (m, m + n)`. -/
def between (m n : Nat) (a : G) : G := a.pow m + a.upTo n
/-- `self.ALPHA`, processor.py:122. -/
def ALPHA : G := .cls isAlpha
/-- `self.UPPER`, processor.py:129. -/
def UPPER : G := .cls isUpper
/-- `self.DIGIT`, processor.py:123. -/
def DIGIT : G := .cls isDigit
/-- A digit other than the listed ones. -/
def digitBut (cs : List Char) : G := .cls fun c => isDigit c && !cs.contains c
/-- `self.PUNCT`, processor.py:124. -/
def PUNCT : G := .cls isPunct
/-- `self.VCHAR`, processor.py:126. -/
def VCHAR : G := .cls vchar
/-- `self.NOT_QUOTE.star`, processor.py:134. -/
def notQuotes : G := .star (.cls fun c => vchar c && c != '"')
/-- A character other than white space. -/
def notSpace (c : Char) : Bool := vchar c && !isSpace c
/-- `self.NOT_SPACE`, processor.py:135. -/
def NOT_SPACE : G := .cls notSpace
/-- `self.INSERT_SPACE`, processor.py:136. -/
def isp : G := Wfst.insert t!" "
/-- `self.DELETE_SPACE`, processor.py:137. -/
def DELETE_SPACE : G := .star (delete (.cls isSpace))
/-- `self.DELETE_EXTRA_SPACE`, processor.py:138. -/
def DELETE_EXTRA_SPACE : G := .cross (G.cls isSpace).plus t!" "
/-- `self.DELETE_ZERO_OR_ONE_SPACE`, processor.py:139. -/
def DELETE_ZERO_OR_ONE_SPACE : G := delete (G.cls isSpace).ques
/-- `delete(" ").ques`. -/
def dsq : G := (del t!" ").ques
/-- The pairs of processor.py:141. -/
def lowerOf : List (Char × Char) := List.zip t!"ABCDEFGHIJKLMNOPQRSTUVWXYZ" t!"abcdefghijklmnopqrstuvwxyz"
/-- `self.TO_LOWER`, processor.py:141. -/
def TO_LOWER : G := charTable lowerOf
/-- `self.TO_UPPER`, processor.py:142. -/
def TO_UPPER : G := charTable (lowerOf.map Prod.swap)
/-- `plurals._priority_union(q, r, VCHAR.star)` of the pynini examples: `q`, or `r` on the inputs that
`q` does not accept. -/
def priorityUnion (q r : G) : G := q ||| .comp (.diff VSIGMA (.proj q)) r
/-- The first column of a table, as acceptors: `project(string_file(path), "input")`. -/
def keys (t : List (Str × Str)) : G := .tab (t.map fun e => (e.1, e.1))
/-- `union(*[...])` of literals. -/
def oneOf (l : List Str) : G := .tab (l.map fun s => (s, s))
/-- `range(a, b)`. -/
def range (a b : Nat) : List Nat := (List.range (b - a)).map (a + ·)
/-- `augment_labels_with_punct_at_end`, /repo/tn/utils.py:48-63, appended to its argument (no key and no
value of the tables it is used on is empty). -/
def withFinalDot (t : List (Str × Str)) : List (Str × Str) :=
  t ++ (t.filter fun e => e.1.getLast? = some '.' && e.2.getLast? != some '.').map fun e => (e.1, e.2 ++ ['.'])
/-- `delete(name + ":") + DELETE_SPACE + delete('"') + graph + delete('"')`, the shape in which most
verbalizers of this grammar read a field. -/
def field (name : Str) (graph : G) : G := del (name ++ t!":") + DELETE_SPACE + del t!"\"" + graph + del t!"\""
/-- `delete(name + ': "') + graph + delete('"')`. -/
def fieldSp (name : Str) (graph : G) : G := del (name ++ t!": \"") + graph + del t!"\""

/-! ### rules/cardinal.py -/

/-- `invert(graph_digit)`, cardinal.py:48. -/
def digitG : G := .tab (inv digit)
/-- "10" … "19". -/
def teenG : G := .tab (inv teen)
/-- The tens digit of 20 … 99. -/
def tyG : G := .tab (inv ty)
/-- Two digits with a first one other than 0. -/
def tens : G := teenG ||| (tyG + (del t!"0" ||| (isp + digitG)))
/-- Two digits, not both 0. -/
def two : G := (del t!"0" + digitG) ||| tens
/-- Three digits with a first one other than 0. -/
def hundreds : G := digitG + Wfst.insert t!" hundred" + (del t!"00" ||| (isp + two))
/-- Three digits, not all 0. -/
def three : G := (del t!"0" + two) ||| hundreds
/-- One to three digits with a first one other than 0. -/
def leadGroup : G := digitG ||| tens ||| hundreds
/-- What follows the first group; the argument lists the scales of the groups but the last. -/
def tailGroups : List Str → G
  | [] => del t!"000" ||| (isp + three)
  | name :: names => (del t!"000" ||| (isp + three + Wfst.insert (' ' :: name))) + tailGroups names
/-- Numbers whose first group has one of the listed scales, or none. -/
def bigNames : List Str → G
  | [] => leadGroup
  | name :: names => bigNames names ||| (leadGroup + Wfst.insert (' ' :: name) + tailGroups names)
/-- The scales, largest first. -/
def scales : List Str := [t!"trillion", t!"billion", t!"million", t!"thousand"]
/-- `Far("english/data/number/cardinal_number_name.far").get_fst()`, cardinal.py:43: the names of the
numbers below 10^15. The file is a compiled transducer of 9131 states; this grammar stands for its
restriction to strings of digits (it also reads other characters, but every use of it in the grammar
is composed with a graph that writes digits only). `tools/checkfar.py` compares the two. -/
def names : G := crossS t!"0" t!"zero" ||| bigNames scales

/-- `graph_hundred_component_at_least_one_none_zero_digit`, cardinal.py:45-46. -/
def hundredPart : G := .comp (between 2 1 DIGIT ||| digitBut ['0']) names
/-- `single_digits_graph`, `single_digits_graph_zero`, cardinal.py:51 and 57. -/
def digitZero : G := .tab (inv (digit ++ zero))
/-- `single_digits_graph_oh`, cardinal.py:58. -/
def digitOh : G := digitG ||| crossS t!"0" t!"oh"
/-- `self.single_digits_graph`, cardinal.py:60-62. -/
def singleDigits : G :=
  G.wt (digitZero + .star (isp + digitZero)) 100000 ||| (digitOh + .star (isp + digitOh))
/-- Three digits of cardinal.py:66-68. -/
def threeSingle : G := del t!"," + digitZero + isp + digitZero + isp + digitZero
/-- `single_digits_graph_with_commas`, cardinal.py:64-68. -/
def digitsWithCommas : G :=
  between 1 2 (singleDigits + isp) + (threeSingle + .star (isp + threeSingle))
/-- The numerals that are read as numbers, with the commas removed: cardinal.py:70-71. -/
def numeral : G :=
  between 1 2 DIGIT + (.star (del t!"," + DIGIT.pow 3) ||| .star (DIGIT.pow 3))
/-- `graph`, `self.graph`, cardinal.py:70-73. -/
def cardinal : G := .comp numeral names
/-- `no_thousand_million`, cardinal.py:114-115. -/
def noThousandMillion : G := .diff notQuotes (notQuotes + oneOf [t!"thousand", t!"million"] + notQuotes)
/-- `no_hundred`, cardinal.py:119. -/
def noHundred : G := .diff VSIGMA (notQuotes + .lit t!"hundred" + notQuotes)
/-- `integer`, cardinal.py:116-121. -/
def putAnd : G :=
  (notQuotes + G.wt (crossS t!"hundred " t!"hundred and " + noThousandMillion) (-10)) |||
    (notQuotes + G.wt (crossS t!"thousand " t!"thousand and " + noHundred) (-10))
/-- `optional_hundred`, cardinal.py:123-127. -/
def dropHundred (graph : G) : G :=
  .comp (.comp ((digitBut ['0']).pow 3) graph) (VSIGMA + crossS t!" hundred" t!"" + VSIGMA)
/-- `add_optional_and`, cardinal.py:109-130. -/
def addOptionalAnd (graph : G) : G := G.wt graph 1 ||| .comp graph putAnd ||| dropHundred graph
/-- `self.graph_with_and`, cardinal.py:74. -/
def withAnd : G := addOptionalAnd cardinal
/-- `leading_zeros`, cardinal.py:83. -/
def leadingZeros : G := .comp (G.lit t!"0").plus singleDigits
/-- `cardinal_with_leading_zeros`, cardinal.py:84-85. -/
def withLeadingZeros : G := leadingZeros + isp + .comp (.star DIGIT) withAnd
/-- `self.long_numbers`, cardinal.py:86. -/
def longNumbers : G := withAnd ||| G.wt singleDigits 10
/-- `final_graph`, cardinal.py:88-90. -/
def finalGraph1 : G := longNumbers ||| G.wt digitsWithCommas 10 ||| withLeadingZeros
/-- `one_to_a_replacement_graph`, cardinal.py:92-94. -/
def oneToA : G :=
  G.wt (crossS t!"one hundred" t!"a hundred") 10 ||| G.wt (crossS t!"one thousand" t!"thousand") (-10) |||
    G.wt (crossS t!"one million" t!"a million") 10
/-- `final_graph`, cardinal.py:95-98. -/
def finalGraph2 : G := finalGraph1 ||| .comp finalGraph1 (oneToA + VSIGMA)
/-- `self.final_graph`, cardinal.py:99-103. -/
def finalGraph : G := finalGraph2 ||| .comp (digitBut ['0'] + del t!"," + DIGIT.pow 3) finalGraph2
/-- `optional_minus_graph`, cardinal.py:104, decimal.py:83 and measure.py:104. -/
def minusField : G := (tagField t!"negative" (crossS t!"-" t!"true") + isp).ques
/-- `self.optional_sign`, cardinal.py:137-142. -/
def optionalSign : G :=
  ((crossS t!"negative: \"-\"" t!"minus " ||| G.wt (crossS t!"negative: \"-\"" t!"negative ") (-10) |||
    crossS t!"negative: \"-\"" t!"dash ") + DELETE_SPACE).ques
/-- `self.integer`, cardinal.py:144. -/
def cardinalValue : G := DELETE_SPACE + del t!"\"" + finalGraph + del t!"\""
/-- `class Cardinal`, cardinal.py:24-149. -/
def cardinalRule : Rule where
  tagger := addTokens t!"cardinal" (minusField + tagField t!"integer" finalGraph)
  verbalizer := deleteTokens t!"cardinal" (optionalSign + (del t!"integer:" + cardinalValue))

/-! ### rules/ordinal.py -/

/-- `cardinal_format`, ordinal.py:39. -/
def cardinalFormat : G := .star (.cls fun c => isDigit c || c = ',')
/-- What precedes the last digit in `st_format`, `nd_format` and `rd_format`, ordinal.py:40-45. -/
def notTeen : G := (cardinalFormat + digitBut ['1']).ques
/-- `st_format`, ordinal.py:40-41. -/
def stFormat : G := notTeen + .lit t!"1" + delete (oneOf [t!"st", t!"ST", t!"ˢᵗ"])
/-- `nd_format`, ordinal.py:42-43. -/
def ndFormat : G := notTeen + .lit t!"2" + delete (oneOf [t!"nd", t!"ND", t!"ⁿᵈ"])
/-- `rd_format`, ordinal.py:44-45. -/
def rdFormat : G := notTeen + .lit t!"3" + delete (oneOf [t!"rd", t!"RD", t!"ʳᵈ"])
/-- `th_format`, ordinal.py:46-49. -/
def thFormat : G :=
  (digitBut ['1', '2', '3'] ||| (cardinalFormat + .lit t!"1" + DIGIT) |||
    (cardinalFormat + digitBut ['1'] + digitBut ['1', '2', '3'])).plus +
      delete (oneOf [t!"th", t!"TH", t!"ᵗʰ"])
/-- `self.graph`, ordinal.py:50. -/
def ordinal : G := .comp (stFormat ||| ndFormat ||| rdFormat ||| thFormat) cardinal
/-- The endings that `suffix` replaces, ordinal.py:60-61 and 67; none is the end of another. -/
def ordinalEndings : List (Str × Str) := inv ordDigit ++ inv ordTeen ++ [(t!"ty", t!"tieth")]
/-- `suffix`, ordinal.py:64-71: `cdrewrite` of the endings and of the empty string to "th", at the end
of the text. `Rewrites` has no empty matches, so the rule is written out: an ending is replaced
(matches begin as far left as possible, so it wins over the empty one), and a text with no such
ending gets "th". -/
def ordSuffix : G :=
  (VSIGMA + .tab ordinalEndings) ||| (.diff VSIGMA (VSIGMA + keys ordinalEndings) + Wfst.insert t!"th")
/-- `self.graph_v`, ordinal.py:63 and 72. -/
def ordinalV : G := .comp (field t!"integer" ordinal) ordSuffix
/-- `class Ordinal`, ordinal.py:24-75. -/
def ordinalRule : Rule where
  tagger := addTokens t!"ordinal" (tagField t!"integer" ordinal)
  verbalizer := deleteTokens t!"ordinal" ordinalV

/-! ### rules/decimal.py -/

/-- `quantities_abbr`, decimal.py:25-26. -/
def quantitiesAbbr : G := .tab quantityAbbr ||| .comp TO_UPPER (.tab quantityAbbr)
/-- `quantities | quantities_abbr`; `self.quantity_graph`, decimal.py:102. -/
def allQuantities : G := .tab thousands ||| quantitiesAbbr
/-- `union("k", "K", "thousand")`. -/
def kiloWords : G := oneOf [t!"k", t!"K", t!"thousand"]
/-- `quantity_wo_thousand`, decimal.py:43-45. -/
def quantityWoThousand (abbr : Bool) : G :=
  if abbr then .diff (keys thousands) kiloWords ||| .diff (.proj quantitiesAbbr) kiloWords
  else .diff (keys thousands) kiloWords
/-- `get_quantity`, decimal.py:29-54. -/
def getQuantity (decimal : G) (abbr : Bool) : G :=
  (tagField t!"integer_part" hundredPart + dsq + isp +
    tagField t!"quantity" (.comp (quantityWoThousand abbr) allQuantities)) |||
  (decimal + dsq + isp + tagField t!"quantity" (if abbr then allQuantities else .tab thousands))
/-- `self.graph`, decimal.py:77-80. -/
def fracDigits : G := singleDigits ||| G.wt withAnd 10000
/-- `final_graph_wo_sign`, decimal.py:85-88. -/
def decimalPlain : G :=
  (tagField t!"integer_part" withAnd + isp).ques + del t!"." + isp + tagField t!"fractional_part" fracDigits
/-- `self.final_graph_wo_negative_w_abbr`, decimal.py:90-94 and 100. -/
def decimalAbbr : G := decimalPlain ||| getQuantity decimalPlain true
/-- `self.final_graph_wo_negative`, decimal.py:95-99 and 101. -/
def decimalNoSign : G := decimalPlain ||| getQuantity decimalPlain false
/-- `self.optional_sign`, decimal.py:115-118. -/
def decimalSign : G :=
  ((crossS t!"negative: \"-\"" t!"minus " ||| G.wt (crossS t!"negative: \"-\"" t!"negative ") 10000) +
    DELETE_SPACE).ques
/-- `self.integer`, decimal.py:119. -/
def decimalInteger : G := del t!"integer_part:" + cardinalValue
/-- `self.quantity`, decimal.py:126-127. -/
def quantityV : G := DELETE_SPACE + isp + field t!"quantity" allQuantities
/-- `self.fractional`, decimal.py:121-124. -/
def fractionalV : G := Wfst.insert t!"point " + field t!"fractional_part" fracDigits
/-- `self.numbers`, decimal.py:130-134. -/
def decimalNumbers : G :=
  decimalSign + (decimalInteger ||| (decimalInteger + quantityV) |||
    ((decimalInteger + DELETE_SPACE + isp).ques + fractionalV + quantityV.ques))
/-- `colloquial_fraction`, decimal.py:137-143 and measure.py:266-272. -/
def colloquial (graph : G) : G :=
  .comp graph (VSIGMA + .tab [(t!" point five", t!" and a half"), (t!"zero point five", t!"half"),
    (t!" point two five", t!" and a quarter"), (t!"zero point two five", t!"quarter")])
/-- `class Decimal`, decimal.py:57-145. -/
def decimalRule : Rule where
  tagger := addTokens t!"decimal" (minusField + decimalNoSign)
  verbalizer := deleteTokens t!"decimal" decimalNumbers |||
    G.wt (colloquial (deleteTokens t!"decimal" decimalNumbers)) 10

/-! ### rules/fraction.py -/

/-- `endings`, fraction.py:49-50 and date.py:185-186. -/
def endings : List Str := [t!"rd", t!"th", t!"st", t!"nd", t!"RD", t!"TH", t!"ST", t!"ND"]
/-- `self.denominator_graph`, fraction.py:51 and 54. -/
def denominatorG : G := cardinal + (delete (oneOf endings)).ques
/-- `self.symbol_graph`, fraction.py:58. -/
def symbolFraction : G := .tab fractions
/-- `self.graph`, fraction.py:46-61. -/
def fractionG : G :=
  ((tagField t!"integer_part" cardinal + .lit t!" ").ques +
    ((tagField t!"numerator" cardinal + (crossS t!"/" t!" " ||| crossS t!" / " t!" ")) +
      tagField t!"denominator" denominatorG)) |||
  ((tagField t!"integer_part" cardinal + .lit t!" ").ques + tagField t!"value" symbolFraction)
/-- `denominator_value`, fraction.py:74. -/
def denominatorValue : G := fieldSp t!"denominator" denominatorG
/-- `denominators`, fraction.py:75-93. -/
def denominators : G :=
  priorityUnion (.comp denominatorValue (crossS t!"one" t!"over one"))
    (priorityUnion (.comp denominatorValue (crossS t!"two" t!"half"))
      (priorityUnion (.comp denominatorValue (crossS t!"four" t!"quarter"))
        (G.wt (.comp denominatorValue ordSuffix) 10))) |||
  G.wt (.comp denominatorValue (.comp (.lit t!"four") ordSuffix)) 10
/-- `numerator_value`, fraction.py:95. -/
def numeratorValue : G := del t!"numerator: \"" + cardinal + del t!"\" "
/-- `cdrewrite(_priority_union(cross("half", "halves"), insert("s"), ...), "", "[EOS]", ...)`,
fraction.py:100-105, written out like `ordSuffix`. -/
def pluralDenominator : G :=
  (VSIGMA + crossS t!"half" t!"halves") ||| (.diff VSIGMA (VSIGMA + .lit t!"half") + Wfst.insert t!"s")
/-- `graph`, fraction.py:96-107. -/
def fractionBody : G :=
  (.comp numeratorValue (.lit t!"one") + isp + denominators) |||
  .comp (.comp numeratorValue (.diff notQuotes (.lit t!"one")) + isp + denominators) pluralDenominator
/-- `graph`, fraction.py:73 and 109-119. -/
def fractionSpoken : G :=
  .comp (((del t!"integer_part: \"" + cardinal + del t!"\" ") + isp + Wfst.insert t!"and ").ques + fractionBody)
    (buildRule (crossS t!"and one half" t!"and a half" ||| crossS t!"over ones" t!"over one") .any .edge)
/-- `raw_numerator + raw_denominator`, fraction.py:121-124. -/
def rawFraction : G :=
  (Wfst.insert t!"numerator: \"" + .proj cardinal + (crossS t!"/" t!"\" " ||| crossS t!" / " t!"\" ")) +
    (Wfst.insert t!"denominator: \"" + .proj denominatorG + Wfst.insert t!"\"")
/-- `symbol_body`, fraction.py:125-127. -/
def symbolBody : G :=
  (G.lit t!"integer_part: \"" + .proj cardinal + .lit t!"\" ").ques +
    (del t!"value: \"" + .comp symbolFraction rawFraction + del t!"\"")
/-- `self.graph_v`, fraction.py:128-130. -/
def fractionV : G := fractionSpoken ||| .comp symbolBody fractionSpoken
/-- `class Fraction`, fraction.py:26-132. -/
def fractionRule : Rule where
  tagger := addTokens t!"fraction" fractionG
  verbalizer := deleteTokens t!"fraction" fractionV

/-! ### rules/date.py -/

/-- `year_suffix`, date.py:28-30. -/
def yearSuffixG : G := .tab (withFinalDot yearSuffix)
/-- `get_ties_graph`, date.py:33-47. -/
def ties (deterministic : Bool) : G :=
  (teenG ||| (tyG + del t!"0") ||| (tyG + isp + digitG)) |||
    ((if deterministic then crossS t!"0" t!"oh" else crossS t!"0" t!"oh" ||| crossS t!"0" t!"zero") + isp + digitG)
/-- `graph_with_s`, date.py:59-70. -/
def yearWithS (e : Env) (deterministic : Bool) : G :=
  .comp ((((ties deterministic + isp + ties deterministic) |||
      (teenG + isp + (tyG ||| crossS t!"1" t!"ten"))) + del t!"0s") |||
    ((teenG ||| ties deterministic) + isp + crossS t!"00" t!"hundred" + del t!"s")) e.decade
/-- `thousand_graph`, date.py:75-78. -/
def yearThousand : G :=
  (digitG + isp + crossS t!"00" t!"thousand" + (del t!"0" ||| (isp + digitG))) |||
    (digitG + isp + crossS t!"000" t!"thousand" + dsq + .lit t!"s")
/-- `get_four_digit_year_graph`, date.py:50-86. -/
def fourDigitYear (e : Env) (deterministic : Bool) : G :=
  let graph := (ties deterministic + isp + ties deterministic) |||
    ((teenG ||| ties deterministic) + isp + crossS t!"00" t!"hundred") ||| yearWithS e deterministic
  if deterministic then priorityUnion yearThousand graph else graph ||| yearThousand
/-- `_get_two_digit_year_with_s_graph`, date.py:89-96. -/
def twoDigitYearWithS : G :=
  (del t!"'").ques + .comp (tyG + del t!"0s") (buildRule (crossS t!"y" t!"ies") .any .edge)
/-- `three_digit_year`, date.py:115-116. -/
def threeDigitYear : G := .comp DIGIT hundredPart + isp + .comp (DIGIT.pow 2) hundredPart
/-- `_get_year_graph`, date.py:99-120. -/
def yearG (e : Env) : G :=
  .comp (oneOf [t!"1", t!"2"] + DIGIT.pow 3 + (crossS t!" s" t!"s" ||| .lit t!"s").ques) (fourDigitYear e false) |||
    twoDigitYearWithS |||
    ((fourDigitYear e true ||| threeDigitYear) + DELETE_SPACE + isp + yearSuffixG)
/-- `self.month_graph`, date.py:166-170. -/
def monthG : G := (.tab monthName ||| .tab monthAbbr) + (delete PUNCT).ques
/-- `self.month_numbers_graph`, date.py:172 and 181. -/
def monthNumberG : G := .tab monthNumber
/-- `day_number`, date.py:189. -/
def dayNumber : G := (oneOf [t!"1", t!"2"] + DIGIT) ||| DIGIT ||| (.lit t!"3" + oneOf [t!"0", t!"1"])
/-- `self.day_graph`, date.py:190-191. -/
def dayG : G :=
  (del t!"the ").ques +
    .comp ((del t!"0").ques + dayNumber + (delete (oneOf endings)).ques) hundredPart
/-- `self.two_digit_year_graph`, date.py:123-126 and 194-198. -/
def twoDigitYear : G := .comp (DIGIT.pow 2) (priorityUnion hundredPart singleDigits) + (del t!",").ques
/-- `self.year_after_graph`, date.py:201-202. -/
def yearAfter (e : Env) : G :=
  (del t!" " + yearG e + (del t!",").ques) |||
    (crossS t!"," t!", " + dsq + yearG e + (del t!",").ques)
/-- `month_graph`, date.py:182. -/
def month : G := tagField t!"month" monthG
/-- `month_numbers_graph`, date.py:183. -/
def monthNum : G := tagField t!"month" monthNumberG
/-- `day_graph`, date.py:192. -/
def day : G := tagField t!"day" dayG
/-- `graph_year`, date.py:203. -/
def graphYear (e : Env) : G := isp + tagField t!"year" (yearAfter e)
/-- `year_graph`, date.py:207. -/
def year (e : Env) : G := tagField t!"year" (yearG e)
/-- `add_weight(year_graph, -1.0)`, date.py:218, 225 and 231. -/
def lightYear (e : Env) : G := G.wt (year e) (-100000)
/-- `for x in ["-", "/", "."]: graph |= ...`, date.py:215, 222 and 229. -/
def forSeps (f : G → G) : G := f (del t!"-") ||| f (del t!"/") ||| f (del t!".")
/-- `graph_mdy`, date.py:209-218. -/
def mdy (e : Env) : G :=
  (month + ((DELETE_EXTRA_SPACE + day) ||| (.lit t!" " + day) ||| graphYear e |||
    (DELETE_EXTRA_SPACE + day + graphYear e))) |||
  (month + crossS t!"-" t!" " + day + (G.comp (crossS t!"-" t!" " + VSIGMA) (graphYear e)).ques) |||
  forSeps fun sep => monthNum + sep + isp + day + sep + isp + lightYear e
/-- `graph_dmy`, date.py:220-225. -/
def dmy (e : Env) : G :=
  (day + DELETE_EXTRA_SPACE + isp + month + (graphYear e).ques) |||
  forSeps fun sep =>
    .comp (.diff (DIGIT.pow 2) (.proj monthNum)) day + sep + isp + monthNum + sep + isp + lightYear e
/-- `graph_ymd`, date.py:227-232. -/
def ymd (e : Env) : G :=
  (year e + DELETE_EXTRA_SPACE + isp + month + DELETE_EXTRA_SPACE + isp + day) |||
  forSeps fun sep => lightYear e + sep + isp + monthNum + sep + isp + day
/-- `_get_financial_period_graph`, date.py:129-140. -/
def periodG : G :=
  (.tab [(t!"1", t!"first"), (t!"2", t!"second")] + crossS t!"H" t!" half") |||
  (.tab [(t!"1", t!"first"), (t!"2", t!"second"), (t!"3", t!"third"), (t!"4", t!"fourth")] +
    crossS t!"Q" t!" quarter")
/-- `self.structured_graph`, date.py:234-242. -/
def dateStructured (e : Env) : G :=
  G.wt (mdy e ||| dmy e ||| ymd e) (-10000) ||| year e |||
    (tagField t!"text" periodG + isp + tagField t!"year" twoDigitYear)
/-- `year`, date.py:259-261. -/
def yearV (e : Env) : G :=
  del t!"year:" + DELETE_SPACE + del t!"\"" + (yearG e ||| yearAfter e ||| twoDigitYear) + DELETE_SPACE + del t!"\""
/-- `self.verbalizer_graph`, date.py:252-272. -/
def dateVerbalizerG (e : Env) : G :=
  .comp
    (((((Wfst.insert t!"the " + .comp (field t!"day" dayG) ordSuffix + DELETE_EXTRA_SPACE + Wfst.insert t!"of ").ques +
          field t!"month" (monthG ||| monthNumberG) + (DELETE_EXTRA_SPACE + yearV e).ques) |||
        yearV e |||
        (Wfst.insert t!"the " + field t!"text" periodG + Wfst.insert t!" of" +
          (DELETE_EXTRA_SPACE + yearV e).ques)) + DELETE_SPACE))
    (buildRule (crossS t!" ," t!","))
/-- `self.graph`, date.py:273. -/
def dateG (e : Env) : G := .comp (dateStructured e) (dateVerbalizerG e)
/-- `class Date`, date.py:143-274. -/
def dateRule (e : Env) : Rule where
  tagger := addTokens t!"date" (dateStructured e)
  verbalizer := deleteTokens t!"date" (dateVerbalizerG e)

/-! ### rules/time.py -/

/-- `union(*[str(x) for x in range(a, b)])`, time.py:54-56. -/
def numbersFrom (a b : Nat) : G := oneOf ((range a b).map fun n => Nat.toDigits 10 n)
/-- `self.hour_graph`, time.py:58-60 and 65. -/
def hourG : G :=
  .comp (.comp ((DIGIT + DIGIT) ||| ((del t!"0").ques + DIGIT)) (numbersFrom 0 24)) cardinal
/-- `self.minute_graph`, time.py:62-66. -/
def minuteG : G := (crossS t!"0" t!"o" + isp + .comp (numbersFrom 1 10) cardinal) ||| .comp (numbersFrom 10 60) cardinal
/-- `self.minute_zero_graph`, time.py:67. -/
def minuteZero : G := crossS t!"00" t!"zero"
/-- `self.suffix_graph`, time.py:45-47. -/
def suffixG : G := .tab (withFinalDot timeSuffix)
/-- `self.zone_graph`, time.py:49. -/
def zoneG : G := .tab timeZone
/-- `final_suffix`, time.py:74. -/
def suffixF : G := tagField t!"suffix" suffixG
/-- `final_suffix_optional`, time.py:75. -/
def suffixOpt : G := (DELETE_SPACE + isp + suffixF).ques
/-- `final_time_zone_optional`, time.py:76. -/
def zoneOpt : G := (DELETE_SPACE + isp + tagField t!"zone" zoneG).ques
/-- `final_graph_hour`, time.py:71. -/
def hours : G := tagField t!"hours" hourG
/-- `tag_field("minutes", minute_zero_graph) | final_graph_minute`. -/
def minutes : G := tagField t!"minutes" minuteZero ||| tagField t!"minutes" minuteG
/-- `graph_hm`, time.py:79-81. -/
def timeHm : G := hours + del t!":" + isp + minutes + suffixOpt + zoneOpt
/-- `graph_hms`, time.py:84-88. -/
def timeHms : G :=
  hours + del t!":" + ((isp + tagField t!"minutes" minuteZero) ||| (isp + tagField t!"minutes" minuteG)) + del t!":" +
    ((isp + tagField t!"seconds" minuteZero) ||| (isp + tagField t!"seconds" minuteG)) + suffixOpt + zoneOpt
/-- `graph_hm2`, time.py:91-93. -/
def timeHm2 : G := hours + del t!"." + isp + minutes + DELETE_SPACE + isp + suffixF + zoneOpt
/-- `graph_h`, time.py:95. -/
def timeH : G := hours + DELETE_SPACE + isp + suffixF + zoneOpt
/-- `self.structured_graph`, time.py:96-98. -/
def timeStructured : G := timeHm ||| timeH ||| timeHm2 ||| timeHms
/-- `hour`, time.py:107. -/
def hourV : G := field t!"hours" hourG
/-- `zero_minute`, time.py:112-113. -/
def zeroMinuteV : G := field t!"minutes" (del t!"00")
/-- `suffix`, time.py:114-115. -/
def suffixV : G := field t!"suffix" suffixG
/-- `optional_suffix`, time.py:116. -/
def suffixOptV : G := (DELETE_SPACE + isp + suffixV).ques
/-- `optional_zone`, time.py:117-118. -/
def zoneOptV : G := (DELETE_SPACE + isp + field t!"zone" zoneG).ques
/-- `graph_hms`, time.py:119-131. -/
def hmsV : G :=
  .comp
    (hourV + Wfst.insert t!" hours " + DELETE_SPACE + field t!"minutes" (minuteG ||| minuteZero) +
      Wfst.insert t!" minutes and " + DELETE_SPACE + field t!"seconds" (minuteG ||| minuteZero) +
      Wfst.insert t!" seconds" + suffixOptV + zoneOptV)
    (buildRule (del t!"o " ||| crossS t!"one minutes" t!"one minute" ||| crossS t!"one seconds" t!"one second" |||
      crossS t!"one hours" t!"one hour") (.edgeOr (· = ' ')) .any)
/-- `self.verbalizer_graph`, time.py:132-137. -/
def timeVerbalizerG : G :=
  (hourV + DELETE_SPACE + isp + field t!"minutes" minuteG + suffixOptV + zoneOptV) |||
  (hourV + DELETE_SPACE + zeroMinuteV + isp + Wfst.insert t!"o'clock" + zoneOptV) |||
  (hourV + DELETE_SPACE + zeroMinuteV + DELETE_SPACE + isp + suffixV + zoneOptV) |||
  (hourV + DELETE_SPACE + isp + suffixV + zoneOptV) ||| hmsV
/-- `self.graph`, time.py:138. -/
def timeG : G := .comp timeStructured timeVerbalizerG
/-- `class Time`, time.py:24-140. -/
def timeRule : Rule where
  tagger := addTokens t!"time" timeStructured
  verbalizer := deleteTokens t!"time" timeVerbalizerG

/-! ### rules/measure.py -/

/-- `_c`, measure.py:29-51. -/
def consonant (c : Char) : Bool := (t!"bcdfghjklmnpqrstvwxyz").contains c
/-- `graph_plural`, `SINGULAR_TO_PLURAL`, measure.py:27 and 52-66. -/
def plural : G :=
  priorityUnion (.tab suppletive)
    (priorityUnion (VSIGMA + .cls consonant + crossS t!"y" t!"ies")
      (priorityUnion (VSIGMA + oneOf [t!"s", t!"sh", t!"ch", t!"x", t!"z"] + Wfst.insert t!"es")
        (VSIGMA + Wfst.insert t!"s")))
/-- `get_range`, measure.py:179-195. -/
def measureRange (cardinal : G) : G :=
  (cardinal + .cross (oneOf [t!"-", t!" - "]) t!" to " + cardinal) |||
  (cardinal + crossS t!" x " t!" by " + cardinal) ||| (cardinal + crossS t!" x " t!" times " + cardinal.ques) |||
  (cardinal + crossS t!"x" t!" by " + cardinal) ||| (cardinal + crossS t!"x" t!" times " + cardinal.ques) |||
  (cardinal + crossS t!"*" t!" times " + cardinal) ||| (cardinal + crossS t!" * " t!" times " + cardinal)
/-- `cardinal_graph`, measure.py:89. -/
def measureCardinal : G := withAnd ||| measureRange withAnd
/-- The units before their upper-case spellings are added, measure.py:91-93. -/
def unitTable : G := .tab unit ||| .tab unitAlternatives
/-- `self.graph_unit`, measure.py:91-98 and 101. -/
def unitG : G :=
  unitTable ||| .comp (TO_LOWER.plus + (ALPHA ||| TO_LOWER) + .star (ALPHA ||| TO_LOWER)) unitTable
/-- `self.graph_unit_plural`, measure.py:100. -/
def unitPluralG : G := .comp unitG plural
/-- `graph_unit2`, measure.py:106. -/
def perUnit : G := crossS t!"/" t!"per" + DELETE_ZERO_OR_ONE_SPACE + isp + unitG
/-- `optional_graph_unit2`, measure.py:108. -/
def perUnitOpt : G := (DELETE_ZERO_OR_ONE_SPACE + isp + perUnit).ques
/-- `self.unit_plural_graph`, measure.py:110. -/
def unitsPlural : G := (unitPluralG + perUnitOpt) ||| perUnit
/-- `self.unit_singular_graph`, measure.py:111. -/
def unitsSingular : G := (unitG + perUnitOpt) ||| perUnit
/-- `unit_plural`, measure.py:112. -/
def unitPluralF : G := tagField t!"units" unitsPlural
/-- `self.cardinal_other_graph`, measure.py:123. -/
def notOne (graph : G) : G := .comp (.diff VSIGMA (.lit t!"1")) graph
/-- `self.cardinal_one_graph`, measure.py:127, and `self.integer_one_graph`, money.py:64. -/
def one : G := crossS t!"1" t!"one"
/-- `self.unit_only_graph`, measure.py:131-132. -/
def unitOnly : G :=
  ((crossS t!"/" t!"per" + DELETE_ZERO_OR_ONE_SPACE) ||| (.lit t!"per" + del t!" ")) + isp + unitG
/-- `self.times_unit_graph`, measure.py:142. -/
def timesUnit : G := .cross (oneOf [t!"x", t!"X"]) t!"x" ||| .cross (oneOf [t!"x", t!"X"]) t!" times"
/-- `self.alpha_dash_unit_graph`, measure.py:145. -/
def alphaDash : G := ALPHA.plus + .lit t!"-"
/-- `ordinal_num`, measure.py:208-211. -/
def ordinalNum : G := .comp (Wfst.insert t!"integer: \"" + ordinal + Wfst.insert t!"\"") ordinalV
/-- `address_num`, measure.py:213-218. -/
def addressNum : G :=
  priorityUnion
    (.comp (between 3 1 DIGIT)
      (.comp (between 1 1 DIGIT) hundredPart +
        (isp + .comp (DIGIT.pow 2) ((crossS t!"0" t!"zero ").ques + hundredPart)))) cardinal
/-- `direction`, measure.py:220-225. -/
def direction : G :=
  (.lit t!" " + (.tab [(t!"E", t!"East"), (t!"S", t!"South"), (t!"W", t!"West"), (t!"N", t!"North")] +
    (del t!".").ques)).ques
/-- `x[0].upper() + x[1:]`; the tables it is used on are ASCII and have no empty entry. -/
def capital : Str → Str
  | [] => []
  | c :: s => ((lowerOf.find? fun e => e.2 = c).elim c (·.1)) :: s
/-- `get_formats`, /repo/tn/utils.py:66-84. -/
def formats (t : List (Str × Str)) : List (Str × Str) :=
  t ++ t.flatMap fun e => [(e.1 ++ ['.'], e.2), (capital e.1, capital e.2), (capital e.1 ++ ['.'], capital e.2)]
/-- `address_words`, measure.py:226-228. -/
def addressWords : G :=
  .lit t!" " + (ordinalNum.ques ||| (UPPER + ALPHA.plus)) + .lit t!" " + .star (UPPER + .star ALPHA + .lit t!" ") +
    .tab (formats addressWord)
/-- `f"{y[0]}.{y[1:]}"`. -/
def dotted : Str → Str
  | [] => []
  | c :: s => c :: '.' :: s
/-- `city`, measure.py:230-231. -/
def city : G := (.lit t!", " + (G.cls fun c => isAlpha c || c = ' ').plus).ques
/-- `state`, measure.py:233-241. -/
def stateOpt : G :=
  (G.lit t!"," + .lit t!" " + .tab (inv (state ++ state.map fun e => (e.1, dotted e.2)))).ques
/-- `zip_code`, measure.py:243-244. -/
def zipCode : G := (G.lit t!",").ques + .lit t!" " + .comp (DIGIT.pow 5) singleDigits
/-- `get_address_graph`, measure.py:197-250. -/
def address : G :=
  (addressNum + direction + addressWords + (city + stateOpt + zipCode).ques) |||
    (addressNum + direction + addressWords + (crossS t!"." t!"").ques)
/-- `delimiter`, measure.py:156. -/
def mathSpace : G := .lit t!" " ||| isp
/-- `self.math_graph`, measure.py:155-164. -/
def mathG : G :=
  ((measureCardinal ||| ALPHA) + mathSpace + .tab mathOperation + (mathSpace ||| ALPHA) + measureCardinal + mathSpace +
    crossS t!"=" t!"equals" + mathSpace + (measureCardinal ||| ALPHA)) |||
  ((measureCardinal ||| ALPHA) + mathSpace + crossS t!"=" t!"equals" + mathSpace + (measureCardinal ||| ALPHA) +
    mathSpace + .tab mathOperation + mathSpace + measureCardinal)
/-- `final_graph`, measure.py:116-174. -/
def measureTagger : G :=
  ((minusField + decimalNoSign + dsq + isp + unitPluralF) |||
    (decimalNoSign + dsq + isp + tagField t!"units" (oneOf [t!"AM", t!"FM"]))) |||
  ((minusField + tagField t!"integer" (notOne measureCardinal) + dsq + isp + unitPluralF) |||
    (minusField + tagField t!"integer" one + dsq + isp + tagField t!"units" unitsSingular)) |||
  (Wfst.insert t!"integer: \"-\" units: \"" + .proj unitOnly + Wfst.insert t!"\"") |||
  (decimalNoSign + isp + tagField t!"separator" (del t!"-") + isp + tagField t!"units" ALPHA.plus) |||
  (decimalNoSign + isp + tagField t!"units" timesUnit) |||
  (tagField t!"units" alphaDash + isp + decimalNoSign) |||
  (fractionG + dsq + isp + unitPluralF) |||
  (Wfst.insert t!"units: \"address\" " + tagField t!"integer" address) |||
  (Wfst.insert t!"units: \"math\" " + tagField t!"integer" mathG)
/-- `graph_decimal`, measure.py:262-273. -/
def measureDecimalV : G := decimalNumbers ||| G.wt (colloquial decimalNumbers) 10
/-- `unit_plural`, measure.py:259. -/
def unitPluralV : G := fieldSp t!"units" unitsPlural + DELETE_SPACE
/-- `graph`, measure.py:259-310. -/
def measureV : G :=
  (optionalSign + field t!"integer" one + .lit t!" " + (fieldSp t!"units" unitsSingular + DELETE_SPACE)) |||
  (optionalSign + field t!"integer" (notOne measureCardinal) + .lit t!" " + unitPluralV) |||
  (measureDecimalV + .lit t!" " + unitPluralV) |||
  (fractionV + .lit t!" " + unitPluralV) |||
  (measureDecimalV + .lit t!" " + fieldSp t!"units" (oneOf [t!"AM", t!"FM"])) |||
  (measureDecimalV + (DELETE_SPACE + fieldSp t!"separator" (del t!"-") + DELETE_SPACE) + isp +
    (fieldSp t!"units" ALPHA.plus + DELETE_SPACE)) |||
  (measureDecimalV + .lit t!" " + (fieldSp t!"units" timesUnit + DELETE_SPACE)) |||
  ((fieldSp t!"units" alphaDash + DELETE_SPACE) + isp + measureDecimalV + DELETE_SPACE) |||
  (del t!"integer: \"-\"" + DELETE_SPACE + (fieldSp t!"units" unitOnly + DELETE_SPACE)) |||
  (del t!"units: \"address\" " + DELETE_SPACE + fieldSp t!"integer" address + DELETE_SPACE) |||
  (del t!"units: \"math\" " + DELETE_SPACE + fieldSp t!"integer" mathG + DELETE_SPACE)
/-- `class Measure`, measure.py:69-313. -/
def measureRule : Rule where
  tagger := addTokens t!"measure" measureTagger
  verbalizer := deleteTokens t!"measure" measureV

/-! ### rules/money.py -/

/-- `self.maj_unit_singular`, money.py:25 and 57. -/
def majSingular : G := .tab currencyMajor
/-- `self.maj_unit_plural`, money.py:56. -/
def majPlural : G := .comp (.tab currencyMajor) plural
/-- `decimal_nonzero`, money.py:66-67. -/
def decimalNonzero : G :=
  .star (.cls fun c => isDigit c || c = ',') + .lit t!"." + .star DIGIT + digitBut ['0'] + .star DIGIT
/-- `graph_decimal`, money.py:68-71. -/
def moneyDecimal : G :=
  tagField t!"currency_maj" majPlural + isp + .comp (decimalNonzero ||| (VSIGMA + ALPHA)) decimalAbbr
/-- `graph_integer_only`, money.py:73-77. -/
def moneyInteger : G :=
  (tagField t!"currency_maj" majSingular + isp + tagField t!"integer_part" one) |||
  (tagField t!"currency_maj" majPlural + isp + tagField t!"integer_part" (notOne withAnd))
/-- `self.zero_fraction_graph`, money.py:79. -/
def zeroFraction : G := (del t!"0").plus
/-- `zero_fraction`, money.py:100-101. -/
def zeroFractionV : G := DELETE_SPACE + fieldSp t!"fractional_part" zeroFraction
/-- `fractional`, money.py:106-108. -/
def moneyFractional : G :=
  Wfst.insert t!"point " +
    field t!"fractional_part" (.comp (.star DIGIT + digitBut ['0'] + .star (del t!"0")) fracDigits)
/-- `graph_decimal`, money.py:109-113. -/
def moneyDecimalV : G :=
  (decimalInteger ||| (decimalInteger + quantityV) |||
    ((decimalInteger + DELETE_SPACE + isp).ques + moneyFractional + quantityV.ques)) + .lit t!" " +
      fieldSp t!"currency_maj" majPlural
/-- `class Money`, money.py:28-118. -/
def moneyRule : Rule where
  tagger := addTokens t!"money"
    ((moneyInteger + (del t!"." + isp + tagField t!"fractional_part" zeroFraction).ques) ||| moneyDecimal)
  verbalizer := deleteTokens t!"money"
    ((field t!"integer_part" one + zeroFractionV.ques + .lit t!" " + fieldSp t!"currency_maj" majSingular) |||
      (field t!"integer_part" (notOne withAnd) + zeroFractionV.ques + .lit t!" " + fieldSp t!"currency_maj" majPlural) |||
      moneyDecimalV)

/-! ### rules/telephone.py -/

/-- `digit`, telephone.py:48-51. -/
def phoneDigit : G := digitG ||| crossS t!"0" t!"zero"
/-- `country_code_graph`, telephone.py:54-56. -/
def countryCode : G :=
  ((.tab telephonePrompt + DELETE_EXTRA_SPACE).ques + (crossS t!"+" t!"plus ").ques +
    (phoneDigit + isp).upTo 2 + phoneDigit + Wfst.insert t!",") ||| .tab telephonePrompt
/-- `country_code`, telephone.py:58-59. -/
def countryCodeF : G := tagField t!"country_code" countryCode + (del t!"-").ques + DELETE_SPACE + isp
/-- `area_part`, telephone.py:61-63. -/
def areaDigits : G :=
  crossS t!"800" t!"eight hundred" |||
    .comp (.diff VSIGMA (.lit t!"800")) ((phoneDigit + isp).pow 2 + phoneDigit)
/-- `area_part`, telephone.py:65-67. -/
def areaPart : G :=
  ((areaDigits + (del t!"-" ||| del t!".")) |||
    (del t!"(" + areaDigits + ((del t!")" + dsq) ||| del t!")-"))) + Wfst.insert t!", "
/-- `number_length`, telephone.py:69-70. -/
def numberLength : G :=
  ((DIGIT + (oneOf [t!"-", t!" ", t!"."]).ques) ||| (ALPHA + (oneOf [t!"-", t!" ", t!"."]).ques)).pow 7
/-- One of the two alternatives of `number_words`, telephone.py:71-76. -/
def numberWords (sep : Str) : G :=
  .star ((.comp DIGIT phoneDigit + (isp ||| crossS sep t!", ")) ||| ALPHA ||| (ALPHA + crossS sep t!" "))
/-- `phone_number_graph`, telephone.py:71-78. -/
def phoneNumber : G := areaPart + .comp numberLength (numberWords t!"-" ||| numberWords t!".")
/-- `number_part`, telephone.py:79. -/
def numberPart : G := tagField t!"number_part" phoneNumber
/-- `self.extension_graph`, telephone.py:80. -/
def extensionG : G := (phoneDigit + isp).upTo 3 + phoneDigit
/-- `extension`, telephone.py:81-82. -/
def extensionOpt : G := (isp + tagField t!"extension" extensionG).ques
/-- `graph`, telephone.py:84-86. -/
def phone : G :=
  priorityUnion (numberPart + extensionOpt)
    (priorityUnion (countryCodeF + numberPart + extensionOpt)
      (priorityUnion (countryCodeF + numberPart) numberPart))
/-- `digit_to_str_graph`, telephone.py:90. -/
def ipDigits : G := phoneDigit + (isp + phoneDigit).upTo 2
/-- `ip_graph`, telephone.py:91. -/
def ipG : G := ipDigits + (crossS t!"." t!" dot " + ipDigits).pow 3
/-- `ssn_graph`, telephone.py:97-101. -/
def ssnG : G :=
  (phoneDigit + (isp + phoneDigit).pow 2) + crossS t!"-" t!", " + (phoneDigit + isp + phoneDigit) +
    crossS t!"-" t!", " + (phoneDigit + (isp + phoneDigit).pow 3)
/-- `graph`, telephone.py:89-105. -/
def telephoneTagger : G :=
  phone |||
  ((tagField t!"country_code" (.tab ipPrompt) + DELETE_EXTRA_SPACE).ques + tagField t!"number_part" ipG) |||
  ((tagField t!"country_code" (.tab ssnPrompt) + DELETE_EXTRA_SPACE).ques + tagField t!"number_part" ssnG)
/-- `class Telephone`, telephone.py:24-129. -/
def telephoneRule : Rule where
  tagger := addTokens t!"telephone" telephoneTagger
  verbalizer := deleteTokens t!"telephone"
    ((fieldSp t!"country_code" (countryCode ||| .tab ipPrompt ||| .tab ssnPrompt) + DELETE_SPACE + isp).ques +
      (del t!"number_part: \"" +
        .comp (phoneNumber ||| ipG ||| ssnG) (buildRule (del t!" ") .any .edge) +
        (G.wt (del t!" ") (-10)).ques + del t!"\"") +
      (DELETE_SPACE + isp + fieldSp t!"extension" extensionG).ques)

/-! ### rules/electronic.py -/

/-- `numbers`, electronic.py:43. -/
def elNumbers : G := isp + longNumbers + isp
/-- `dict_words`, electronic.py:54-57. -/
def dictWords : G := G.wt (.tab words) (-10)
/-- `dict_words_graph`, electronic.py:59-60. -/
def dictWordsG : G := (dictWords + (G.wt (isp + dictWords) (-10)).plus) ||| dictWords
/-- `username_graph`, electronic.py:67-69. -/
def usernameG : G := (ALPHA ||| dictWordsG) + .star (ALPHA ||| elNumbers ||| keys elSymbol ||| dictWordsG)
/-- `all_accepted_symbols_start`, electronic.py:62. -/
def symbolsStart : G := dictWordsG ||| .star ALPHA ||| keys elSymbol
/-- `all_accepted_symbols_end`, electronic.py:64. Python has `ALPHA.star`; the graph is used only under a
closure, where the empty string adds nothing. -/
def symbolsEnd : G := dictWordsG ||| elNumbers ||| ALPHA.plus ||| keys elSymbol
/-- `domain_graph`, electronic.py:72-73. -/
def domainBody : G := symbolsStart + .star (symbolsEnd ||| G.wt (keys domainTable) (-10))
/-- `protocol_symbols`, electronic.py:75. -/
def protocolSymbols : G := .star ((.tab elSymbol ||| crossS t!":" t!"colon") + isp)
/-- `protocol_start`, electronic.py:76-77. -/
def protocolStart : G :=
  (crossS t!"https" t!"HTTPS " ||| crossS t!"http" t!"HTTP ") + .comp (.lit t!"://") protocolSymbols
/-- `protocol_end`, electronic.py:80. -/
def protocolEnd : G := crossS t!"www" t!"WWW " + .comp (.lit t!".") protocolSymbols
/-- `protocol_start_only`, electronic.py:78 and 81. -/
def protocolStartOnly : G := (.lit t!"file" + isp + .comp (.lit t!":///") protocolSymbols) ||| protocolStart
/-- `protocol_start_and_end`, electronic.py:82. -/
def protocolBoth : G := protocolStart + protocolEnd
/-- `self.domain_graph`, electronic.py:85-88. -/
def domainG : G :=
  .comp (ALPHA + .star NOT_SPACE + (.cls fun c => isAlpha c || isDigit c || c = '/')) domainBody
/-- `protocol`, electronic.py:94-96. -/
def protocolF : G :=
  G.wt (tagField t!"protocol" protocolStartOnly) (-10) ||| G.wt (tagField t!"protocol" protocolEnd) (-100000010) |||
    G.wt (tagField t!"protocol" protocolBoth) (-100000010)
/-- `graph`, electronic.py:98-113. -/
def electronicTagger : G :=
  .comp (VSIGMA + .lit t!"@" + VSIGMA + .lit t!"." + VSIGMA)
    ((tagField t!"username" usernameG + crossS t!"@" t!" ") + tagField t!"domain" domainG) |||
  tagField t!"domain" (.comp (ALPHA + .star NOT_SPACE + keys domainTable + .star NOT_SPACE) domainBody) |||
  (protocolF + isp + tagField t!"domain" domainG)
/-- `default_chars_symbols`, electronic.py:124-145. -/
def spellChars : G :=
  .comp (.star (.cls fun c => vchar c && c != '{' && c != '}'))
    (buildRule (isp + (.tab elSymbol |||
      (digitG ||| (crossS t!"0" t!"zero" ||| (crossS t!"0" t!"o" ||| crossS t!"0" t!"oh"))) |||
      G.wt (digitG + crossS t!"000" t!" thousand") (-10)) + isp))
/-- `self.ALPHA | " "`. -/
def alphaSp : G := .cls fun c => isAlpha c || c = ' '
/-- `username_value`, electronic.py:148-153. -/
def usernameV : G :=
  .comp usernameG (spellChars ||| G.wt (ALPHA + .star alphaSp + .lit t!" " + .star alphaSp) (-10))
/-- `domain_all`, electronic.py:135-138 and 160-163. -/
def domainAll : G :=
  .comp spellChars (.star (alphaSp ||| G.wt (.tab ((inv words).map fun e => (e.1, e.1))) (-10)))
/-- `domain_value`, electronic.py:165-171. -/
def domainV : G :=
  .comp domainG
    ((domainAll + isp + priorityUnion (.tab domainTable) (G.wt (crossS t!"." t!"dot") 10) + (isp + spellChars).ques) |||
      G.wt domainAll 10000000)
/-- `normalize_whitespace`, electronic.py:183-185. -/
def normalizeWhitespace : G :=
  DELETE_SPACE + NOT_SPACE.plus + .star (delete (G.cls isSpace).plus + isp + NOT_SPACE.plus) + DELETE_SPACE
/-- `class Electronic`, electronic.py:25-189. -/
def electronicRule : Rule where
  tagger := addTokens t!"electronic" electronicTagger
  verbalizer := deleteTokens t!"electronic"
    (.comp
      ((fieldSp t!"protocol" (protocolStartOnly ||| protocolEnd ||| protocolBoth) + DELETE_SPACE).ques +
        (field t!"username" usernameV + DELETE_SPACE + Wfst.insert t!" at " + DELETE_SPACE).ques +
        (del t!"domain:" + DELETE_SPACE + del t!"\"" + domainV + DELETE_SPACE + del t!"\"") + DELETE_SPACE)
      normalizeWhitespace)

/-! ### rules/serial.py -/

/-- `num_graph`, serial.py:37-43. -/
def serialNum : G :=
  .comp (atLeast 6 DIGIT) singleDigits ||| .comp (between 1 4 DIGIT) cardinal |||
    .comp (.lit t!"0" + .star DIGIT) singleDigits ||| (.tab symbol ||| crossS t!"#" t!"hash")
/-- A character of the first column of symbol.tsv, serial.py:45-46. -/
def isSymbol (c : Char) : Bool := (symbol.map Prod.fst).contains [c]
/-- `digit_symbol`, serial.py:47. -/
def digitSymbol (c : Char) : Bool := isDigit c || isSymbol c
/-- `self.ALPHA | symbols`. -/
def alphaSymbol (c : Char) : Bool := isAlpha c || isSymbol c
/-- `cdrewrite(insert(" "), l, r, VSIGMA)` for classes of one character, serial.py:50-51. `Rewrites` has
no empty matches, so the space is inserted together with the character after it. -/
def spaceBetween (l r : Char → Bool) : G := buildRule (isp + .cls r) (.chr l)
/-- `graph_with_space`, serial.py:49-52. -/
def withSpaces : G := .comp (spaceBetween alphaSymbol digitSymbol) (spaceBetween digitSymbol alphaSymbol)
/-- `delimiter`, serial.py:54. -/
def delimiter : G := oneOf [t!"-", t!"/", t!" "]
/-- `next_alpha_or_num`, serial.py:59. -/
def nextAlphaOrNum : G := .star (delimiter + (ALPHA.plus ||| serialNum))
/-- `serial_graph`, serial.py:57-63. -/
def serial1 : G :=
  (ALPHA.plus + delimiter + serialNum + nextAlphaOrNum) |||
  ((serialNum + delimiter).plus + ALPHA.plus + nextAlphaOrNum) |||
  (serialNum + delimiter + serialNum + delimiter + serialNum + .star (delimiter + serialNum))
/-- `serial_graph`, serial.py:65-69. -/
def serial2 : G :=
  .comp (.diff VSIGMA (.proj ordinal)) serial1 |||
    (NOT_SPACE.plus + (crossS t!"^2" t!" squared" ||| crossS t!"^3" t!" cubed"))
/-- `serial_graph | num_graph | alphas`. -/
def serialPart : G := serial2 ||| serialNum ||| ALPHA.plus
/-- `serial_graph`, serial.py:71-72. -/
def serial3 : G := .star (serialPart + delimiter) + serial2 + .star (delimiter + serialPart)
/-- `self.graph`, serial.py:74-83. -/
def serialG : G :=
  .comp (.diff VSIGMA (ALPHA.plus + .lit t!"/" + ALPHA.plus))
    (.comp (atLeast 2 NOT_SPACE) (serial3 ||| .comp withSpaces serial3))
/-- `class Serial`, serial.py:24-89. -/
def serialRule : Rule where
  tagger := addTokens t!"serial" (tagField t!"name" serialG)
  verbalizer := deleteTokens t!"serial" (field t!"name" serialG)

/-! ### rules/whitelist.py -/

/-- `UPPER + closure(delete(x) + UPPER, 2) + delete(".").ques`, whitelist.py:83. -/
def initials (x : Str) : G := UPPER + atLeast 2 (del x + UPPER) + (del t!".").ques
/-- `state_graph`, whitelist.py:88-98. -/
def stateSpellings : List (Str × Str) :=
  state ++ state.flatMap fun e => [(e.1, dotted e.2), (e.1, dotted e.2 ++ ['.'])]
/-- `self.graph`, whitelist.py:65-101. -/
def whitelistG : G :=
  .tab tts ||| .comp (.diff VSIGMA (.lit t!"/")) (.tab symbol) ||| .tab (withFinalDot alternatives) |||
    initials t!"." ||| initials t!". " |||
    (ALPHA.plus + oneOf [t!", ", t!","] + .tab (inv stateSpellings))
/-- `class WhiteList`, whitelist.py:27-109. -/
def whitelistRule : Rule where
  tagger := addTokens t!"whitelist" (tagField t!"name" whitelistG)
  verbalizer := deleteTokens t!"whitelist" (field t!"name" whitelistG)

/-! ### rules/range.py -/

/-- `approx`, range.py:47. -/
def approx : G := crossS t!"~" t!"approximately"
/-- `delete_space + cross("-", " to ") + delete_space`. -/
def dashTo : G := dsq + crossS t!"-" t!" to " + dsq
/-- `week_graph`, range.py:50. -/
def weekRange : G := .tab week + dsq + (crossS t!"-" t!" to " ||| approx) + dsq + .tab week
/-- `time_graph`, `approx + time`, range.py:53-54. -/
def timeRange : G := (timeG + dashTo + timeG) ||| (approx + timeG)
/-- `date_year_four_digit`, range.py:57. -/
def fourDigitDate (e : Env) : G := .comp (DIGIT.pow 4 + (G.lit t!"s").ques) (dateG e)
/-- `date_year_two_digit`, range.py:58. -/
def twoDigitDate (e : Env) : G := .comp (DIGIT.pow 2 + (G.lit t!"s").ques) (dateG e)
/-- `year_to_year_graph`, `mid_year_graph`, range.py:59-61. -/
def yearRange (e : Env) : G :=
  (fourDigitDate e + dashTo + (fourDigitDate e ||| twoDigitDate e ||| .comp (DIGIT.pow 2) withAnd)) |||
    (.lit t!"mid" + crossS t!"-" t!" " + (fourDigitDate e ||| twoDigitDate e))
/-- `union(" to ", "-", " - ")`. -/
def toWords : G := oneOf [t!" to ", t!"-", t!" - "]
/-- `cardinal + (cross(x, y) + cardinal).plus`. -/
def chain (x y : Str) : G := withAnd + (crossS x y + withAnd).plus
/-- `range_graph`, range.py:67-80. `Cardinal(deterministic=True).graph_with_and` is the same graph as
`Cardinal().graph_with_and`. -/
def cardinalRange : G :=
  chain t!"+" t!" plus " ||| chain t!" + " t!" plus " ||| (approx + withAnd) |||
  (withAnd + (crossS t!"..." t!" ... " ||| .lit t!" ... ") + withAnd) ||| (withAnd + dashTo + withAnd) |||
  G.wt (withAnd + dsq + crossS t!"-" t!" minus " + dsq + withAnd) 10 |||
  (withAnd + dsq + crossS t!":" t!" to " + dsq + withAnd)
/-- The body of the loop of range.py:87-92. -/
def timesRange (x : Str) : G :=
  (withAnd + crossS x t!" times") |||
    (withAnd + del x + toWords + withAnd + (crossS x t!" x" ||| crossS x t!" times"))
/-- `range_graph`, range.py:82-108. -/
def operationRange : G :=
  (withAnd + (crossS t!" x " t!" by " ||| crossS t!" x " t!" times ") + withAnd) |||
  (withAnd + (crossS t!"x" t!" by " ||| crossS t!"x" t!" times ") + withAnd) |||
  timesRange t!" x" ||| timesRange t!"x" ||| chain t!"*" t!" times " ||| chain t!" * " t!" times " |||
  ((.cross (oneOf [t!"NO", t!"No"]) t!"Number" ||| crossS t!"no" t!"number") + (oneOf [t!". ", t!" "]).ques + withAnd) |||
  chain t!"/" t!" divided by " ||| chain t!" / " t!" divided by " |||
  (withAnd + (crossS t!"%" t!" percent" ||| del t!"%").ques + toWords + withAnd + crossS t!"%" t!" percent")
/-- `self.graph`, range.py:54-110. -/
def rangeG (e : Env) : G := timeRange ||| weekRange ||| yearRange e ||| (cardinalRange ||| operationRange)
/-- `class Range`, range.py:26-117. -/
def rangeRule (e : Env) : Rule where
  tagger := addTokens t!"range" (tagField t!"value" (rangeG e))
  verbalizer := deleteTokens t!"range" (fieldSp t!"value" (rangeG e))

/-! ### rules/punctuation.py, rules/word.py -/

/-- `self.punct`, punctuation.py:44-56. -/
def punctMark (e : Env) (c : Char) : Bool :=
  ((e.isP c && !(['[', ']', '"', '\\'] : List Char).contains c) || (t!"!#%&'()*+,-./:;<=>?@^_`{|}~").contains c) &&
    !isSymbol c
/-- `punct`, punctuation.py:57. -/
def punctPlus (e : Env) : G := (G.cls (punctMark e) ||| crossS ['\\'] ['\\', '\\'] ||| crossS ['"'] ['\\', '"']).plus
/-- `NOT_SPACE - union("<", ">")`. -/
def notAngle (c : Char) : Bool := notSpace c && c != '<' && c != '>'
/-- `self.emphasis`, punctuation.py:59-61. -/
def emphasis : G :=
  .lit t!"<" + (((G.cls notAngle).plus + (G.lit t!"/").ques) ||| (.lit t!"/" + (G.cls notAngle).plus)) + .lit t!">"
/-- `self.graph`, punctuation.py:62-64. -/
def punctG (e : Env) : G := priorityUnion emphasis (punctPlus e)
/-- `add_weight(accep(" "), -1.0).star`. -/
def lightSpaces : G := .star (G.wt (.lit t!" ") (-100000))
/-- `class Punctuation`, punctuation.py:26-78. -/
def punctuationRule (e : Env) : Rule where
  tagger := addTokens t!"p"
    (Wfst.insert t!"v: \"" + lightSpaces + (punctG e ||| G.wt (.comp (atLeast 2 VCHAR) (punctG e)) (-10)) +
      lightSpaces + Wfst.insert t!"\"")
  verbalizer := deleteTokens t!"p"
    (del t!"v: \"" + lightSpaces +
      (G.cls (punctMark e) ||| emphasis ||| crossS ['\\', '\\'] ['\\'] ||| crossS ['\\', '"'] ['"']).plus +
      lightSpaces + del t!"\"")
/-- `self.char`, word.py:37-40: the difference is one of single characters, so only the marks and the two
escaped characters of the punctuation graph matter. -/
def wordChar (e : Env) (c : Char) : Bool :=
  notSpace c && !(punctMark e c || c = '\\' || c = '"') && !((t!"$€₩£¥#%").contains c || isDigit c)
/-- `class Word`, word.py:23-52. -/
def wordRule (e : Env) : Rule where
  tagger := addTokens t!"w" (Wfst.insert t!"v: \"" + (G.cls (wordChar e)).plus + Wfst.insert t!"\"")
  verbalizer := deleteTokens t!"w" (del t!"v: " + del t!"\"" + (G.cls (wordChar e)).plus + del t!"\"")

/-! ### normalizer.py -/

/-- `TOKEN_ORDERS`, normalizer.py:36-39. -/
def tokenOrders : Orders := ordersOf
  [("date", ["preserve_order", "text", "day", "month", "year"]),
   ("money", ["integer_part", "fractional_part", "quantity", "currency_maj"])]

/-- `rules`, normalizer.py:65-80. -/
def rules (e : Env) : List RuleSpec :=
  [⟨cardinalRule, some 100000, true⟩, ⟨ordinalRule, some 100000, true⟩, ⟨wordRule e, some 10000000, true⟩,
   ⟨dateRule e, some 99000, true⟩, ⟨decimalRule, some 100000, true⟩, ⟨fractionRule, some 99000, true⟩,
   ⟨timeRule, some 100000, true⟩, ⟨measureRule, some 100000, true⟩, ⟨moneyRule, some 100000, true⟩,
   ⟨telephoneRule, some 100000, true⟩, ⟨electronicRule, some 100000, true⟩, ⟨serialRule, some 101000, true⟩,
   ⟨whitelistRule, some 100000, true⟩, ⟨rangeRule e, some 100000, true⟩]

/-- `punct`, normalizer.py:83. -/
def punct (e : Env) : G := G.wt (punctuationRule e).tagger 200000
/-- `token`, normalizer.py:84. -/
def token (e : Env) (classify : G) : G := .star (punct e) + classify + .star (punct e)
/-- `separator`, normalizer.py:85. -/
def separator (e : Env) : G := delete (.cls isSpace) ||| punct e
/-- `self.tagger` for a given union, normalizer.py:83-87. -/
def taggerOf (e : Env) (classify : G) : G :=
  .comp ((DELETE_SPACE + token e classify + .star (separator e + token e classify) + DELETE_SPACE) ||| punct e)
    (buildRule (del t!" ") .any .edge)
/-- `self.verbalizer` for a given union, normalizer.py:90-97. -/
def verbalizerOf (e : Env) (classify : G) : G :=
  .comp
    (.star ((classify + ((punctuationRule e).verbalizer.plus ||| G.wt isp 10)) |||
      ((punctuationRule e).verbalizer + ((punctuationRule e).verbalizer.plus ||| DELETE_SPACE))))
    (buildRule (del t!" ") .any .edge)
/-- `self.tagger`, normalizer.py:81-87. -/
def tagger (e : Env) : Option G := (taggerUnion (rules e)).map (taggerOf e)
/-- `self.verbalizer`, normalizer.py:89-97. -/
def verbalizer (e : Env) : Option G := (verbalizerUnion (rules e)).map (verbalizerOf e)

end Verif.EnTn
