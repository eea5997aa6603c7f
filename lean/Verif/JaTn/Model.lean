import Verif.JaTn.Data
import Verif.JaTn.CharData
import Verif.JaTn.Translit
import Verif.Token.Model

/-
Model of the Japanese text normalization grammar: /repo/tn/japanese/normalizer.py and all rule files
under /repo/tn/japanese/rules/. Each graph is the expression the Python code builds, with the data tables
of Data.lean, CharData.lean and Translit.lean. `optimize()` calls are left out (see
Verif/Wfst/Basic.lean). The defaults for missing `cardinal`, `input_normalizer` and `range_tagger`
arguments are not used by the normalizer and not modelled.
-/

namespace Verif.JaTn

open Verif.Wfst
open Verif.Token (Orders ordersOf)

/-- The switches of the Japanese normalizer, normalizer.py:44-53. -/
structure Config where
  transliterate : Bool := false
  removeInterjections : Bool := false
  removePuncts : Bool := false
  fullToHalf : Bool := true
  tagOov : Bool := false
  deriving DecidableEq

/-! ### rules/preprocessor.py -/

/-- `self.processor`, preprocessor.py:25-31. -/
def preprocessor (fullToHalf : Bool) : G := whenDo fullToHalf identityRule (buildRule (charTable JaTn.fullToHalf))

/-- `self.apply_input_processor(graph, self.input_normalizer)`; `h` is the switch of the preprocessor. -/
def pre (h : Bool) (graph : G) : G := applyInputProcessor graph (some (preprocessor h))

/-! ### rules/cardinal.py -/

/-- `zero`, cardinal.py:36. -/
def zeroG : G := .tab zero
/-- `en_zero`, cardinal.py:37. -/
def enZero : G := crossS t!"0" t!"ゼロ"
/-- `digit`, cardinal.py:39. -/
def digitG : G := .tab digit
/-- `teen`, cardinal.py:40. -/
def teenG : G := .tab teen
/-- `sign`, cardinal.py:41. -/
def signG : G := .tab sign
/-- `dot`, cardinal.py:42. -/
def dotG : G := .tab dot
/-- `rmzero`, cardinal.py:44. -/
def rmzero : G := del t!"0" ||| del t!"０"
/-- `rmpunct`, cardinal.py:45. -/
def rmpunct : G := (del t!",").ques
/-- `rmspace`, e.g. cardinal.py:46. -/
def rmspace : G := (del t!" ").ques
/-- `digits`, cardinal.py:49. -/
def digits : G := zeroG ||| digitG
/-- `ten`, cardinal.py:52. -/
def ten : G := teenG + Wfst.insert t!"十" + (digitG ||| rmzero)
/-- `hundred`, cardinal.py:55. -/
def hundred : G := teenG + Wfst.insert t!"百" + (ten ||| (rmzero + digitG) ||| rmzero.pow 2)
/-- `hundred_prefix`, cardinal.py:57. -/
def hundredPrefix : G := teenG + Wfst.insert t!"百" + rmpunct + (ten ||| (rmzero + digitG) ||| rmzero.pow 2)
/-- `thousand`, cardinal.py:60. -/
def thousand : G :=
  teenG + Wfst.insert t!"千" + rmpunct + (hundred ||| (rmzero + ten) ||| (rmzero.pow 2 + digitG) ||| rmzero.pow 3)
/-- `thousand_prefix`, cardinal.py:62-65. -/
def thousandPrefix : G :=
  digitG + Wfst.insert t!"千" + (hundredPrefix ||| (rmzero + rmpunct + ten) |||
    (rmzero + rmpunct + rmzero + digitG) ||| (rmzero + rmpunct + rmzero.pow 2))
/-- The first block of `ten_thousand` and `hundred_millon`, cardinal.py:69 and 76. -/
def head : G := thousandPrefix ||| hundredPrefix ||| ten ||| digitG
/-- The last block of `ten_thousand` and `hundred_millon`, cardinal.py:70-74 and 77-81. -/
def tail : G :=
  thousand ||| (rmzero + rmpunct + hundred) ||| (rmzero + rmpunct + rmzero + ten) |||
    (rmzero + rmpunct + rmzero + rmzero + digitG) ||| (rmzero + rmpunct + rmzero.pow 3)
/-- `ten_thousand`, cardinal.py:69-74. -/
def tenThousand : G := head + Wfst.insert t!"万" + tail
/-- `hundred_millon`, cardinal.py:76-81. -/
def hundredMillion : G :=
  head + Wfst.insert t!"億" + rmzero.pow 2 + rmpunct + rmzero.pow 2 + tail
/-- `number`, cardinal.py:83. -/
def integer : G := digits ||| ten ||| hundred ||| thousand ||| tenThousand ||| hundredMillion
/-- `self.positive_integer`, cardinal.py:84. -/
def positiveInteger (h : Bool) : G := pre h integer
/-- `number`, cardinal.py:86. -/
def signed : G := signG.ques + integer + (dotG + digits.plus).ques
/-- `self.number`, cardinal.py:87. -/
def number (h : Bool) : G := pre h signed
/-- `percent`, cardinal.py:90. -/
def percent : G := signed + del t!"%" + Wfst.insert t!"パーセント"
/-- `ip`, cardinal.py:92. -/
def ip : G := digits.plus + (dotG + digits.plus).pow 3
/-- `country_code`, cardinal.py:94. -/
def countryCode : G := crossS t!"+81" t!"プラス八一" + (crossS t!"-" t!"の").ques + rmspace
/-- `en_digits`, cardinal.py:95. -/
def enDigits : G := enZero ||| digitG
/-- `phone`, cardinal.py:96-98. -/
def phone : G :=
  countryCode.ques +
    ((enZero + digitG + enZero.ques + crossS t!"-" t!"の" + enDigits.pow 3 + enDigits.ques +
        (crossS t!"-" t!"の").ques + enDigits.pow 4) |||
      (enZero + digitG + enZero.ques + enDigits.pow 8))
/-- `ordinal`, cardinal.py:100. -/
def ordinal : G := (G.lit t!"No." ||| .lit t!"番号" ||| .lit t!"番号は") + digits.plus
/-- `room`, cardinal.py:101. -/
def room : G := digits.plus + .lit t!"号室"
/-- `others`, cardinal.py:103. -/
def others : G := digits.pow 8 + digits.plus
/-- `self.cardinal`, cardinal.py:105-108. -/
def cardinal (h : Bool) : G := pre h (signed ||| percent ||| ip ||| phone ||| ordinal ||| room ||| others)
/-- The rule with the single field `value`: cardinal.py:109-113, math.py:41-45, measure.py:50-54,
range.py:30-32, transliteration.py:36-40 and whitelist.py:36-40. -/
def valueRule (name : Str) (graph : G) : Rule where
  tagger := addTokens name (tagField t!"value" graph)
  verbalizer := deleteTokens name (del t!"value: \"" + graph + del t!"\"")
/-- `Cardinal`. -/
def cardinalRule (h : Bool) : Rule := valueRule t!"cardinal" (cardinal h)

/-! ### rules/char.py -/

/-- `Char`, char.py:27-29; the verbalizer is the default one. -/
def charRule : Rule where
  tagger := addTokens t!"char" (Wfst.insert t!"value: \"" + CHAR + Wfst.insert t!"\"")
  verbalizer := defaultVerbalizer t!"char"

/-! ### rules/range.py -/

/-- `cross("-", "から") | cross("~", "から") | accep("から")`, range.py:27 and measure.py:40. -/
def toG : G := crossS t!"-" t!"から" ||| crossS t!"~" t!"から" ||| .lit t!"から"
/-- `Range`, range.py:26-32. -/
def rangeRule (h : Bool) : Rule := valueRule t!"range" (pre h toG)

/-! ### rules/date.py -/

/-- `rmsign`, date.py:42-45. -/
def dateSign (h : Bool) : G := pre h (del t!"/" ||| del t!"-" ||| del t!".") + Wfst.insert t!" "
/-- `self.year`, date.py:37 and 47, cardinal.py:66. -/
def year (h : Bool) : G := pre h thousand + Wfst.insert t!"年"
/-- `self.month`, date.py:48. -/
def month (h : Bool) : G := pre h (.tab dateM ||| .tab dateMM)
/-- `self.day`, date.py:49. -/
def day (h : Bool) : G := pre h (.tab dateD ||| .tab dateDD)
/-- `date`, date.py:51-65. -/
def dateBody (h : Bool) : G :=
  let year := tagField t!"year" (year h)
  let month := tagField t!"month" (month h)
  let monthTwoDigit := tagField t!"month" (pre h (.tab dateMM))
  let day := tagField t!"day" (day h)
  (year + dateSign h + month + dateSign h + day) ||| (day + dateSign h + month + dateSign h + year) |||
    (year + dateSign h + monthTwoDigit) ||| (monthTwoDigit + dateSign h + year) |||
    (monthTwoDigit + dateSign h + day)
/-- `simple_date`, date.py:67. -/
def simpleDate (h : Bool) : G :=
  let year := tagField t!"year" (year h)
  let month := tagField t!"month" (month h)
  let day := tagField t!"day" (day h)
  (year + dateSign h + month) ||| (month + dateSign h + year) ||| (month + dateSign h + day)
/-- `Date`, date.py:69-82, with the range tagger the normalizer passes. -/
def dateRule (h : Bool) : Rule where
  tagger :=
    let tagger := addTokens t!"date" (dateBody h)
    let simple := addTokens t!"date" (simpleDate h)
    (tagger + ((rangeRule h).tagger + tagger).ques) ||| (simple + (rangeRule h).tagger + simple)
  verbalizer := deleteTokens t!"date"
    ((del t!"year: \"" + year h + del t!"\" ").ques + (del t!"month: \"" + month h + del t!"\"") +
      (del t!" day: \"" + day h + del t!"\"").ques)

/-! ### rules/fraction.py -/

/-- `Fraction`, fraction.py:31-43. -/
def fractionRule (h : Bool) : Rule where
  tagger := addTokens t!"fraction"
    (tagField t!"numerator" (number h) + rmspace + pre h (del t!"/") + rmspace + Wfst.insert t!" " +
      tagField t!"denominator" (number h))
  verbalizer := deleteTokens t!"fraction"
    ((del t!"denominator: \"" + number h + del t!"\" ") + Wfst.insert t!"分の" +
      (del t!"numerator: \"" + number h + del t!"\""))

/-! ### rules/math.py -/

/-- `self.math`, math.py:37-40. -/
def mathG (h : Bool) : G :=
  pre h (number h + .star ((del t!" ").ques + .tab operator + (del t!" ").ques + number h))
/-- `Math`. -/
def mathRule (h : Bool) : Rule := valueRule t!"math" (mathG h)

/-! ### rules/measure.py -/

/-- `units`, measure.py:38. -/
def units : G := .tab unitsEn ||| .tab unitsJa
/-- `measure`, measure.py:44-45. -/
def measureBase (h : Bool) : G :=
  (number h + (rmspace + units).ques + toG).ques + number h + rmspace + units
/-- `self.measure`, measure.py:46-47. -/
def measure (h : Bool) : G :=
  pre h (measureBase h ||| (measureBase h + rmspace + del t!"/" + Wfst.insert t!"毎" + rmspace + units))
/-- `Measure`. -/
def measureRule (h : Bool) : Rule := valueRule t!"measure" (measure h)

/-! ### rules/money.py -/

/-- `self.currency`, money.py:37. -/
def currency (h : Bool) : G := pre h (.tab moneyCode ||| .tab moneySymbol)
/-- `Money`, money.py:38-46. -/
def moneyRule (h : Bool) : Rule where
  tagger := addTokens t!"money"
    (tagField t!"currency" (currency h) + (del t!" ").ques + Wfst.insert t!" " + tagField t!"value" (number h))
  verbalizer := deleteTokens t!"money"
    ((del t!"value: \"" + number h + del t!"\" ") + (del t!"currency: \"" + currency h + del t!"\""))

/-! ### rules/sport.py -/

/-- `self.team`, sport.py:40. -/
def team (h : Bool) : G := pre h (.tab country ||| .tab club)
/-- `score`, sport.py:41-44. -/
def teamScore (h : Bool) : G :=
  pre h (positiveInteger h + (del t!"/" ||| del t!"-" ||| del t!":") + Wfst.insert t!"対" + positiveInteger h)
/-- `only_score`, sport.py:45-48. -/
def onlyScore (h : Bool) : G := pre h (positiveInteger h + crossS t!":" t!"対" + positiveInteger h)
/-- `Sport`, sport.py:49-58. -/
def sportRule (h : Bool) : Rule where
  tagger := addTokens t!"sport"
    ((tagField t!"team" (team h) + (del t!" ").ques + Wfst.insert t!" " + tagField t!"score" (teamScore h)) |||
      tagField t!"score" (onlyScore h))
  verbalizer := deleteTokens t!"sport"
    ((del t!"team: \"" + team h + del t!"\" ").ques +
      (del t!"score: \"" + (teamScore h ||| onlyScore h) + del t!"\""))

/-! ### rules/time.py -/

/-- `colon`, time.py:41. -/
def colon (h : Bool) : G := pre h (del t!":" ||| del t!"：")
/-- `tagger`, time.py:47-51. -/
def timeBody (h : Bool) : G :=
  let hour := tagField t!"hour" (pre h (.tab hour))
  let minute := tagField t!"minute" (pre h (.tab minute))
  let second := tagField t!"second" (pre h (.tab second))
  let noon := tagField t!"noon" (pre h (.tab noon))
  (hour + Wfst.insert t!" " + colon h + minute + (colon h + Wfst.insert t!" " + second).ques +
    ((del t!" ").ques + Wfst.insert t!" " + noon).ques) ||| (hour + Wfst.insert t!" " + noon)
/-- `Time`, time.py:52-65, with the range tagger the normalizer passes. -/
def timeRule (h : Bool) : Rule where
  tagger :=
    let tagger := addTokens t!"time" (timeBody h)
    tagger + ((rangeRule h).tagger + tagger).ques
  verbalizer :=
    let noon := del t!"noon: \"" + pre h (.tab noon) + del t!"\" "
    let hour := del t!"hour: \"" + pre h (.tab hour) + del t!"\""
    let minute := del t!" minute: \"" + pre h (.tab minute) + del t!"\""
    let second := del t!" second: \"" + pre h (.tab second) + del t!"\""
    deleteTokens t!"time" ((noon.ques + hour + minute + second.ques) ||| (noon + hour))

/-! ### rules/transliteration.py, rules/whitelist.py -/

/-- `Transliteration`, transliteration.py:32-40. -/
def transliterationRule (h : Bool) : Rule := valueRule t!"transliteration" (pre h (.tab transliterationTable))
/-- `Whitelist`, whitelist.py:32-40. -/
def whitelistRule (h : Bool) : Rule := valueRule t!"whitelist" (pre h (.tab whitelist))

/-! ### rules/postprocessor.py -/

/-- `charset`, postprocessor.py:46. -/
def inCharset (c : Char) : Bool :=
  charsetStd.contains c || charsetExt.contains c || punctsJa.contains c || isDigit c || isAlpha c ||
    isPunct c || isSpace c

/-- `Tagger("oov", oov, VSIGMA)._tagger` of pynini.lib.tagger, postprocessor.py:47-48: each character
of the class is put between `<oov>` and `</oov>`. -/
def oovTagger : G :=
  buildRule (Wfst.insert t!"<oov>" + G.cls (fun c => vchar c && !inCharset c) + Wfst.insert t!"</oov>")

/-- `self.processor`, postprocessor.py:34-50. -/
def postprocessor (c : Config) : G :=
  let processor := whenDo c.fullToHalf identityRule (buildRule (charTable fullToHalf))
  let processor := whenDo c.removeInterjections processor (buildRule (delete (.tab blacklist)))
  let processor := whenDo c.removePuncts processor
    (buildRule (delete (.cls fun c => punctsJa.contains c || isPunct c)))
  whenDo c.tagOov processor oovTagger

/-! ### normalizer.py -/

/-- `TOKEN_ORDERS`, normalizer.py:33-39. -/
def tokenOrders : Orders := ordersOf
  [("date", ["year", "month", "day"]), ("fraction", ["denominator", "numerator"]),
   ("measure", ["denominator", "numerator", "value"]), ("money", ["value", "currency"]),
   ("time", ["noon", "hour", "minute", "second"])]

/-- `rules`, normalizer.py:87-102. -/
def rules (c : Config) : List RuleSpec :=
  let h := c.fullToHalf
  [⟨cardinalRule h, some 106000, true⟩, ⟨charRule, some 10000000, true⟩, ⟨dateRule h, some 102000, true⟩,
   ⟨fractionRule h, some 105000, true⟩, ⟨mathRule h, some 9000000, true⟩, ⟨measureRule h, some 105000, true⟩,
   ⟨moneyRule h, some 105000, true⟩, ⟨sportRule h, some 106000, true⟩, ⟨timeRule h, some 105000, true⟩,
   ⟨whitelistRule h, some 103000, true⟩, ⟨rangeRule h, none, true⟩] ++
    if c.transliterate then [⟨transliterationRule h, some 104000, true⟩] else []

/-- `self.tagger`, normalizer.py:103-104. -/
def tagger (c : Config) : Option G :=
  (taggerUnion (rules c)).map fun g => .comp (.star g) (buildRule (del t!" ") .any .edge)

/-- `self.verbalizer`, normalizer.py:106-114. -/
def verbalizer (c : Config) : Option G :=
  (verbalizerUnion (rules c)).map fun g => .star (.comp g (postprocessor c))

end Verif.JaTn
