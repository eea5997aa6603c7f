import Verif.ZhTn.Data
import Verif.ZhTn.CharData
import Verif.Token.Model

/-
Model of the Chinese text normalization grammar: /repo/tn/chinese/normalizer.py and all rule files
under /repo/tn/chinese/rules/. Each graph is the expression the Python code builds, with the data tables
of Data.lean and CharData.lean. `optimize()` calls are left out (see Verif/Wfst/Basic.lean).
-/

namespace Verif.ZhTn

open Verif.Wfst
open Verif.Token (Orders ordersOf)

/-! ### rules/cardinal.py -/

/-- `zero`, cardinal.py:33. -/
def zeroG : G := .tab zero
/-- `digit`, cardinal.py:34. -/
def digitG : G := .tab digit
/-- `teen`, cardinal.py:35. -/
def teenG : G := .tab teen
/-- `sign`, cardinal.py:36. -/
def signG : G := .tab sign
/-- `dot`, cardinal.py:37. -/
def dotG : G := .tab dot

/-- `rmzero`, cardinal.py:39. -/
def rmzero : G := del t!"0" ||| del t!"０"
/-- `digits`, cardinal.py:40-41. -/
def digits : G := zeroG ||| digitG
/-- `ten`, cardinal.py:44. -/
def ten : G := teenG + insert t!"十" + (digitG ||| rmzero)
/-- `tens`, cardinal.py:46. -/
def tens : G := digitG + insert t!"十" + (digitG ||| rmzero)
/-- `hundred`, cardinal.py:48. -/
def hundred : G := digitG + insert t!"百" + (tens ||| (zeroG + digitG) ||| rmzero.pow 2)
/-- `thousand`, cardinal.py:50. -/
def thousand : G :=
  digitG + insert t!"千" + (hundred ||| (zeroG + tens) ||| (rmzero + zeroG + digitG) ||| rmzero.pow 3)
/-- `four_nonzero`, cardinal.py:53. -/
def fourNonzero : G :=
  thousand ||| (zeroG + hundred) ||| (rmzero + zeroG + tens) ||| (rmzero.pow 2 + zeroG + digitG)
/-- `four_any`, cardinal.py:55. -/
def fourAny : G := fourNonzero ||| rmzero.pow 4
/-- The first block of `ten_thousand` and `hundred_million`, cardinal.py:58 and 61. -/
def head : G := thousand ||| hundred ||| ten ||| digitG
/-- `ten_thousand`, cardinal.py:58. -/
def tenThousand : G := head + insert t!"万" + fourAny
/-- `hundred_million`, cardinal.py:61-66. -/
def hundredMillion : G :=
  head + insert t!"亿" + ((fourNonzero + insert t!"万" + fourAny)
    ||| (rmzero.pow 4 + ((zeroG + hundred) ||| (rmzero + zeroG + tens) |||
        (rmzero.pow 2 + zeroG + digitG) ||| (insert t!"零" + thousand)))
    ||| rmzero.pow 8)
/-- `number`, cardinal.py:68. -/
def integer : G := digits ||| ten ||| hundred ||| thousand ||| tenThousand ||| hundredMillion
/-- `number`, cardinal.py:69. -/
def signed : G := signG.ques + integer + (dotG + digits.plus).ques
/-- The rewrite that reads a leading 二 before a unit as 两, cardinal.py:70-71. -/
def liang : G :=
  buildRule (crossS t!"二百" t!"两百" ||| crossS t!"二千" t!"两千" ||| crossS t!"二万" t!"两万" |||
    crossS t!"二亿" t!"两亿") .edge .any
/-- `number`, cardinal.py:70. -/
def plainNumber : G := .comp signed liang
/-- `percent`, cardinal.py:72. -/
def percent : G := insert t!"百分之" + plainNumber + del t!"%"
/-- `self.number`, cardinal.py:73. -/
def number : G := (G.lit t!"约").ques + (G.lit t!"人均").ques + (plainNumber ||| percent)
/-- `phone_digits`, cardinal.py:83. -/
def phoneDigits : G := .comp digits (buildRule (crossS t!"一" t!"幺"))
/-- `phone`, cardinal.py:84-86. -/
def phoneG : G :=
  .tab phone ||| phoneDigits.pow 11 |||
    (.lit t!"尾号" + (G.lit t!"是" ||| .lit t!"为").ques + phoneDigits.pow 4)
/-- `self.cardinal`, cardinal.py:76-89. -/
def cardinal : G :=
  (digits.plus + (dotG + digits.plus).pow 3) ||| percent |||
    (digits.plus + (del t!"-" + digits.plus).pow 2) |||
    (digits.pow 3 + del t!"-" + digits.pow 8) ||| .wt phoneG (-100000)
/-- `Cardinal`, cardinal.py:90-94. -/
def cardinalRule : Rule where
  tagger := addTokens t!"cardinal" (tagField t!"value" cardinal)
  verbalizer := deleteTokens t!"cardinal" (del t!"value: \"" + cardinal + del t!"\"")

/-! ### rules/char.py -/

/-- `Char`, char.py:27-29; the verbalizer is the default one. -/
def charRule : Rule where
  tagger := addTokens t!"char" (insert t!"value: \"" + CHAR + insert t!"\"")
  verbalizer := defaultVerbalizer t!"char"

/-! ### rules/range.py -/

/-- `self.range`, range.py:26. -/
def rangeG : G := crossS t!"-" t!"到" ||| crossS t!"~" t!"到"
/-- `Range`, range.py:26-29. -/
def rangeRule : Rule where
  tagger := addTokens t!"range" (tagField t!"value" rangeG)
  verbalizer := deleteTokens t!"range" (del t!"value: \"" + rangeG + del t!"\"")

/-! ### rules/date.py -/

/-- `yyyy`, date.py:37. -/
def yyyy : G := digitG + (digitG ||| zeroG).pow 3
/-- `rmsign`, date.py:42. -/
def dateSign : G := (del t!"/" ||| del t!"-" ||| del t!".") + insert t!" "
/-- `self.year`, date.py:44. -/
def year : G := yyyy + insert t!"年"
/-- `self.month`, date.py:45. -/
def month : G := .tab dateM ||| .tab dateMM
/-- `self.day`, date.py:46. -/
def day : G := .tab dateD ||| .tab dateDD
/-- `date`, date.py:48-59. -/
def dateBody : G :=
  let year := tagField t!"year" year
  let month := tagField t!"month" month
  let monthTwoDigit := tagField t!"month" (.tab dateMM)
  let day := tagField t!"day" day
  (year + dateSign + month + dateSign + day) ||| (day + dateSign + month + dateSign + year) |||
    (year + dateSign + monthTwoDigit) ||| (monthTwoDigit + dateSign + year) |||
    (monthTwoDigit + dateSign + day)
/-- The optional second part of a range of dates or times, date.py:65 and time.py:54; the normalizer
always passes the range tagger. -/
def withRange (tagger : G) : G := tagger + (rangeRule.tagger + tagger).ques
/-- `Date`, date.py:60-72. -/
def dateRule : Rule where
  tagger := withRange (addTokens t!"date" dateBody)
  verbalizer := deleteTokens t!"date"
    ((del t!"year: \"" + year + del t!"\" ").ques + (del t!"month: \"" + month + del t!"\"") +
      (del t!" day: \"" + day + del t!"\"").ques)

/-! ### rules/fraction.py -/

/-- `rmspace`, e.g. fraction.py:30. -/
def rmspace : G := (del t!" ").ques
/-- `Fraction`, fraction.py:29-41. -/
def fractionRule : Rule where
  tagger := addTokens t!"fraction"
    (tagField t!"numerator" number + rmspace + del t!"/" + rmspace + insert t!" " +
      tagField t!"denominator" number)
  verbalizer := deleteTokens t!"fraction"
    ((del t!"denominator: \"" + number + del t!"\" ") + insert t!"分之" +
      (del t!"numerator: \"" + number + del t!"\""))

/-! ### rules/math.py -/

/-- `symbols`, math.py:35. -/
def symbols : G :=
  crossS t!"~" t!"到" ||| crossS t!":" t!"比" ||| crossS t!"<" t!"小于" ||| crossS t!">" t!"大于"
/-- `self.math`, math.py:38-39. -/
def mathG : G :=
  (number + .star ((del t!" ").ques + (.tab operator ||| symbols) + (del t!" ").ques + number)) |||
    .tab unambiguousOperator
/-- `Math`, math.py:40-44. -/
def mathRule : Rule where
  tagger := addTokens t!"math" (tagField t!"value" mathG)
  verbalizer := deleteTokens t!"math" (del t!"value: \"" + mathG + del t!"\"")

/-! ### rules/measure.py -/

/-- `units`, measure.py:35-37. -/
def units : G :=
  (G.wt (crossS t!"k" t!"千" ||| crossS t!"w" t!"万") 10000).ques + (.tab unitsEn ||| .tab unitsZh)
/-- `to`, measure.py:39. -/
def toG : G := crossS t!"-" t!"到" ||| crossS t!"~" t!"到" ||| .lit t!"到"
/-- `strip_comma`, measure.py:42. -/
def stripComma : G := buildRule (del t!"," ||| del t!"，") (.chr isDigit) (.chr isDigit)
/-- `number`, measure.py:41-44. -/
def measureNumber : G :=
  .comp (.comp stripComma number) (buildRule (crossS t!"二" t!"两") .edge .edge)
/-- `measure` before the loop, measure.py:46-47. -/
def measureBase : G :=
  (measureNumber + (rmspace + units).ques + toG).ques + measureNumber + rmspace + units
/-- One round of the loop, measure.py:49-51. -/
def measureStep (measure : G) (unit : Str) : G :=
  .comp (.comp measure (buildRule (crossS (t!"两" ++ unit) (t!"二" ++ unit)) .edge .any))
    (buildRule (crossS (t!"到两" ++ unit) (t!"到二" ++ unit)) .any .edge)
/-- `self.measure`, measure.py:49-60. -/
def measure : G := [t!"两", t!"月", t!"号"].foldl measureStep measureBase
/-- `self.annual`, measure.py:54-58. -/
def annual : G :=
  let unit := G.lit t!"年" ||| .lit t!"年度" ||| .lit t!"赛季"
  (digits.pow 4 + (rmspace + unit).ques + toG).ques + digits.pow 4 + unit
/-- `self.denominator`, measure.py:62. -/
def denominator : G := measure ||| units
/-- `Measure`, measure.py:63-77. -/
def measureRule : Rule where
  tagger := addTokens t!"measure"
    (tagField t!"value" (measure ||| annual) |||
      (tagField t!"numerator" measure + (rmspace + del t!"/" + rmspace) + insert t!" " +
        tagField t!"denominator" denominator))
  verbalizer :=
    deleteTokens t!"measure" (del t!"value: \"" + (measure ||| annual) + del t!"\"") |||
    deleteTokens t!"measure" (insert t!"每" + (del t!"denominator: \"" + denominator + del t!"\" ") +
      (del t!"numerator: \"" + measure + del t!"\""))

/-! ### rules/money.py -/

/-- `self.currency`, money.py:37. -/
def currency : G := .tab moneyCode ||| .tab moneySymbol
/-- `Money`, money.py:38-45. -/
def moneyRule : Rule where
  tagger := addTokens t!"money"
    (tagField t!"currency" currency + (del t!" ").ques + insert t!" " + tagField t!"value" number)
  verbalizer := deleteTokens t!"money"
    ((del t!"value: \"" + number + del t!"\" ") + (del t!"currency: \"" + currency + del t!"\""))

/-! ### rules/sport.py -/

/-- `self.team`, sport.py:40. -/
def team : G := .tab country ||| .tab club
/-- `self.score`, sport.py:36-41. -/
def score : G :=
  rmspace + number + (del t!"/" ||| del t!"-" ||| del t!":") + insert t!"比" + number + rmspace
/-- `Sport`, sport.py:42-49. -/
def sportRule : Rule where
  tagger := addTokens t!"sport" (tagField t!"team" team + insert t!" " + tagField t!"score" score)
  verbalizer := deleteTokens t!"sport"
    ((del t!"team: \"" + team + del t!"\" ") + (del t!"score: \"" + score + del t!"\""))

/-! ### rules/time.py -/

/-- `colon`, time.py:39. -/
def colon : G := del t!":" ||| del t!"："
/-- The tagger of one time, time.py:46-48. -/
def timeBody : G :=
  tagField t!"hour" (.tab hour) + insert t!" " + colon + tagField t!"minute" (.tab minute) +
    (colon + insert t!" " + tagField t!"second" (.tab second)).ques + (del t!" ").ques +
    (insert t!" " + tagField t!"noon" (.tab noon)).ques
/-- `Time`, time.py:49-62. -/
def timeRule : Rule where
  tagger := withRange (addTokens t!"time" timeBody)
  verbalizer := deleteTokens t!"time"
    ((del t!"noon: \"" + .tab noon + del t!"\" ").ques + (del t!"hour: \"" + .tab hour + del t!"\" ") +
      (del t!"minute: \"" + .tab minute + del t!"\"") +
      (del t!" second: \"" + .tab second + del t!"\"").ques)

/-! ### rules/whitelist.py -/

/-- `self.whitelist`, whitelist.py:32-33. -/
def whitelistG : G := .tab whitelist ||| .tab erhuaWhitelist
/-- `Whitelist`, whitelist.py:35-46. -/
def whitelistRule (removeErhua : Bool) : Rule where
  tagger := addTokens t!"whitelist"
    (G.wt (Wfst.insert t!"erhua: \"" + G.lit t!"儿" + Wfst.insert t!"\"") 10000 ||| tagField t!"value" whitelistG)
  verbalizer :=
    deleteTokens t!"whitelist" (del t!"value: \"" + whitelistG + del t!"\"") |||
    if removeErhua then deleteTokens t!"whitelist" (del t!"erhua: \"儿\"")
    else deleteTokens t!"whitelist" (del t!"erhua: \"" + .lit t!"儿" + del t!"\"")

/-! ### rules/postprocessor.py -/

/-- The switches of the Chinese normalizer, normalizer.py:42-52. -/
structure Config where
  removeInterjections : Bool := true
  removeErhua : Bool := true
  traditionalToSimple : Bool := true
  removePuncts : Bool := false
  fullToHalf : Bool := true
  tagOov : Bool := false

/-- `charset`, postprocessor.py:55. -/
def inCharset (c : Char) : Bool :=
  charsetStd.contains c || charsetExt.contains c || punctsZh.contains c || isDigit c || isAlpha c ||
    isPunct c || isSpace c

/-- `Tagger("oov", oov, VSIGMA)._tagger` of pynini.lib.tagger, postprocessor.py:56-57: each character
of the class is put between `<oov>` and `</oov>`. -/
def oovTagger : G :=
  buildRule (Wfst.insert t!"<oov>" + G.cls (fun c => vchar c && !inCharset c) + Wfst.insert t!"</oov>")

/-- `self.processor`, postprocessor.py:40-59. -/
def postprocessor (c : Config) : G :=
  let processor := identityRule
  let processor := whenDo c.traditionalToSimple processor (buildRule (charTable traditionalToSimple))
  let processor := whenDo c.removeInterjections processor (buildRule (delete (.tab blacklist)))
  let processor := whenDo c.removePuncts processor
    (buildRule (delete (.cls fun c => punctsZh.contains c || isPunct c)))
  let processor := whenDo c.fullToHalf processor (buildRule (charTable fullToHalf))
  whenDo c.tagOov processor oovTagger

/-! ### normalizer.py -/

/-- `TOKEN_ORDERS`, normalizer.py:31-37. -/
def tokenOrders : Orders := ordersOf
  [("date", ["year", "month", "day"]), ("fraction", ["denominator", "numerator"]),
   ("measure", ["denominator", "numerator", "value"]), ("money", ["value", "currency"]),
   ("time", ["noon", "hour", "minute", "second"])]

/-- `rules`, normalizer.py:87-99. -/
def rules (c : Config) : List RuleSpec :=
  [⟨dateRule, some 102000, true⟩, ⟨whitelistRule c.removeErhua, some 103000, true⟩,
   ⟨sportRule, some 104000, true⟩, ⟨fractionRule, some 105000, true⟩, ⟨measureRule, some 105000, true⟩,
   ⟨moneyRule, some 105000, true⟩, ⟨timeRule, some 105000, true⟩, ⟨cardinalRule, some 106000, true⟩,
   ⟨mathRule, some 9000000, true⟩, ⟨charRule, some 10000000, true⟩, ⟨rangeRule, none, true⟩]

/-- `self.tagger`, normalizer.py:100-101. -/
def tagger (c : Config) : Option G :=
  (taggerUnion (rules c)).map fun g => .comp (.star g) (buildRule (del t!" ") .any .edge)

/-- `self.verbalizer`, normalizer.py:103-112. -/
def verbalizer (c : Config) : Option G :=
  (verbalizerUnion (rules c)).map fun g => .star (.comp g (postprocessor c))

end Verif.ZhTn
