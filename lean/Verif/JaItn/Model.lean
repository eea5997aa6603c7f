import Verif.JaItn.Data
import Verif.Token.Model

/-
Model of the Japanese inverse normalization grammar: /repo/itn/japanese/inverse_normalizer.py and all
rule files it uses under /repo/itn/japanese/rules/ (postprocessor.py is not used). Each graph is the
expression the Python code builds, with the data tables of Data.lean. `optimize()` calls are left out
(see Verif/Wfst/Basic.lean). The defaults for missing `cardinal` and `input_processor` arguments are not
used by the inverse normalizer and not modelled.
-/

namespace Verif.JaItn

open Verif.Wfst
open Verif.Token (Orders ordersOf)

/-- The switches of the Japanese inverse normalizer, inverse_normalizer.py:47-50. -/
structure Config where
  fullToHalf : Bool := false
  standalone : Bool := true
  zeroToNine : Bool := false
  million : Bool := false
  deriving DecidableEq

/-! ### rules/preprocessor.py -/

/-- `self.processor`, preprocessor.py:25-31. -/
def preprocessor (fullToHalf : Bool) : G := whenDo fullToHalf identityRule (buildRule (charTable JaItn.fullToHalf))

/-- `self.apply_input_processor(graph, self.input_processor)`; `h` is the switch of the preprocessor. -/
def pre (h : Bool) (graph : G) : G := applyInputProcessor graph (some (preprocessor h))

/-- The rule with the single field `value`: cardinal.py:140-143, char.py:28-31, math.py:37-40,
measure.py:46-49, ordinal.py:33-36 and whitelist.py:32-35. -/
def valueRule (name : Str) (graph : G) : Rule where
  tagger := addTokens name (tagField t!"value" graph)
  verbalizer := deleteTokens name (verbalizeField t!"value" (some graph))

/-! ### rules/cardinal.py -/

/-- `zero`, cardinal.py:44. -/
def zeroG : G := .tab zero
/-- `digit`, cardinal.py:45. -/
def digitG : G := .tab digit
/-- `sign`, cardinal.py:47. -/
def signG : G := .tab sign
/-- `dot`, cardinal.py:48. -/
def dotG : G := .tab dot
/-- `ties`, cardinal.py:49. -/
def tiesG : G := .tab ties
/-- `addzero`, cardinal.py:52. -/
def addzero : G := Wfst.insert t!"0"
/-- `digits`, cardinal.py:54. -/
def digits : G := zeroG ||| digitG
/-- `teen`, cardinal.py:50, 56-57. -/
def teenG : G := .tab teen ||| (crossS t!"十" t!"1" + (digitG ||| addzero))
/-- `tens`, cardinal.py:59. -/
def tens : G := (tiesG + addzero) ||| (tiesG + (digitG ||| addzero))
/-- What follows `百`, cardinal.py:62 and 64. -/
def hundredTail : G := tens ||| teenG ||| (addzero + digits) ||| addzero.pow 2
/-- `hundred`, cardinal.py:62-66. -/
def hundred : G :=
  (digitG + del t!"百" + hundredTail) ||| (crossS t!"百" t!"1" + hundredTail) ||| .tab hundredDigit
/-- What follows `千`, cardinal.py:70 and 72. -/
def thousandTail : G :=
  hundred ||| (addzero + tens) ||| (addzero + teenG) ||| (addzero.pow 2 + digits) ||| addzero.pow 3
/-- `thousand`, cardinal.py:69-72. -/
def thousand : G :=
  ((hundred ||| teenG ||| tens ||| digits) + del t!"千" + thousandTail) ||| (crossS t!"千" t!"1" + thousandTail)
/-- What follows a deleted `万`, cardinal.py:76-81 and 84-89. -/
def tenThousandTail : G :=
  thousand ||| (addzero + hundred) ||| (addzero.pow 2 + tens) ||| (addzero.pow 2 + teenG) |||
    (addzero.pow 3 + digits) ||| addzero.pow 4
/-- `ten_thousand`, cardinal.py:75-91. -/
def tenThousand (million : Bool) : G :=
  if million then (thousand ||| hundred ||| teenG ||| tens ||| digits) + del t!"万" + tenThousandTail
  else ((teenG ||| tens ||| digits) + del t!"万" + tenThousandTail) |||
    ((thousand ||| hundred) + .lit t!"万" + (thousand ||| hundred ||| tens ||| teenG ||| digits).ques)
/-- `ten_thousand_minus`, cardinal.py:94. -/
def tenThousandMinus : G := digits ||| teenG ||| tens ||| hundred ||| thousand
/-- `positive_integer`, cardinal.py:98. -/
def positiveInteger (million : Bool) : G := tenThousandMinus ||| tenThousand million
/-- `self.number`, cardinal.py:101. -/
def number (million : Bool) : G := signG.ques + positiveInteger million
/-- `self.number_exclude_0_to_9`, cardinal.py:103. -/
def numberExclude (million : Bool) : G := teenG ||| tens ||| hundred ||| thousand ||| tenThousand million
/-- `decimal`, cardinal.py:106. -/
def decimal (million : Bool) : G := signG.ques + positiveInteger million + dotG + digits.plus
/-- `percent`, cardinal.py:109. -/
def percent (million : Bool) : G := (number million ||| decimal million) + crossS t!"パーセント" t!"%"
/-- The part of `big_integer` after `億`, cardinal.py:113 and 115. -/
def bigTail : G := (tenThousandMinus + (.lit t!"万" + tenThousandMinus.ques).ques).ques
/-- `big_integer`, cardinal.py:112-115. -/
def bigInteger : G :=
  signG.ques + (((tenThousandMinus + .lit t!"兆").ques + tenThousandMinus + .lit t!"億" + bigTail) |||
    (tenThousandMinus + .lit t!"兆" + (tenThousandMinus + .lit t!"億").ques + bigTail))
/-- `self.big_integer`, cardinal.py:116. -/
def anyInteger (million : Bool) : G := number million ||| bigInteger
/-- `number_two_plus`, cardinal.py:134-135. -/
def numberTwoPlus (million : Bool) : G :=
  signG.ques + ((digits + digits.plus) ||| teenG ||| tens ||| hundred ||| thousand ||| tenThousand million |||
    bigInteger)
/-- `cardinal`, cardinal.py:119-125. -/
def cardinalBase (million : Bool) : G :=
  (digitG.plus + (dotG + digits.plus).plus) ||| decimal million ||| (digits.pow 2 + digits.plus) ||| percent million
/-- `cardinal`, cardinal.py:119-137. -/
def cardinalG (c : Config) : G :=
  if c.standalone then
    if c.zeroToNine then cardinalBase c.million ||| (number c.million ||| bigInteger)
    else cardinalBase c.million ||| numberTwoPlus c.million
  else cardinalBase c.million
/-- `self.cardinal`, cardinal.py:139. -/
def cardinal (c : Config) : G := pre c.fullToHalf (cardinalG c)
/-- `Cardinal`. -/
def cardinalRule (c : Config) : Rule := valueRule t!"cardinal" (cardinal c)

/-! ### rules/char.py -/

/-- `self.VCHAR`, /repo/tn/processor.py:126. -/
def VCHAR : G := .cls vchar
/-- `Char`, char.py:26-31. -/
def charRule (h : Bool) : Rule := valueRule t!"char" (pre h VCHAR)

/-! ### rules/date.py -/

/-- `to`, date.py:36. -/
def toG : G := crossS t!"から" t!"〜"
/-- `self.year`, date.py:39. -/
def year (h : Bool) : G := pre h (tenThousandMinus + (toG + tenThousandMinus).ques + del t!"年")
/-- `self.month`, date.py:40. -/
def monthG (h : Bool) : G := pre h (.tab month + (toG + .tab month).ques + del t!"月")
/-- `self.day`, date.py:41. -/
def dayG (h : Bool) : G := pre h (.tab day + (toG + .tab day).ques + del t!"日")
/-- `context`, date.py:50. -/
def eraContext : G :=
  G.lit t!"今年は" ||| .lit t!"来年は" ||| .lit t!"再来年は" ||| .lit t!"去年は" ||| .lit t!"一昨年は" |||
    .lit t!"おととしは"
/-- `era_year`, date.py:51. -/
def eraName : G :=
  crossS t!"R" t!"令和" ||| crossS t!"H" t!"平成" ||| crossS t!"S" t!"昭和" ||| crossS t!"T" t!"大正" |||
    crossS t!"M" t!"明治"
/-- `self.era_year`, date.py:52. -/
def eraYear (h : Bool) : G := pre h (eraContext + eraName + tenThousandMinus)
/-- `Date`, date.py:42-68. -/
def dateRule (h : Bool) : Rule where
  tagger :=
    let year := tagField t!"year" (year h)
    let month := tagField t!"month" (monthG h)
    let day := tagField t!"day" (dayG h)
    addTokens t!"date"
      ((year + Wfst.insert t!" " + month) ||| (month + Wfst.insert t!" " + day) |||
        (year + Wfst.insert t!" " + month + Wfst.insert t!" " + day) ||| tagField t!"year" (eraYear h))
  verbalizer :=
    let year := verbalizeField t!"year" (some (year h)) + Wfst.insert t!"年"
    let month := verbalizeField t!"month" (some (monthG h)) + Wfst.insert t!"月"
    let day := verbalizeField t!"day" (some (dayG h)) + Wfst.insert t!"日"
    deleteTokens t!"date"
      ((year + del t!" " + month) ||| (month + del t!" " + day) ||| (year + del t!" " + month + del t!" " + day) |||
        verbalizeField t!"year" (some (eraYear h)))

/-! ### rules/fraction.py -/

/-- `self.sign`, fraction.py:35-38. -/
def fractionSign (h : Bool) : G := pre h signG
/-- `fraction_word`, fraction.py:40. -/
def fractionWord : G := del t!"分の" ||| del t!" 分 の　" ||| del t!"分 の　" ||| del t!"分 の"
/-- `root_word`, fraction.py:41. -/
def rootWord : G := .lit t!"√" ||| crossS t!"ルート" t!"√"
/-- The numbers of a fraction, fraction.py:45 and 52, from `cardinal_million`. -/
def fractionNumber : G :=
  decimal true ||| (number true + rootWord + number true) ||| (rootWord + number true) ||| number true
/-- `self.denominator`, fraction.py:44-48. -/
def denominator (h : Bool) : G := pre h (fractionNumber + (del t!" ").ques + fractionWord)
/-- `self.numerator`, fraction.py:51-54. -/
def numerator (h : Bool) : G := pre h (.star (del t!" ") + fractionNumber)
/-- `Fraction`, fraction.py:57-66. -/
def fractionRule (h : Bool) : Rule where
  tagger := addTokens t!"fraction"
    ((tagField t!"sign" (fractionSign h) + Wfst.insert t!" ").ques + tagField t!"denominator" (denominator h) +
      Wfst.insert t!" " + tagField t!"numerator" (numerator h))
  verbalizer := deleteTokens t!"fraction"
    ((verbalizeField t!"sign" (some (fractionSign h)) + del t!" ").ques +
      verbalizeField t!"numerator" (some (numerator h)) + del t!" " + Wfst.insert t!"/" +
      verbalizeField t!"denominator" (some (denominator h)))

/-! ### rules/math.py -/

/-- `self.graph`, math.py:33-36. -/
def mathG (c : Config) : G :=
  let number := anyInteger c.million ||| decimal c.million
  pre c.fullToHalf (number + (.tab operator + number).plus)
/-- `Math`. -/
def mathRule (c : Config) : Rule := valueRule t!"math" (mathG c)

/-! ### rules/measure.py -/

/-- `cardinal`, measure.py:37, and `number`, money.py:36. -/
def someNumber (c : Config) : G := if c.zeroToNine then number c.million else numberExclude c.million
/-- `suffix`, measure.py:40-41. -/
def perUnit : G :=
  Wfst.insert t!"/" + (del t!"每" ||| del t!"毎") +
    (.tab unitEn ||| crossS t!"時" t!"h" ||| crossS t!"分" t!"min" ||| crossS t!"秒" t!"s")
/-- `self.graph`, measure.py:43-45. -/
def measure (c : Config) : G :=
  let amount := someNumber c ||| decimal c.million
  pre c.fullToHalf ((amount + .tab unitEn + perUnit.ques) ||| (amount + .wt (.tab unitJa) 100))
/-- `Measure`. -/
def measureRule (c : Config) : Rule := valueRule t!"measure" (measure c)

/-! ### rules/money.py -/

/-- `self.value`, money.py:39. -/
def amount (c : Config) : G := pre c.fullToHalf (someNumber c ||| decimal c.million)
/-- `self.currency`, money.py:40. -/
def currency (h : Bool) : G := pre h (.tab moneySymbol)
/-- `Money`, money.py:41-48. -/
def moneyRule (c : Config) : Rule where
  tagger := addTokens t!"money"
    (tagField t!"value" (amount c) + Wfst.insert t!" " + tagField t!"currency" (currency c.fullToHalf))
  verbalizer := deleteTokens t!"money"
    (verbalizeField t!"currency" (some (currency c.fullToHalf)) + verbalizeField t!"value" (some (amount c)) true)

/-! ### rules/ordinal.py -/

/-- `Ordinal`, ordinal.py:30-36. -/
def ordinalRule (c : Config) : Rule :=
  valueRule t!"ordinal" (pre c.fullToHalf ((number c.million + .lit t!"番目") ||| (.lit t!"第" + number c.million)))

/-! ### rules/time.py -/

/-- `self.hour`, time.py:36. -/
def hourG (h : Bool) : G := pre h (.tab hour)
/-- `self.minute`, time.py:37. -/
def minuteG (h : Bool) : G := pre h (.tab minute)
/-- `self.second`, time.py:38. -/
def secondG (h : Bool) : G := pre h (.tab second)
/-- `Time`, time.py:39-52. -/
def timeRule (h : Bool) : Rule where
  tagger :=
    let hour := tagField t!"hour" (hourG h)
    let minute := tagField t!"minute" (minuteG h)
    let second := tagField t!"second" (secondG h)
    addTokens t!"time"
      (((hour + Wfst.insert t!" ").ques + minute + (Wfst.insert t!" " + second).ques) |||
        (hour + Wfst.insert t!" ") ||| (Wfst.insert t!" " + second))
  verbalizer :=
    let hour := verbalizeField t!"hour" (some (hourG h)) + (del t!" ").ques + Wfst.insert t!"時"
    let minute := verbalizeField t!"minute" (some (minuteG h)) + Wfst.insert t!"分"
    let second := (del t!" ").ques + verbalizeField t!"second" (some (secondG h)) + Wfst.insert t!"秒"
    deleteTokens t!"time" ((hour.ques + minute + second.ques) ||| second ||| hour)

/-! ### rules/whitelist.py -/

/-- `Whitelist`, whitelist.py:28-35. -/
def whitelistRule (h : Bool) : Rule := valueRule t!"whitelist" (pre h (.tab whitelist))

/-! ### inverse_normalizer.py -/

/-- `TOKEN_ORDERS`, inverse_normalizer.py:30-38. -/
def tokenOrders : Orders := ordersOf
  [("date", ["year", "month", "day", "preserve_order"]), ("fraction", ["sign", "numerator", "denominator"]),
   ("measure", ["numerator", "denominator", "value", "units"]),
   ("money", ["currency", "value", "decimal", "quantity"]), ("time", ["hour", "minute", "second", "noon", "zone"]),
   ("telephone", ["country_code", "number_part"]), ("electronic", ["username", "domain", "protocol"])]

/-- `rules`, inverse_normalizer.py:96-107. -/
def rules (c : Config) : List RuleSpec :=
  let h := c.fullToHalf
  [⟨cardinalRule c, some 106000, true⟩, ⟨charRule h, some 10000000, true⟩, ⟨dateRule h, some 102000, true⟩,
   ⟨fractionRule h, some 105000, true⟩, ⟨mathRule c, some 9000000, true⟩, ⟨measureRule c, some 105000, true⟩,
   ⟨moneyRule c, some 104000, true⟩, ⟨ordinalRule c, some 104000, true⟩, ⟨timeRule h, some 104000, true⟩,
   ⟨whitelistRule h, some 101000, true⟩]

/-- `self.tagger`, inverse_normalizer.py:108-109. -/
def tagger (c : Config) : Option G :=
  (taggerUnion (rules c)).map fun g => .comp (.star g) (buildRule (del t!" ") .any .edge)

/-- `self.verbalizer`, inverse_normalizer.py:111. -/
def verbalizer (c : Config) : Option G := (verbalizerUnion (rules c)).map fun g => .star g

end Verif.JaItn
