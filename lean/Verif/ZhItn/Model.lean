import Verif.ZhItn.Data
import Verif.Token.Model

/-
Model of the Chinese inverse text normalization grammar: /repo/itn/chinese/inverse_normalizer.py and
all rule files under /repo/itn/chinese/rules/. Each graph is the expression the Python code builds,
with the data tables of Data.lean. `a |= b` is `a = a | b` (a new graph); `optimize()` calls are left
out (see Verif/Wfst/Basic.lean). The defaults for a missing `cardinal` argument are not used by the
normalizer and not modelled.
-/

namespace Verif.ZhItn

open Verif.Wfst
open Verif.Token (Orders ordersOf)

/-- The switches of the Chinese inverse normalizer, inverse_normalizer.py:44-52. -/
structure Config where
  removeInterjections : Bool := true
  standalone : Bool := true
  zeroToNine : Bool := false
  million : Bool := false
  deriving DecidableEq

/-! ### rules/cardinal.py -/

/-- `zero`, cardinal.py:35. -/
def zeroG : G := .tab zero
/-- `digit`, cardinal.py:36. -/
def digitG : G := .tab digit
/-- `add_weight((accep("万") | accep("亿")), -0.1).ques`, cardinal.py:38 and 40. -/
def bigUnit : G := (G.wt (G.lit t!"万" ||| .lit t!"亿") (-10000)).ques
/-- `special_tilde`, cardinal.py:37-38. -/
def tilde : G := .tab specialTilde + bigUnit
/-- `special_dash`, cardinal.py:39-40. -/
def dash : G := .tab specialDash + bigUnit
/-- `sign`, cardinal.py:41. -/
def signG : G := .tab sign
/-- `dot`, cardinal.py:42. -/
def dotG : G := .tab dot
/-- `addzero`, cardinal.py:45. -/
def addzero : G := Wfst.insert t!"0"
/-- `digits`, cardinal.py:46. -/
def digits : G := zeroG ||| digitG
/-- `teen`, cardinal.py:48. -/
def teen : G := crossS t!"十" t!"1" + (digitG ||| G.wt addzero 10000)
/-- `tens`, cardinal.py:50. -/
def tens : G := digitG + del t!"十" + (digitG ||| G.wt addzero 10000)
/-- `hundred`, cardinal.py:52-56. -/
def hundred : G :=
  digitG + del t!"百" + (tens ||| teen ||| G.wt (zeroG + digitG) 10000 ||| G.wt (digitG + addzero) 50000 |||
    G.wt (addzero.pow 2) 100000)
/-- `thousand`, cardinal.py:59-63. -/
def thousand : G :=
  digitG + del t!"千" + (hundred ||| G.wt (zeroG + (tens ||| teen)) 10000 |||
    G.wt (addzero + zeroG + digitG) 50000 ||| G.wt (digitG + addzero.pow 2) 80000 |||
    G.wt (addzero.pow 3) 100000)
/-- What follows 万 when it is not kept, cardinal.py:67-72 and 74-79. -/
def afterWan : G :=
  thousand ||| G.wt (zeroG + hundred) 10000 ||| G.wt (addzero + zeroG + (tens ||| teen)) 50000 |||
    G.wt (addzero + addzero + zeroG + digitG) 50000 ||| G.wt (digitG + addzero.pow 3) 80000 |||
    G.wt (addzero.pow 4) 100000
/-- `delete("零").ques`, cardinal.py:80, 87, 107 and 108. -/
def rmzero : G := (del t!"零").ques
/-- `ten_thousand`, cardinal.py:65-81. -/
def tenThousand (million : Bool) : G :=
  if million then (thousand ||| hundred ||| teen ||| tens ||| digitG) + del t!"万" + afterWan
  else ((teen ||| tens ||| digitG) + del t!"万" + afterWan) |||
    ((thousand ||| hundred) + .lit t!"万" + rmzero + (thousand ||| hundred ||| tens ||| teen ||| digits).ques)
/-- `number`, cardinal.py:85. -/
def small (million : Bool) : G := digits ||| teen ||| tens ||| hundred ||| thousand ||| tenThousand million
/-- `number`, cardinal.py:87. -/
def integer (million : Bool) : G :=
  (small million + .lit t!"兆" + rmzero).ques + (small million + .lit t!"亿" + rmzero).ques + small million
/-- `number`, cardinal.py:89. -/
def signed (million : Bool) : G := signG.ques + integer million + (dotG + digits.plus).ques
/-- `_special_dash`, cardinal.py:93-96. -/
def dashes : G :=
  (crossS t!"十" t!"1" + dash) ||| (digitG + del t!"十" + dash) ||| (digitG + del t!"百" + dash) |||
    (digitG + del t!"万" + digitG + Wfst.insert t!"000-" + digitG + Wfst.insert t!"000")
/-- `self.number`, cardinal.py:91-99. -/
def number (million : Bool) : G := signed million ||| tilde ||| dashes
/-- `number_exclude_0_to_9`, cardinal.py:105. -/
def bigSmall (million : Bool) : G := teen ||| tens ||| hundred ||| thousand ||| tenThousand million
/-- `number_exclude_0_to_9`, cardinal.py:107-109. -/
def bigInteger (million : Bool) : G :=
  ((bigSmall million ||| digits) + .lit t!"兆" + rmzero).ques +
    ((bigSmall million ||| digits) + .lit t!"亿" + rmzero).ques + bigSmall million
/-- `number_exclude_0_to_9`, cardinal.py:111-116. -/
def bigNumberBody (million : Bool) : G :=
  bigInteger million ||| ((bigInteger million ||| digits) + (dotG + digits.plus).plus) ||| tilde |||
    G.wt dashes (-10000)
/-- `self.number_exclude_0_to_9`, cardinal.py:118. -/
def bigNumber (million : Bool) : G := signG.ques + bigNumberBody million
/-- `idcard_last_char`, cardinal.py:131. -/
def idLast : G := digits ||| .lit t!"X" ||| .lit t!"x"
/-- `cardinal`, cardinal.py:122-145. -/
def cardinalBase (c : Config) : G :=
  let fixed := (digits.plus + (dotG + digits.plus).plus) ||| (number c.million + dotG + digits.plus) |||
    (digits.pow 3 ||| digits.pow 4 ||| digits.pow 5 ||| digits.pow 11 ||| (digits.pow 17 + idLast) |||
      digits.pow 18) ||| (digits.plus + .tab repeatDigit + digits.star)
  if c.standalone then
    fixed ||| G.wt (if c.zeroToNine then number c.million else bigNumber c.million) 10000
  else fixed
/-- `self.cardinal`, cardinal.py:146. -/
def cardinal (c : Config) : G :=
  cardinalBase c ||| G.wt (cardinalBase c + (Wfst.insert t!" " + cardinalBase c).plus) 10000
/-- The rule with the single field `value`: `build_tagger` and `build_verbalizer` of cardinal.py:147-151,
license_plate.py:35-38, math.py:34-37, train_number.py:34-37 and whitelist.py:30-34. -/
def valueRule (name : Str) (graph : G) : Rule where
  tagger := addTokens name (tagField t!"value" graph)
  verbalizer := deleteTokens name (verbalizeField t!"value" (some graph))
/-- `Cardinal`. -/
def cardinalRule (c : Config) : Rule := valueRule t!"cardinal" (cardinal c)

/-! ### rules/char.py -/

/-- `Char`, char.py:27-29; the verbalizer is the default one. -/
def charRule : Rule where
  tagger := addTokens t!"char" (Wfst.insert t!"value: \"" + CHAR + Wfst.insert t!"\"")
  verbalizer := defaultVerbalizer t!"char"

/-! ### rules/date.py -/

/-- `yyyy | yyy | yy`, date.py:33-35. -/
def yearDigits : G :=
  (digitG + (digitG ||| zeroG).pow 3) ||| (digitG + (digitG ||| zeroG).pow 2) ||| (digitG ||| zeroG).pow 2
/-- `self.year`, date.py:39. -/
def year : G := yearDigits + del t!"年"
/-- `self.year_only`, date.py:40. -/
def yearOnly : G := yearDigits + .lit t!"年"
/-- `Date`, date.py:46-63. -/
def dateRule : Rule where
  tagger :=
    let year := tagField t!"year" year + Wfst.insert t!" "
    let yearOnly := tagField t!"year" yearOnly + Wfst.insert t!" preserve_order: \"true\""
    let month := tagField t!"month" (.tab dateMM)
    let day := Wfst.insert t!" " + tagField t!"day" (.tab dateDD)
    addTokens t!"date" ((year + month + day) ||| (year + month) ||| (month + day) ||| yearOnly)
  verbalizer :=
    let year := verbalizeField t!"year" (some year) + del t!" "
    let yearOnly := verbalizeField t!"year" (some yearOnly) + del t!" preserve_order: \"true\""
    let month := verbalizeField t!"month" (some (.tab dateMM))
    let day := verbalizeField t!"day" (some (.tab dateDD)) true
    deleteTokens t!"date"
      (((year + Wfst.insert t!"/").ques + month + (Wfst.insert t!"/" + day).ques) ||| yearOnly)

/-! ### rules/fraction.py -/

/-- `self.denominator`, fraction.py:40. -/
def fractionDenominator (million : Bool) : G := number million + del t!"分之"
/-- `Fraction`, fraction.py:42-57. -/
def fractionRule (million : Bool) : Rule where
  tagger :=
    let rest := Wfst.insert t!" " + tagField t!"denominator" (fractionDenominator million) + Wfst.insert t!" " +
      tagField t!"numerator" (number million)
    addTokens t!"fraction"
      (G.wt (tagField t!"sign" signG + rest) (-100000) ||| (tagField t!"sign" signG.ques + rest))
  verbalizer := deleteTokens t!"fraction"
    (verbalizeField t!"sign" (some signG.ques) + verbalizeField t!"numerator" (some (number million)) true +
      Wfst.insert t!"/" + verbalizeField t!"denominator" (some (fractionDenominator million)) true)

/-! ### rules/license_plate.py -/

/-- `self.graph`, license_plate.py:29-34. -/
def plate : G :=
  (.tab province + .cls isAlpha + (.cls isAlpha ||| digits).pow 5) |||
    (.tab province + .cls isAlpha + (.cls isAlpha ||| digits).pow 6)
/-- `LicensePlate`. -/
def plateRule : Rule := valueRule t!"licenseplate" plate

/-! ### rules/math.py -/

/-- `self.graph`, math.py:33. -/
def mathG (million : Bool) : G := number million + (.tab operator + number million).plus
/-- `Math`. -/
def mathRule (million : Bool) : Rule := valueRule t!"math" (mathG million)

/-! ### rules/measure.py -/

/-- `units_en`, measure.py:34-35. -/
def unitsEnG : G := .tab unitsEn ||| G.wt (crossS t!"度" t!"°") (-100)
/-- `to`, measure.py:41. -/
def toG : G := crossS t!"到" t!"~" ||| crossS t!"到百分之" t!"~"
/-- `units`, measure.py:43-44. -/
def units : G :=
  ((G.wt (G.lit t!"亿" ||| .lit t!"兆" ||| .lit t!"万") (-50000)).ques + .tab unitsZh) |||
    ((G.wt (crossS t!"亿" t!"00M" ||| crossS t!"兆" t!"T" ||| crossS t!"万" t!"W") (-50000)).ques +
      G.wt unitsEnG (-100000))
/-- `number`, measure.py:46 and money.py:37. -/
def measureNumber (c : Config) : G := if c.zeroToNine then number c.million else bigNumber c.million
/-- `percent`, measure.py:48-50. -/
def percent (million : Bool) : G :=
  (signG + (del t!"的").ques).ques + del t!"百分" + (del t!"之").ques +
    ((number million + (toG + number million).ques) |||
      ((number million + toG).ques + crossS t!"百" t!"100")) + Wfst.insert t!"%"
/-- `measure`, measure.py:53. -/
def measure (c : Config) : G := measureNumber c + (toG + measureNumber c).ques + units
/-- `union(*unit_sp_case1)`, measure.py:57-67. -/
def specialUnit : G :=
  G.lit t!"年" ||| .lit t!"月" ||| .lit t!"个月" ||| .lit t!"周" ||| .lit t!"天" ||| .lit t!"位" ||| .lit t!"次" |||
    .lit t!"个" ||| .lit t!"顿"
/-- The round number of `measure_sp`, measure.py:70-72 and 77-79. -/
def round : G :=
  (digitG + del t!"百" + G.wt (addzero.pow 2) 100000) ||| (digitG + del t!"千" + G.wt (addzero.pow 3) 100000) |||
    (digitG + del t!"万" + G.wt (addzero.pow 4) 100000)
/-- `measure_sp`, measure.py:68-82. -/
def measureSpecial (zeroToNine : Bool) : G :=
  if zeroToNine then G.wt (round + Wfst.insert t!" " + digitG + specialUnit) (-50000)
  else G.wt (round + .tab digitZh + specialUnit) (-50000)
/-- `money_colloquial`, measure.py:84. -/
def moneyColloquial (million : Bool) : G :=
  number million + .lit t!"块" + digitG + (G.lit t!"毛" ||| del t!"角").ques
/-- `self.value`, measure.py:86. -/
def measureValue (c : Config) : G :=
  measure c ||| measureSpecial c.zeroToNine ||| percent c.million ||| moneyColloquial c.million
/-- `self.denominator`, measure.py:87. -/
def measureDenominator : G := del t!"每" + units
/-- `Measure`, measure.py:88-101. -/
def measureRule (c : Config) : Rule where
  tagger := addTokens t!"measure" (tagField t!"value" (measureValue c) |||
    (tagField t!"denominator" measureDenominator + Wfst.insert t!" " + tagField t!"numerator" (measure c)))
  verbalizer := deleteTokens t!"measure" (verbalizeField t!"value" (some (measureValue c))) |||
    deleteTokens t!"measure" (verbalizeField t!"numerator" (some (measure c)) + Wfst.insert t!"/" +
      verbalizeField t!"denominator" (some measureDenominator) true)

/-! ### rules/money.py -/

/-- `self.value`, money.py:37-41. -/
def moneyValue (c : Config) : G := measureNumber c ||| (digitG + Wfst.insert t!"~" + digitG)
/-- `self.currency`, money.py:42. -/
def currency : G := .tab moneySymbol ||| G.wt (.tab moneyCode) 100000
/-- `self.decimal`, money.py:43. -/
def decimal : G :=
  (Wfst.insert t!"." + digitG + (del t!"毛" ||| del t!"角") + (digitG + del t!"分").ques).ques
/-- `Money`, money.py:44-53. -/
def moneyRule (c : Config) : Rule where
  tagger := addTokens t!"money" (tagField t!"value" (moneyValue c) + Wfst.insert t!" " +
    tagField t!"currency" currency + Wfst.insert t!" " + tagField t!"decimal" decimal)
  verbalizer := deleteTokens t!"money" (verbalizeField t!"currency" (some currency) +
    verbalizeField t!"value" (some (moneyValue c)) true + verbalizeField t!"decimal" (some decimal) true)

/-! ### rules/time.py -/

/-- `self.minute_tagger`, time.py:37. -/
def minuteTagger : G := (.tab minute + (del t!"分").ques) ||| (.tab minuteZero + del t!"分")
/-- `self.minute`, time.py:38. -/
def minuteG : G := minuteTagger ||| .tab minuteZero
/-- `Time`, time.py:42-59. -/
def timeRule : Rule where
  tagger :=
    let hour := tagField t!"hour" (.tab hour)
    let minute := Wfst.insert t!" " + tagField t!"minute" minuteTagger
    let minuteZeroNoFen := Wfst.insert t!" " + tagField t!"minute" (.tab minuteZero)
    let second := (Wfst.insert t!" " + tagField t!"second" (.tab second)).ques
    addTokens t!"time"
      (((tagField t!"noon" (.tab noon) + Wfst.insert t!" ").ques + hour + minute + second) |||
        (tagField t!"noon" (.tab noon) + Wfst.insert t!" " + hour + minuteZeroNoFen + second))
  verbalizer := deleteTokens t!"time"
    (verbalizeField t!"hour" (some (.tab hour)) + Wfst.insert t!":" +
      verbalizeField t!"minute" (some minuteG) true +
      (Wfst.insert t!":" + verbalizeField t!"second" (some (.tab second)) true).ques +
      (verbalizeField t!"noon" (some (.tab noon)) true).ques)

/-! ### rules/train_number.py -/

/-- `self.graph`, train_number.py:29-33. -/
def train : G := .tab trainPrefix + (digits + digits + (digits + digits.ques).ques)
/-- `TrainNumber`. -/
def trainRule : Rule := valueRule t!"trainnumber" train

/-! ### rules/whitelist.py -/

/-- `Whitelist`. -/
def whitelistRule : Rule := valueRule t!"whitelist" (.tab whitelist)

/-! ### rules/postprocessor.py -/

/-- `self.processor`, postprocessor.py:29-32. -/
def postprocessor (removeInterjections : Bool) : G :=
  if removeInterjections then .comp VSIGMA (buildRule (delete (.tab blacklist))) else VSIGMA

/-! ### inverse_normalizer.py -/

/-- `TOKEN_ORDERS`, inverse_normalizer.py:31-39. -/
def tokenOrders : Orders := ordersOf
  [("date", ["year", "month", "day", "preserve_order"]), ("fraction", ["sign", "numerator", "denominator"]),
   ("measure", ["numerator", "denominator", "value", "units"]),
   ("money", ["currency", "value", "decimal", "quantity"]), ("time", ["hour", "minute", "second", "noon", "zone"]),
   ("telephone", ["country_code", "number_part"]), ("electronic", ["username", "domain", "protocol"])]

/-- `rules`, inverse_normalizer.py:83-95. -/
def rules (c : Config) : List RuleSpec :=
  [⟨dateRule, some 102000, true⟩, ⟨whitelistRule, some 101000, true⟩, ⟨fractionRule c.million, some 105000, true⟩,
   ⟨measureRule c, some 105000, true⟩, ⟨moneyRule c, some 104000, true⟩, ⟨timeRule, some 105000, true⟩,
   ⟨cardinalRule c, some 106000, true⟩, ⟨mathRule c.million, some 110000, true⟩, ⟨plateRule, some 100000, true⟩,
   ⟨trainRule, some 100000, true⟩, ⟨charRule, some 10000000, true⟩]

/-- `self.tagger`, inverse_normalizer.py:96-99. -/
def tagger (c : Config) : Option G :=
  (taggerUnion (rules c)).map fun g => .comp (.star g) (buildRule (del t!" ") .any .edge)

/-- `self.verbalizer`, inverse_normalizer.py:101-104. -/
def verbalizer (c : Config) : Option G :=
  (verbalizerUnion (rules c)).map fun g => .star (.comp g (postprocessor c.removeInterjections))

end Verif.ZhItn
