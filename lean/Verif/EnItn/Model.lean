import Verif.EnItn.Data
import Verif.Token.Model

/-
Model of the English inverse text normalization grammar: /repo/itn/english/inverse_normalizer.py and
all rule files under /repo/itn/english/rules/. Each graph is the expression the Python code builds,
with the data tables of Data.lean. `a |= b` is `a = a | b` (a new graph); `optimize()` calls are left
out (see Verif/Wfst/Basic.lean).
-/

namespace Verif.EnItn

open Verif.Wfst
open Verif.Token (Orders ordersOf)

/-- `invert(string_file(path))`. -/
def inv (t : List (Str × Str)) : List (Str × Str) := t.map Prod.swap
/-- `closure(a, 1)` etc.: at least `n` copies. -/
def atLeast (n : Nat) (a : G) : G := a.pow n + .star a
/-- `self.ALPHA`, processor.py:122. -/
def ALPHA : G := .cls isAlpha
/-- `self.DIGIT`, processor.py:123. -/
def DIGIT : G := .cls isDigit
/-- `self.VCHAR`, processor.py:126. -/
def VCHAR : G := .cls vchar
/-- A character other than white space. -/
def notSpace (c : Char) : Bool := vchar c && !isSpace c
/-- `self.NOT_SPACE`, processor.py:135. -/
def NOT_SPACE : G := .cls notSpace
/-- `self.DELETE_SPACE`, processor.py:137. -/
def DELETE_SPACE : G := .star (delete (.cls isSpace))
/-- `self.DELETE_EXTRA_SPACE`, processor.py:138. -/
def DELETE_EXTRA_SPACE : G := .cross (G.cls isSpace).plus t!" "
/-- `ds = delete(" ")` of the rule files. -/
def ds : G := del t!" "
/-- `insert(" ")`. -/
def isp : G := Wfst.insert t!" "
/-- `cross(u, v)` for each listed pair, united. -/
def crosses (t : List (Str × Str)) : G := .tab t

/-! ### `_num_to_word`, rules/time.py:25-33 -/

/-- `ones`, time.py:26-29. -/
def ones : List Str :=
  [t!"", t!"one", t!"two", t!"three", t!"four", t!"five", t!"six", t!"seven", t!"eight", t!"nine", t!"ten",
   t!"eleven", t!"twelve", t!"thirteen", t!"fourteen", t!"fifteen", t!"sixteen", t!"seventeen", t!"eighteen",
   t!"nineteen"]
/-- `tens`, time.py:30. -/
def tenWords : List Str :=
  [t!"", t!"", t!"twenty", t!"thirty", t!"forty", t!"fifty", t!"sixty", t!"seventy", t!"eighty", t!"ninety"]
/-- `_num_to_word(n)` for `n < 100`, time.py:25-33. -/
def numToWord (n : Nat) : Str :=
  if n < 20 then ones.getD n []
  else tenWords.getD (n / 10) [] ++ (if n % 10 = 0 then [] else ' ' :: ones.getD (n % 10) [])
/-- `f"{x:02d}"` for `x < 100`. -/
def pad2 (n : Nat) : Str := [Nat.digitChar (n / 10), Nat.digitChar (n % 10)]
/-- `str(x)`. -/
def str (n : Nat) : Str := Nat.toDigits 10 n
/-- `range(a, b)`. -/
def range (a b : Nat) : List Nat := (List.range (b - a)).map (a + ·)

/-! ### rules/cardinal.py -/

/-- `zero`, cardinal.py:30. -/
def zeroG : G := .tab zero
/-- `digit`, `one_digit`, cardinal.py:31 and 37. -/
def digitG : G := .tab digit
/-- `teen`, cardinal.py:32. -/
def teenG : G := .tab teen
/-- `ties`, cardinal.py:33. -/
def tiesG : G := .tab ties
/-- `two_digit`, cardinal.py:38. -/
def twoDigit : G := teenG ||| (tiesG + ((ds + digitG) ||| G.wt (Wfst.insert t!"0") 10000))
/-- `up_to_99`, cardinal.py:40. -/
def upTo99 : G := digitG ||| twoDigit
/-- What may follow "hundred", cardinal.py:43 and 45-46. -/
def afterHundred : G :=
  (ds + twoDigit) ||| (ds + Wfst.insert t!"0" + digitG) ||| Wfst.insert t!"00"
/-- `hundreds`, cardinal.py:43. -/
def hundreds : G := digitG + ds + del t!"hundred" + afterHundred
/-- `hundreds_as_thousand`, cardinal.py:45-46. -/
def hundredsAsThousand : G := (teenG ||| (tiesG + ds + digitG)) + ds + del t!"hundred" + afterHundred
/-- `up_to_999`, cardinal.py:49. -/
def upTo999 : G := upTo99 ||| hundreds
/-- `up_to_999_padded`, cardinal.py:52. -/
def padded : G := hundreds ||| (Wfst.insert t!"0" + twoDigit) ||| (Wfst.insert t!"00" + digitG)
/-- `_with_mag`, cardinal.py:54-55. -/
def withMag (name : Str) : G := upTo999 + ds + del name
/-- `_with_mag_padded`, cardinal.py:57-58. -/
def withMagPadded (name : Str) : G := padded + ds + del name
/-- What follows the first magnitude, e.g. `(ds + _with_mag_padded("thousand") | insert("000")) +
(ds + up_to_999_padded | insert("000"))`; the argument lists the smaller magnitudes. -/
def lower : List Str → G
  | [] => (ds + padded) ||| Wfst.insert t!"000"
  | name :: names => ((ds + withMagPadded name) ||| Wfst.insert t!"000") + lower names
/-- The magnitudes, largest first. -/
def mags : List Str :=
  [t!"sextillion", t!"quintillion", t!"quadrillion", t!"trillion", t!"billion", t!"million", t!"thousand"]
/-- `graph`, cardinal.py:60-80. The seven alternatives with magnitudes are written once, for each final
segment of `mags`; Python writes the smallest first and sums from left to right. -/
def bigs : List Str → G
  | [] => zeroG ||| upTo999 ||| hundredsAsThousand
  | name :: names => bigs names ||| (withMag name + lower names)
/-- `graph`, cardinal.py:60-80. -/
def graph0 : G := bigs mags
/-- The right side of cardinal.py:83. -/
def stripZeros : G :=
  (delete (.star (.lit t!"0")) + G.cls (fun c => isDigit c && c != '0') + .star DIGIT) ||| .lit t!"0"
/-- `delete_and`, cardinal.py:85. -/
def deleteAnd : G := buildRule (del t!"and ") (.chr (· = ' ')) (.chr isAlpha)
/-- `self.graph`, cardinal.py:83-88. -/
def cardinal : G := .comp deleteAnd (.comp graph0 stripZeros)
/-- `exception`, cardinal.py:92-94. -/
def exception : G := unionOf (.lit t!"zero") ((range 1 13).map fun n => .lit (numToWord n))
/-- `self.integer`, cardinal.py:95 and 98. -/
def integer : G := .comp (.diff VSIGMA exception) cardinal
/-- `self.negative`, cardinal.py:97. -/
def negative : G := crossS t!"minus" t!"-" ||| crossS t!"negative" t!"-"
/-- `class Cardinal`, cardinal.py:22-111. -/
def cardinalRule : Rule where
  tagger := addTokens t!"cardinal" ((tagField t!"negative" negative + ds + isp).ques + tagField t!"integer" integer)
  verbalizer := deleteTokens t!"cardinal"
    ((verbalizeField t!"negative" (some negative) + DELETE_SPACE).ques + verbalizeField t!"integer" (some integer))

/-! ### rules/ordinal.py -/

/-- `suffix`, ordinal.py:37. -/
def ordSuffix : G := .tab ordDigit ||| .tab ordTeen ||| crossS t!"tieth" t!"ty" ||| crossS t!"th" t!""
/-- `self.graph`, ordinal.py:38-39. -/
def ordinal : G := .comp (.star VCHAR + ordSuffix) cardinal
/-- The text does not end with `1`, `2` or `3` (for all of `cs`). -/
def notEnding (cs : List Char) : G := .lit [] ||| (VSIGMA + G.cls (fun c => vchar c && !cs.contains c))
/-- `cdrewrite(ordinal_suffix, "", "[EOS]", VSIGMA)`, ordinal.py:47-50. Matches must end at the end of the
text, and rewriting from left to right takes the one that begins first, i.e. the longest: 11, 12 or 13
before 1, 2 or 3 before the empty match (which `Rewrites` does not have). -/
def ordinalSuffix : G :=
  (VSIGMA + .tab [(t!"11", t!"11th"), (t!"12", t!"12th"), (t!"13", t!"13th")]) |||
  (notEnding ['1'] + .tab [(t!"1", t!"1st"), (t!"2", t!"2nd"), (t!"3", t!"3rd")]) |||
  (notEnding ['1', '2', '3'] + G.wt (Wfst.insert t!"th") 1000)
/-- `class Ordinal`, ordinal.py:24-50. -/
def ordinalRule : Rule where
  tagger := addTokens t!"ordinal" (tagField t!"integer" ordinal)
  verbalizer := deleteTokens t!"ordinal" (.comp (verbalizeField t!"integer" (some ordinal)) ordinalSuffix)

/-! ### rules/decimal.py -/

/-- `frac_digit`, decimal.py:37. -/
def fracDigit : G := digitG ||| zeroG ||| crossS t!"o" t!"0"
/-- `frac_graph`, decimal.py:38. -/
def fracG : G := .star (fracDigit + ds) + fracDigit
/-- `self.negative`, decimal.py:40. -/
def minus : G := crossS t!"minus" t!"-"
/-- `self.fractional`, decimal.py:42. -/
def fractional : G := del t!"point" + ds + fracG
/-- `optional_negative`, decimal.py:43. -/
def optNegative : G := (tagField t!"negative" minus + ds + isp).ques
/-- `integer_part`, decimal.py:44. -/
def integerPart : G := tagField t!"integer_part" cardinal
/-- `frac_part`, decimal.py:45. -/
def fracPart : G := tagField t!"fractional_part" fractional
/-- The first column of a table, as acceptors. -/
def names (t : List (Str × Str)) : G := .tab (t.map fun e => (e.1, e.1))
/-- `quantity_all`, `self.quantity`, decimal.py:49-53. -/
def quantityAll : G := names thousands
/-- `quantity_no_thousand`, decimal.py:52. -/
def quantityNoThousand : G := names (thousands.filter fun e => e.1 != t!"thousand")
/-- `graph`, decimal.py:47. -/
def decimalPlain : G := optNegative + (integerPart + ds + isp).ques + fracPart
/-- `quantity_graph`, decimal.py:54-55. -/
def decimalQuantity : G :=
  optNegative + integerPart + ds + isp + fracPart + ds + isp + tagField t!"quantity" quantityAll
/-- `cardinal_quantity`, decimal.py:58-60. -/
def cardinalQuantity : G :=
  optNegative + tagField t!"integer_part" upTo999 + ds + isp + tagField t!"quantity" quantityNoThousand
/-- `class Decimal`, decimal.py:23-82. -/
def decimalRule : Rule where
  tagger := addTokens t!"decimal" (decimalPlain ||| G.wt (decimalQuantity ||| cardinalQuantity) (-100))
  verbalizer := deleteTokens t!"decimal"
    ((verbalizeField t!"negative" (some minus) + DELETE_SPACE).ques +
      (verbalizeField t!"integer_part" (some (cardinal ||| upTo999)) + DELETE_SPACE).ques +
      (Wfst.insert t!"." + verbalizeField t!"fractional_part" (some fractional) + DELETE_SPACE).ques +
      (isp + verbalizeField t!"quantity" (some quantityAll) + DELETE_SPACE).ques)

/-! ### rules/date.py -/

/-- `self.month`, date.py:36. -/
def monthG : G := .tab months
/-- `day_graph`, `self.day`, date.py:42-44. -/
def dayG : G := .comp (ordinal ||| cardinal) (DIGIT + DIGIT.ques)
/-- `two_digit`, date.py:53. -/
def yearTwo : G := teenG ||| (tiesG + ((ds + digitG) ||| Wfst.insert t!"0"))
/-- `oh_digit`, date.py:56. -/
def ohDigit : G := (crossS t!"oh" t!"0" ||| crossS t!"o" t!"0") + ds + digitG
/-- `teen | two_digit`. -/
def century : G := teenG ||| yearTwo
/-- `year_two_parts`, date.py:59. -/
def yearTwoParts : G := century + ds + (yearTwo ||| ohDigit ||| teenG)
/-- `year_three_digit`, date.py:61. -/
def yearThree : G := digitG + ds + (yearTwo ||| ohDigit ||| teenG)
/-- `hundreds`, date.py:65. -/
def yearHundredsPart : G :=
  digitG + ds + del t!"hundred" + ((ds + yearTwo) ||| (ds + Wfst.insert t!"0" + digitG) ||| Wfst.insert t!"00")
/-- `up_to_999_padded`, date.py:66. -/
def yearPadded : G := yearHundredsPart ||| (Wfst.insert t!"0" + yearTwo) ||| (Wfst.insert t!"00" + digitG)
/-- `year_thousands`, date.py:67. -/
def yearThousands : G := digitG + ds + del t!"thousand" + ((ds + yearPadded) ||| Wfst.insert t!"000")
/-- `year_hundreds`, date.py:70. -/
def yearHundreds : G := century + ds + ohDigit
/-- `year_xx_hundred`, date.py:72. -/
def yearXxHundred : G := century + ds + del t!"hundred" + Wfst.insert t!"00"
/-- `year_graph`, `self.year`, date.py:74-80. -/
def yearG : G := .comp deleteAnd (yearTwoParts ||| yearThousands ||| yearHundreds ||| yearXxHundred)
/-- `po`, date.py:84. -/
def po : G := Wfst.insert t!" preserve_order: \"true\""
/-- `month`, date.py:37. -/
def month : G := tagField t!"month" monthG
/-- `day`, date.py:45. -/
def day : G := tagField t!"day" dayG
/-- `year`, date.py:81. -/
def year : G := tagField t!"year" yearG
/-- `self.day_dmy`, date.py:93. -/
def dayDmy : G := del t!"the" + ds + dayG + ds + del t!"of"
/-- `decade_word`, date.py:101-102. -/
def decadeWord : G :=
  .comp (ALPHA.plus + (crossS t!"ies" t!"y" ||| del t!"s")) (tiesG ||| crossS t!"ten" t!"10")
/-- `self.year_decade`, date.py:103. -/
def yearDecade : G := century + ds + decadeWord + Wfst.insert t!"0s"
/-- `self.day_quarter`, date.py:107-108. -/
def dayQuarter : G :=
  Wfst.insert t!"Q" + .tab [(t!"first", t!"1"), (t!"second", t!"2"), (t!"third", t!"3"), (t!"fourth", t!"4")] + ds +
    del t!"quarter" + ds + del t!"of"
/-- `bc_ad`, date.py:112-115. -/
def bcAd : G :=
  ds + .tab [(t!"b c e", t!"BCE"), (t!"before common era", t!"BCE"), (t!"b c", t!"BC"), (t!"c e", t!"CE"),
    (t!"common era", t!"CE"), (t!"a d", t!"AD")]
/-- `self.year_bc`, date.py:116-117. -/
def yearBc : G := (yearG ||| yearThree) + bcAd
/-- `self.day_half`, date.py:121-122. -/
def dayHalf : G :=
  Wfst.insert t!"H" + .tab [(t!"first", t!"1"), (t!"second", t!"2")] + ds + del t!"half" + ds + del t!"of"
/-- `self.year_century`, date.py:126. -/
def yearCentury : G := century + ds + crossS t!"hundreds" t!"00s"
/-- `self.year_millennium`, date.py:129. -/
def yearMillennium : G := crossS t!"two" t!"2" + ds + crossS t!"thousands" t!"000s"
/-- `final_graph`, date.py:87-134. -/
def dateTagger : G :=
  (month + ds + isp + day + ds + isp + year + po) ||| (month + ds + isp + day + po) |||
  (month + ds + isp + G.wt year (-10000) + po) |||
  (tagField t!"day" dayDmy + ds + isp + month + ds + isp + year + po) |||
  (tagField t!"day" dayDmy + ds + isp + month + po) ||| (year + po) ||| (tagField t!"year" yearDecade + po) |||
  (tagField t!"day" dayQuarter + ds + isp + year + po) ||| (tagField t!"day" dayHalf + ds + isp + year + po) |||
  (tagField t!"year" yearBc + po) ||| (tagField t!"year" yearCentury + po) |||
  (tagField t!"year" yearMillennium + po)
/-- `month`, date.py:138. -/
def monthV : G := verbalizeField t!"month" (some monthG)
/-- `day`, date.py:139. -/
def dayV : G := verbalizeField t!"day" (some (dayG ||| dayDmy ||| dayQuarter ||| dayHalf))
/-- `year`, date.py:140-147. -/
def yearV : G := verbalizeField t!"year" (some (yearG ||| yearDecade ||| yearBc ||| yearCentury ||| yearMillennium))
/-- `delete_po`, date.py:148. -/
def deletePo : G := del t!"preserve_order:" + DELETE_SPACE + del t!"\"" + del t!"true" + del t!"\""
/-- `class Date`, date.py:25-163. -/
def dateRule : Rule where
  tagger := addTokens t!"date" dateTagger
  verbalizer := deleteTokens t!"date"
    (((monthV + (DELETE_SPACE + isp + dayV).ques + (DELETE_SPACE + isp + yearV).ques) |||
      (dayV + DELETE_SPACE + isp + monthV + (DELETE_SPACE + isp + yearV).ques) |||
      (dayV + DELETE_SPACE + isp + yearV) ||| yearV) + DELETE_SPACE + deletePo)

/-! ### rules/time.py -/

/-- `hour_all`, time.py:51. -/
def hourAll : G := crosses (((range 0 24).filter fun n => numToWord n ≠ []).map fun n => (numToWord n, pad2 n))
/-- `hour_12`, time.py:52. -/
def hour12 : G := crosses ((range 1 13).map fun n => (numToWord n, pad2 n))
/-- `graph_min_single`, time.py:53. -/
def minSingle : G := crosses ((range 1 10).map fun n => (numToWord n, '0' :: str n))
/-- `graph_min_double`, `min_double_raw`, time.py:54 and 59. -/
def minDouble : G := crosses ((range 10 60).map fun n => (numToWord n, str n))
/-- `graph_min_verbose`, time.py:55. -/
def minVerbose : G := crossS t!"half" t!"30" ||| crossS t!"quarter" t!"15"
/-- `min_single_raw`, time.py:58. -/
def minSingleRaw : G := crosses ((range 1 10).map fun n => (numToWord n, str n))
/-- `oclock`, time.py:61-62. -/
def oclock : G :=
  crossS t!"o'clock" t!"" ||| crossS t!"o' clock" t!"" ||| crossS t!"o clock" t!"" ||| crossS t!"oclock" t!"" |||
    crossS t!"hundred hours" t!""
/-- `self.hour`, time.py:64. -/
def hourG : G := hourAll ||| hour12
/-- `self.hour_to`, time.py:65. -/
def hourTo : G := delete (.lit t!"to" ||| .lit t!"till") + ds + .tab toHour
/-- `self.minute_oclock`, time.py:66. -/
def minuteOclock : G := oclock + Wfst.insert t!"00"
/-- `delete("o") + ds + graph_min_single`. -/
def oMinute : G := del t!"o" + ds + minSingle
/-- `self.minute`, time.py:69. -/
def minuteG : G := oMinute ||| minDouble
/-- `self.minute_past`, time.py:68. -/
def minutePast : G := (minSingle ||| minDouble ||| minVerbose) + ds + del t!"past"
/-- `self.minute_quarter_to`, time.py:69. -/
def minuteQuarterTo : G := crossS t!"quarter" t!"45"
/-- `self.minute_to`, time.py:70-71. -/
def minuteToG : G :=
  .comp (minSingleRaw ||| minDouble) (.tab minuteTo) +
    (ds + del t!"min" + (del t!"ute").ques + (del t!"s").ques).ques
/-- `self.noon`, time.py:72. -/
def noonG : G := .tab timeSuffix
/-- `self.zone`, time.py:73. -/
def zoneG : G := .tab (inv timeZone)
/-- `hour`, time.py:75. -/
def hour : G := tagField t!"hour" hourG
/-- `suffix`, time.py:77. -/
def suffix : G := ds + isp + tagField t!"noon" noonG
/-- `zone_opt`, time.py:79-80. -/
def zoneOpt : G := (ds + isp + tagField t!"zone" zoneG).ques
/-- `insert(' style: "to"')`. -/
def styleTo : G := Wfst.insert t!" style: \"to\""
/-- `final_graph`, time.py:83-113. -/
def timeTagger : G :=
  (hour + ds + isp + tagField t!"minute" minuteOclock + zoneOpt) |||
  (hour + ds + isp + tagField t!"minute" oMinute) |||
  (hour + Wfst.insert t!" minute: \"\"" + suffix + zoneOpt) |||
  (hour + ds + isp + tagField t!"minute" minDouble + suffix + zoneOpt) |||
  (tagField t!"hour" hour12 + ds + isp + tagField t!"minute" minDouble) |||
  (hour + ds + isp + tagField t!"minute" oMinute + suffix + zoneOpt) |||
  (tagField t!"minute" minutePast + ds + isp + hour) |||
  (tagField t!"minute" minuteQuarterTo + ds + isp + tagField t!"hour" hourTo + styleTo) |||
  (tagField t!"minute" minuteToG + ds + isp + tagField t!"hour" hourTo + suffix + styleTo)
/-- `noon` and `zone` of the verbalizer, time.py:121-125 and 133-134. -/
def noonZoneV : G :=
  (isp + DELETE_SPACE + verbalizeField t!"noon" (some noonG) true).ques +
    (isp + DELETE_SPACE + verbalizeField t!"zone" (some zoneG) true).ques
/-- `minute`, time.py:115-124. -/
def minuteV : G :=
  verbalizeField t!"minute" (some (minuteG ||| minuteOclock ||| minutePast ||| minuteQuarterTo ||| minuteToG |||
    Wfst.insert t!"00")) true
/-- `minute_to`, time.py:131-135. -/
def minuteToV : G := verbalizeField t!"minute" (some (minuteQuarterTo ||| minuteToG)) true
/-- `class Time`, time.py:36-138. -/
def timeRule : Rule where
  tagger := addTokens t!"time" timeTagger
  verbalizer := deleteTokens t!"time"
    ((verbalizeField t!"hour" (some (hourG ||| hourTo)) + Wfst.insert t!":" + DELETE_SPACE + minuteV + noonZoneV) |||
      (verbalizeField t!"hour" (some hourTo) + Wfst.insert t!":" + DELETE_SPACE + minuteToV + noonZoneV +
        del t!" style: \"to\""))

/-! ### rules/measure.py -/

/-- `s.endswith(t)`. -/
def endsWith (s t : Str) : Bool := t.isSuffixOf s
/-- `singular_names`, measure.py:46-52: for every name its first symbol. -/
def singularNames (t : List (Str × Str)) : List (Str × Str) :=
  t.foldl (fun acc e => if (acc.map Prod.fst).contains e.2 then acc else acc ++ [(e.2, e.1)]) []
/-- The plural of a unit, measure.py:54-68. -/
def pluralOf (name : Str) : Str :=
  if name = t!"foot" then t!"feet" else if name = t!"inch" then t!"inches" else if name = t!"ounce" then t!"ounces"
  else if [t!"s", t!"z", t!"sh", t!"ch", t!"x"].any (endsWith name) then name ++ t!"es"
  else if endsWith name t!"y" && decide (name.length > 1) &&
      !(t!"aeiou").contains (name.getD (name.length - 2) 'a') then name.dropLast ++ t!"ies"
  else name ++ t!"s"
/-- `unit_singular`, measure.py:66. -/
def unitSingular : G := .tab (inv measurements)
/-- `unit_plural`, measure.py:67. -/
def unitPlural : G := .tab ((singularNames measurements).map fun e => (pluralOf e.1, e.2))
/-- `per_unit`, measure.py:72. -/
def perUnit : G := G.wt (Wfst.insert t!"/" + del t!"per" + ds + unitSingular) 100000
/-- `full_unit`, measure.py:73. -/
def fullUnit : G := ((unitSingular ||| unitPlural) + (ds + perUnit).ques) ||| perUnit
/-- `decimal_value`, measure.py:83 (and money.py:74). -/
def decimalValue : G := cardinal + ds + del t!"point" + ds + Wfst.insert t!"." + fracG
/-- `number`, measure.py:90-96. -/
def measureNumber : G :=
  (Wfst.insert t!"-" + (del t!"minus" ||| del t!"negative") + ds).ques +
    (decimalValue ||| cardinal ||| (del t!"point" + ds + Wfst.insert t!"." + fracG))
/-- `class Measure`, measure.py:25-106. -/
def measureRule : Rule where
  tagger := addTokens t!"measure" (tagField t!"value" measureNumber + ds + isp + tagField t!"units" fullUnit)
  verbalizer := deleteTokens t!"measure"
    (verbalizeField t!"value" (some measureNumber) + DELETE_SPACE + isp + verbalizeField t!"units" (some fullUnit))

/-! ### rules/money.py -/

/-- `singular_pairs`, money.py:40. -/
def currencySingularPairs : List (Str × Str) := inv currency
/-- `plural_pairs`, money.py:40-45. -/
def currencyPluralPairs : List (Str × Str) :=
  currencySingularPairs.map fun e => (if endsWith e.1 t!"s" then e.1 ++ t!"es" else e.1 ++ t!"s", e.2)
/-- `currency_singular`, money.py:47. -/
def currencySingular : G := crosses currencySingularPairs
/-- `currency_plural`, money.py:48. -/
def currencyPlural : G := crosses (currencySingularPairs ++ currencyPluralPairs)
/-- `cent`, money.py:50. -/
def cent : G := crossS t!"cent" t!"" ||| crossS t!"cents" t!""
/-- `magnitude`, money.py:51. -/
def magnitude : G := names ((inv magnitudes).filter fun e => e.1 != t!"thousand")
/-- `with_hundred`, money.py:55-58. -/
def withHundred : G :=
  .comp (.star NOT_SPACE + .lit t!" " + Wfst.insert t!"hundred " + VSIGMA) (.comp cardinal (DIGIT.pow 3))
/-- `not_one`, money.py:61. -/
def notOne : G := atLeast 2 DIGIT ||| G.cls (fun c => isDigit c && c != '1')
/-- `cardinal_plural`, money.py:62. -/
def cardinalPlural : G := .comp (cardinal ||| withHundred) notOne
/-- `one`, money.py:63. -/
def one : G := crossS t!"one" t!"1"
/-- `decimal_no_int_value`, money.py:84. -/
def pointValue : G := Wfst.insert t!"." + del t!"point" + ds + fracG
/-- `cents_graph`, money.py:89. -/
def cents : G :=
  crosses (((range 1 100).filter fun n => numToWord n ≠ []).map fun n => (numToWord n, pad2 n))
/-- `decimal_with_cents`, money.py:90. -/
def decimalWithCents : G := (del t!"and" + ds).ques + cents + ds + cent
/-- `cents_only_decimal`, money.py:98. -/
def centsOnly : G := cents + ds + cent
/-- `self.tag_field("currency", currency_plural)`. -/
def currencyField : G := tagField t!"currency" currencyPlural
/-- `self.value`, money.py:101. -/
def moneyValue : G := cardinalPlural ||| one ||| upTo999 ||| decimalValue ||| pointValue ||| cardinal
/-- `self.currency`, money.py:102. -/
def moneyCurrency : G := currencyPlural ||| currencySingular ||| Wfst.insert t!"$"
/-- `self.decimal`, money.py:101. -/
def moneyDecimal : G := decimalWithCents ||| cents ||| centsOnly
/-- `graph`, money.py:64-105. -/
def moneyTagger : G :=
  (tagField t!"value" cardinalPlural + ds + isp + currencyField) |||
  (tagField t!"value" one + ds + isp + tagField t!"currency" currencySingular) |||
  G.wt (tagField t!"value" upTo999 + ds + isp + tagField t!"quantity" magnitude + ds + isp + currencyField) (-100000) |||
  G.wt (tagField t!"value" decimalValue + ds + isp + tagField t!"quantity" magnitude + ds + isp + currencyField)
    (-100000) |||
  (tagField t!"value" decimalValue + ds + isp + currencyField) |||
  (tagField t!"value" pointValue + ds + isp + currencyField) |||
  (tagField t!"value" cardinal + ds + isp + currencyField + ds + isp + tagField t!"decimal" decimalWithCents) |||
  (tagField t!"value" cardinal + ds + isp + currencyField + ds + isp + tagField t!"decimal" cents) |||
  (tagField t!"currency" (Wfst.insert t!"$") + isp + tagField t!"decimal" centsOnly)
/-- `currency` of the verbalizer, money.py:111. -/
def currencyV : G := verbalizeField t!"currency" (some moneyCurrency)
/-- `decimal` of the verbalizer, money.py:113. -/
def decimalV : G := verbalizeField t!"decimal" (some moneyDecimal) true
/-- `class Money`, money.py:25-121. -/
def moneyRule : Rule where
  tagger := addTokens t!"money" moneyTagger
  verbalizer := deleteTokens t!"money"
    ((currencyV + verbalizeField t!"value" (some moneyValue) true +
        (Wfst.insert t!"." + DELETE_SPACE + decimalV).ques +
        (isp + DELETE_SPACE + verbalizeField t!"quantity" (some magnitude) true).ques) |||
      (currencyV + Wfst.insert t!"0." + DELETE_SPACE + decimalV))

/-! ### rules/telephone.py -/

/-- The digit words of telephone.py:39-50. -/
def telWords : List (Str × Char) :=
  [(t!"one", '1'), (t!"two", '2'), (t!"three", '3'), (t!"four", '4'), (t!"five", '5'), (t!"six", '6'),
   (t!"seven", '7'), (t!"eight", '8'), (t!"nine", '9'), (t!"zero", '0'), (t!"oh", '0'), (t!"o", '0')]
/-- `single`, telephone.py:35. -/
def single : G := digitG ||| zeroG ||| crossS t!"o" t!"0" ||| crossS t!"oh" t!"0"
/-- `double`, telephone.py:37-50. -/
def double : G := crosses (telWords.map fun e => (t!"double " ++ e.1, [e.2, e.2]))
/-- `triple`, telephone.py:53-66. -/
def triple : G := crosses (telWords.map fun e => (t!"triple " ++ e.1, [e.2, e.2, e.2]))
/-- `token`, telephone.py:71. -/
def telToken : G := single ||| double ||| triple ||| G.wt twoDigit 200
/-- `seq`, telephone.py:74. -/
def telSeq : G := telToken + .star (ds + telToken)
/-- `insert("-")`. -/
def hyphen : G := Wfst.insert t!"-"
/-- `phone`, telephone.py:77. -/
def phone : G := .comp telSeq (DIGIT.pow 3 + hyphen + DIGIT.pow 3 + hyphen + DIGIT.pow 4)
/-- `country_digits`, telephone.py:81-84. -/
def countryDigits : G :=
  single ||| G.wt (single + ds + single) (-100) ||| G.wt (single + ds + single + ds + single) (-200) |||
    G.wt twoDigit 200
/-- `self.country_code`, telephone.py:85. -/
def countryCode : G := (crossS t!"plus " t!"+").ques + countryDigits
/-- `optional_cc`, telephone.py:86-87. -/
def optCc : G := (tagField t!"country_code" countryCode + ds + isp).ques
/-- `number_field`, telephone.py:88-89. -/
def numberField (graph : G) (kind : Str) : G :=
  tagField t!"number_part" graph + Wfst.insert (t!" kind: \"" ++ kind ++ t!"\"")
/-- `ssn`, telephone.py:96. -/
def ssn : G := .comp telSeq (DIGIT.pow 3 + hyphen + DIGIT.pow 2 + hyphen + DIGIT.pow 4)
/-- `ip_token`, telephone.py:101-106. -/
def ipToken : G :=
  (single + (ds + single).upTo 2) ||| double ||| triple ||| G.wt twoDigit 200 ||| (single + ds + twoDigit) |||
    (twoDigit + ds + single)
/-- `ip`, telephone.py:107. -/
def ip : G := ipToken + (crossS t!" dot " t!"." + ipToken).pow 3
/-- `cc`, telephone.py:112-117. -/
def creditCard : G :=
  .comp telSeq
    ((DIGIT.pow 4 + isp + DIGIT.pow 4 + isp + DIGIT.pow 4 + isp + DIGIT.pow 4) |||
     (DIGIT.pow 4 + isp + DIGIT.pow 6 + isp + DIGIT.pow 4) |||
     (DIGIT.pow 4 + isp + DIGIT.pow 6 + isp + DIGIT.pow 5))
/-- `not_a`, telephone.py:122. -/
def notA : G := .cls (fun c => isAlpha c && c != 'a' && c != 'A')
/-- `serial_digit`, telephone.py:124. -/
def serialDigit : G := single ||| G.wt twoDigit (-200)
/-- `serial_char`, telephone.py:125. -/
def serialChar : G := serialDigit ||| ALPHA
/-- `seq1`, telephone.py:126-127. -/
def seq1 : G :=
  ((notA ||| serialDigit) + atLeast 2 (ds + serialChar)) ||| (serialChar + atLeast 2 (ds + (single ||| ALPHA)))
/-- `seq2`, telephone.py:128-130. -/
def seq2 : G :=
  (ALPHA + (ds + ALPHA).plus + (ds + twoDigit).plus) ||| (notA + (ds + twoDigit).plus) |||
    (twoDigit + (ds + twoDigit).plus + (ds + ALPHA).plus)
/-- `self.ALPHA | D`. -/
def alnum : G := ALPHA ||| DIGIT
/-- `serial`, telephone.py:131-132. -/
def serial : G := G.wt (.comp (seq1 ||| seq2) (.star alnum + DIGIT + .star alnum)) 200000
/-- `graph`, telephone.py:93-134. -/
def telTagger : G :=
  (optCc + numberField phone t!"phone") ||| numberField ssn t!"ssn" ||| G.wt (numberField ip t!"ip") (-100) |||
    (optCc + numberField creditCard t!"credit_card") ||| numberField serial t!"serial"
/-- The two verbalizer graphs of one kind, telephone.py:141-145. -/
def telKindV (kind : Str) (graph : G) : G :=
  (verbalizeField t!"country_code" (some countryCode) + DELETE_SPACE + isp +
      verbalizeField t!"number_part" (some graph) true + del (t!" kind: \"" ++ kind ++ t!"\"")) |||
    (verbalizeField t!"number_part" (some graph) + del (t!" kind: \"" ++ kind ++ t!"\""))
/-- `class Telephone`, telephone.py:23-147. -/
def telephoneRule : Rule where
  tagger := addTokens t!"telephone" telTagger
  verbalizer := deleteTokens t!"telephone"
    (telKindV t!"phone" phone ||| telKindV t!"ssn" ssn ||| telKindV t!"ip" ip |||
      telKindV t!"credit_card" creditCard ||| telKindV t!"serial" serial)

/-! ### rules/electronic.py -/

/-- `char`, electronic.py:35. -/
def elChar : G := ALPHA ||| digitG ||| zeroG
/-- `word`, electronic.py:36. -/
def elWord : G := G.wt (atLeast 2 ALPHA) 10000
/-- `token`, electronic.py:37. -/
def elToken : G := elChar ||| .tab (inv symbols) ||| elWord
/-- `first_token`, electronic.py:38. -/
def firstToken : G := elChar ||| .diff elWord (.lit t!"dot")
/-- `component`, electronic.py:39. -/
def component : G := firstToken + .star (ds + elToken)
/-- `dot`, electronic.py:41. -/
def dotG : G := crossS t!"dot" t!"."
/-- `domain`, electronic.py:42. -/
def domain : G := component + (ds + dotG + ds + component).plus
/-- `self.domain`, electronic.py:45. -/
def atDomain : G := del t!"at" + ds + domain
/-- `protocol`, electronic.py:55. -/
def protocolPrefix : G :=
  (crossS t!"h t t p" t!"http" ||| crossS t!"h t t p s" t!"https") + crossS t!" colon slash slash " t!"://"
/-- `www`, electronic.py:56. -/
def www : G := crossS t!"w w w" t!"www"
/-- `self.protocol`, electronic.py:58-64. -/
def protocol : G :=
  (protocolPrefix + (www + ds + dotG + ds).ques + domain) ||| (www + ds + dotG + ds + domain) ||| domain
/-- `class Electronic`, electronic.py:22-79. -/
def electronicRule : Rule where
  tagger := addTokens t!"electronic"
    (G.wt (tagField t!"username" component + ds + isp + tagField t!"domain" atDomain) (-100) |||
      tagField t!"protocol" protocol)
  verbalizer := deleteTokens t!"electronic"
    ((verbalizeField t!"username" (some component) + DELETE_SPACE + Wfst.insert t!"@" +
        verbalizeField t!"domain" (some atDomain)) ||| verbalizeField t!"protocol" (some protocol))

/-! ### rules/whitelist.py, word.py, char.py, punctuation.py -/

/-- `whitelist`, whitelist.py:28. -/
def whitelistG : G := .tab (inv whitelist) ||| G.wt (.tab (inv whitelistW)) (-110000)
/-- `class Whitelist`, whitelist.py. -/
def whitelistRule : Rule where
  tagger := addTokens t!"whitelist" (tagField t!"value" whitelistG)
  verbalizer := deleteTokens t!"whitelist" (verbalizeField t!"value" (some whitelistG))
/-- `valid_char`, word.py:29. -/
def wordChar (c : Char) : Bool := notSpace c && c != '"' && c != '\\'
/-- `class Word`, word.py. -/
def wordRule : Rule where
  tagger := addTokens t!"word" (Wfst.insert t!"value: \"" + (G.cls wordChar).plus + Wfst.insert t!"\"")
  verbalizer := defaultVerbalizer t!"word"
/-- `class Char`, char.py. -/
def charRule : Rule where
  tagger := addTokens t!"char" (Wfst.insert t!"value: \"" + CHAR + Wfst.insert t!"\"")
  verbalizer := defaultVerbalizer t!"char"
/-- The characters of punctuation.py:29. -/
def puncts : List Char := t!"!#$%&'()*+,-./:;<=>?@^_`{|}~"
/-- `class Punctuation`, punctuation.py. -/
def punctuationRule : Rule where
  tagger := addTokens t!"punctuation"
    (Wfst.insert t!"value: \"" + G.cls (fun c => puncts.contains c) + Wfst.insert t!"\"")
  verbalizer := defaultVerbalizer t!"punctuation"

/-! ### inverse_normalizer.py -/

/-- `TOKEN_ORDERS`, inverse_normalizer.py:33-41. -/
def tokenOrders : Orders := ordersOf
  [("date", ["year", "month", "day", "preserve_order"]),
   ("fraction", ["sign", "numerator", "denominator"]),
   ("measure", ["numerator", "denominator", "value", "units"]),
   ("money", ["currency", "value", "decimal", "quantity"]),
   ("time", ["hour", "minute", "second", "noon", "zone"]),
   ("telephone", ["country_code", "number_part"]),
   ("electronic", ["username", "domain", "protocol"])]

/-- `rules`, inverse_normalizer.py:65-78. -/
def rules : List RuleSpec :=
  [⟨dateRule, some 109000, true⟩, ⟨timeRule, some 110000, true⟩, ⟨measureRule, some 110000, true⟩,
   ⟨moneyRule, some 108000, true⟩, ⟨whitelistRule, some 101000, true⟩, ⟨telephoneRule, some 110000, true⟩,
   ⟨electronicRule, some 110000, true⟩, ⟨ordinalRule, some 109000, true⟩, ⟨decimalRule, some 110000, true⟩,
   ⟨cardinalRule, some 110000, true⟩, ⟨wordRule, some 5000000, true⟩, ⟨charRule, some 10000000, true⟩]

/-- `verbalizer_rules`, inverse_normalizer.py:86-87. -/
def verbalizerRules : List RuleSpec := rules ++ [⟨punctuationRule, none, true⟩]

/-- `token`, inverse_normalizer.py:81-82. -/
def token (classify : G) : G :=
  .star (G.wt punctuationRule.tagger 110000 + (del t!" ").ques) + classify +
    .star ((del t!" ").ques + G.wt punctuationRule.tagger 110000)

/-- `self.tagger` for a given union, inverse_normalizer.py:81-84. -/
def taggerOf (classify : G) : G :=
  .star (del t!" ") + (token classify + .star (DELETE_EXTRA_SPACE + token classify)) + .star (del t!" ")

/-- `self.verbalizer` for a given union, inverse_normalizer.py:90-91. -/
def verbalizerOf (verbalizer : G) : G :=
  .comp (.comp (.star (verbalizer + isp)) (buildRule DELETE_EXTRA_SPACE)) (buildRule (del t!" ") .any .edge)

/-- `self.tagger`, inverse_normalizer.py:79-84. -/
def tagger : Option G := (taggerUnion rules).map taggerOf

/-- `self.verbalizer`, inverse_normalizer.py:86-91. -/
def verbalizer : Option G := (verbalizerUnion verbalizerRules).map verbalizerOf

end Verif.EnItn
