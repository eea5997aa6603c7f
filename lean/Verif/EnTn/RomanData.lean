import Verif.Wfst.Processor

/-
Data tables of /repo/tn/english/data, written by tools/mkdata.py from the .tsv files.
-/

namespace Verif.EnTn

open Verif.Wfst

/-- `roman/roman_to_spoken.tsv`, part 0. -/
def romanToSpoken0 : List (Str × Str) :=
  [(t!"I", t!"one"), (t!"II", t!"two"), (t!"III", t!"three"), (t!"IV", t!"four"),
   (t!"V", t!"five"), (t!"VI", t!"six"), (t!"VII", t!"seven"), (t!"VIII", t!"eight"),
   (t!"IX", t!"nine"), (t!"X", t!"ten"), (t!"XI", t!"eleven"), (t!"XII", t!"twelve"),
   (t!"XIII", t!"thirteen"), (t!"XIV", t!"fourteen"), (t!"XV", t!"fifteen"),
   (t!"XVI", t!"sixteen"), (t!"XVII", t!"seventeen"), (t!"XVIII", t!"eighteen"),
   (t!"XIX", t!"nineteen"), (t!"XX", t!"twenty"), (t!"XXI", t!"twenty one"),
   (t!"XXII", t!"twenty two"), (t!"XXIII", t!"twenty three"), (t!"XXIV", t!"twenty four"),
   (t!"XXV", t!"twenty five"), (t!"XXVI", t!"twenty six"), (t!"XXVII", t!"twenty seven"),
   (t!"XXVIII", t!"twenty eight"), (t!"XXIX", t!"twenty nine"), (t!"XXX", t!"thirty"),
   (t!"XXXI", t!"thirty one"), (t!"XXXII", t!"thirty two"), (t!"XXXIII", t!"thirty three"),
   (t!"XXXIV", t!"thirty four"), (t!"XXXV", t!"thirty five"), (t!"XXXVI", t!"thirty six"),
   (t!"XXXVII", t!"thirty seven"), (t!"XXXVIII", t!"thirty eight"),
   (t!"XXXIX", t!"thirty nine"), (t!"XL", t!"forty"), (t!"XLI", t!"forty one"),
   (t!"XLII", t!"forty two"), (t!"XLIII", t!"forty three"), (t!"XLIV", t!"forty four"),
   (t!"XLV", t!"forty five"), (t!"XLVI", t!"forty six"), (t!"XLVII", t!"forty seven"),
   (t!"XLVIII", t!"forty eight"), (t!"XLIX", t!"forty nine"), (t!"L", t!"fifty"),
   (t!"LI", t!"fifty one"), (t!"LII", t!"fifty two"), (t!"LIII", t!"fifty three"),
   (t!"LIV", t!"fifty four"), (t!"LV", t!"fifty five"), (t!"LVI", t!"fifty six"),
   (t!"LVII", t!"fifty seven"), (t!"LVIII", t!"fifty eight"), (t!"LIX", t!"fifty nine"),
   (t!"LX", t!"sixty"), (t!"LXI", t!"sixty one"), (t!"LXII", t!"sixty two"),
   (t!"LXIII", t!"sixty three"), (t!"LXIV", t!"sixty four")]

/-- `roman/roman_to_spoken.tsv`, part 1. -/
def romanToSpoken1 : List (Str × Str) :=
  [(t!"LXV", t!"sixty five"), (t!"LXVI", t!"sixty six"), (t!"LXVII", t!"sixty seven"),
   (t!"LXVIII", t!"sixty eight"), (t!"LXIX", t!"sixty nine"), (t!"LXX", t!"seventy"),
   (t!"LXXI", t!"seventy one"), (t!"LXXII", t!"seventy two"), (t!"LXXIII", t!"seventy three"),
   (t!"LXXIV", t!"seventy four"), (t!"LXXV", t!"seventy five"), (t!"LXXVI", t!"seventy six"),
   (t!"LXXVII", t!"seventy seven"), (t!"LXXVIII", t!"seventy eight"),
   (t!"LXXIX", t!"seventy nine"), (t!"LXXX", t!"eighty"), (t!"LXXXI", t!"eighty one"),
   (t!"LXXXII", t!"eighty two"), (t!"LXXXIII", t!"eighty three"),
   (t!"LXXXIV", t!"eighty four"), (t!"LXXXV", t!"eighty five"), (t!"LXXXVI", t!"eighty six"),
   (t!"LXXXVII", t!"eighty seven"), (t!"LXXXVIII", t!"eighty eight"),
   (t!"LXXXIX", t!"eighty nine"), (t!"XC", t!"ninety"), (t!"XCI", t!"ninety one"),
   (t!"XCII", t!"ninety two"), (t!"XCIII", t!"ninety three"), (t!"XCIV", t!"ninety four"),
   (t!"XCV", t!"ninety five"), (t!"XCVI", t!"ninety six"), (t!"XCVII", t!"ninety seven"),
   (t!"XCVIII", t!"ninety eight"), (t!"XCIX", t!"ninety nine"), (t!"C", t!"one hundred"),
   (t!"CI", t!"one hundred one"), (t!"CII", t!"one hundred two"),
   (t!"CIII", t!"one hundred three"), (t!"CIV", t!"one hundred four"),
   (t!"CV", t!"one hundred five"), (t!"CVI", t!"one hundred six"),
   (t!"CVII", t!"one hundred seven"), (t!"CVIII", t!"one hundred eight"),
   (t!"CIX", t!"one hundred nine"), (t!"CX", t!"one hundred ten"),
   (t!"CXI", t!"one hundred eleven"), (t!"CXII", t!"one hundred twelve"),
   (t!"CXIII", t!"one hundred thirteen"), (t!"CXIV", t!"one hundred fourteen"),
   (t!"CXV", t!"one hundred fifteen"), (t!"CXVI", t!"one hundred sixteen"),
   (t!"CXVII", t!"one hundred seventeen"), (t!"CXVIII", t!"one hundred eighteen"),
   (t!"CXIX", t!"one hundred nineteen"), (t!"CXX", t!"one hundred twenty"),
   (t!"CXXI", t!"one hundred twenty one"), (t!"CXXII", t!"one hundred twenty two"),
   (t!"CXXIII", t!"one hundred twenty three"), (t!"CXXIV", t!"one hundred twenty four"),
   (t!"CXXV", t!"one hundred twenty five"), (t!"CXXVI", t!"one hundred twenty six"),
   (t!"CXXVII", t!"one hundred twenty seven"), (t!"CXXVIII", t!"one hundred twenty eight")]

/-- `roman/roman_to_spoken.tsv`, part 2. -/
def romanToSpoken2 : List (Str × Str) :=
  [(t!"CXXIX", t!"one hundred twenty nine"), (t!"CXXX", t!"one hundred thirty"),
   (t!"CXXXI", t!"one hundred thirty one"), (t!"CXXXII", t!"one hundred thirty two"),
   (t!"CXXXIII", t!"one hundred thirty three"), (t!"CXXXIV", t!"one hundred thirty four"),
   (t!"CXXXV", t!"one hundred thirty five"), (t!"CXXXVI", t!"one hundred thirty six"),
   (t!"CXXXVII", t!"one hundred thirty seven"), (t!"CXXXVIII", t!"one hundred thirty eight"),
   (t!"CXXXIX", t!"one hundred thirty nine"), (t!"CXL", t!"one hundred forty"),
   (t!"CXLI", t!"one hundred forty one"), (t!"CXLII", t!"one hundred forty two"),
   (t!"CXLIII", t!"one hundred forty three"), (t!"CXLIV", t!"one hundred forty four"),
   (t!"CXLV", t!"one hundred forty five"), (t!"CXLVI", t!"one hundred forty six"),
   (t!"CXLVII", t!"one hundred forty seven"), (t!"CXLVIII", t!"one hundred forty eight"),
   (t!"CXLIX", t!"one hundred forty nine"), (t!"CL", t!"one hundred fifty"),
   (t!"CLI", t!"one hundred fifty one"), (t!"CLII", t!"one hundred fifty two"),
   (t!"CLIII", t!"one hundred fifty three"), (t!"CLIV", t!"one hundred fifty four"),
   (t!"CLV", t!"one hundred fifty five"), (t!"CLVI", t!"one hundred fifty six"),
   (t!"CLVII", t!"one hundred fifty seven"), (t!"CLVIII", t!"one hundred fifty eight"),
   (t!"CLIX", t!"one hundred fifty nine"), (t!"CLX", t!"one hundred sixty"),
   (t!"CLXI", t!"one hundred sixty one"), (t!"CLXII", t!"one hundred sixty two"),
   (t!"CLXIII", t!"one hundred sixty three"), (t!"CLXIV", t!"one hundred sixty four"),
   (t!"CLXV", t!"one hundred sixty five"), (t!"CLXVI", t!"one hundred sixty six"),
   (t!"CLXVII", t!"one hundred sixty seven"), (t!"CLXVIII", t!"one hundred sixty eight"),
   (t!"CLXIX", t!"one hundred sixty nine"), (t!"CLXX", t!"one hundred seventy"),
   (t!"CLXXI", t!"one hundred seventy one"), (t!"CLXXII", t!"one hundred seventy two"),
   (t!"CLXXIII", t!"one hundred seventy three"), (t!"CLXXIV", t!"one hundred seventy four"),
   (t!"CLXXV", t!"one hundred seventy five"), (t!"CLXXVI", t!"one hundred seventy six"),
   (t!"CLXXVII", t!"one hundred seventy seven"), (t!"CLXXVIII", t!"one hundred seventy eight"),
   (t!"CLXXIX", t!"one hundred seventy nine"), (t!"CLXXX", t!"one hundred eighty"),
   (t!"CLXXXI", t!"one hundred eighty one"), (t!"CLXXXII", t!"one hundred eighty two"),
   (t!"CLXXXIII", t!"one hundred eighty three"), (t!"CLXXXIV", t!"one hundred eighty four"),
   (t!"CLXXXV", t!"one hundred eighty five"), (t!"CLXXXVI", t!"one hundred eighty six"),
   (t!"CLXXXVII", t!"one hundred eighty seven"), (t!"CLXXXVIII", t!"one hundred eighty eight"),
   (t!"CLXXXIX", t!"one hundred eighty nine"), (t!"CXC", t!"one hundred ninety"),
   (t!"CXCI", t!"one hundred ninety one"), (t!"CXCII", t!"one hundred ninety two")]

/-- `roman/roman_to_spoken.tsv`, part 3. -/
def romanToSpoken3 : List (Str × Str) :=
  [(t!"CXCIII", t!"one hundred ninety three"), (t!"CXCIV", t!"one hundred ninety four"),
   (t!"CXCV", t!"one hundred ninety five"), (t!"CXCVI", t!"one hundred ninety six"),
   (t!"CXCVII", t!"one hundred ninety seven"), (t!"CXCVIII", t!"one hundred ninety eight"),
   (t!"CXCIX", t!"one hundred ninety nine"), (t!"CC", t!"two hundred"),
   (t!"CCI", t!"two hundred one"), (t!"CCII", t!"two hundred two"),
   (t!"CCIII", t!"two hundred three"), (t!"CCIV", t!"two hundred four"),
   (t!"CCV", t!"two hundred five"), (t!"CCVI", t!"two hundred six"),
   (t!"CCVII", t!"two hundred seven"), (t!"CCVIII", t!"two hundred eight"),
   (t!"CCIX", t!"two hundred nine"), (t!"CCX", t!"two hundred ten"),
   (t!"CCXI", t!"two hundred eleven"), (t!"CCXII", t!"two hundred twelve"),
   (t!"CCXIII", t!"two hundred thirteen"), (t!"CCXIV", t!"two hundred fourteen"),
   (t!"CCXV", t!"two hundred fifteen"), (t!"CCXVI", t!"two hundred sixteen"),
   (t!"CCXVII", t!"two hundred seventeen"), (t!"CCXVIII", t!"two hundred eighteen"),
   (t!"CCXIX", t!"two hundred nineteen"), (t!"CCXX", t!"two hundred twenty"),
   (t!"CCXXI", t!"two hundred twenty one"), (t!"CCXXII", t!"two hundred twenty two"),
   (t!"CCXXIII", t!"two hundred twenty three"), (t!"CCXXIV", t!"two hundred twenty four"),
   (t!"CCXXV", t!"two hundred twenty five"), (t!"CCXXVI", t!"two hundred twenty six"),
   (t!"CCXXVII", t!"two hundred twenty seven"), (t!"CCXXVIII", t!"two hundred twenty eight"),
   (t!"CCXXIX", t!"two hundred twenty nine"), (t!"CCXXX", t!"two hundred thirty"),
   (t!"CCXXXI", t!"two hundred thirty one"), (t!"CCXXXII", t!"two hundred thirty two"),
   (t!"CCXXXIII", t!"two hundred thirty three"), (t!"CCXXXIV", t!"two hundred thirty four"),
   (t!"CCXXXV", t!"two hundred thirty five"), (t!"CCXXXVI", t!"two hundred thirty six"),
   (t!"CCXXXVII", t!"two hundred thirty seven"), (t!"CCXXXVIII", t!"two hundred thirty eight"),
   (t!"CCXXXIX", t!"two hundred thirty nine"), (t!"CCXL", t!"two hundred forty"),
   (t!"CCXLI", t!"two hundred forty one"), (t!"CCXLII", t!"two hundred forty two"),
   (t!"CCXLIII", t!"two hundred forty three"), (t!"CCXLIV", t!"two hundred forty four"),
   (t!"CCXLV", t!"two hundred forty five"), (t!"CCXLVI", t!"two hundred forty six"),
   (t!"CCXLVII", t!"two hundred forty seven"), (t!"CCXLVIII", t!"two hundred forty eight"),
   (t!"CCXLIX", t!"two hundred forty nine"), (t!"CCL", t!"two hundred fifty"),
   (t!"CCLI", t!"two hundred fifty one"), (t!"CCLII", t!"two hundred fifty two"),
   (t!"CCLIII", t!"two hundred fifty three"), (t!"CCLIV", t!"two hundred fifty four"),
   (t!"CCLV", t!"two hundred fifty five"), (t!"CCLVI", t!"two hundred fifty six")]

/-- `roman/roman_to_spoken.tsv`, part 4. -/
def romanToSpoken4 : List (Str × Str) :=
  [(t!"CCLVII", t!"two hundred fifty seven"), (t!"CCLVIII", t!"two hundred fifty eight"),
   (t!"CCLIX", t!"two hundred fifty nine"), (t!"CCLX", t!"two hundred sixty"),
   (t!"CCLXI", t!"two hundred sixty one"), (t!"CCLXII", t!"two hundred sixty two"),
   (t!"CCLXIII", t!"two hundred sixty three"), (t!"CCLXIV", t!"two hundred sixty four"),
   (t!"CCLXV", t!"two hundred sixty five"), (t!"CCLXVI", t!"two hundred sixty six"),
   (t!"CCLXVII", t!"two hundred sixty seven"), (t!"CCLXVIII", t!"two hundred sixty eight"),
   (t!"CCLXIX", t!"two hundred sixty nine"), (t!"CCLXX", t!"two hundred seventy"),
   (t!"CCLXXI", t!"two hundred seventy one"), (t!"CCLXXII", t!"two hundred seventy two"),
   (t!"CCLXXIII", t!"two hundred seventy three"), (t!"CCLXXIV", t!"two hundred seventy four"),
   (t!"CCLXXV", t!"two hundred seventy five"), (t!"CCLXXVI", t!"two hundred seventy six"),
   (t!"CCLXXVII", t!"two hundred seventy seven"),
   (t!"CCLXXVIII", t!"two hundred seventy eight"), (t!"CCLXXIX", t!"two hundred seventy nine"),
   (t!"CCLXXX", t!"two hundred eighty"), (t!"CCLXXXI", t!"two hundred eighty one"),
   (t!"CCLXXXII", t!"two hundred eighty two"), (t!"CCLXXXIII", t!"two hundred eighty three"),
   (t!"CCLXXXIV", t!"two hundred eighty four"), (t!"CCLXXXV", t!"two hundred eighty five"),
   (t!"CCLXXXVI", t!"two hundred eighty six"), (t!"CCLXXXVII", t!"two hundred eighty seven"),
   (t!"CCLXXXVIII", t!"two hundred eighty eight"), (t!"CCLXXXIX", t!"two hundred eighty nine"),
   (t!"CCXC", t!"two hundred ninety"), (t!"CCXCI", t!"two hundred ninety one"),
   (t!"CCXCII", t!"two hundred ninety two"), (t!"CCXCIII", t!"two hundred ninety three"),
   (t!"CCXCIV", t!"two hundred ninety four"), (t!"CCXCV", t!"two hundred ninety five"),
   (t!"CCXCVI", t!"two hundred ninety six"), (t!"CCXCVII", t!"two hundred ninety seven"),
   (t!"CCXCVIII", t!"two hundred ninety eight"), (t!"CCXCIX", t!"two hundred ninety nine"),
   (t!"CCC", t!"three hundred"), (t!"CCCI", t!"three hundred one"),
   (t!"CCCII", t!"three hundred two"), (t!"CCCIII", t!"three hundred three"),
   (t!"CCCIV", t!"three hundred four"), (t!"CCCV", t!"three hundred five"),
   (t!"CCCVI", t!"three hundred six"), (t!"CCCVII", t!"three hundred seven"),
   (t!"CCCVIII", t!"three hundred eight"), (t!"CCCIX", t!"three hundred nine"),
   (t!"CCCX", t!"three hundred ten"), (t!"CCCXI", t!"three hundred eleven"),
   (t!"CCCXII", t!"three hundred twelve"), (t!"CCCXIII", t!"three hundred thirteen"),
   (t!"CCCXIV", t!"three hundred fourteen"), (t!"CCCXV", t!"three hundred fifteen"),
   (t!"CCCXVI", t!"three hundred sixteen"), (t!"CCCXVII", t!"three hundred seventeen"),
   (t!"CCCXVIII", t!"three hundred eighteen"), (t!"CCCXIX", t!"three hundred nineteen"),
   (t!"CCCXX", t!"three hundred twenty")]

/-- `roman/roman_to_spoken.tsv`, part 5. -/
def romanToSpoken5 : List (Str × Str) :=
  [(t!"CCCXXI", t!"three hundred twenty one"), (t!"CCCXXII", t!"three hundred twenty two"),
   (t!"CCCXXIII", t!"three hundred twenty three"),
   (t!"CCCXXIV", t!"three hundred twenty four"), (t!"CCCXXV", t!"three hundred twenty five"),
   (t!"CCCXXVI", t!"three hundred twenty six"), (t!"CCCXXVII", t!"three hundred twenty seven"),
   (t!"CCCXXVIII", t!"three hundred twenty eight"),
   (t!"CCCXXIX", t!"three hundred twenty nine"), (t!"CCCXXX", t!"three hundred thirty"),
   (t!"CCCXXXI", t!"three hundred thirty one"), (t!"CCCXXXII", t!"three hundred thirty two"),
   (t!"CCCXXXIII", t!"three hundred thirty three"),
   (t!"CCCXXXIV", t!"three hundred thirty four"), (t!"CCCXXXV", t!"three hundred thirty five"),
   (t!"CCCXXXVI", t!"three hundred thirty six"),
   (t!"CCCXXXVII", t!"three hundred thirty seven"),
   (t!"CCCXXXVIII", t!"three hundred thirty eight"),
   (t!"CCCXXXIX", t!"three hundred thirty nine"), (t!"CCCXL", t!"three hundred forty"),
   (t!"CCCXLI", t!"three hundred forty one"), (t!"CCCXLII", t!"three hundred forty two"),
   (t!"CCCXLIII", t!"three hundred forty three"), (t!"CCCXLIV", t!"three hundred forty four"),
   (t!"CCCXLV", t!"three hundred forty five"), (t!"CCCXLVI", t!"three hundred forty six"),
   (t!"CCCXLVII", t!"three hundred forty seven"),
   (t!"CCCXLVIII", t!"three hundred forty eight"), (t!"CCCXLIX", t!"three hundred forty nine"),
   (t!"CCCL", t!"three hundred fifty"), (t!"CCCLI", t!"three hundred fifty one"),
   (t!"CCCLII", t!"three hundred fifty two"), (t!"CCCLIII", t!"three hundred fifty three"),
   (t!"CCCLIV", t!"three hundred fifty four"), (t!"CCCLV", t!"three hundred fifty five"),
   (t!"CCCLVI", t!"three hundred fifty six"), (t!"CCCLVII", t!"three hundred fifty seven"),
   (t!"CCCLVIII", t!"three hundred fifty eight"), (t!"CCCLIX", t!"three hundred fifty nine"),
   (t!"CCCLX", t!"three hundred sixty"), (t!"CCCLXI", t!"three hundred sixty one"),
   (t!"CCCLXII", t!"three hundred sixty two"), (t!"CCCLXIII", t!"three hundred sixty three"),
   (t!"CCCLXIV", t!"three hundred sixty four"), (t!"CCCLXV", t!"three hundred sixty five"),
   (t!"CCCLXVI", t!"three hundred sixty six"), (t!"CCCLXVII", t!"three hundred sixty seven"),
   (t!"CCCLXVIII", t!"three hundred sixty eight"), (t!"CCCLXIX", t!"three hundred sixty nine"),
   (t!"CCCLXX", t!"three hundred seventy"), (t!"CCCLXXI", t!"three hundred seventy one"),
   (t!"CCCLXXII", t!"three hundred seventy two"),
   (t!"CCCLXXIII", t!"three hundred seventy three"),
   (t!"CCCLXXIV", t!"three hundred seventy four"),
   (t!"CCCLXXV", t!"three hundred seventy five"),
   (t!"CCCLXXVI", t!"three hundred seventy six"),
   (t!"CCCLXXVII", t!"three hundred seventy seven"),
   (t!"CCCLXXVIII", t!"three hundred seventy eight"),
   (t!"CCCLXXIX", t!"three hundred seventy nine"), (t!"CCCLXXX", t!"three hundred eighty"),
   (t!"CCCLXXXI", t!"three hundred eighty one"), (t!"CCCLXXXII", t!"three hundred eighty two"),
   (t!"CCCLXXXIII", t!"three hundred eighty three"),
   (t!"CCCLXXXIV", t!"three hundred eighty four")]

/-- `roman/roman_to_spoken.tsv`, part 6. -/
def romanToSpoken6 : List (Str × Str) :=
  [(t!"CCCLXXXV", t!"three hundred eighty five"),
   (t!"CCCLXXXVI", t!"three hundred eighty six"),
   (t!"CCCLXXXVII", t!"three hundred eighty seven"),
   (t!"CCCLXXXVIII", t!"three hundred eighty eight"),
   (t!"CCCLXXXIX", t!"three hundred eighty nine"), (t!"CCCXC", t!"three hundred ninety"),
   (t!"CCCXCI", t!"three hundred ninety one"), (t!"CCCXCII", t!"three hundred ninety two"),
   (t!"CCCXCIII", t!"three hundred ninety three"),
   (t!"CCCXCIV", t!"three hundred ninety four"), (t!"CCCXCV", t!"three hundred ninety five"),
   (t!"CCCXCVI", t!"three hundred ninety six"), (t!"CCCXCVII", t!"three hundred ninety seven"),
   (t!"CCCXCVIII", t!"three hundred ninety eight"),
   (t!"CCCXCIX", t!"three hundred ninety nine"), (t!"CD", t!"four hundred"),
   (t!"CDI", t!"four hundred one"), (t!"CDII", t!"four hundred two"),
   (t!"CDIII", t!"four hundred three"), (t!"CDIV", t!"four hundred four"),
   (t!"CDV", t!"four hundred five"), (t!"CDVI", t!"four hundred six"),
   (t!"CDVII", t!"four hundred seven"), (t!"CDVIII", t!"four hundred eight"),
   (t!"CDIX", t!"four hundred nine"), (t!"CDX", t!"four hundred ten"),
   (t!"CDXI", t!"four hundred eleven"), (t!"CDXII", t!"four hundred twelve"),
   (t!"CDXIII", t!"four hundred thirteen"), (t!"CDXIV", t!"four hundred fourteen"),
   (t!"CDXV", t!"four hundred fifteen"), (t!"CDXVI", t!"four hundred sixteen"),
   (t!"CDXVII", t!"four hundred seventeen"), (t!"CDXVIII", t!"four hundred eighteen"),
   (t!"CDXIX", t!"four hundred nineteen"), (t!"CDXX", t!"four hundred twenty"),
   (t!"CDXXI", t!"four hundred twenty one"), (t!"CDXXII", t!"four hundred twenty two"),
   (t!"CDXXIII", t!"four hundred twenty three"), (t!"CDXXIV", t!"four hundred twenty four"),
   (t!"CDXXV", t!"four hundred twenty five"), (t!"CDXXVI", t!"four hundred twenty six"),
   (t!"CDXXVII", t!"four hundred twenty seven"), (t!"CDXXVIII", t!"four hundred twenty eight"),
   (t!"CDXXIX", t!"four hundred twenty nine"), (t!"CDXXX", t!"four hundred thirty"),
   (t!"CDXXXI", t!"four hundred thirty one"), (t!"CDXXXII", t!"four hundred thirty two"),
   (t!"CDXXXIII", t!"four hundred thirty three"), (t!"CDXXXIV", t!"four hundred thirty four"),
   (t!"CDXXXV", t!"four hundred thirty five"), (t!"CDXXXVI", t!"four hundred thirty six"),
   (t!"CDXXXVII", t!"four hundred thirty seven"),
   (t!"CDXXXVIII", t!"four hundred thirty eight"), (t!"CDXXXIX", t!"four hundred thirty nine"),
   (t!"CDXL", t!"four hundred forty"), (t!"CDXLI", t!"four hundred forty one"),
   (t!"CDXLII", t!"four hundred forty two"), (t!"CDXLIII", t!"four hundred forty three"),
   (t!"CDXLIV", t!"four hundred forty four"), (t!"CDXLV", t!"four hundred forty five"),
   (t!"CDXLVI", t!"four hundred forty six"), (t!"CDXLVII", t!"four hundred forty seven"),
   (t!"CDXLVIII", t!"four hundred forty eight")]

/-- `roman/roman_to_spoken.tsv`, part 7. -/
def romanToSpoken7 : List (Str × Str) :=
  [(t!"CDXLIX", t!"four hundred forty nine"), (t!"CDL", t!"four hundred fifty"),
   (t!"CDLI", t!"four hundred fifty one"), (t!"CDLII", t!"four hundred fifty two"),
   (t!"CDLIII", t!"four hundred fifty three"), (t!"CDLIV", t!"four hundred fifty four"),
   (t!"CDLV", t!"four hundred fifty five"), (t!"CDLVI", t!"four hundred fifty six"),
   (t!"CDLVII", t!"four hundred fifty seven"), (t!"CDLVIII", t!"four hundred fifty eight"),
   (t!"CDLIX", t!"four hundred fifty nine"), (t!"CDLX", t!"four hundred sixty"),
   (t!"CDLXI", t!"four hundred sixty one"), (t!"CDLXII", t!"four hundred sixty two"),
   (t!"CDLXIII", t!"four hundred sixty three"), (t!"CDLXIV", t!"four hundred sixty four"),
   (t!"CDLXV", t!"four hundred sixty five"), (t!"CDLXVI", t!"four hundred sixty six"),
   (t!"CDLXVII", t!"four hundred sixty seven"), (t!"CDLXVIII", t!"four hundred sixty eight"),
   (t!"CDLXIX", t!"four hundred sixty nine"), (t!"CDLXX", t!"four hundred seventy"),
   (t!"CDLXXI", t!"four hundred seventy one"), (t!"CDLXXII", t!"four hundred seventy two"),
   (t!"CDLXXIII", t!"four hundred seventy three"),
   (t!"CDLXXIV", t!"four hundred seventy four"), (t!"CDLXXV", t!"four hundred seventy five"),
   (t!"CDLXXVI", t!"four hundred seventy six"), (t!"CDLXXVII", t!"four hundred seventy seven"),
   (t!"CDLXXVIII", t!"four hundred seventy eight"),
   (t!"CDLXXIX", t!"four hundred seventy nine"), (t!"CDLXXX", t!"four hundred eighty"),
   (t!"CDLXXXI", t!"four hundred eighty one"), (t!"CDLXXXII", t!"four hundred eighty two"),
   (t!"CDLXXXIII", t!"four hundred eighty three"),
   (t!"CDLXXXIV", t!"four hundred eighty four"), (t!"CDLXXXV", t!"four hundred eighty five"),
   (t!"CDLXXXVI", t!"four hundred eighty six"), (t!"CDLXXXVII", t!"four hundred eighty seven"),
   (t!"CDLXXXVIII", t!"four hundred eighty eight"),
   (t!"CDLXXXIX", t!"four hundred eighty nine"), (t!"CDXC", t!"four hundred ninety"),
   (t!"CDXCI", t!"four hundred ninety one"), (t!"CDXCII", t!"four hundred ninety two"),
   (t!"CDXCIII", t!"four hundred ninety three"), (t!"CDXCIV", t!"four hundred ninety four"),
   (t!"CDXCV", t!"four hundred ninety five"), (t!"CDXCVI", t!"four hundred ninety six"),
   (t!"CDXCVII", t!"four hundred ninety seven"), (t!"CDXCVIII", t!"four hundred ninety eight"),
   (t!"CDXCIX", t!"four hundred ninety nine"), (t!"D", t!"five hundred"),
   (t!"DI", t!"five hundred one"), (t!"DII", t!"five hundred two"),
   (t!"DIII", t!"five hundred three"), (t!"DIV", t!"five hundred four"),
   (t!"DV", t!"five hundred five"), (t!"DVI", t!"five hundred six"),
   (t!"DVII", t!"five hundred seven"), (t!"DVIII", t!"five hundred eight"),
   (t!"DIX", t!"five hundred nine"), (t!"DX", t!"five hundred ten"),
   (t!"DXI", t!"five hundred eleven"), (t!"DXII", t!"five hundred twelve")]

/-- `roman/roman_to_spoken.tsv`, part 8. -/
def romanToSpoken8 : List (Str × Str) :=
  [(t!"DXIII", t!"five hundred thirteen"), (t!"DXIV", t!"five hundred fourteen"),
   (t!"DXV", t!"five hundred fifteen"), (t!"DXVI", t!"five hundred sixteen"),
   (t!"DXVII", t!"five hundred seventeen"), (t!"DXVIII", t!"five hundred eighteen"),
   (t!"DXIX", t!"five hundred nineteen"), (t!"DXX", t!"five hundred twenty"),
   (t!"DXXI", t!"five hundred twenty one"), (t!"DXXII", t!"five hundred twenty two"),
   (t!"DXXIII", t!"five hundred twenty three"), (t!"DXXIV", t!"five hundred twenty four"),
   (t!"DXXV", t!"five hundred twenty five"), (t!"DXXVI", t!"five hundred twenty six"),
   (t!"DXXVII", t!"five hundred twenty seven"), (t!"DXXVIII", t!"five hundred twenty eight"),
   (t!"DXXIX", t!"five hundred twenty nine"), (t!"DXXX", t!"five hundred thirty"),
   (t!"DXXXI", t!"five hundred thirty one"), (t!"DXXXII", t!"five hundred thirty two"),
   (t!"DXXXIII", t!"five hundred thirty three"), (t!"DXXXIV", t!"five hundred thirty four"),
   (t!"DXXXV", t!"five hundred thirty five"), (t!"DXXXVI", t!"five hundred thirty six"),
   (t!"DXXXVII", t!"five hundred thirty seven"), (t!"DXXXVIII", t!"five hundred thirty eight"),
   (t!"DXXXIX", t!"five hundred thirty nine"), (t!"DXL", t!"five hundred forty"),
   (t!"DXLI", t!"five hundred forty one"), (t!"DXLII", t!"five hundred forty two"),
   (t!"DXLIII", t!"five hundred forty three"), (t!"DXLIV", t!"five hundred forty four"),
   (t!"DXLV", t!"five hundred forty five"), (t!"DXLVI", t!"five hundred forty six"),
   (t!"DXLVII", t!"five hundred forty seven"), (t!"DXLVIII", t!"five hundred forty eight"),
   (t!"DXLIX", t!"five hundred forty nine"), (t!"DL", t!"five hundred fifty"),
   (t!"DLI", t!"five hundred fifty one"), (t!"DLII", t!"five hundred fifty two"),
   (t!"DLIII", t!"five hundred fifty three"), (t!"DLIV", t!"five hundred fifty four"),
   (t!"DLV", t!"five hundred fifty five"), (t!"DLVI", t!"five hundred fifty six"),
   (t!"DLVII", t!"five hundred fifty seven"), (t!"DLVIII", t!"five hundred fifty eight"),
   (t!"DLIX", t!"five hundred fifty nine"), (t!"DLX", t!"five hundred sixty"),
   (t!"DLXI", t!"five hundred sixty one"), (t!"DLXII", t!"five hundred sixty two"),
   (t!"DLXIII", t!"five hundred sixty three"), (t!"DLXIV", t!"five hundred sixty four"),
   (t!"DLXV", t!"five hundred sixty five"), (t!"DLXVI", t!"five hundred sixty six"),
   (t!"DLXVII", t!"five hundred sixty seven"), (t!"DLXVIII", t!"five hundred sixty eight"),
   (t!"DLXIX", t!"five hundred sixty nine"), (t!"DLXX", t!"five hundred seventy"),
   (t!"DLXXI", t!"five hundred seventy one"), (t!"DLXXII", t!"five hundred seventy two"),
   (t!"DLXXIII", t!"five hundred seventy three"), (t!"DLXXIV", t!"five hundred seventy four"),
   (t!"DLXXV", t!"five hundred seventy five"), (t!"DLXXVI", t!"five hundred seventy six")]

/-- `roman/roman_to_spoken.tsv`, part 9. -/
def romanToSpoken9 : List (Str × Str) :=
  [(t!"DLXXVII", t!"five hundred seventy seven"),
   (t!"DLXXVIII", t!"five hundred seventy eight"), (t!"DLXXIX", t!"five hundred seventy nine"),
   (t!"DLXXX", t!"five hundred eighty"), (t!"DLXXXI", t!"five hundred eighty one"),
   (t!"DLXXXII", t!"five hundred eighty two"), (t!"DLXXXIII", t!"five hundred eighty three"),
   (t!"DLXXXIV", t!"five hundred eighty four"), (t!"DLXXXV", t!"five hundred eighty five"),
   (t!"DLXXXVI", t!"five hundred eighty six"), (t!"DLXXXVII", t!"five hundred eighty seven"),
   (t!"DLXXXVIII", t!"five hundred eighty eight"), (t!"DLXXXIX", t!"five hundred eighty nine"),
   (t!"DXC", t!"five hundred ninety"), (t!"DXCI", t!"five hundred ninety one"),
   (t!"DXCII", t!"five hundred ninety two"), (t!"DXCIII", t!"five hundred ninety three"),
   (t!"DXCIV", t!"five hundred ninety four"), (t!"DXCV", t!"five hundred ninety five"),
   (t!"DXCVI", t!"five hundred ninety six"), (t!"DXCVII", t!"five hundred ninety seven"),
   (t!"DXCVIII", t!"five hundred ninety eight"), (t!"DXCIX", t!"five hundred ninety nine"),
   (t!"DC", t!"six hundred"), (t!"DCI", t!"six hundred one"), (t!"DCII", t!"six hundred two"),
   (t!"DCIII", t!"six hundred three"), (t!"DCIV", t!"six hundred four"),
   (t!"DCV", t!"six hundred five"), (t!"DCVI", t!"six hundred six"),
   (t!"DCVII", t!"six hundred seven"), (t!"DCVIII", t!"six hundred eight"),
   (t!"DCIX", t!"six hundred nine"), (t!"DCX", t!"six hundred ten"),
   (t!"DCXI", t!"six hundred eleven"), (t!"DCXII", t!"six hundred twelve"),
   (t!"DCXIII", t!"six hundred thirteen"), (t!"DCXIV", t!"six hundred fourteen"),
   (t!"DCXV", t!"six hundred fifteen"), (t!"DCXVI", t!"six hundred sixteen"),
   (t!"DCXVII", t!"six hundred seventeen"), (t!"DCXVIII", t!"six hundred eighteen"),
   (t!"DCXIX", t!"six hundred nineteen"), (t!"DCXX", t!"six hundred twenty"),
   (t!"DCXXI", t!"six hundred twenty one"), (t!"DCXXII", t!"six hundred twenty two"),
   (t!"DCXXIII", t!"six hundred twenty three"), (t!"DCXXIV", t!"six hundred twenty four"),
   (t!"DCXXV", t!"six hundred twenty five"), (t!"DCXXVI", t!"six hundred twenty six"),
   (t!"DCXXVII", t!"six hundred twenty seven"), (t!"DCXXVIII", t!"six hundred twenty eight"),
   (t!"DCXXIX", t!"six hundred twenty nine"), (t!"DCXXX", t!"six hundred thirty"),
   (t!"DCXXXI", t!"six hundred thirty one"), (t!"DCXXXII", t!"six hundred thirty two"),
   (t!"DCXXXIII", t!"six hundred thirty three"), (t!"DCXXXIV", t!"six hundred thirty four"),
   (t!"DCXXXV", t!"six hundred thirty five"), (t!"DCXXXVI", t!"six hundred thirty six"),
   (t!"DCXXXVII", t!"six hundred thirty seven"), (t!"DCXXXVIII", t!"six hundred thirty eight"),
   (t!"DCXXXIX", t!"six hundred thirty nine"), (t!"DCXL", t!"six hundred forty")]

/-- `roman/roman_to_spoken.tsv`, part 10. -/
def romanToSpoken10 : List (Str × Str) :=
  [(t!"DCXLI", t!"six hundred forty one"), (t!"DCXLII", t!"six hundred forty two"),
   (t!"DCXLIII", t!"six hundred forty three"), (t!"DCXLIV", t!"six hundred forty four"),
   (t!"DCXLV", t!"six hundred forty five"), (t!"DCXLVI", t!"six hundred forty six"),
   (t!"DCXLVII", t!"six hundred forty seven"), (t!"DCXLVIII", t!"six hundred forty eight"),
   (t!"DCXLIX", t!"six hundred forty nine"), (t!"DCL", t!"six hundred fifty"),
   (t!"DCLI", t!"six hundred fifty one"), (t!"DCLII", t!"six hundred fifty two"),
   (t!"DCLIII", t!"six hundred fifty three"), (t!"DCLIV", t!"six hundred fifty four"),
   (t!"DCLV", t!"six hundred fifty five"), (t!"DCLVI", t!"six hundred fifty six"),
   (t!"DCLVII", t!"six hundred fifty seven"), (t!"DCLVIII", t!"six hundred fifty eight"),
   (t!"DCLIX", t!"six hundred fifty nine"), (t!"DCLX", t!"six hundred sixty"),
   (t!"DCLXI", t!"six hundred sixty one"), (t!"DCLXII", t!"six hundred sixty two"),
   (t!"DCLXIII", t!"six hundred sixty three"), (t!"DCLXIV", t!"six hundred sixty four"),
   (t!"DCLXV", t!"six hundred sixty five"), (t!"DCLXVI", t!"six hundred sixty six"),
   (t!"DCLXVII", t!"six hundred sixty seven"), (t!"DCLXVIII", t!"six hundred sixty eight"),
   (t!"DCLXIX", t!"six hundred sixty nine"), (t!"DCLXX", t!"six hundred seventy"),
   (t!"DCLXXI", t!"six hundred seventy one"), (t!"DCLXXII", t!"six hundred seventy two"),
   (t!"DCLXXIII", t!"six hundred seventy three"), (t!"DCLXXIV", t!"six hundred seventy four"),
   (t!"DCLXXV", t!"six hundred seventy five"), (t!"DCLXXVI", t!"six hundred seventy six"),
   (t!"DCLXXVII", t!"six hundred seventy seven"),
   (t!"DCLXXVIII", t!"six hundred seventy eight"), (t!"DCLXXIX", t!"six hundred seventy nine"),
   (t!"DCLXXX", t!"six hundred eighty"), (t!"DCLXXXI", t!"six hundred eighty one"),
   (t!"DCLXXXII", t!"six hundred eighty two"), (t!"DCLXXXIII", t!"six hundred eighty three"),
   (t!"DCLXXXIV", t!"six hundred eighty four"), (t!"DCLXXXV", t!"six hundred eighty five"),
   (t!"DCLXXXVI", t!"six hundred eighty six"), (t!"DCLXXXVII", t!"six hundred eighty seven"),
   (t!"DCLXXXVIII", t!"six hundred eighty eight"), (t!"DCLXXXIX", t!"six hundred eighty nine"),
   (t!"DCXC", t!"six hundred ninety"), (t!"DCXCI", t!"six hundred ninety one"),
   (t!"DCXCII", t!"six hundred ninety two"), (t!"DCXCIII", t!"six hundred ninety three"),
   (t!"DCXCIV", t!"six hundred ninety four"), (t!"DCXCV", t!"six hundred ninety five"),
   (t!"DCXCVI", t!"six hundred ninety six"), (t!"DCXCVII", t!"six hundred ninety seven"),
   (t!"DCXCVIII", t!"six hundred ninety eight"), (t!"DCXCIX", t!"six hundred ninety nine"),
   (t!"DCC", t!"seven hundred"), (t!"DCCI", t!"seven hundred one"),
   (t!"DCCII", t!"seven hundred two"), (t!"DCCIII", t!"seven hundred three"),
   (t!"DCCIV", t!"seven hundred four")]

/-- `roman/roman_to_spoken.tsv`, part 11. -/
def romanToSpoken11 : List (Str × Str) :=
  [(t!"DCCV", t!"seven hundred five"), (t!"DCCVI", t!"seven hundred six"),
   (t!"DCCVII", t!"seven hundred seven"), (t!"DCCVIII", t!"seven hundred eight"),
   (t!"DCCIX", t!"seven hundred nine"), (t!"DCCX", t!"seven hundred ten"),
   (t!"DCCXI", t!"seven hundred eleven"), (t!"DCCXII", t!"seven hundred twelve"),
   (t!"DCCXIII", t!"seven hundred thirteen"), (t!"DCCXIV", t!"seven hundred fourteen"),
   (t!"DCCXV", t!"seven hundred fifteen"), (t!"DCCXVI", t!"seven hundred sixteen"),
   (t!"DCCXVII", t!"seven hundred seventeen"), (t!"DCCXVIII", t!"seven hundred eighteen"),
   (t!"DCCXIX", t!"seven hundred nineteen"), (t!"DCCXX", t!"seven hundred twenty"),
   (t!"DCCXXI", t!"seven hundred twenty one"), (t!"DCCXXII", t!"seven hundred twenty two"),
   (t!"DCCXXIII", t!"seven hundred twenty three"),
   (t!"DCCXXIV", t!"seven hundred twenty four"), (t!"DCCXXV", t!"seven hundred twenty five"),
   (t!"DCCXXVI", t!"seven hundred twenty six"), (t!"DCCXXVII", t!"seven hundred twenty seven"),
   (t!"DCCXXVIII", t!"seven hundred twenty eight"),
   (t!"DCCXXIX", t!"seven hundred twenty nine"), (t!"DCCXXX", t!"seven hundred thirty"),
   (t!"DCCXXXI", t!"seven hundred thirty one"), (t!"DCCXXXII", t!"seven hundred thirty two"),
   (t!"DCCXXXIII", t!"seven hundred thirty three"),
   (t!"DCCXXXIV", t!"seven hundred thirty four"), (t!"DCCXXXV", t!"seven hundred thirty five"),
   (t!"DCCXXXVI", t!"seven hundred thirty six"),
   (t!"DCCXXXVII", t!"seven hundred thirty seven"),
   (t!"DCCXXXVIII", t!"seven hundred thirty eight"),
   (t!"DCCXXXIX", t!"seven hundred thirty nine"), (t!"DCCXL", t!"seven hundred forty"),
   (t!"DCCXLI", t!"seven hundred forty one"), (t!"DCCXLII", t!"seven hundred forty two"),
   (t!"DCCXLIII", t!"seven hundred forty three"), (t!"DCCXLIV", t!"seven hundred forty four"),
   (t!"DCCXLV", t!"seven hundred forty five"), (t!"DCCXLVI", t!"seven hundred forty six"),
   (t!"DCCXLVII", t!"seven hundred forty seven"),
   (t!"DCCXLVIII", t!"seven hundred forty eight"), (t!"DCCXLIX", t!"seven hundred forty nine"),
   (t!"DCCL", t!"seven hundred fifty"), (t!"DCCLI", t!"seven hundred fifty one"),
   (t!"DCCLII", t!"seven hundred fifty two"), (t!"DCCLIII", t!"seven hundred fifty three"),
   (t!"DCCLIV", t!"seven hundred fifty four"), (t!"DCCLV", t!"seven hundred fifty five"),
   (t!"DCCLVI", t!"seven hundred fifty six"), (t!"DCCLVII", t!"seven hundred fifty seven"),
   (t!"DCCLVIII", t!"seven hundred fifty eight"), (t!"DCCLIX", t!"seven hundred fifty nine"),
   (t!"DCCLX", t!"seven hundred sixty"), (t!"DCCLXI", t!"seven hundred sixty one"),
   (t!"DCCLXII", t!"seven hundred sixty two"), (t!"DCCLXIII", t!"seven hundred sixty three"),
   (t!"DCCLXIV", t!"seven hundred sixty four"), (t!"DCCLXV", t!"seven hundred sixty five"),
   (t!"DCCLXVI", t!"seven hundred sixty six"), (t!"DCCLXVII", t!"seven hundred sixty seven"),
   (t!"DCCLXVIII", t!"seven hundred sixty eight")]

/-- `roman/roman_to_spoken.tsv`, part 12. -/
def romanToSpoken12 : List (Str × Str) :=
  [(t!"DCCLXIX", t!"seven hundred sixty nine"), (t!"DCCLXX", t!"seven hundred seventy"),
   (t!"DCCLXXI", t!"seven hundred seventy one"), (t!"DCCLXXII", t!"seven hundred seventy two"),
   (t!"DCCLXXIII", t!"seven hundred seventy three"),
   (t!"DCCLXXIV", t!"seven hundred seventy four"),
   (t!"DCCLXXV", t!"seven hundred seventy five"),
   (t!"DCCLXXVI", t!"seven hundred seventy six"),
   (t!"DCCLXXVII", t!"seven hundred seventy seven"),
   (t!"DCCLXXVIII", t!"seven hundred seventy eight"),
   (t!"DCCLXXIX", t!"seven hundred seventy nine"), (t!"DCCLXXX", t!"seven hundred eighty"),
   (t!"DCCLXXXI", t!"seven hundred eighty one"), (t!"DCCLXXXII", t!"seven hundred eighty two"),
   (t!"DCCLXXXIII", t!"seven hundred eighty three"),
   (t!"DCCLXXXIV", t!"seven hundred eighty four"),
   (t!"DCCLXXXV", t!"seven hundred eighty five"),
   (t!"DCCLXXXVI", t!"seven hundred eighty six"),
   (t!"DCCLXXXVII", t!"seven hundred eighty seven"),
   (t!"DCCLXXXVIII", t!"seven hundred eighty eight"),
   (t!"DCCLXXXIX", t!"seven hundred eighty nine"), (t!"DCCXC", t!"seven hundred ninety"),
   (t!"DCCXCI", t!"seven hundred ninety one"), (t!"DCCXCII", t!"seven hundred ninety two"),
   (t!"DCCXCIII", t!"seven hundred ninety three"),
   (t!"DCCXCIV", t!"seven hundred ninety four"), (t!"DCCXCV", t!"seven hundred ninety five"),
   (t!"DCCXCVI", t!"seven hundred ninety six"), (t!"DCCXCVII", t!"seven hundred ninety seven"),
   (t!"DCCXCVIII", t!"seven hundred ninety eight"),
   (t!"DCCXCIX", t!"seven hundred ninety nine"), (t!"DCCC", t!"eight hundred"),
   (t!"DCCCI", t!"eight hundred one"), (t!"DCCCII", t!"eight hundred two"),
   (t!"DCCCIII", t!"eight hundred three"), (t!"DCCCIV", t!"eight hundred four"),
   (t!"DCCCV", t!"eight hundred five"), (t!"DCCCVI", t!"eight hundred six"),
   (t!"DCCCVII", t!"eight hundred seven"), (t!"DCCCVIII", t!"eight hundred eight"),
   (t!"DCCCIX", t!"eight hundred nine"), (t!"DCCCX", t!"eight hundred ten"),
   (t!"DCCCXI", t!"eight hundred eleven"), (t!"DCCCXII", t!"eight hundred twelve"),
   (t!"DCCCXIII", t!"eight hundred thirteen"), (t!"DCCCXIV", t!"eight hundred fourteen"),
   (t!"DCCCXV", t!"eight hundred fifteen"), (t!"DCCCXVI", t!"eight hundred sixteen"),
   (t!"DCCCXVII", t!"eight hundred seventeen"), (t!"DCCCXVIII", t!"eight hundred eighteen"),
   (t!"DCCCXIX", t!"eight hundred nineteen"), (t!"DCCCXX", t!"eight hundred twenty"),
   (t!"DCCCXXI", t!"eight hundred twenty one"), (t!"DCCCXXII", t!"eight hundred twenty two"),
   (t!"DCCCXXIII", t!"eight hundred twenty three"),
   (t!"DCCCXXIV", t!"eight hundred twenty four"), (t!"DCCCXXV", t!"eight hundred twenty five"),
   (t!"DCCCXXVI", t!"eight hundred twenty six"),
   (t!"DCCCXXVII", t!"eight hundred twenty seven"),
   (t!"DCCCXXVIII", t!"eight hundred twenty eight"),
   (t!"DCCCXXIX", t!"eight hundred twenty nine"), (t!"DCCCXXX", t!"eight hundred thirty"),
   (t!"DCCCXXXI", t!"eight hundred thirty one"), (t!"DCCCXXXII", t!"eight hundred thirty two")]

/-- `roman/roman_to_spoken.tsv`, part 13. -/
def romanToSpoken13 : List (Str × Str) :=
  [(t!"DCCCXXXIII", t!"eight hundred thirty three"),
   (t!"DCCCXXXIV", t!"eight hundred thirty four"),
   (t!"DCCCXXXV", t!"eight hundred thirty five"),
   (t!"DCCCXXXVI", t!"eight hundred thirty six"),
   (t!"DCCCXXXVII", t!"eight hundred thirty seven"),
   (t!"DCCCXXXVIII", t!"eight hundred thirty eight"),
   (t!"DCCCXXXIX", t!"eight hundred thirty nine"), (t!"DCCCXL", t!"eight hundred forty"),
   (t!"DCCCXLI", t!"eight hundred forty one"), (t!"DCCCXLII", t!"eight hundred forty two"),
   (t!"DCCCXLIII", t!"eight hundred forty three"),
   (t!"DCCCXLIV", t!"eight hundred forty four"), (t!"DCCCXLV", t!"eight hundred forty five"),
   (t!"DCCCXLVI", t!"eight hundred forty six"), (t!"DCCCXLVII", t!"eight hundred forty seven"),
   (t!"DCCCXLVIII", t!"eight hundred forty eight"),
   (t!"DCCCXLIX", t!"eight hundred forty nine"), (t!"DCCCL", t!"eight hundred fifty"),
   (t!"DCCCLI", t!"eight hundred fifty one"), (t!"DCCCLII", t!"eight hundred fifty two"),
   (t!"DCCCLIII", t!"eight hundred fifty three"), (t!"DCCCLIV", t!"eight hundred fifty four"),
   (t!"DCCCLV", t!"eight hundred fifty five"), (t!"DCCCLVI", t!"eight hundred fifty six"),
   (t!"DCCCLVII", t!"eight hundred fifty seven"),
   (t!"DCCCLVIII", t!"eight hundred fifty eight"), (t!"DCCCLIX", t!"eight hundred fifty nine"),
   (t!"DCCCLX", t!"eight hundred sixty"), (t!"DCCCLXI", t!"eight hundred sixty one"),
   (t!"DCCCLXII", t!"eight hundred sixty two"), (t!"DCCCLXIII", t!"eight hundred sixty three"),
   (t!"DCCCLXIV", t!"eight hundred sixty four"), (t!"DCCCLXV", t!"eight hundred sixty five"),
   (t!"DCCCLXVI", t!"eight hundred sixty six"), (t!"DCCCLXVII", t!"eight hundred sixty seven"),
   (t!"DCCCLXVIII", t!"eight hundred sixty eight"),
   (t!"DCCCLXIX", t!"eight hundred sixty nine"), (t!"DCCCLXX", t!"eight hundred seventy"),
   (t!"DCCCLXXI", t!"eight hundred seventy one"),
   (t!"DCCCLXXII", t!"eight hundred seventy two"),
   (t!"DCCCLXXIII", t!"eight hundred seventy three"),
   (t!"DCCCLXXIV", t!"eight hundred seventy four"),
   (t!"DCCCLXXV", t!"eight hundred seventy five"),
   (t!"DCCCLXXVI", t!"eight hundred seventy six"),
   (t!"DCCCLXXVII", t!"eight hundred seventy seven"),
   (t!"DCCCLXXVIII", t!"eight hundred seventy eight"),
   (t!"DCCCLXXIX", t!"eight hundred seventy nine"), (t!"DCCCLXXX", t!"eight hundred eighty"),
   (t!"DCCCLXXXI", t!"eight hundred eighty one"),
   (t!"DCCCLXXXII", t!"eight hundred eighty two"),
   (t!"DCCCLXXXIII", t!"eight hundred eighty three"),
   (t!"DCCCLXXXIV", t!"eight hundred eighty four"),
   (t!"DCCCLXXXV", t!"eight hundred eighty five"),
   (t!"DCCCLXXXVI", t!"eight hundred eighty six"),
   (t!"DCCCLXXXVII", t!"eight hundred eighty seven"),
   (t!"DCCCLXXXVIII", t!"eight hundred eighty eight"),
   (t!"DCCCLXXXIX", t!"eight hundred eighty nine"), (t!"DCCCXC", t!"eight hundred ninety"),
   (t!"DCCCXCI", t!"eight hundred ninety one"), (t!"DCCCXCII", t!"eight hundred ninety two"),
   (t!"DCCCXCIII", t!"eight hundred ninety three"),
   (t!"DCCCXCIV", t!"eight hundred ninety four"), (t!"DCCCXCV", t!"eight hundred ninety five"),
   (t!"DCCCXCVI", t!"eight hundred ninety six")]

/-- `roman/roman_to_spoken.tsv`, part 14. -/
def romanToSpoken14 : List (Str × Str) :=
  [(t!"DCCCXCVII", t!"eight hundred ninety seven"),
   (t!"DCCCXCVIII", t!"eight hundred ninety eight"),
   (t!"DCCCXCIX", t!"eight hundred ninety nine"), (t!"CM", t!"nine hundred"),
   (t!"CMI", t!"nine hundred one"), (t!"CMII", t!"nine hundred two"),
   (t!"CMIII", t!"nine hundred three"), (t!"CMIV", t!"nine hundred four"),
   (t!"CMV", t!"nine hundred five"), (t!"CMVI", t!"nine hundred six"),
   (t!"CMVII", t!"nine hundred seven"), (t!"CMVIII", t!"nine hundred eight"),
   (t!"CMIX", t!"nine hundred nine"), (t!"CMX", t!"nine hundred ten"),
   (t!"CMXI", t!"nine hundred eleven"), (t!"CMXII", t!"nine hundred twelve"),
   (t!"CMXIII", t!"nine hundred thirteen"), (t!"CMXIV", t!"nine hundred fourteen"),
   (t!"CMXV", t!"nine hundred fifteen"), (t!"CMXVI", t!"nine hundred sixteen"),
   (t!"CMXVII", t!"nine hundred seventeen"), (t!"CMXVIII", t!"nine hundred eighteen"),
   (t!"CMXIX", t!"nine hundred nineteen"), (t!"CMXX", t!"nine hundred twenty"),
   (t!"CMXXI", t!"nine hundred twenty one"), (t!"CMXXII", t!"nine hundred twenty two"),
   (t!"CMXXIII", t!"nine hundred twenty three"), (t!"CMXXIV", t!"nine hundred twenty four"),
   (t!"CMXXV", t!"nine hundred twenty five"), (t!"CMXXVI", t!"nine hundred twenty six"),
   (t!"CMXXVII", t!"nine hundred twenty seven"), (t!"CMXXVIII", t!"nine hundred twenty eight"),
   (t!"CMXXIX", t!"nine hundred twenty nine"), (t!"CMXXX", t!"nine hundred thirty"),
   (t!"CMXXXI", t!"nine hundred thirty one"), (t!"CMXXXII", t!"nine hundred thirty two"),
   (t!"CMXXXIII", t!"nine hundred thirty three"), (t!"CMXXXIV", t!"nine hundred thirty four"),
   (t!"CMXXXV", t!"nine hundred thirty five"), (t!"CMXXXVI", t!"nine hundred thirty six"),
   (t!"CMXXXVII", t!"nine hundred thirty seven"),
   (t!"CMXXXVIII", t!"nine hundred thirty eight"), (t!"CMXXXIX", t!"nine hundred thirty nine"),
   (t!"CMXL", t!"nine hundred forty"), (t!"CMXLI", t!"nine hundred forty one"),
   (t!"CMXLII", t!"nine hundred forty two"), (t!"CMXLIII", t!"nine hundred forty three"),
   (t!"CMXLIV", t!"nine hundred forty four"), (t!"CMXLV", t!"nine hundred forty five"),
   (t!"CMXLVI", t!"nine hundred forty six"), (t!"CMXLVII", t!"nine hundred forty seven"),
   (t!"CMXLVIII", t!"nine hundred forty eight"), (t!"CMXLIX", t!"nine hundred forty nine"),
   (t!"CML", t!"nine hundred fifty"), (t!"CMLI", t!"nine hundred fifty one"),
   (t!"CMLII", t!"nine hundred fifty two"), (t!"CMLIII", t!"nine hundred fifty three"),
   (t!"CMLIV", t!"nine hundred fifty four"), (t!"CMLV", t!"nine hundred fifty five"),
   (t!"CMLVI", t!"nine hundred fifty six"), (t!"CMLVII", t!"nine hundred fifty seven"),
   (t!"CMLVIII", t!"nine hundred fifty eight"), (t!"CMLIX", t!"nine hundred fifty nine"),
   (t!"CMLX", t!"nine hundred sixty")]

/-- `roman/roman_to_spoken.tsv`, part 15. -/
def romanToSpoken15 : List (Str × Str) :=
  [(t!"CMLXI", t!"nine hundred sixty one"), (t!"CMLXII", t!"nine hundred sixty two"),
   (t!"CMLXIII", t!"nine hundred sixty three"), (t!"CMLXIV", t!"nine hundred sixty four"),
   (t!"CMLXV", t!"nine hundred sixty five"), (t!"CMLXVI", t!"nine hundred sixty six"),
   (t!"CMLXVII", t!"nine hundred sixty seven"), (t!"CMLXVIII", t!"nine hundred sixty eight"),
   (t!"CMLXIX", t!"nine hundred sixty nine"), (t!"CMLXX", t!"nine hundred seventy"),
   (t!"CMLXXI", t!"nine hundred seventy one"), (t!"CMLXXII", t!"nine hundred seventy two"),
   (t!"CMLXXIII", t!"nine hundred seventy three"),
   (t!"CMLXXIV", t!"nine hundred seventy four"), (t!"CMLXXV", t!"nine hundred seventy five"),
   (t!"CMLXXVI", t!"nine hundred seventy six"), (t!"CMLXXVII", t!"nine hundred seventy seven"),
   (t!"CMLXXVIII", t!"nine hundred seventy eight"),
   (t!"CMLXXIX", t!"nine hundred seventy nine"), (t!"CMLXXX", t!"nine hundred eighty"),
   (t!"CMLXXXI", t!"nine hundred eighty one"), (t!"CMLXXXII", t!"nine hundred eighty two"),
   (t!"CMLXXXIII", t!"nine hundred eighty three"),
   (t!"CMLXXXIV", t!"nine hundred eighty four"), (t!"CMLXXXV", t!"nine hundred eighty five"),
   (t!"CMLXXXVI", t!"nine hundred eighty six"), (t!"CMLXXXVII", t!"nine hundred eighty seven"),
   (t!"CMLXXXVIII", t!"nine hundred eighty eight"),
   (t!"CMLXXXIX", t!"nine hundred eighty nine"), (t!"CMXC", t!"nine hundred ninety"),
   (t!"CMXCI", t!"nine hundred ninety one"), (t!"CMXCII", t!"nine hundred ninety two"),
   (t!"CMXCIII", t!"nine hundred ninety three"), (t!"CMXCIV", t!"nine hundred ninety four"),
   (t!"CMXCV", t!"nine hundred ninety five"), (t!"CMXCVI", t!"nine hundred ninety six"),
   (t!"CMXCVII", t!"nine hundred ninety seven"), (t!"CMXCVIII", t!"nine hundred ninety eight"),
   (t!"CMXCIX", t!"nine hundred ninety nine"), (t!"M", t!"one thousand"),
   (t!"MI", t!"one thousand one"), (t!"MII", t!"one thousand two"),
   (t!"MIII", t!"one thousand three"), (t!"MIV", t!"one thousand four"),
   (t!"MV", t!"one thousand five"), (t!"MVI", t!"one thousand six"),
   (t!"MVII", t!"one thousand seven"), (t!"MVIII", t!"one thousand eight"),
   (t!"MIX", t!"one thousand nine"), (t!"MX", t!"one thousand ten"),
   (t!"MXI", t!"one thousand eleven"), (t!"MXII", t!"one thousand twelve"),
   (t!"MXIII", t!"one thousand thirteen"), (t!"MXIV", t!"one thousand fourteen"),
   (t!"MXV", t!"one thousand fifteen"), (t!"MXVI", t!"one thousand sixteen"),
   (t!"MXVII", t!"one thousand seventeen"), (t!"MXVIII", t!"one thousand eighteen"),
   (t!"MXIX", t!"one thousand nineteen"), (t!"MXX", t!"one thousand twenty"),
   (t!"MXXI", t!"one thousand twenty one"), (t!"MXXII", t!"one thousand twenty two"),
   (t!"MXXIII", t!"one thousand twenty three"), (t!"MXXIV", t!"one thousand twenty four")]

/-- `roman/roman_to_spoken.tsv`, part 16. -/
def romanToSpoken16 : List (Str × Str) :=
  [(t!"MXXV", t!"one thousand twenty five"), (t!"MXXVI", t!"one thousand twenty six"),
   (t!"MXXVII", t!"one thousand twenty seven"), (t!"MXXVIII", t!"one thousand twenty eight"),
   (t!"MXXIX", t!"one thousand twenty nine"), (t!"MXXX", t!"one thousand thirty"),
   (t!"MXXXI", t!"one thousand thirty one"), (t!"MXXXII", t!"one thousand thirty two"),
   (t!"MXXXIII", t!"one thousand thirty three"), (t!"MXXXIV", t!"one thousand thirty four"),
   (t!"MXXXV", t!"one thousand thirty five"), (t!"MXXXVI", t!"one thousand thirty six"),
   (t!"MXXXVII", t!"one thousand thirty seven"), (t!"MXXXVIII", t!"one thousand thirty eight"),
   (t!"MXXXIX", t!"one thousand thirty nine"), (t!"MXL", t!"one thousand forty"),
   (t!"MXLI", t!"one thousand forty one"), (t!"MXLII", t!"one thousand forty two"),
   (t!"MXLIII", t!"one thousand forty three"), (t!"MXLIV", t!"one thousand forty four"),
   (t!"MXLV", t!"one thousand forty five"), (t!"MXLVI", t!"one thousand forty six"),
   (t!"MXLVII", t!"one thousand forty seven"), (t!"MXLVIII", t!"one thousand forty eight"),
   (t!"MXLIX", t!"one thousand forty nine"), (t!"ML", t!"one thousand fifty"),
   (t!"MLI", t!"one thousand fifty one"), (t!"MLII", t!"one thousand fifty two"),
   (t!"MLIII", t!"one thousand fifty three"), (t!"MLIV", t!"one thousand fifty four"),
   (t!"MLV", t!"one thousand fifty five"), (t!"MLVI", t!"one thousand fifty six"),
   (t!"MLVII", t!"one thousand fifty seven"), (t!"MLVIII", t!"one thousand fifty eight"),
   (t!"MLIX", t!"one thousand fifty nine"), (t!"MLX", t!"one thousand sixty"),
   (t!"MLXI", t!"one thousand sixty one"), (t!"MLXII", t!"one thousand sixty two"),
   (t!"MLXIII", t!"one thousand sixty three"), (t!"MLXIV", t!"one thousand sixty four"),
   (t!"MLXV", t!"one thousand sixty five"), (t!"MLXVI", t!"one thousand sixty six"),
   (t!"MLXVII", t!"one thousand sixty seven"), (t!"MLXVIII", t!"one thousand sixty eight"),
   (t!"MLXIX", t!"one thousand sixty nine"), (t!"MLXX", t!"one thousand seventy"),
   (t!"MLXXI", t!"one thousand seventy one"), (t!"MLXXII", t!"one thousand seventy two"),
   (t!"MLXXIII", t!"one thousand seventy three"), (t!"MLXXIV", t!"one thousand seventy four"),
   (t!"MLXXV", t!"one thousand seventy five"), (t!"MLXXVI", t!"one thousand seventy six"),
   (t!"MLXXVII", t!"one thousand seventy seven"),
   (t!"MLXXVIII", t!"one thousand seventy eight"), (t!"MLXXIX", t!"one thousand seventy nine"),
   (t!"MLXXX", t!"one thousand eighty"), (t!"MLXXXI", t!"one thousand eighty one"),
   (t!"MLXXXII", t!"one thousand eighty two"), (t!"MLXXXIII", t!"one thousand eighty three"),
   (t!"MLXXXIV", t!"one thousand eighty four"), (t!"MLXXXV", t!"one thousand eighty five"),
   (t!"MLXXXVI", t!"one thousand eighty six"), (t!"MLXXXVII", t!"one thousand eighty seven"),
   (t!"MLXXXVIII", t!"one thousand eighty eight")]

/-- `roman/roman_to_spoken.tsv`, part 17. -/
def romanToSpoken17 : List (Str × Str) :=
  [(t!"MLXXXIX", t!"one thousand eighty nine"), (t!"MXC", t!"one thousand ninety"),
   (t!"MXCI", t!"one thousand ninety one"), (t!"MXCII", t!"one thousand ninety two"),
   (t!"MXCIII", t!"one thousand ninety three"), (t!"MXCIV", t!"one thousand ninety four"),
   (t!"MXCV", t!"one thousand ninety five"), (t!"MXCVI", t!"one thousand ninety six"),
   (t!"MXCVII", t!"one thousand ninety seven"), (t!"MXCVIII", t!"one thousand ninety eight"),
   (t!"MXCIX", t!"one thousand ninety nine"), (t!"MC", t!"one thousand, one hundred"),
   (t!"MCI", t!"one thousand, one hundred one"), (t!"MCII", t!"one thousand, one hundred two"),
   (t!"MCIII", t!"one thousand, one hundred three"),
   (t!"MCIV", t!"one thousand, one hundred four"),
   (t!"MCV", t!"one thousand, one hundred five"),
   (t!"MCVI", t!"one thousand, one hundred six"),
   (t!"MCVII", t!"one thousand, one hundred seven"),
   (t!"MCVIII", t!"one thousand, one hundred eight"),
   (t!"MCIX", t!"one thousand, one hundred nine"),
   (t!"MCX", t!"one thousand, one hundred ten"),
   (t!"MCXI", t!"one thousand, one hundred eleven"),
   (t!"MCXII", t!"one thousand, one hundred twelve"),
   (t!"MCXIII", t!"one thousand, one hundred thirteen"),
   (t!"MCXIV", t!"one thousand, one hundred fourteen"),
   (t!"MCXV", t!"one thousand, one hundred fifteen"),
   (t!"MCXVI", t!"one thousand, one hundred sixteen"),
   (t!"MCXVII", t!"one thousand, one hundred seventeen"),
   (t!"MCXVIII", t!"one thousand, one hundred eighteen"),
   (t!"MCXIX", t!"one thousand, one hundred nineteen"),
   (t!"MCXX", t!"one thousand, one hundred twenty"),
   (t!"MCXXI", t!"one thousand, one hundred twenty one"),
   (t!"MCXXII", t!"one thousand, one hundred twenty two"),
   (t!"MCXXIII", t!"one thousand, one hundred twenty three"),
   (t!"MCXXIV", t!"one thousand, one hundred twenty four"),
   (t!"MCXXV", t!"one thousand, one hundred twenty five"),
   (t!"MCXXVI", t!"one thousand, one hundred twenty six"),
   (t!"MCXXVII", t!"one thousand, one hundred twenty seven"),
   (t!"MCXXVIII", t!"one thousand, one hundred twenty eight"),
   (t!"MCXXIX", t!"one thousand, one hundred twenty nine"),
   (t!"MCXXX", t!"one thousand, one hundred thirty"),
   (t!"MCXXXI", t!"one thousand, one hundred thirty one"),
   (t!"MCXXXII", t!"one thousand, one hundred thirty two"),
   (t!"MCXXXIII", t!"one thousand, one hundred thirty three"),
   (t!"MCXXXIV", t!"one thousand, one hundred thirty four"),
   (t!"MCXXXV", t!"one thousand, one hundred thirty five"),
   (t!"MCXXXVI", t!"one thousand, one hundred thirty six"),
   (t!"MCXXXVII", t!"one thousand, one hundred thirty seven"),
   (t!"MCXXXVIII", t!"one thousand, one hundred thirty eight"),
   (t!"MCXXXIX", t!"one thousand, one hundred thirty nine"),
   (t!"MCXL", t!"one thousand, one hundred forty"),
   (t!"MCXLI", t!"one thousand, one hundred forty one"),
   (t!"MCXLII", t!"one thousand, one hundred forty two"),
   (t!"MCXLIII", t!"one thousand, one hundred forty three"),
   (t!"MCXLIV", t!"one thousand, one hundred forty four"),
   (t!"MCXLV", t!"one thousand, one hundred forty five"),
   (t!"MCXLVI", t!"one thousand, one hundred forty six"),
   (t!"MCXLVII", t!"one thousand, one hundred forty seven"),
   (t!"MCXLVIII", t!"one thousand, one hundred forty eight"),
   (t!"MCXLIX", t!"one thousand, one hundred forty nine"),
   (t!"MCL", t!"one thousand, one hundred fifty"),
   (t!"MCLI", t!"one thousand, one hundred fifty one"),
   (t!"MCLII", t!"one thousand, one hundred fifty two")]

/-- `roman/roman_to_spoken.tsv`, part 18. -/
def romanToSpoken18 : List (Str × Str) :=
  [(t!"MCLIII", t!"one thousand, one hundred fifty three"),
   (t!"MCLIV", t!"one thousand, one hundred fifty four"),
   (t!"MCLV", t!"one thousand, one hundred fifty five"),
   (t!"MCLVI", t!"one thousand, one hundred fifty six"),
   (t!"MCLVII", t!"one thousand, one hundred fifty seven"),
   (t!"MCLVIII", t!"one thousand, one hundred fifty eight"),
   (t!"MCLIX", t!"one thousand, one hundred fifty nine"),
   (t!"MCLX", t!"one thousand, one hundred sixty"),
   (t!"MCLXI", t!"one thousand, one hundred sixty one"),
   (t!"MCLXII", t!"one thousand, one hundred sixty two"),
   (t!"MCLXIII", t!"one thousand, one hundred sixty three"),
   (t!"MCLXIV", t!"one thousand, one hundred sixty four"),
   (t!"MCLXV", t!"one thousand, one hundred sixty five"),
   (t!"MCLXVI", t!"one thousand, one hundred sixty six"),
   (t!"MCLXVII", t!"one thousand, one hundred sixty seven"),
   (t!"MCLXVIII", t!"one thousand, one hundred sixty eight"),
   (t!"MCLXIX", t!"one thousand, one hundred sixty nine"),
   (t!"MCLXX", t!"one thousand, one hundred seventy"),
   (t!"MCLXXI", t!"one thousand, one hundred seventy one"),
   (t!"MCLXXII", t!"one thousand, one hundred seventy two"),
   (t!"MCLXXIII", t!"one thousand, one hundred seventy three"),
   (t!"MCLXXIV", t!"one thousand, one hundred seventy four"),
   (t!"MCLXXV", t!"one thousand, one hundred seventy five"),
   (t!"MCLXXVI", t!"one thousand, one hundred seventy six"),
   (t!"MCLXXVII", t!"one thousand, one hundred seventy seven"),
   (t!"MCLXXVIII", t!"one thousand, one hundred seventy eight"),
   (t!"MCLXXIX", t!"one thousand, one hundred seventy nine"),
   (t!"MCLXXX", t!"one thousand, one hundred eighty"),
   (t!"MCLXXXI", t!"one thousand, one hundred eighty one"),
   (t!"MCLXXXII", t!"one thousand, one hundred eighty two"),
   (t!"MCLXXXIII", t!"one thousand, one hundred eighty three"),
   (t!"MCLXXXIV", t!"one thousand, one hundred eighty four"),
   (t!"MCLXXXV", t!"one thousand, one hundred eighty five"),
   (t!"MCLXXXVI", t!"one thousand, one hundred eighty six"),
   (t!"MCLXXXVII", t!"one thousand, one hundred eighty seven"),
   (t!"MCLXXXVIII", t!"one thousand, one hundred eighty eight"),
   (t!"MCLXXXIX", t!"one thousand, one hundred eighty nine"),
   (t!"MCXC", t!"one thousand, one hundred ninety"),
   (t!"MCXCI", t!"one thousand, one hundred ninety one"),
   (t!"MCXCII", t!"one thousand, one hundred ninety two"),
   (t!"MCXCIII", t!"one thousand, one hundred ninety three"),
   (t!"MCXCIV", t!"one thousand, one hundred ninety four"),
   (t!"MCXCV", t!"one thousand, one hundred ninety five"),
   (t!"MCXCVI", t!"one thousand, one hundred ninety six"),
   (t!"MCXCVII", t!"one thousand, one hundred ninety seven"),
   (t!"MCXCVIII", t!"one thousand, one hundred ninety eight"),
   (t!"MCXCIX", t!"one thousand, one hundred ninety nine"),
   (t!"MCC", t!"one thousand, two hundred"), (t!"MCCI", t!"one thousand, two hundred one"),
   (t!"MCCII", t!"one thousand, two hundred two"),
   (t!"MCCIII", t!"one thousand, two hundred three"),
   (t!"MCCIV", t!"one thousand, two hundred four"),
   (t!"MCCV", t!"one thousand, two hundred five"),
   (t!"MCCVI", t!"one thousand, two hundred six"),
   (t!"MCCVII", t!"one thousand, two hundred seven"),
   (t!"MCCVIII", t!"one thousand, two hundred eight"),
   (t!"MCCIX", t!"one thousand, two hundred nine"),
   (t!"MCCX", t!"one thousand, two hundred ten"),
   (t!"MCCXI", t!"one thousand, two hundred eleven"),
   (t!"MCCXII", t!"one thousand, two hundred twelve"),
   (t!"MCCXIII", t!"one thousand, two hundred thirteen"),
   (t!"MCCXIV", t!"one thousand, two hundred fourteen"),
   (t!"MCCXV", t!"one thousand, two hundred fifteen"),
   (t!"MCCXVI", t!"one thousand, two hundred sixteen")]

/-- `roman/roman_to_spoken.tsv`, part 19. -/
def romanToSpoken19 : List (Str × Str) :=
  [(t!"MCCXVII", t!"one thousand, two hundred seventeen"),
   (t!"MCCXVIII", t!"one thousand, two hundred eighteen"),
   (t!"MCCXIX", t!"one thousand, two hundred nineteen"),
   (t!"MCCXX", t!"one thousand, two hundred twenty"),
   (t!"MCCXXI", t!"one thousand, two hundred twenty one"),
   (t!"MCCXXII", t!"one thousand, two hundred twenty two"),
   (t!"MCCXXIII", t!"one thousand, two hundred twenty three"),
   (t!"MCCXXIV", t!"one thousand, two hundred twenty four"),
   (t!"MCCXXV", t!"one thousand, two hundred twenty five"),
   (t!"MCCXXVI", t!"one thousand, two hundred twenty six"),
   (t!"MCCXXVII", t!"one thousand, two hundred twenty seven"),
   (t!"MCCXXVIII", t!"one thousand, two hundred twenty eight"),
   (t!"MCCXXIX", t!"one thousand, two hundred twenty nine"),
   (t!"MCCXXX", t!"one thousand, two hundred thirty"),
   (t!"MCCXXXI", t!"one thousand, two hundred thirty one"),
   (t!"MCCXXXII", t!"one thousand, two hundred thirty two"),
   (t!"MCCXXXIII", t!"one thousand, two hundred thirty three"),
   (t!"MCCXXXIV", t!"one thousand, two hundred thirty four"),
   (t!"MCCXXXV", t!"one thousand, two hundred thirty five"),
   (t!"MCCXXXVI", t!"one thousand, two hundred thirty six"),
   (t!"MCCXXXVII", t!"one thousand, two hundred thirty seven"),
   (t!"MCCXXXVIII", t!"one thousand, two hundred thirty eight"),
   (t!"MCCXXXIX", t!"one thousand, two hundred thirty nine"),
   (t!"MCCXL", t!"one thousand, two hundred forty"),
   (t!"MCCXLI", t!"one thousand, two hundred forty one"),
   (t!"MCCXLII", t!"one thousand, two hundred forty two"),
   (t!"MCCXLIII", t!"one thousand, two hundred forty three"),
   (t!"MCCXLIV", t!"one thousand, two hundred forty four"),
   (t!"MCCXLV", t!"one thousand, two hundred forty five"),
   (t!"MCCXLVI", t!"one thousand, two hundred forty six"),
   (t!"MCCXLVII", t!"one thousand, two hundred forty seven"),
   (t!"MCCXLVIII", t!"one thousand, two hundred forty eight"),
   (t!"MCCXLIX", t!"one thousand, two hundred forty nine"),
   (t!"MCCL", t!"one thousand, two hundred fifty"),
   (t!"MCCLI", t!"one thousand, two hundred fifty one"),
   (t!"MCCLII", t!"one thousand, two hundred fifty two"),
   (t!"MCCLIII", t!"one thousand, two hundred fifty three"),
   (t!"MCCLIV", t!"one thousand, two hundred fifty four"),
   (t!"MCCLV", t!"one thousand, two hundred fifty five"),
   (t!"MCCLVI", t!"one thousand, two hundred fifty six"),
   (t!"MCCLVII", t!"one thousand, two hundred fifty seven"),
   (t!"MCCLVIII", t!"one thousand, two hundred fifty eight"),
   (t!"MCCLIX", t!"one thousand, two hundred fifty nine"),
   (t!"MCCLX", t!"one thousand, two hundred sixty"),
   (t!"MCCLXI", t!"one thousand, two hundred sixty one"),
   (t!"MCCLXII", t!"one thousand, two hundred sixty two"),
   (t!"MCCLXIII", t!"one thousand, two hundred sixty three"),
   (t!"MCCLXIV", t!"one thousand, two hundred sixty four"),
   (t!"MCCLXV", t!"one thousand, two hundred sixty five"),
   (t!"MCCLXVI", t!"one thousand, two hundred sixty six"),
   (t!"MCCLXVII", t!"one thousand, two hundred sixty seven"),
   (t!"MCCLXVIII", t!"one thousand, two hundred sixty eight"),
   (t!"MCCLXIX", t!"one thousand, two hundred sixty nine"),
   (t!"MCCLXX", t!"one thousand, two hundred seventy"),
   (t!"MCCLXXI", t!"one thousand, two hundred seventy one"),
   (t!"MCCLXXII", t!"one thousand, two hundred seventy two"),
   (t!"MCCLXXIII", t!"one thousand, two hundred seventy three"),
   (t!"MCCLXXIV", t!"one thousand, two hundred seventy four"),
   (t!"MCCLXXV", t!"one thousand, two hundred seventy five"),
   (t!"MCCLXXVI", t!"one thousand, two hundred seventy six"),
   (t!"MCCLXXVII", t!"one thousand, two hundred seventy seven"),
   (t!"MCCLXXVIII", t!"one thousand, two hundred seventy eight"),
   (t!"MCCLXXIX", t!"one thousand, two hundred seventy nine"),
   (t!"MCCLXXX", t!"one thousand, two hundred eighty")]

/-- `roman/roman_to_spoken.tsv`, part 20. -/
def romanToSpoken20 : List (Str × Str) :=
  [(t!"MCCLXXXI", t!"one thousand, two hundred eighty one"),
   (t!"MCCLXXXII", t!"one thousand, two hundred eighty two"),
   (t!"MCCLXXXIII", t!"one thousand, two hundred eighty three"),
   (t!"MCCLXXXIV", t!"one thousand, two hundred eighty four"),
   (t!"MCCLXXXV", t!"one thousand, two hundred eighty five"),
   (t!"MCCLXXXVI", t!"one thousand, two hundred eighty six"),
   (t!"MCCLXXXVII", t!"one thousand, two hundred eighty seven"),
   (t!"MCCLXXXVIII", t!"one thousand, two hundred eighty eight"),
   (t!"MCCLXXXIX", t!"one thousand, two hundred eighty nine"),
   (t!"MCCXC", t!"one thousand, two hundred ninety"),
   (t!"MCCXCI", t!"one thousand, two hundred ninety one"),
   (t!"MCCXCII", t!"one thousand, two hundred ninety two"),
   (t!"MCCXCIII", t!"one thousand, two hundred ninety three"),
   (t!"MCCXCIV", t!"one thousand, two hundred ninety four"),
   (t!"MCCXCV", t!"one thousand, two hundred ninety five"),
   (t!"MCCXCVI", t!"one thousand, two hundred ninety six"),
   (t!"MCCXCVII", t!"one thousand, two hundred ninety seven"),
   (t!"MCCXCVIII", t!"one thousand, two hundred ninety eight"),
   (t!"MCCXCIX", t!"one thousand, two hundred ninety nine"),
   (t!"MCCC", t!"one thousand, three hundred"),
   (t!"MCCCI", t!"one thousand, three hundred one"),
   (t!"MCCCII", t!"one thousand, three hundred two"),
   (t!"MCCCIII", t!"one thousand, three hundred three"),
   (t!"MCCCIV", t!"one thousand, three hundred four"),
   (t!"MCCCV", t!"one thousand, three hundred five"),
   (t!"MCCCVI", t!"one thousand, three hundred six"),
   (t!"MCCCVII", t!"one thousand, three hundred seven"),
   (t!"MCCCVIII", t!"one thousand, three hundred eight"),
   (t!"MCCCIX", t!"one thousand, three hundred nine"),
   (t!"MCCCX", t!"one thousand, three hundred ten"),
   (t!"MCCCXI", t!"one thousand, three hundred eleven"),
   (t!"MCCCXII", t!"one thousand, three hundred twelve"),
   (t!"MCCCXIII", t!"one thousand, three hundred thirteen"),
   (t!"MCCCXIV", t!"one thousand, three hundred fourteen"),
   (t!"MCCCXV", t!"one thousand, three hundred fifteen"),
   (t!"MCCCXVI", t!"one thousand, three hundred sixteen"),
   (t!"MCCCXVII", t!"one thousand, three hundred seventeen"),
   (t!"MCCCXVIII", t!"one thousand, three hundred eighteen"),
   (t!"MCCCXIX", t!"one thousand, three hundred nineteen"),
   (t!"MCCCXX", t!"one thousand, three hundred twenty"),
   (t!"MCCCXXI", t!"one thousand, three hundred twenty one"),
   (t!"MCCCXXII", t!"one thousand, three hundred twenty two"),
   (t!"MCCCXXIII", t!"one thousand, three hundred twenty three"),
   (t!"MCCCXXIV", t!"one thousand, three hundred twenty four"),
   (t!"MCCCXXV", t!"one thousand, three hundred twenty five"),
   (t!"MCCCXXVI", t!"one thousand, three hundred twenty six"),
   (t!"MCCCXXVII", t!"one thousand, three hundred twenty seven"),
   (t!"MCCCXXVIII", t!"one thousand, three hundred twenty eight"),
   (t!"MCCCXXIX", t!"one thousand, three hundred twenty nine"),
   (t!"MCCCXXX", t!"one thousand, three hundred thirty"),
   (t!"MCCCXXXI", t!"one thousand, three hundred thirty one"),
   (t!"MCCCXXXII", t!"one thousand, three hundred thirty two"),
   (t!"MCCCXXXIII", t!"one thousand, three hundred thirty three"),
   (t!"MCCCXXXIV", t!"one thousand, three hundred thirty four"),
   (t!"MCCCXXXV", t!"one thousand, three hundred thirty five"),
   (t!"MCCCXXXVI", t!"one thousand, three hundred thirty six"),
   (t!"MCCCXXXVII", t!"one thousand, three hundred thirty seven"),
   (t!"MCCCXXXVIII", t!"one thousand, three hundred thirty eight"),
   (t!"MCCCXXXIX", t!"one thousand, three hundred thirty nine"),
   (t!"MCCCXL", t!"one thousand, three hundred forty"),
   (t!"MCCCXLI", t!"one thousand, three hundred forty one"),
   (t!"MCCCXLII", t!"one thousand, three hundred forty two"),
   (t!"MCCCXLIII", t!"one thousand, three hundred forty three"),
   (t!"MCCCXLIV", t!"one thousand, three hundred forty four")]

/-- `roman/roman_to_spoken.tsv`, part 21. -/
def romanToSpoken21 : List (Str × Str) :=
  [(t!"MCCCXLV", t!"one thousand, three hundred forty five"),
   (t!"MCCCXLVI", t!"one thousand, three hundred forty six"),
   (t!"MCCCXLVII", t!"one thousand, three hundred forty seven"),
   (t!"MCCCXLVIII", t!"one thousand, three hundred forty eight"),
   (t!"MCCCXLIX", t!"one thousand, three hundred forty nine"),
   (t!"MCCCL", t!"one thousand, three hundred fifty"),
   (t!"MCCCLI", t!"one thousand, three hundred fifty one"),
   (t!"MCCCLII", t!"one thousand, three hundred fifty two"),
   (t!"MCCCLIII", t!"one thousand, three hundred fifty three"),
   (t!"MCCCLIV", t!"one thousand, three hundred fifty four"),
   (t!"MCCCLV", t!"one thousand, three hundred fifty five"),
   (t!"MCCCLVI", t!"one thousand, three hundred fifty six"),
   (t!"MCCCLVII", t!"one thousand, three hundred fifty seven"),
   (t!"MCCCLVIII", t!"one thousand, three hundred fifty eight"),
   (t!"MCCCLIX", t!"one thousand, three hundred fifty nine"),
   (t!"MCCCLX", t!"one thousand, three hundred sixty"),
   (t!"MCCCLXI", t!"one thousand, three hundred sixty one"),
   (t!"MCCCLXII", t!"one thousand, three hundred sixty two"),
   (t!"MCCCLXIII", t!"one thousand, three hundred sixty three"),
   (t!"MCCCLXIV", t!"one thousand, three hundred sixty four"),
   (t!"MCCCLXV", t!"one thousand, three hundred sixty five"),
   (t!"MCCCLXVI", t!"one thousand, three hundred sixty six"),
   (t!"MCCCLXVII", t!"one thousand, three hundred sixty seven"),
   (t!"MCCCLXVIII", t!"one thousand, three hundred sixty eight"),
   (t!"MCCCLXIX", t!"one thousand, three hundred sixty nine"),
   (t!"MCCCLXX", t!"one thousand, three hundred seventy"),
   (t!"MCCCLXXI", t!"one thousand, three hundred seventy one"),
   (t!"MCCCLXXII", t!"one thousand, three hundred seventy two"),
   (t!"MCCCLXXIII", t!"one thousand, three hundred seventy three"),
   (t!"MCCCLXXIV", t!"one thousand, three hundred seventy four"),
   (t!"MCCCLXXV", t!"one thousand, three hundred seventy five"),
   (t!"MCCCLXXVI", t!"one thousand, three hundred seventy six"),
   (t!"MCCCLXXVII", t!"one thousand, three hundred seventy seven"),
   (t!"MCCCLXXVIII", t!"one thousand, three hundred seventy eight"),
   (t!"MCCCLXXIX", t!"one thousand, three hundred seventy nine"),
   (t!"MCCCLXXX", t!"one thousand, three hundred eighty"),
   (t!"MCCCLXXXI", t!"one thousand, three hundred eighty one"),
   (t!"MCCCLXXXII", t!"one thousand, three hundred eighty two"),
   (t!"MCCCLXXXIII", t!"one thousand, three hundred eighty three"),
   (t!"MCCCLXXXIV", t!"one thousand, three hundred eighty four"),
   (t!"MCCCLXXXV", t!"one thousand, three hundred eighty five"),
   (t!"MCCCLXXXVI", t!"one thousand, three hundred eighty six"),
   (t!"MCCCLXXXVII", t!"one thousand, three hundred eighty seven"),
   (t!"MCCCLXXXVIII", t!"one thousand, three hundred eighty eight"),
   (t!"MCCCLXXXIX", t!"one thousand, three hundred eighty nine"),
   (t!"MCCCXC", t!"one thousand, three hundred ninety"),
   (t!"MCCCXCI", t!"one thousand, three hundred ninety one"),
   (t!"MCCCXCII", t!"one thousand, three hundred ninety two"),
   (t!"MCCCXCIII", t!"one thousand, three hundred ninety three"),
   (t!"MCCCXCIV", t!"one thousand, three hundred ninety four"),
   (t!"MCCCXCV", t!"one thousand, three hundred ninety five"),
   (t!"MCCCXCVI", t!"one thousand, three hundred ninety six"),
   (t!"MCCCXCVII", t!"one thousand, three hundred ninety seven"),
   (t!"MCCCXCVIII", t!"one thousand, three hundred ninety eight"),
   (t!"MCCCXCIX", t!"one thousand, three hundred ninety nine"),
   (t!"MCD", t!"one thousand, four hundred"), (t!"MCDI", t!"one thousand, four hundred one"),
   (t!"MCDII", t!"one thousand, four hundred two"),
   (t!"MCDIII", t!"one thousand, four hundred three"),
   (t!"MCDIV", t!"one thousand, four hundred four"),
   (t!"MCDV", t!"one thousand, four hundred five"),
   (t!"MCDVI", t!"one thousand, four hundred six"),
   (t!"MCDVII", t!"one thousand, four hundred seven"),
   (t!"MCDVIII", t!"one thousand, four hundred eight")]

/-- `roman/roman_to_spoken.tsv`, part 22. -/
def romanToSpoken22 : List (Str × Str) :=
  [(t!"MCDIX", t!"one thousand, four hundred nine"),
   (t!"MCDX", t!"one thousand, four hundred ten"),
   (t!"MCDXI", t!"one thousand, four hundred eleven"),
   (t!"MCDXII", t!"one thousand, four hundred twelve"),
   (t!"MCDXIII", t!"one thousand, four hundred thirteen"),
   (t!"MCDXIV", t!"one thousand, four hundred fourteen"),
   (t!"MCDXV", t!"one thousand, four hundred fifteen"),
   (t!"MCDXVI", t!"one thousand, four hundred sixteen"),
   (t!"MCDXVII", t!"one thousand, four hundred seventeen"),
   (t!"MCDXVIII", t!"one thousand, four hundred eighteen"),
   (t!"MCDXIX", t!"one thousand, four hundred nineteen"),
   (t!"MCDXX", t!"one thousand, four hundred twenty"),
   (t!"MCDXXI", t!"one thousand, four hundred twenty one"),
   (t!"MCDXXII", t!"one thousand, four hundred twenty two"),
   (t!"MCDXXIII", t!"one thousand, four hundred twenty three"),
   (t!"MCDXXIV", t!"one thousand, four hundred twenty four"),
   (t!"MCDXXV", t!"one thousand, four hundred twenty five"),
   (t!"MCDXXVI", t!"one thousand, four hundred twenty six"),
   (t!"MCDXXVII", t!"one thousand, four hundred twenty seven"),
   (t!"MCDXXVIII", t!"one thousand, four hundred twenty eight"),
   (t!"MCDXXIX", t!"one thousand, four hundred twenty nine"),
   (t!"MCDXXX", t!"one thousand, four hundred thirty"),
   (t!"MCDXXXI", t!"one thousand, four hundred thirty one"),
   (t!"MCDXXXII", t!"one thousand, four hundred thirty two"),
   (t!"MCDXXXIII", t!"one thousand, four hundred thirty three"),
   (t!"MCDXXXIV", t!"one thousand, four hundred thirty four"),
   (t!"MCDXXXV", t!"one thousand, four hundred thirty five"),
   (t!"MCDXXXVI", t!"one thousand, four hundred thirty six"),
   (t!"MCDXXXVII", t!"one thousand, four hundred thirty seven"),
   (t!"MCDXXXVIII", t!"one thousand, four hundred thirty eight"),
   (t!"MCDXXXIX", t!"one thousand, four hundred thirty nine"),
   (t!"MCDXL", t!"one thousand, four hundred forty"),
   (t!"MCDXLI", t!"one thousand, four hundred forty one"),
   (t!"MCDXLII", t!"one thousand, four hundred forty two"),
   (t!"MCDXLIII", t!"one thousand, four hundred forty three"),
   (t!"MCDXLIV", t!"one thousand, four hundred forty four"),
   (t!"MCDXLV", t!"one thousand, four hundred forty five"),
   (t!"MCDXLVI", t!"one thousand, four hundred forty six"),
   (t!"MCDXLVII", t!"one thousand, four hundred forty seven"),
   (t!"MCDXLVIII", t!"one thousand, four hundred forty eight"),
   (t!"MCDXLIX", t!"one thousand, four hundred forty nine"),
   (t!"MCDL", t!"one thousand, four hundred fifty"),
   (t!"MCDLI", t!"one thousand, four hundred fifty one"),
   (t!"MCDLII", t!"one thousand, four hundred fifty two"),
   (t!"MCDLIII", t!"one thousand, four hundred fifty three"),
   (t!"MCDLIV", t!"one thousand, four hundred fifty four"),
   (t!"MCDLV", t!"one thousand, four hundred fifty five"),
   (t!"MCDLVI", t!"one thousand, four hundred fifty six"),
   (t!"MCDLVII", t!"one thousand, four hundred fifty seven"),
   (t!"MCDLVIII", t!"one thousand, four hundred fifty eight"),
   (t!"MCDLIX", t!"one thousand, four hundred fifty nine"),
   (t!"MCDLX", t!"one thousand, four hundred sixty"),
   (t!"MCDLXI", t!"one thousand, four hundred sixty one"),
   (t!"MCDLXII", t!"one thousand, four hundred sixty two"),
   (t!"MCDLXIII", t!"one thousand, four hundred sixty three"),
   (t!"MCDLXIV", t!"one thousand, four hundred sixty four"),
   (t!"MCDLXV", t!"one thousand, four hundred sixty five"),
   (t!"MCDLXVI", t!"one thousand, four hundred sixty six"),
   (t!"MCDLXVII", t!"one thousand, four hundred sixty seven"),
   (t!"MCDLXVIII", t!"one thousand, four hundred sixty eight"),
   (t!"MCDLXIX", t!"one thousand, four hundred sixty nine"),
   (t!"MCDLXX", t!"one thousand, four hundred seventy"),
   (t!"MCDLXXI", t!"one thousand, four hundred seventy one"),
   (t!"MCDLXXII", t!"one thousand, four hundred seventy two")]

/-- `roman/roman_to_spoken.tsv`, part 23. -/
def romanToSpoken23 : List (Str × Str) :=
  [(t!"MCDLXXIII", t!"one thousand, four hundred seventy three"),
   (t!"MCDLXXIV", t!"one thousand, four hundred seventy four"),
   (t!"MCDLXXV", t!"one thousand, four hundred seventy five"),
   (t!"MCDLXXVI", t!"one thousand, four hundred seventy six"),
   (t!"MCDLXXVII", t!"one thousand, four hundred seventy seven"),
   (t!"MCDLXXVIII", t!"one thousand, four hundred seventy eight"),
   (t!"MCDLXXIX", t!"one thousand, four hundred seventy nine"),
   (t!"MCDLXXX", t!"one thousand, four hundred eighty"),
   (t!"MCDLXXXI", t!"one thousand, four hundred eighty one"),
   (t!"MCDLXXXII", t!"one thousand, four hundred eighty two"),
   (t!"MCDLXXXIII", t!"one thousand, four hundred eighty three"),
   (t!"MCDLXXXIV", t!"one thousand, four hundred eighty four"),
   (t!"MCDLXXXV", t!"one thousand, four hundred eighty five"),
   (t!"MCDLXXXVI", t!"one thousand, four hundred eighty six"),
   (t!"MCDLXXXVII", t!"one thousand, four hundred eighty seven"),
   (t!"MCDLXXXVIII", t!"one thousand, four hundred eighty eight"),
   (t!"MCDLXXXIX", t!"one thousand, four hundred eighty nine"),
   (t!"MCDXC", t!"one thousand, four hundred ninety"),
   (t!"MCDXCI", t!"one thousand, four hundred ninety one"),
   (t!"MCDXCII", t!"one thousand, four hundred ninety two"),
   (t!"MCDXCIII", t!"one thousand, four hundred ninety three"),
   (t!"MCDXCIV", t!"one thousand, four hundred ninety four"),
   (t!"MCDXCV", t!"one thousand, four hundred ninety five"),
   (t!"MCDXCVI", t!"one thousand, four hundred ninety six"),
   (t!"MCDXCVII", t!"one thousand, four hundred ninety seven"),
   (t!"MCDXCVIII", t!"one thousand, four hundred ninety eight"),
   (t!"MCDXCIX", t!"one thousand, four hundred ninety nine"),
   (t!"MD", t!"one thousand, five hundred"), (t!"MDI", t!"one thousand, five hundred one"),
   (t!"MDII", t!"one thousand, five hundred two"),
   (t!"MDIII", t!"one thousand, five hundred three"),
   (t!"MDIV", t!"one thousand, five hundred four"),
   (t!"MDV", t!"one thousand, five hundred five"),
   (t!"MDVI", t!"one thousand, five hundred six"),
   (t!"MDVII", t!"one thousand, five hundred seven"),
   (t!"MDVIII", t!"one thousand, five hundred eight"),
   (t!"MDIX", t!"one thousand, five hundred nine"),
   (t!"MDX", t!"one thousand, five hundred ten"),
   (t!"MDXI", t!"one thousand, five hundred eleven"),
   (t!"MDXII", t!"one thousand, five hundred twelve"),
   (t!"MDXIII", t!"one thousand, five hundred thirteen"),
   (t!"MDXIV", t!"one thousand, five hundred fourteen"),
   (t!"MDXV", t!"one thousand, five hundred fifteen"),
   (t!"MDXVI", t!"one thousand, five hundred sixteen"),
   (t!"MDXVII", t!"one thousand, five hundred seventeen"),
   (t!"MDXVIII", t!"one thousand, five hundred eighteen"),
   (t!"MDXIX", t!"one thousand, five hundred nineteen"),
   (t!"MDXX", t!"one thousand, five hundred twenty"),
   (t!"MDXXI", t!"one thousand, five hundred twenty one"),
   (t!"MDXXII", t!"one thousand, five hundred twenty two"),
   (t!"MDXXIII", t!"one thousand, five hundred twenty three"),
   (t!"MDXXIV", t!"one thousand, five hundred twenty four"),
   (t!"MDXXV", t!"one thousand, five hundred twenty five"),
   (t!"MDXXVI", t!"one thousand, five hundred twenty six"),
   (t!"MDXXVII", t!"one thousand, five hundred twenty seven"),
   (t!"MDXXVIII", t!"one thousand, five hundred twenty eight"),
   (t!"MDXXIX", t!"one thousand, five hundred twenty nine"),
   (t!"MDXXX", t!"one thousand, five hundred thirty"),
   (t!"MDXXXI", t!"one thousand, five hundred thirty one"),
   (t!"MDXXXII", t!"one thousand, five hundred thirty two"),
   (t!"MDXXXIII", t!"one thousand, five hundred thirty three"),
   (t!"MDXXXIV", t!"one thousand, five hundred thirty four"),
   (t!"MDXXXV", t!"one thousand, five hundred thirty five"),
   (t!"MDXXXVI", t!"one thousand, five hundred thirty six")]

/-- `roman/roman_to_spoken.tsv`, part 24. -/
def romanToSpoken24 : List (Str × Str) :=
  [(t!"MDXXXVII", t!"one thousand, five hundred thirty seven"),
   (t!"MDXXXVIII", t!"one thousand, five hundred thirty eight"),
   (t!"MDXXXIX", t!"one thousand, five hundred thirty nine"),
   (t!"MDXL", t!"one thousand, five hundred forty"),
   (t!"MDXLI", t!"one thousand, five hundred forty one"),
   (t!"MDXLII", t!"one thousand, five hundred forty two"),
   (t!"MDXLIII", t!"one thousand, five hundred forty three"),
   (t!"MDXLIV", t!"one thousand, five hundred forty four"),
   (t!"MDXLV", t!"one thousand, five hundred forty five"),
   (t!"MDXLVI", t!"one thousand, five hundred forty six"),
   (t!"MDXLVII", t!"one thousand, five hundred forty seven"),
   (t!"MDXLVIII", t!"one thousand, five hundred forty eight"),
   (t!"MDXLIX", t!"one thousand, five hundred forty nine"),
   (t!"MDL", t!"one thousand, five hundred fifty"),
   (t!"MDLI", t!"one thousand, five hundred fifty one"),
   (t!"MDLII", t!"one thousand, five hundred fifty two"),
   (t!"MDLIII", t!"one thousand, five hundred fifty three"),
   (t!"MDLIV", t!"one thousand, five hundred fifty four"),
   (t!"MDLV", t!"one thousand, five hundred fifty five"),
   (t!"MDLVI", t!"one thousand, five hundred fifty six"),
   (t!"MDLVII", t!"one thousand, five hundred fifty seven"),
   (t!"MDLVIII", t!"one thousand, five hundred fifty eight"),
   (t!"MDLIX", t!"one thousand, five hundred fifty nine"),
   (t!"MDLX", t!"one thousand, five hundred sixty"),
   (t!"MDLXI", t!"one thousand, five hundred sixty one"),
   (t!"MDLXII", t!"one thousand, five hundred sixty two"),
   (t!"MDLXIII", t!"one thousand, five hundred sixty three"),
   (t!"MDLXIV", t!"one thousand, five hundred sixty four"),
   (t!"MDLXV", t!"one thousand, five hundred sixty five"),
   (t!"MDLXVI", t!"one thousand, five hundred sixty six"),
   (t!"MDLXVII", t!"one thousand, five hundred sixty seven"),
   (t!"MDLXVIII", t!"one thousand, five hundred sixty eight"),
   (t!"MDLXIX", t!"one thousand, five hundred sixty nine"),
   (t!"MDLXX", t!"one thousand, five hundred seventy"),
   (t!"MDLXXI", t!"one thousand, five hundred seventy one"),
   (t!"MDLXXII", t!"one thousand, five hundred seventy two"),
   (t!"MDLXXIII", t!"one thousand, five hundred seventy three"),
   (t!"MDLXXIV", t!"one thousand, five hundred seventy four"),
   (t!"MDLXXV", t!"one thousand, five hundred seventy five"),
   (t!"MDLXXVI", t!"one thousand, five hundred seventy six"),
   (t!"MDLXXVII", t!"one thousand, five hundred seventy seven"),
   (t!"MDLXXVIII", t!"one thousand, five hundred seventy eight"),
   (t!"MDLXXIX", t!"one thousand, five hundred seventy nine"),
   (t!"MDLXXX", t!"one thousand, five hundred eighty"),
   (t!"MDLXXXI", t!"one thousand, five hundred eighty one"),
   (t!"MDLXXXII", t!"one thousand, five hundred eighty two"),
   (t!"MDLXXXIII", t!"one thousand, five hundred eighty three"),
   (t!"MDLXXXIV", t!"one thousand, five hundred eighty four"),
   (t!"MDLXXXV", t!"one thousand, five hundred eighty five"),
   (t!"MDLXXXVI", t!"one thousand, five hundred eighty six"),
   (t!"MDLXXXVII", t!"one thousand, five hundred eighty seven"),
   (t!"MDLXXXVIII", t!"one thousand, five hundred eighty eight"),
   (t!"MDLXXXIX", t!"one thousand, five hundred eighty nine"),
   (t!"MDXC", t!"one thousand, five hundred ninety"),
   (t!"MDXCI", t!"one thousand, five hundred ninety one"),
   (t!"MDXCII", t!"one thousand, five hundred ninety two"),
   (t!"MDXCIII", t!"one thousand, five hundred ninety three"),
   (t!"MDXCIV", t!"one thousand, five hundred ninety four"),
   (t!"MDXCV", t!"one thousand, five hundred ninety five"),
   (t!"MDXCVI", t!"one thousand, five hundred ninety six"),
   (t!"MDXCVII", t!"one thousand, five hundred ninety seven"),
   (t!"MDXCVIII", t!"one thousand, five hundred ninety eight"),
   (t!"MDXCIX", t!"one thousand, five hundred ninety nine"),
   (t!"MDC", t!"one thousand, six hundred")]

/-- `roman/roman_to_spoken.tsv`, part 25. -/
def romanToSpoken25 : List (Str × Str) :=
  [(t!"MDCI", t!"one thousand, six hundred one"),
   (t!"MDCII", t!"one thousand, six hundred two"),
   (t!"MDCIII", t!"one thousand, six hundred three"),
   (t!"MDCIV", t!"one thousand, six hundred four"),
   (t!"MDCV", t!"one thousand, six hundred five"),
   (t!"MDCVI", t!"one thousand, six hundred six"),
   (t!"MDCVII", t!"one thousand, six hundred seven"),
   (t!"MDCVIII", t!"one thousand, six hundred eight"),
   (t!"MDCIX", t!"one thousand, six hundred nine"),
   (t!"MDCX", t!"one thousand, six hundred ten"),
   (t!"MDCXI", t!"one thousand, six hundred eleven"),
   (t!"MDCXII", t!"one thousand, six hundred twelve"),
   (t!"MDCXIII", t!"one thousand, six hundred thirteen"),
   (t!"MDCXIV", t!"one thousand, six hundred fourteen"),
   (t!"MDCXV", t!"one thousand, six hundred fifteen"),
   (t!"MDCXVI", t!"one thousand, six hundred sixteen"),
   (t!"MDCXVII", t!"one thousand, six hundred seventeen"),
   (t!"MDCXVIII", t!"one thousand, six hundred eighteen"),
   (t!"MDCXIX", t!"one thousand, six hundred nineteen"),
   (t!"MDCXX", t!"one thousand, six hundred twenty"),
   (t!"MDCXXI", t!"one thousand, six hundred twenty one"),
   (t!"MDCXXII", t!"one thousand, six hundred twenty two"),
   (t!"MDCXXIII", t!"one thousand, six hundred twenty three"),
   (t!"MDCXXIV", t!"one thousand, six hundred twenty four"),
   (t!"MDCXXV", t!"one thousand, six hundred twenty five"),
   (t!"MDCXXVI", t!"one thousand, six hundred twenty six"),
   (t!"MDCXXVII", t!"one thousand, six hundred twenty seven"),
   (t!"MDCXXVIII", t!"one thousand, six hundred twenty eight"),
   (t!"MDCXXIX", t!"one thousand, six hundred twenty nine"),
   (t!"MDCXXX", t!"one thousand, six hundred thirty"),
   (t!"MDCXXXI", t!"one thousand, six hundred thirty one"),
   (t!"MDCXXXII", t!"one thousand, six hundred thirty two"),
   (t!"MDCXXXIII", t!"one thousand, six hundred thirty three"),
   (t!"MDCXXXIV", t!"one thousand, six hundred thirty four"),
   (t!"MDCXXXV", t!"one thousand, six hundred thirty five"),
   (t!"MDCXXXVI", t!"one thousand, six hundred thirty six"),
   (t!"MDCXXXVII", t!"one thousand, six hundred thirty seven"),
   (t!"MDCXXXVIII", t!"one thousand, six hundred thirty eight"),
   (t!"MDCXXXIX", t!"one thousand, six hundred thirty nine"),
   (t!"MDCXL", t!"one thousand, six hundred forty"),
   (t!"MDCXLI", t!"one thousand, six hundred forty one"),
   (t!"MDCXLII", t!"one thousand, six hundred forty two"),
   (t!"MDCXLIII", t!"one thousand, six hundred forty three"),
   (t!"MDCXLIV", t!"one thousand, six hundred forty four"),
   (t!"MDCXLV", t!"one thousand, six hundred forty five"),
   (t!"MDCXLVI", t!"one thousand, six hundred forty six"),
   (t!"MDCXLVII", t!"one thousand, six hundred forty seven"),
   (t!"MDCXLVIII", t!"one thousand, six hundred forty eight"),
   (t!"MDCXLIX", t!"one thousand, six hundred forty nine"),
   (t!"MDCL", t!"one thousand, six hundred fifty"),
   (t!"MDCLI", t!"one thousand, six hundred fifty one"),
   (t!"MDCLII", t!"one thousand, six hundred fifty two"),
   (t!"MDCLIII", t!"one thousand, six hundred fifty three"),
   (t!"MDCLIV", t!"one thousand, six hundred fifty four"),
   (t!"MDCLV", t!"one thousand, six hundred fifty five"),
   (t!"MDCLVI", t!"one thousand, six hundred fifty six"),
   (t!"MDCLVII", t!"one thousand, six hundred fifty seven"),
   (t!"MDCLVIII", t!"one thousand, six hundred fifty eight"),
   (t!"MDCLIX", t!"one thousand, six hundred fifty nine"),
   (t!"MDCLX", t!"one thousand, six hundred sixty"),
   (t!"MDCLXI", t!"one thousand, six hundred sixty one"),
   (t!"MDCLXII", t!"one thousand, six hundred sixty two"),
   (t!"MDCLXIII", t!"one thousand, six hundred sixty three"),
   (t!"MDCLXIV", t!"one thousand, six hundred sixty four")]

/-- `roman/roman_to_spoken.tsv`, part 26. -/
def romanToSpoken26 : List (Str × Str) :=
  [(t!"MDCLXV", t!"one thousand, six hundred sixty five"),
   (t!"MDCLXVI", t!"one thousand, six hundred sixty six"),
   (t!"MDCLXVII", t!"one thousand, six hundred sixty seven"),
   (t!"MDCLXVIII", t!"one thousand, six hundred sixty eight"),
   (t!"MDCLXIX", t!"one thousand, six hundred sixty nine"),
   (t!"MDCLXX", t!"one thousand, six hundred seventy"),
   (t!"MDCLXXI", t!"one thousand, six hundred seventy one"),
   (t!"MDCLXXII", t!"one thousand, six hundred seventy two"),
   (t!"MDCLXXIII", t!"one thousand, six hundred seventy three"),
   (t!"MDCLXXIV", t!"one thousand, six hundred seventy four"),
   (t!"MDCLXXV", t!"one thousand, six hundred seventy five"),
   (t!"MDCLXXVI", t!"one thousand, six hundred seventy six"),
   (t!"MDCLXXVII", t!"one thousand, six hundred seventy seven"),
   (t!"MDCLXXVIII", t!"one thousand, six hundred seventy eight"),
   (t!"MDCLXXIX", t!"one thousand, six hundred seventy nine"),
   (t!"MDCLXXX", t!"one thousand, six hundred eighty"),
   (t!"MDCLXXXI", t!"one thousand, six hundred eighty one"),
   (t!"MDCLXXXII", t!"one thousand, six hundred eighty two"),
   (t!"MDCLXXXIII", t!"one thousand, six hundred eighty three"),
   (t!"MDCLXXXIV", t!"one thousand, six hundred eighty four"),
   (t!"MDCLXXXV", t!"one thousand, six hundred eighty five"),
   (t!"MDCLXXXVI", t!"one thousand, six hundred eighty six"),
   (t!"MDCLXXXVII", t!"one thousand, six hundred eighty seven"),
   (t!"MDCLXXXVIII", t!"one thousand, six hundred eighty eight"),
   (t!"MDCLXXXIX", t!"one thousand, six hundred eighty nine"),
   (t!"MDCXC", t!"one thousand, six hundred ninety"),
   (t!"MDCXCI", t!"one thousand, six hundred ninety one"),
   (t!"MDCXCII", t!"one thousand, six hundred ninety two"),
   (t!"MDCXCIII", t!"one thousand, six hundred ninety three"),
   (t!"MDCXCIV", t!"one thousand, six hundred ninety four"),
   (t!"MDCXCV", t!"one thousand, six hundred ninety five"),
   (t!"MDCXCVI", t!"one thousand, six hundred ninety six"),
   (t!"MDCXCVII", t!"one thousand, six hundred ninety seven"),
   (t!"MDCXCVIII", t!"one thousand, six hundred ninety eight"),
   (t!"MDCXCIX", t!"one thousand, six hundred ninety nine"),
   (t!"MDCC", t!"one thousand, seven hundred"),
   (t!"MDCCI", t!"one thousand, seven hundred one"),
   (t!"MDCCII", t!"one thousand, seven hundred two"),
   (t!"MDCCIII", t!"one thousand, seven hundred three"),
   (t!"MDCCIV", t!"one thousand, seven hundred four"),
   (t!"MDCCV", t!"one thousand, seven hundred five"),
   (t!"MDCCVI", t!"one thousand, seven hundred six"),
   (t!"MDCCVII", t!"one thousand, seven hundred seven"),
   (t!"MDCCVIII", t!"one thousand, seven hundred eight"),
   (t!"MDCCIX", t!"one thousand, seven hundred nine"),
   (t!"MDCCX", t!"one thousand, seven hundred ten"),
   (t!"MDCCXI", t!"one thousand, seven hundred eleven"),
   (t!"MDCCXII", t!"one thousand, seven hundred twelve"),
   (t!"MDCCXIII", t!"one thousand, seven hundred thirteen"),
   (t!"MDCCXIV", t!"one thousand, seven hundred fourteen"),
   (t!"MDCCXV", t!"one thousand, seven hundred fifteen"),
   (t!"MDCCXVI", t!"one thousand, seven hundred sixteen"),
   (t!"MDCCXVII", t!"one thousand, seven hundred seventeen"),
   (t!"MDCCXVIII", t!"one thousand, seven hundred eighteen"),
   (t!"MDCCXIX", t!"one thousand, seven hundred nineteen"),
   (t!"MDCCXX", t!"one thousand, seven hundred twenty"),
   (t!"MDCCXXI", t!"one thousand, seven hundred twenty one"),
   (t!"MDCCXXII", t!"one thousand, seven hundred twenty two"),
   (t!"MDCCXXIII", t!"one thousand, seven hundred twenty three"),
   (t!"MDCCXXIV", t!"one thousand, seven hundred twenty four"),
   (t!"MDCCXXV", t!"one thousand, seven hundred twenty five"),
   (t!"MDCCXXVI", t!"one thousand, seven hundred twenty six"),
   (t!"MDCCXXVII", t!"one thousand, seven hundred twenty seven"),
   (t!"MDCCXXVIII", t!"one thousand, seven hundred twenty eight")]

/-- `roman/roman_to_spoken.tsv`, part 27. -/
def romanToSpoken27 : List (Str × Str) :=
  [(t!"MDCCXXIX", t!"one thousand, seven hundred twenty nine"),
   (t!"MDCCXXX", t!"one thousand, seven hundred thirty"),
   (t!"MDCCXXXI", t!"one thousand, seven hundred thirty one"),
   (t!"MDCCXXXII", t!"one thousand, seven hundred thirty two"),
   (t!"MDCCXXXIII", t!"one thousand, seven hundred thirty three"),
   (t!"MDCCXXXIV", t!"one thousand, seven hundred thirty four"),
   (t!"MDCCXXXV", t!"one thousand, seven hundred thirty five"),
   (t!"MDCCXXXVI", t!"one thousand, seven hundred thirty six"),
   (t!"MDCCXXXVII", t!"one thousand, seven hundred thirty seven"),
   (t!"MDCCXXXVIII", t!"one thousand, seven hundred thirty eight"),
   (t!"MDCCXXXIX", t!"one thousand, seven hundred thirty nine"),
   (t!"MDCCXL", t!"one thousand, seven hundred forty"),
   (t!"MDCCXLI", t!"one thousand, seven hundred forty one"),
   (t!"MDCCXLII", t!"one thousand, seven hundred forty two"),
   (t!"MDCCXLIII", t!"one thousand, seven hundred forty three"),
   (t!"MDCCXLIV", t!"one thousand, seven hundred forty four"),
   (t!"MDCCXLV", t!"one thousand, seven hundred forty five"),
   (t!"MDCCXLVI", t!"one thousand, seven hundred forty six"),
   (t!"MDCCXLVII", t!"one thousand, seven hundred forty seven"),
   (t!"MDCCXLVIII", t!"one thousand, seven hundred forty eight"),
   (t!"MDCCXLIX", t!"one thousand, seven hundred forty nine"),
   (t!"MDCCL", t!"one thousand, seven hundred fifty"),
   (t!"MDCCLI", t!"one thousand, seven hundred fifty one"),
   (t!"MDCCLII", t!"one thousand, seven hundred fifty two"),
   (t!"MDCCLIII", t!"one thousand, seven hundred fifty three"),
   (t!"MDCCLIV", t!"one thousand, seven hundred fifty four"),
   (t!"MDCCLV", t!"one thousand, seven hundred fifty five"),
   (t!"MDCCLVI", t!"one thousand, seven hundred fifty six"),
   (t!"MDCCLVII", t!"one thousand, seven hundred fifty seven"),
   (t!"MDCCLVIII", t!"one thousand, seven hundred fifty eight"),
   (t!"MDCCLIX", t!"one thousand, seven hundred fifty nine"),
   (t!"MDCCLX", t!"one thousand, seven hundred sixty"),
   (t!"MDCCLXI", t!"one thousand, seven hundred sixty one"),
   (t!"MDCCLXII", t!"one thousand, seven hundred sixty two"),
   (t!"MDCCLXIII", t!"one thousand, seven hundred sixty three"),
   (t!"MDCCLXIV", t!"one thousand, seven hundred sixty four"),
   (t!"MDCCLXV", t!"one thousand, seven hundred sixty five"),
   (t!"MDCCLXVI", t!"one thousand, seven hundred sixty six"),
   (t!"MDCCLXVII", t!"one thousand, seven hundred sixty seven"),
   (t!"MDCCLXVIII", t!"one thousand, seven hundred sixty eight"),
   (t!"MDCCLXIX", t!"one thousand, seven hundred sixty nine"),
   (t!"MDCCLXX", t!"one thousand, seven hundred seventy"),
   (t!"MDCCLXXI", t!"one thousand, seven hundred seventy one"),
   (t!"MDCCLXXII", t!"one thousand, seven hundred seventy two"),
   (t!"MDCCLXXIII", t!"one thousand, seven hundred seventy three"),
   (t!"MDCCLXXIV", t!"one thousand, seven hundred seventy four"),
   (t!"MDCCLXXV", t!"one thousand, seven hundred seventy five"),
   (t!"MDCCLXXVI", t!"one thousand, seven hundred seventy six"),
   (t!"MDCCLXXVII", t!"one thousand, seven hundred seventy seven"),
   (t!"MDCCLXXVIII", t!"one thousand, seven hundred seventy eight"),
   (t!"MDCCLXXIX", t!"one thousand, seven hundred seventy nine"),
   (t!"MDCCLXXX", t!"one thousand, seven hundred eighty"),
   (t!"MDCCLXXXI", t!"one thousand, seven hundred eighty one"),
   (t!"MDCCLXXXII", t!"one thousand, seven hundred eighty two"),
   (t!"MDCCLXXXIII", t!"one thousand, seven hundred eighty three"),
   (t!"MDCCLXXXIV", t!"one thousand, seven hundred eighty four"),
   (t!"MDCCLXXXV", t!"one thousand, seven hundred eighty five"),
   (t!"MDCCLXXXVI", t!"one thousand, seven hundred eighty six"),
   (t!"MDCCLXXXVII", t!"one thousand, seven hundred eighty seven"),
   (t!"MDCCLXXXVIII", t!"one thousand, seven hundred eighty eight"),
   (t!"MDCCLXXXIX", t!"one thousand, seven hundred eighty nine"),
   (t!"MDCCXC", t!"one thousand, seven hundred ninety"),
   (t!"MDCCXCI", t!"one thousand, seven hundred ninety one"),
   (t!"MDCCXCII", t!"one thousand, seven hundred ninety two")]

/-- `roman/roman_to_spoken.tsv`, part 28. -/
def romanToSpoken28 : List (Str × Str) :=
  [(t!"MDCCXCIII", t!"one thousand, seven hundred ninety three"),
   (t!"MDCCXCIV", t!"one thousand, seven hundred ninety four"),
   (t!"MDCCXCV", t!"one thousand, seven hundred ninety five"),
   (t!"MDCCXCVI", t!"one thousand, seven hundred ninety six"),
   (t!"MDCCXCVII", t!"one thousand, seven hundred ninety seven"),
   (t!"MDCCXCVIII", t!"one thousand, seven hundred ninety eight"),
   (t!"MDCCXCIX", t!"one thousand, seven hundred ninety nine"),
   (t!"MDCCC", t!"one thousand, eight hundred"),
   (t!"MDCCCI", t!"one thousand, eight hundred one"),
   (t!"MDCCCII", t!"one thousand, eight hundred two"),
   (t!"MDCCCIII", t!"one thousand, eight hundred three"),
   (t!"MDCCCIV", t!"one thousand, eight hundred four"),
   (t!"MDCCCV", t!"one thousand, eight hundred five"),
   (t!"MDCCCVI", t!"one thousand, eight hundred six"),
   (t!"MDCCCVII", t!"one thousand, eight hundred seven"),
   (t!"MDCCCVIII", t!"one thousand, eight hundred eight"),
   (t!"MDCCCIX", t!"one thousand, eight hundred nine"),
   (t!"MDCCCX", t!"one thousand, eight hundred ten"),
   (t!"MDCCCXI", t!"one thousand, eight hundred eleven"),
   (t!"MDCCCXII", t!"one thousand, eight hundred twelve"),
   (t!"MDCCCXIII", t!"one thousand, eight hundred thirteen"),
   (t!"MDCCCXIV", t!"one thousand, eight hundred fourteen"),
   (t!"MDCCCXV", t!"one thousand, eight hundred fifteen"),
   (t!"MDCCCXVI", t!"one thousand, eight hundred sixteen"),
   (t!"MDCCCXVII", t!"one thousand, eight hundred seventeen"),
   (t!"MDCCCXVIII", t!"one thousand, eight hundred eighteen"),
   (t!"MDCCCXIX", t!"one thousand, eight hundred nineteen"),
   (t!"MDCCCXX", t!"one thousand, eight hundred twenty"),
   (t!"MDCCCXXI", t!"one thousand, eight hundred twenty one"),
   (t!"MDCCCXXII", t!"one thousand, eight hundred twenty two"),
   (t!"MDCCCXXIII", t!"one thousand, eight hundred twenty three"),
   (t!"MDCCCXXIV", t!"one thousand, eight hundred twenty four"),
   (t!"MDCCCXXV", t!"one thousand, eight hundred twenty five"),
   (t!"MDCCCXXVI", t!"one thousand, eight hundred twenty six"),
   (t!"MDCCCXXVII", t!"one thousand, eight hundred twenty seven"),
   (t!"MDCCCXXVIII", t!"one thousand, eight hundred twenty eight"),
   (t!"MDCCCXXIX", t!"one thousand, eight hundred twenty nine"),
   (t!"MDCCCXXX", t!"one thousand, eight hundred thirty"),
   (t!"MDCCCXXXI", t!"one thousand, eight hundred thirty one"),
   (t!"MDCCCXXXII", t!"one thousand, eight hundred thirty two"),
   (t!"MDCCCXXXIII", t!"one thousand, eight hundred thirty three"),
   (t!"MDCCCXXXIV", t!"one thousand, eight hundred thirty four"),
   (t!"MDCCCXXXV", t!"one thousand, eight hundred thirty five"),
   (t!"MDCCCXXXVI", t!"one thousand, eight hundred thirty six"),
   (t!"MDCCCXXXVII", t!"one thousand, eight hundred thirty seven"),
   (t!"MDCCCXXXVIII", t!"one thousand, eight hundred thirty eight"),
   (t!"MDCCCXXXIX", t!"one thousand, eight hundred thirty nine"),
   (t!"MDCCCXL", t!"one thousand, eight hundred forty"),
   (t!"MDCCCXLI", t!"one thousand, eight hundred forty one"),
   (t!"MDCCCXLII", t!"one thousand, eight hundred forty two"),
   (t!"MDCCCXLIII", t!"one thousand, eight hundred forty three"),
   (t!"MDCCCXLIV", t!"one thousand, eight hundred forty four"),
   (t!"MDCCCXLV", t!"one thousand, eight hundred forty five"),
   (t!"MDCCCXLVI", t!"one thousand, eight hundred forty six"),
   (t!"MDCCCXLVII", t!"one thousand, eight hundred forty seven"),
   (t!"MDCCCXLVIII", t!"one thousand, eight hundred forty eight"),
   (t!"MDCCCXLIX", t!"one thousand, eight hundred forty nine"),
   (t!"MDCCCL", t!"one thousand, eight hundred fifty"),
   (t!"MDCCCLI", t!"one thousand, eight hundred fifty one"),
   (t!"MDCCCLII", t!"one thousand, eight hundred fifty two"),
   (t!"MDCCCLIII", t!"one thousand, eight hundred fifty three"),
   (t!"MDCCCLIV", t!"one thousand, eight hundred fifty four"),
   (t!"MDCCCLV", t!"one thousand, eight hundred fifty five"),
   (t!"MDCCCLVI", t!"one thousand, eight hundred fifty six")]

/-- `roman/roman_to_spoken.tsv`, part 29. -/
def romanToSpoken29 : List (Str × Str) :=
  [(t!"MDCCCLVII", t!"one thousand, eight hundred fifty seven"),
   (t!"MDCCCLVIII", t!"one thousand, eight hundred fifty eight"),
   (t!"MDCCCLIX", t!"one thousand, eight hundred fifty nine"),
   (t!"MDCCCLX", t!"one thousand, eight hundred sixty"),
   (t!"MDCCCLXI", t!"one thousand, eight hundred sixty one"),
   (t!"MDCCCLXII", t!"one thousand, eight hundred sixty two"),
   (t!"MDCCCLXIII", t!"one thousand, eight hundred sixty three"),
   (t!"MDCCCLXIV", t!"one thousand, eight hundred sixty four"),
   (t!"MDCCCLXV", t!"one thousand, eight hundred sixty five"),
   (t!"MDCCCLXVI", t!"one thousand, eight hundred sixty six"),
   (t!"MDCCCLXVII", t!"one thousand, eight hundred sixty seven"),
   (t!"MDCCCLXVIII", t!"one thousand, eight hundred sixty eight"),
   (t!"MDCCCLXIX", t!"one thousand, eight hundred sixty nine"),
   (t!"MDCCCLXX", t!"one thousand, eight hundred seventy"),
   (t!"MDCCCLXXI", t!"one thousand, eight hundred seventy one"),
   (t!"MDCCCLXXII", t!"one thousand, eight hundred seventy two"),
   (t!"MDCCCLXXIII", t!"one thousand, eight hundred seventy three"),
   (t!"MDCCCLXXIV", t!"one thousand, eight hundred seventy four"),
   (t!"MDCCCLXXV", t!"one thousand, eight hundred seventy five"),
   (t!"MDCCCLXXVI", t!"one thousand, eight hundred seventy six"),
   (t!"MDCCCLXXVII", t!"one thousand, eight hundred seventy seven"),
   (t!"MDCCCLXXVIII", t!"one thousand, eight hundred seventy eight"),
   (t!"MDCCCLXXIX", t!"one thousand, eight hundred seventy nine"),
   (t!"MDCCCLXXX", t!"one thousand, eight hundred eighty"),
   (t!"MDCCCLXXXI", t!"one thousand, eight hundred eighty one"),
   (t!"MDCCCLXXXII", t!"one thousand, eight hundred eighty two"),
   (t!"MDCCCLXXXIII", t!"one thousand, eight hundred eighty three"),
   (t!"MDCCCLXXXIV", t!"one thousand, eight hundred eighty four"),
   (t!"MDCCCLXXXV", t!"one thousand, eight hundred eighty five"),
   (t!"MDCCCLXXXVI", t!"one thousand, eight hundred eighty six"),
   (t!"MDCCCLXXXVII", t!"one thousand, eight hundred eighty seven"),
   (t!"MDCCCLXXXVIII", t!"one thousand, eight hundred eighty eight"),
   (t!"MDCCCLXXXIX", t!"one thousand, eight hundred eighty nine"),
   (t!"MDCCCXC", t!"one thousand, eight hundred ninety"),
   (t!"MDCCCXCI", t!"one thousand, eight hundred ninety one"),
   (t!"MDCCCXCII", t!"one thousand, eight hundred ninety two"),
   (t!"MDCCCXCIII", t!"one thousand, eight hundred ninety three"),
   (t!"MDCCCXCIV", t!"one thousand, eight hundred ninety four"),
   (t!"MDCCCXCV", t!"one thousand, eight hundred ninety five"),
   (t!"MDCCCXCVI", t!"one thousand, eight hundred ninety six"),
   (t!"MDCCCXCVII", t!"one thousand, eight hundred ninety seven"),
   (t!"MDCCCXCVIII", t!"one thousand, eight hundred ninety eight"),
   (t!"MDCCCXCIX", t!"one thousand, eight hundred ninety nine"),
   (t!"MCM", t!"one thousand, nine hundred"), (t!"MCMI", t!"one thousand, nine hundred one"),
   (t!"MCMII", t!"one thousand, nine hundred two"),
   (t!"MCMIII", t!"one thousand, nine hundred three"),
   (t!"MCMIV", t!"one thousand, nine hundred four"),
   (t!"MCMV", t!"one thousand, nine hundred five"),
   (t!"MCMVI", t!"one thousand, nine hundred six"),
   (t!"MCMVII", t!"one thousand, nine hundred seven"),
   (t!"MCMVIII", t!"one thousand, nine hundred eight"),
   (t!"MCMIX", t!"one thousand, nine hundred nine"),
   (t!"MCMX", t!"one thousand, nine hundred ten"),
   (t!"MCMXI", t!"one thousand, nine hundred eleven"),
   (t!"MCMXII", t!"one thousand, nine hundred twelve"),
   (t!"MCMXIII", t!"one thousand, nine hundred thirteen"),
   (t!"MCMXIV", t!"one thousand, nine hundred fourteen"),
   (t!"MCMXV", t!"one thousand, nine hundred fifteen"),
   (t!"MCMXVI", t!"one thousand, nine hundred sixteen"),
   (t!"MCMXVII", t!"one thousand, nine hundred seventeen"),
   (t!"MCMXVIII", t!"one thousand, nine hundred eighteen"),
   (t!"MCMXIX", t!"one thousand, nine hundred nineteen"),
   (t!"MCMXX", t!"one thousand, nine hundred twenty")]

/-- `roman/roman_to_spoken.tsv`, part 30. -/
def romanToSpoken30 : List (Str × Str) :=
  [(t!"MCMXXI", t!"one thousand, nine hundred twenty one"),
   (t!"MCMXXII", t!"one thousand, nine hundred twenty two"),
   (t!"MCMXXIII", t!"one thousand, nine hundred twenty three"),
   (t!"MCMXXIV", t!"one thousand, nine hundred twenty four"),
   (t!"MCMXXV", t!"one thousand, nine hundred twenty five"),
   (t!"MCMXXVI", t!"one thousand, nine hundred twenty six"),
   (t!"MCMXXVII", t!"one thousand, nine hundred twenty seven"),
   (t!"MCMXXVIII", t!"one thousand, nine hundred twenty eight"),
   (t!"MCMXXIX", t!"one thousand, nine hundred twenty nine"),
   (t!"MCMXXX", t!"one thousand, nine hundred thirty"),
   (t!"MCMXXXI", t!"one thousand, nine hundred thirty one"),
   (t!"MCMXXXII", t!"one thousand, nine hundred thirty two"),
   (t!"MCMXXXIII", t!"one thousand, nine hundred thirty three"),
   (t!"MCMXXXIV", t!"one thousand, nine hundred thirty four"),
   (t!"MCMXXXV", t!"one thousand, nine hundred thirty five"),
   (t!"MCMXXXVI", t!"one thousand, nine hundred thirty six"),
   (t!"MCMXXXVII", t!"one thousand, nine hundred thirty seven"),
   (t!"MCMXXXVIII", t!"one thousand, nine hundred thirty eight"),
   (t!"MCMXXXIX", t!"one thousand, nine hundred thirty nine"),
   (t!"MCMXL", t!"one thousand, nine hundred forty"),
   (t!"MCMXLI", t!"one thousand, nine hundred forty one"),
   (t!"MCMXLII", t!"one thousand, nine hundred forty two"),
   (t!"MCMXLIII", t!"one thousand, nine hundred forty three"),
   (t!"MCMXLIV", t!"one thousand, nine hundred forty four"),
   (t!"MCMXLV", t!"one thousand, nine hundred forty five"),
   (t!"MCMXLVI", t!"one thousand, nine hundred forty six"),
   (t!"MCMXLVII", t!"one thousand, nine hundred forty seven"),
   (t!"MCMXLVIII", t!"one thousand, nine hundred forty eight"),
   (t!"MCMXLIX", t!"one thousand, nine hundred forty nine"),
   (t!"MCML", t!"one thousand, nine hundred fifty"),
   (t!"MCMLI", t!"one thousand, nine hundred fifty one"),
   (t!"MCMLII", t!"one thousand, nine hundred fifty two"),
   (t!"MCMLIII", t!"one thousand, nine hundred fifty three"),
   (t!"MCMLIV", t!"one thousand, nine hundred fifty four"),
   (t!"MCMLV", t!"one thousand, nine hundred fifty five"),
   (t!"MCMLVI", t!"one thousand, nine hundred fifty six"),
   (t!"MCMLVII", t!"one thousand, nine hundred fifty seven"),
   (t!"MCMLVIII", t!"one thousand, nine hundred fifty eight"),
   (t!"MCMLIX", t!"one thousand, nine hundred fifty nine"),
   (t!"MCMLX", t!"one thousand, nine hundred sixty"),
   (t!"MCMLXI", t!"one thousand, nine hundred sixty one"),
   (t!"MCMLXII", t!"one thousand, nine hundred sixty two"),
   (t!"MCMLXIII", t!"one thousand, nine hundred sixty three"),
   (t!"MCMLXIV", t!"one thousand, nine hundred sixty four"),
   (t!"MCMLXV", t!"one thousand, nine hundred sixty five"),
   (t!"MCMLXVI", t!"one thousand, nine hundred sixty six"),
   (t!"MCMLXVII", t!"one thousand, nine hundred sixty seven"),
   (t!"MCMLXVIII", t!"one thousand, nine hundred sixty eight"),
   (t!"MCMLXIX", t!"one thousand, nine hundred sixty nine"),
   (t!"MCMLXX", t!"one thousand, nine hundred seventy"),
   (t!"MCMLXXI", t!"one thousand, nine hundred seventy one"),
   (t!"MCMLXXII", t!"one thousand, nine hundred seventy two"),
   (t!"MCMLXXIII", t!"one thousand, nine hundred seventy three"),
   (t!"MCMLXXIV", t!"one thousand, nine hundred seventy four"),
   (t!"MCMLXXV", t!"one thousand, nine hundred seventy five"),
   (t!"MCMLXXVI", t!"one thousand, nine hundred seventy six"),
   (t!"MCMLXXVII", t!"one thousand, nine hundred seventy seven"),
   (t!"MCMLXXVIII", t!"one thousand, nine hundred seventy eight"),
   (t!"MCMLXXIX", t!"one thousand, nine hundred seventy nine"),
   (t!"MCMLXXX", t!"one thousand, nine hundred eighty"),
   (t!"MCMLXXXI", t!"one thousand, nine hundred eighty one"),
   (t!"MCMLXXXII", t!"one thousand, nine hundred eighty two"),
   (t!"MCMLXXXIII", t!"one thousand, nine hundred eighty three"),
   (t!"MCMLXXXIV", t!"one thousand, nine hundred eighty four")]

/-- `roman/roman_to_spoken.tsv`, part 31. -/
def romanToSpoken31 : List (Str × Str) :=
  [(t!"MCMLXXXV", t!"one thousand, nine hundred eighty five"),
   (t!"MCMLXXXVI", t!"one thousand, nine hundred eighty six"),
   (t!"MCMLXXXVII", t!"one thousand, nine hundred eighty seven"),
   (t!"MCMLXXXVIII", t!"one thousand, nine hundred eighty eight"),
   (t!"MCMLXXXIX", t!"one thousand, nine hundred eighty nine"),
   (t!"MCMXC", t!"one thousand, nine hundred ninety"),
   (t!"MCMXCI", t!"one thousand, nine hundred ninety one"),
   (t!"MCMXCII", t!"one thousand, nine hundred ninety two"),
   (t!"MCMXCIII", t!"one thousand, nine hundred ninety three"),
   (t!"MCMXCIV", t!"one thousand, nine hundred ninety four"),
   (t!"MCMXCV", t!"one thousand, nine hundred ninety five"),
   (t!"MCMXCVI", t!"one thousand, nine hundred ninety six"),
   (t!"MCMXCVII", t!"one thousand, nine hundred ninety seven"),
   (t!"MCMXCVIII", t!"one thousand, nine hundred ninety eight"),
   (t!"MCMXCIX", t!"one thousand, nine hundred ninety nine"), (t!"MM", t!"two thousand")]

/-- `roman/roman_to_spoken.tsv`. -/
def romanToSpoken : List (Str × Str) :=
  romanToSpoken0 ++
  romanToSpoken1 ++
  romanToSpoken2 ++
  romanToSpoken3 ++
  romanToSpoken4 ++
  romanToSpoken5 ++
  romanToSpoken6 ++
  romanToSpoken7 ++
  romanToSpoken8 ++
  romanToSpoken9 ++
  romanToSpoken10 ++
  romanToSpoken11 ++
  romanToSpoken12 ++
  romanToSpoken13 ++
  romanToSpoken14 ++
  romanToSpoken15 ++
  romanToSpoken16 ++
  romanToSpoken17 ++
  romanToSpoken18 ++
  romanToSpoken19 ++
  romanToSpoken20 ++
  romanToSpoken21 ++
  romanToSpoken22 ++
  romanToSpoken23 ++
  romanToSpoken24 ++
  romanToSpoken25 ++
  romanToSpoken26 ++
  romanToSpoken27 ++
  romanToSpoken28 ++
  romanToSpoken29 ++
  romanToSpoken30 ++
  romanToSpoken31

/-- `roman/key_word.tsv`. -/
def romanKeyWord : List (Str × Str) :=
  [(t!"chapter", t!"chapter"), (t!"class", t!"class"), (t!"part", t!"part"),
   (t!"article", t!"article"), (t!"section", t!"section"), (t!"paragraph", t!"paragraph")]

end Verif.EnTn
