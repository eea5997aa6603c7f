import Verif.Wfst.Processor

/-
Data tables of /repo/tn/english/data, written by tools/mkdata.py from the .tsv files.
-/

namespace Verif.EnTn

open Verif.Wfst

/-- `number/digit.tsv`. -/
def digit : List (Str × Str) :=
  [(t!"one", t!"1"), (t!"two", t!"2"), (t!"three", t!"3"), (t!"four", t!"4"),
   (t!"five", t!"5"), (t!"six", t!"6"), (t!"seven", t!"7"), (t!"eight", t!"8"),
   (t!"nine", t!"9")]

/-- `number/zero.tsv`. -/
def zero : List (Str × Str) :=
  [(t!"zero", t!"0")]

/-- `number/teen.tsv`. -/
def teen : List (Str × Str) :=
  [(t!"ten", t!"10"), (t!"eleven", t!"11"), (t!"twelve", t!"12"), (t!"thirteen", t!"13"),
   (t!"fourteen", t!"14"), (t!"fifteen", t!"15"), (t!"sixteen", t!"16"),
   (t!"seventeen", t!"17"), (t!"eighteen", t!"18"), (t!"nineteen", t!"19")]

/-- `number/ty.tsv`. -/
def ty : List (Str × Str) :=
  [(t!"twenty", t!"2"), (t!"thirty", t!"3"), (t!"forty", t!"4"), (t!"fifty", t!"5"),
   (t!"sixty", t!"6"), (t!"seventy", t!"7"), (t!"eighty", t!"8"), (t!"ninety", t!"9")]

/-- `number/thousand.tsv`. -/
def thousands : List (Str × Str) :=
  [(t!"thousand", t!"thousand"), (t!"million", t!"million"), (t!"billion", t!"billion"),
   (t!"trillion", t!"trillion"), (t!"quadrillion", t!"quadrillion"),
   (t!"quintillion", t!"quintillion"), (t!"sextillion", t!"sextillion"),
   (t!"septillion", t!"septillion"), (t!"octillion", t!"octillion"),
   (t!"nonillion", t!"nonillion"), (t!"decillion", t!"decillion"),
   (t!"undecillion", t!"undecillion"), (t!"duodecillion", t!"duodecillion"),
   (t!"tredecillion", t!"tredecillion"), (t!"quattuordecillion", t!"quattuordecillion"),
   (t!"quindecillion", t!"quindecillion"), (t!"sexdecillion", t!"sexdecillion"),
   (t!"septendecillion", t!"septendecillion"), (t!"octodecillion", t!"octodecillion"),
   (t!"novemdecillion", t!"novemdecillion"), (t!"vigintillion", t!"vigintillion"),
   (t!"centillion", t!"centillion")]

/-- `number/quantity_abbr.tsv`. -/
def quantityAbbr : List (Str × Str) :=
  [(t!"M", t!"million"), (t!"MLN", t!"million"), (t!"m", t!"million"), (t!"mln", t!"million"),
   (t!"B", t!"billion"), (t!"b", t!"billion"), (t!"BN", t!"billion"), (t!"bn", t!"billion"),
   (t!"K", t!"thousand"), (t!"k", t!"thousand")]

/-- `number/fraction.tsv`. -/
def fractions : List (Str × Str) :=
  [(t!"¼", t!"1/4"), (t!"½", t!"1/2"), (t!"¾", t!"3/4"), (t!"⅐", t!"1/7"), (t!"⅑", t!"1/9"),
   (t!"⅒", t!"1/10"), (t!"⅓", t!"1/3"), (t!"⅔", t!"2/3"), (t!"⅕", t!"1/5"), (t!"⅖", t!"2/5"),
   (t!"⅗", t!"3/5"), (t!"⅘", t!"4/5"), (t!"⅙", t!"1/6"), (t!"⅚", t!"5/6"), (t!"⅛", t!"1/8"),
   (t!"⅜", t!"3/8"), (t!"⅝", t!"5/8"), (t!"⅞", t!"7/8")]

/-- `ordinal/digit.tsv`. -/
def ordDigit : List (Str × Str) :=
  [(t!"first", t!"one"), (t!"second", t!"two"), (t!"third", t!"three"), (t!"fourth", t!"four"),
   (t!"fifth", t!"five"), (t!"sixth", t!"six"), (t!"seventh", t!"seven"),
   (t!"eighth", t!"eight"), (t!"ninth", t!"nine")]

/-- `ordinal/teen.tsv`. -/
def ordTeen : List (Str × Str) :=
  [(t!"twelfth", t!"twelve")]

/-- `date/month_name.tsv`. -/
def monthName : List (Str × Str) :=
  [(t!"january", t!"january"), (t!"february", t!"february"), (t!"march", t!"march"),
   (t!"april", t!"april"), (t!"may", t!"may"), (t!"june", t!"june"), (t!"july", t!"july"),
   (t!"august", t!"august"), (t!"september", t!"september"), (t!"october", t!"october"),
   (t!"november", t!"november"), (t!"december", t!"december"), (t!"January", t!"january"),
   (t!"JANUARY", t!"january"), (t!"February", t!"february"), (t!"FEBRUARY", t!"february"),
   (t!"March", t!"march"), (t!"MARCH", t!"march"), (t!"April", t!"april"),
   (t!"APRIL", t!"april"), (t!"June", t!"june"), (t!"JUNE", t!"june"), (t!"July", t!"july"),
   (t!"JULY", t!"july"), (t!"August", t!"august"), (t!"AUGUST", t!"august"),
   (t!"September", t!"september"), (t!"SEPTEMBER", t!"september"), (t!"October", t!"october"),
   (t!"OCTOBER", t!"october"), (t!"November", t!"november"), (t!"NOVEMBER", t!"november"),
   (t!"December", t!"december"), (t!"DECEMBER", t!"december")]

/-- `date/month_abbr.tsv`. -/
def monthAbbr : List (Str × Str) :=
  [(t!"jan", t!"january"), (t!"Jan", t!"january"), (t!"JAN", t!"january"),
   (t!"feb", t!"february"), (t!"Feb", t!"february"), (t!"FEB", t!"february"),
   (t!"mar", t!"march"), (t!"Mar", t!"march"), (t!"MAR", t!"march"), (t!"apr", t!"april"),
   (t!"Apr", t!"april"), (t!"APR", t!"april"), (t!"jun", t!"june"), (t!"Jun", t!"june"),
   (t!"JUN", t!"june"), (t!"jul", t!"july"), (t!"Jul", t!"july"), (t!"JUL", t!"july"),
   (t!"aug", t!"august"), (t!"Aug", t!"august"), (t!"AUG", t!"august"),
   (t!"sep", t!"september"), (t!"Sep", t!"september"), (t!"SEP", t!"september"),
   (t!"sept", t!"september"), (t!"Sept", t!"september"), (t!"SEPT", t!"september"),
   (t!"oct", t!"october"), (t!"Oct", t!"october"), (t!"OCT", t!"october"),
   (t!"nov", t!"november"), (t!"Nov", t!"november"), (t!"NOV", t!"november"),
   (t!"dec", t!"december"), (t!"Dec", t!"december"), (t!"DEC", t!"december")]

/-- `date/month_number.tsv`. -/
def monthNumber : List (Str × Str) :=
  [(t!"1", t!"january"), (t!"2", t!"february"), (t!"3", t!"march"), (t!"4", t!"april"),
   (t!"5", t!"may"), (t!"6", t!"june"), (t!"7", t!"july"), (t!"8", t!"august"),
   (t!"9", t!"september"), (t!"10", t!"october"), (t!"11", t!"november"),
   (t!"12", t!"december"), (t!"01", t!"january"), (t!"02", t!"february"), (t!"03", t!"march"),
   (t!"04", t!"april"), (t!"05", t!"may"), (t!"06", t!"june"), (t!"07", t!"july"),
   (t!"08", t!"august"), (t!"09", t!"september"), (t!"10", t!"october"),
   (t!"11", t!"november"), (t!"12", t!"december")]

/-- `date/week.tsv`. -/
def week : List (Str × Str) :=
  [(t!"Mon", t!"Monday"), (t!"Mon.", t!"Monday"), (t!"Tu", t!"Tuesday"),
   (t!"Tu.", t!"Tuesday"), (t!"Wed", t!"Wednesday"), (t!"Wed.", t!"Wednesday"),
   (t!"Th", t!"Thursday"), (t!"Th.", t!"Thursday"), (t!"Thur", t!"Thursday"),
   (t!"Thur.", t!"Thursday"), (t!"Thurs", t!"Thursday"), (t!"Thurs.", t!"Thursday"),
   (t!"Fri", t!"Friday"), (t!"Fri.", t!"Friday"), (t!"Sat", t!"Saturday"),
   (t!"Sat.", t!"Saturday"), (t!"Sun", t!"Sunday"), (t!"Sun.", t!"Sunday")]

/-- `date/year_suffix.tsv`. -/
def yearSuffix : List (Str × Str) :=
  [(t!"A. D", t!"AD"), (t!"A.D", t!"AD"), (t!"a. d", t!"AD"), (t!"a.d", t!"AD"),
   (t!"a. d.", t!"AD"), (t!"a.d.", t!"AD"), (t!"B. C", t!"BC"), (t!"B.C", t!"BC"),
   (t!"b. c", t!"BC"), (t!"b.c", t!"BC"), (t!"A. D.", t!"AD"), (t!"A.D.", t!"AD"),
   (t!"B. C.", t!"BC"), (t!"B.C.", t!"BC"), (t!"b. c.", t!"BC"), (t!"b.c.", t!"BC")]

/-- `time/suffix.tsv`. -/
def timeSuffix : List (Str × Str) :=
  [(t!"p.m.", t!"PM"), (t!"p.m", t!"PM"), (t!"pm", t!"PM"), (t!"P.M.", t!"PM"),
   (t!"P.M", t!"PM"), (t!"PM", t!"PM"), (t!"a.m.", t!"AM"), (t!"a.m", t!"AM"),
   (t!"am", t!"AM"), (t!"A.M.", t!"AM"), (t!"A.M", t!"AM"), (t!"AM", t!"AM")]

/-- `time/zone.tsv`. -/
def timeZone : List (Str × Str) :=
  [(t!"cst", t!"CST"), (t!"c.s.t", t!"CST"), (t!"cet", t!"CET"), (t!"c.e.t", t!"CET"),
   (t!"pst", t!"PST"), (t!"p.s.t", t!"PST"), (t!"est", t!"EST"), (t!"e.s.t", t!"EST"),
   (t!"pt", t!"PT"), (t!"p.t", t!"PT"), (t!"et", t!"ET"), (t!"e.t", t!"ET"),
   (t!"gmt", t!"GMT"), (t!"g.m.t", t!"GMT")]

/-- `measure/unit.tsv`, part 0. -/
def unit0 : List (Str × Str) :=
  [(t!"amu", t!"atomic mass unit"), (t!"bar", t!"bar"), (t!"°", t!"degree"),
   (t!"º", t!"degree"), (t!"°c", t!"degree Celsius"), (t!"°C", t!"degree Celsius"),
   (t!"ºc", t!"degree Celsius"), (t!"ºC", t!"degree Celsius"), (t!"℃", t!"degree Celsius"),
   (t!"cm2", t!"square centimeter"), (t!"cm²", t!"square centimeter"),
   (t!"cm3", t!"cubic centimeter"), (t!"cm³", t!"cubic centimeter"), (t!"cm", t!"centimeter"),
   (t!"cwt", t!"hundredweight"), (t!"db", t!"decibel"), (t!"dm3", t!"cubic decimeter"),
   (t!"dm³", t!"cubic decimeter"), (t!"dm", t!"decimeter"), (t!"ds", t!"decisecond"),
   (t!"°f", t!"degree Fahrenheit"), (t!"°F", t!"degree Fahrenheit"),
   (t!"℉", t!"degree Fahrenheit"), (t!"ft", t!"foot"), (t!"ghz", t!"gigahertz"),
   (t!"gw", t!"gigawatt"), (t!"gwh", t!"gigawatt hour"), (t!"hz", t!"hertz"),
   (t!"kbps", t!"kilobit per second"), (t!"kcal", t!"kilo calory"),
   (t!"kgf", t!"kilogram force"), (t!"kg", t!"kilogram"), (t!"khz", t!"kilohertz"),
   (t!"km2", t!"square kilometer"), (t!"km²", t!"square kilometer"),
   (t!"km3", t!"cubic kilometer"), (t!"km³", t!"cubic kilometer"), (t!"km", t!"kilometer"),
   (t!"kpa", t!"kilopascal"), (t!"kwh", t!"kilowatt hour"), (t!"kw", t!"kilowatt"),
   (t!"kW", t!"kilowatt"), (t!"lb", t!"pound"), (t!"lbs", t!"pound"),
   (t!"m2", t!"square meter"), (t!"m²", t!"square meter"), (t!"m3", t!"cubic meter"),
   (t!"m³", t!"cubic meter"), (t!"mbps", t!"megabit per second"), (t!"mg", t!"milligram"),
   (t!"mhz", t!"megahertz"), (t!"mi2", t!"square mile"), (t!"mi²", t!"square mile"),
   (t!"mi3", t!"cubic mile"), (t!"mi³", t!"cubic mile"), (t!"cu mi", t!"cubic mile"),
   (t!"mi", t!"mile"), (t!"min", t!"minute"), (t!"ml", t!"milliliter"),
   (t!"mm2", t!"square millimeter"), (t!"mm²", t!"square millimeter"), (t!"mol", t!"mole"),
   (t!"mpa", t!"megapascal"), (t!"mph", t!"mile per hour")]

/-- `measure/unit.tsv`, part 1. -/
def unit1 : List (Str × Str) :=
  [(t!"ng", t!"nanogram"), (t!"nm", t!"nanometer"), (t!"ns", t!"nanosecond"),
   (t!"oz", t!"ounce"), (t!"pa", t!"pascal"), (t!"%", t!"percent"), (t!"rad", t!"radian"),
   (t!"rpm", t!"revolution per minute"), (t!"sq ft", t!"square foot"),
   (t!"sq mi", t!"square mile"), (t!"sv", t!"sievert"), (t!"tb", t!"terabyte"),
   (t!"tj", t!"terajoule"), (t!"tl", t!"teraliter"), (t!"v", t!"volt"), (t!"yd", t!"yard"),
   (t!"μg", t!"microgram"), (t!"μm", t!"micrometer"), (t!"μs", t!"microsecond"),
   (t!"ω", t!"ohm"), (t!"atm", t!"ATM"), (t!"au", t!"AU"), (t!"bq", t!"BQ"), (t!"cc", t!"CC"),
   (t!"cd", t!"CD"), (t!"da", t!"DA"), (t!"eb", t!"EB"), (t!"ev", t!"EV"), (t!"f", t!"F"),
   (t!"gb", t!"GB"), (t!"g", t!"G"), (t!"gl", t!"GL"), (t!"gpa", t!"GPA"), (t!"gy", t!"GY"),
   (t!"ha", t!"HA"), (t!"h", t!"H"), (t!"hl", t!"HL"), (t!"hp", t!"GP"), (t!"hs", t!"HS"),
   (t!"kb", t!"KB"), (t!"kl", t!"KL"), (t!"kn", t!"KN"), (t!"kt", t!"KT"), (t!"kv", t!"KV"),
   (t!"lm", t!"LM"), (t!"ma", t!"MA"), (t!"mA", t!"MA"), (t!"mb", t!"MB"), (t!"mc", t!"MC"),
   (t!"mf", t!"MF"), (t!"m", t!"M"), (t!"mm", t!"MM"), (t!"ms", t!"MS"), (t!"mv", t!"MV"),
   (t!"mw", t!"MW"), (t!"pb", t!"PB"), (t!"pg", t!"PG"), (t!"ps", t!"PS"), (t!"s", t!"S"),
   (t!"tb", t!"TB"), (t!"tb", t!"YB"), (t!"zb", t!"ZB")]

/-- `measure/unit.tsv`. -/
def unit : List (Str × Str) :=
  unit0 ++
  unit1

/-- `measure/unit_alternatives.tsv`. -/
def unitAlternatives : List (Str × Str) :=
  [(t!"atm", t!"atmosphere"), (t!"bq", t!"becquerel"), (t!"cd", t!"candela"),
   (t!"da", t!"dalton"), (t!"eb", t!"exabyte"), (t!"gb", t!"gigabyte"), (t!"g", t!"gram"),
   (t!"gl", t!"gigaliter"), (t!"ha", t!"hectare"), (t!"h", t!"hour"), (t!"hl", t!"hectoliter"),
   (t!"hp", t!"horsepower"), (t!"hp", t!"horsepower"), (t!"kb", t!"kilobit"),
   (t!"kb", t!"kilobyte"), (t!"ma", t!"megaampere"), (t!"mA", t!"megaampere"),
   (t!"ma", t!"milliampere"), (t!"mA", t!"milliampere"), (t!"mb", t!"megabyte"),
   (t!"mc", t!"megacoulomb"), (t!"mf", t!"megafarad"), (t!"m", t!"meter"), (t!"m", t!"minute"),
   (t!"mm", t!"millimeter"), (t!"mm", t!"millimeter"), (t!"mm", t!"millimeter"),
   (t!"ms", t!"megasecond"), (t!"ms", t!"mega siemens"), (t!"ms", t!"millisecond"),
   (t!"mv", t!"millivolt"), (t!"mV", t!"millivolt"), (t!"mw", t!"megawatt"),
   (t!"mW", t!"megawatt"), (t!"pb", t!"petabyte"), (t!"pg", t!"petagram"),
   (t!"ps", t!"petasecond"), (t!"s", t!"second"), (t!"tb", t!"terabyte"),
   (t!"tb", t!"terabyte"), (t!"yb", t!"yottabyte"), (t!"zb", t!"zettabyte")]

/-- `measure/math_operation.tsv`. -/
def mathOperation : List (Str × Str) :=
  [(t!"+", t!"plus"), (t!"-", t!"minus"), (t!"/", t!"divided"), (t!"÷", t!"divided"),
   (t!":", t!"divided"), (t!"×", t!"times"), (t!"*", t!"times"), (t!"·", t!"times")]

/-- `address/address_word.tsv`. -/
def addressWord : List (Str × Str) :=
  [(t!"st", t!"Street"), (t!"street", t!"Street"), (t!"expy", t!"Expressway"),
   (t!"fwy", t!"Freeway"), (t!"hwy", t!"Highway"), (t!"dr", t!"Drive"), (t!"ct", t!"Court"),
   (t!"ave", t!"Avenue"), (t!"av", t!"Avenue"), (t!"cir", t!"Circle"),
   (t!"blvd", t!"Boulevard"), (t!"alley", t!"Alley"), (t!"way", t!"Way"),
   (t!"jct", t!"Junction")]

/-- `address/state.tsv`. -/
def state : List (Str × Str) :=
  [(t!"Alabama", t!"AL"), (t!"Alaska", t!"AK"), (t!"Arizona", t!"AZ"), (t!"Arkansas", t!"AR"),
   (t!"California", t!"CA"), (t!"Colorado", t!"CO"), (t!"Connecticut", t!"CT"),
   (t!"Delaware", t!"DE"), (t!"Florida", t!"FL"), (t!"Georgia", t!"GA"), (t!"Hawaii", t!"HI"),
   (t!"Idaho", t!"ID"), (t!"Illinois", t!"IL"), (t!"Indiana", t!"IND"), (t!"Iowa", t!"IA"),
   (t!"Kansas", t!"KS"), (t!"Kentucky", t!"KY"), (t!"Louisiana", t!"LA"), (t!"Maine", t!"ME"),
   (t!"Maryland", t!"MD"), (t!"Massachusetts", t!"MA"), (t!"Michigan", t!"MI"),
   (t!"Minnesota", t!"MN"), (t!"Mississippi", t!"MS"), (t!"Missouri", t!"MO"),
   (t!"Montana", t!"MT"), (t!"Nebraska", t!"NE"), (t!"Nevada", t!"NV"),
   (t!"New Hampshire", t!"NH"), (t!"New Jersey", t!"NJ"), (t!"New Mexico", t!"NM"),
   (t!"New York", t!"NY"), (t!"North Carolina", t!"NC"), (t!"North Dakota", t!"ND"),
   (t!"Oregon", t!"OR"), (t!"Pennsylvania", t!"PA"), (t!"Rhode Island", t!"RI"),
   (t!"South Carolina", t!"SC"), (t!"South Dakota", t!"SD"), (t!"Tennessee", t!"TN"),
   (t!"Tennessee", t!"TENN"), (t!"Texas", t!"TX"), (t!"Utah", t!"UT"), (t!"Vermont", t!"VT"),
   (t!"Virginia", t!"VA"), (t!"Washington", t!"WA"), (t!"West Virginia", t!"WV"),
   (t!"Wisconsin", t!"WI"), (t!"Wyoming", t!"WY")]

/-- `suppletive.tsv`, part 0. -/
def suppletive0 : List (Str × Str) :=
  [(t!"deer", t!"deer"), (t!"fish", t!"fish"), (t!"sheep", t!"sheep"), (t!"foot", t!"feet"),
   (t!"goose", t!"geese"), (t!"man", t!"men"), (t!"mouse", t!"mice"), (t!"tooth", t!"teeth"),
   (t!"woman", t!"women"), (t!"won", t!"won"), (t!"child", t!"children"), (t!"ox", t!"oxen"),
   (t!"wife", t!"wives"), (t!"wolf", t!"wolves"), (t!"analysis", t!"analyses"),
   (t!"criterion", t!"criteria"), (t!"lbs", t!"lbs"), (t!"focus", t!"foci"),
   (t!"percent", t!"percent"), (t!"hertz", t!"hertz"), (t!"kroner", t!"krone"),
   (t!"inch", t!"inches"), (t!"calory", t!"calories"), (t!"yen", t!"yen"),
   (t!"megahertz", t!"megahertz"), (t!"gigahertz", t!"gigahertz"),
   (t!"kilohertz", t!"kilohertz"), (t!"hertz", t!"hertz"), (t!"CC", t!"CC"),
   (t!"c c", t!"c c"), (t!"horsepower", t!"horsepower"),
   (t!"hundredweight", t!"hundredweight"), (t!"kilogram force", t!"kilograms force"),
   (t!"mega siemens", t!"mega siemens"),
   (t!"revolution per minute", t!"revolutions per minute"),
   (t!"mile per hour", t!"miles per hour"), (t!"megabit per second", t!"megabits per second"),
   (t!"square foot", t!"square feet"), (t!"centimeter per second", t!"centimeters per second"),
   (t!"meter per second", t!"meters per second"),
   (t!"kilometer per second", t!"kilometers per second"),
   (t!"meter per hour", t!"meters per hour"), (t!"bit per second", t!"bits per second"),
   (t!"kilometer per hour", t!"kilometers per hour"),
   (t!"kilobit per second", t!"kilobits per second"),
   (t!"kilo bit per second", t!"kilo bits per second"),
   (t!"megabit per second", t!"megabits per second"),
   (t!"mega bit per second", t!"mega bits per second"),
   (t!"gigabit per second", t!"gigabits per second"),
   (t!"giga bit per second", t!"giga bits per second"),
   (t!"terabit per second", t!"terabits per second"),
   (t!"tera bit per second", t!"tera bits per second"),
   (t!"petabit per second", t!"petabits per second"),
   (t!"peta bit per second", t!"peta bits per second"),
   (t!"byte per second", t!"bytes per second"),
   (t!"kilobyte per second", t!"kilobytes per second"),
   (t!"kilo byte per second", t!"kilo bytes per second"),
   (t!"megabyte per second", t!"megabytes  per second"),
   (t!"mega byte per second", t!"mega bytes  per second"),
   (t!"gigabyte per second", t!"gigabytes per second"),
   (t!"giga byte per second", t!"giga bytes per second"),
   (t!"terabyte per second", t!"terabytes per second"),
   (t!"tera byte per second", t!"tera bytes per second"),
   (t!"petabyte per second", t!"petabytes per second")]

/-- `suppletive.tsv`, part 1. -/
def suppletive1 : List (Str × Str) :=
  [(t!"peta byte per second", t!"peta bytes per second"),
   (t!"degree Celsius", t!"degrees Celsius"), (t!"degree Fahrenheit", t!"degrees Fahrenheit"),
   (t!"degree celsius", t!"degrees celsius"), (t!"degree fahrenheit", t!"degrees fahrenheit"),
   (t!"kelvin", t!"kelvin"), (t!"ATM", t!"ATM"), (t!"AU", t!"AU"), (t!"BQ", t!"BQ"),
   (t!"CC", t!"CC"), (t!"CD", t!"CD"), (t!"DA", t!"DA"), (t!"EB", t!"EB"), (t!"EV", t!"EV"),
   (t!"F", t!"F"), (t!"GB", t!"GB"), (t!"G", t!"G"), (t!"GL", t!"GL"), (t!"GPA", t!"GPA"),
   (t!"GY", t!"GY"), (t!"HA", t!"HA"), (t!"H", t!"H"), (t!"HL", t!"HL"), (t!"GP", t!"GP"),
   (t!"HS", t!"HS"), (t!"KB", t!"KB"), (t!"KL", t!"KL"), (t!"KN", t!"KN"), (t!"KT", t!"KT"),
   (t!"KV", t!"KV"), (t!"LM", t!"LM"), (t!"MA", t!"MA"), (t!"MA", t!"MA"), (t!"MB", t!"MB"),
   (t!"MC", t!"MC"), (t!"MF", t!"MF"), (t!"M", t!"M"), (t!"MM", t!"MM"), (t!"MS", t!"MS"),
   (t!"MV", t!"MV"), (t!"MW", t!"MW"), (t!"PB", t!"PB"), (t!"PG", t!"PG"), (t!"PS", t!"PS"),
   (t!"S", t!"S"), (t!"TB", t!"TB"), (t!"YB", t!"YB"), (t!"ZB", t!"ZB")]

/-- `suppletive.tsv`. -/
def suppletive : List (Str × Str) :=
  suppletive0 ++
  suppletive1

/-- `money/currency_major.tsv`. -/
def currencyMajor : List (Str × Str) :=
  [(t!"$", t!"dollar"), (t!"$", t!"us dollar"), (t!"US$", t!"us dollar"),
   (t!"฿", t!"Thai Baht"), (t!"£", t!"pound"), (t!"€", t!"euro"), (t!"₩", t!"won"),
   (t!"nzd", t!"new zealand dollar"), (t!"rs", t!"rupee"), (t!"chf", t!"swiss franc"),
   (t!"dkk", t!"danish kroner"), (t!"fim", t!"finnish markka"),
   (t!"aed", t!"arab emirates dirham"), (t!"¥", t!"yen"), (t!"czk", t!"czech koruna"),
   (t!"mro", t!"mauritanian ouguiya"), (t!"pkr", t!"pakistani rupee"),
   (t!"crc", t!"costa rican colon"), (t!"hk$", t!"hong kong dollar"),
   (t!"npr", t!"nepalese rupee"), (t!"awg", t!"aruban florin"),
   (t!"nok", t!"norwegian kroner"), (t!"tzs", t!"tanzanian shilling"),
   (t!"sek", t!"swedish kronor"), (t!"cyp", t!"cypriot pound"), (t!"r", t!"real"),
   (t!"sar", t!"saudi riyal"), (t!"cve", t!"cape verde escudo"), (t!"rsd", t!"serbian dinar"),
   (t!"dm", t!"german mark"), (t!"shp", t!"saint helena pounds"),
   (t!"php", t!"philippine peso"), (t!"cad", t!"canadian dollar"),
   (t!"ssp", t!"south sudanese pound"), (t!"scr", t!"seychelles rupee"),
   (t!"mvr", t!"maldivian rufiyaa"), (t!"DH", t!"dirham"), (t!"Dh", t!"dirham"),
   (t!"Dhs.", t!"dirham")]

/-- `telephone/telephone_prompt.tsv`. -/
def telephonePrompt : List (Str × Str) :=
  [(t!"call me at", t!"call me at"), (t!"reach at", t!"reach at"),
   (t!"reached at", t!"reached at"), (t!"my number is", t!"my number is"),
   (t!"hit me up at", t!"hit me up at")]

/-- `telephone/ip_prompt.tsv`. -/
def ipPrompt : List (Str × Str) :=
  [(t!"IP address is", t!"IP address is"), (t!"IP is", t!"IP is")]

/-- `telephone/ssn_prompt.tsv`. -/
def ssnPrompt : List (Str × Str) :=
  [(t!"ssn is", t!"SSN is"), (t!"ssn is", t!"SSN is"), (t!"SSN is", t!"SSN is"),
   (t!"SSN", t!"SSN")]

/-- `electronic/domain.tsv`. -/
def domainTable : List (Str × Str) :=
  [(t!".com", t!"dot com"), (t!".org", t!"dot org"), (t!".gov", t!"dot gov"),
   (t!".uk", t!"dot UK"), (t!".fr", t!"dot FR"), (t!".net", t!"dot net"),
   (t!".br", t!"dot BR"), (t!".in", t!"dot IN"), (t!".ru", t!"dot RU"), (t!".de", t!"dot DE"),
   (t!".it", t!"dot IT"), (t!".jpg", t!"dot jpeg")]

/-- `electronic/symbol.tsv`. -/
def elSymbol : List (Str × Str) :=
  [(t!".", t!"dot"), (t!"-", t!"dash"), (t!"_", t!"underscore"), (t!"!", t!"exclamation mark"),
   (t!"#", t!"number sign"), (t!"$", t!"dollar sign"), (t!"%", t!"percent"),
   (t!"&", t!"ampersand"), (t!"'", t!"quote"), (t!"*", t!"asterisk"), (t!"+", t!"plus"),
   (t!"/", t!"slash"), (t!"=", t!"equal sign"), (t!"?", t!"question mark"),
   (t!"^", t!"circumflex"), (t!"`", t!"right single quote"), (t!"|", t!"vertical bar"),
   (t!"~", t!"tilde"), (t!",", t!"comma")]

/-- `electronic/words.tsv`. -/
def words : List (Str × Str) :=
  [(t!"drive", t!"drive"), (t!"sim", t!"sim"), (t!"early", t!"early"),
   (t!"access", t!"access"), (t!"program", t!"program"), (t!"rtx", t!"RTX"),
   (t!"developer", t!"developer"), (t!"basepod", t!"BASEPOD"), (t!"cuda", t!"CUDA"),
   (t!"cv", t!"cv"), (t!"enterprise", t!"enterprise"), (t!"services", t!"services"),
   (t!"nvidia", t!"NVIDIA"), (t!"dgx", t!"DGX"), (t!"pro", t!"pro"), (t!"help", t!"help")]

/-- `whitelist/symbol.tsv`. -/
def symbol : List (Str × Str) :=
  [(t!"&", t!"and"), (t!"#", t!"hash"), (t!"@", t!"at"), (t!"§", t!"section"),
   (t!"™", t!"trademark"), (t!"®", t!"registered trademark"), (t!"©", t!"copyright"),
   (t!"_", t!"underscore"), (t!"%", t!"percent"), (t!"*", t!"asterisk"), (t!"+", t!"plus"),
   (t!"/", t!"slash"), (t!"=", t!"equal sign"), (t!"^", t!"circumflex"),
   (t!"|", t!"vertical bar"), (t!"~", t!"tilde"), (t!"$", t!"dollar"), (t!"£", t!"pound"),
   (t!"€", t!"euro"), (t!"₩", t!"won"), (t!"¥", t!"yen"), (t!"°", t!"degree"),
   (t!"º", t!"degree")]

/-- `whitelist/alternatives.tsv`. -/
def alternatives : List (Str × Str) :=
  [(t!"Hon.", t!"Honorable"), (t!"Mr.", t!"Mister"), (t!"Mrs.", t!"Misses"),
   (t!"Ms.", t!"Miss"), (t!"Mr", t!"Mister"), (t!"Mrs", t!"Misses"), (t!"Ms", t!"Miss"),
   (t!"&Co.", t!"and Co."), (t!"&Co.", t!"and Company"), (t!"Mon", t!"Monday"),
   (t!"Tu", t!"Tuesday"), (t!"Wed", t!"Wednesday"), (t!"Th", t!"Thursday"),
   (t!"Thur", t!"Thursday"), (t!"Thurs", t!"Thursday"), (t!"Fri", t!"Friday"),
   (t!"Sat", t!"Saturday"), (t!"Sun", t!"Sunday"), (t!"=", t!"equals"), (t!"#", t!"number"),
   (t!"No.", t!"number"), (t!"NO.", t!"number"), (t!"NO.", t!"number"), (t!"No.", t!"number"),
   (t!"VOL.", t!"Volume"), (t!"Vol.", t!"Volume"), (t!"TV", t!"Television")]

end Verif.EnTn
