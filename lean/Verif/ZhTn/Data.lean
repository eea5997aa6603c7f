import Verif.Wfst.Processor

/-
Data tables of /repo/tn/chinese/data, written by tools/mkdata.py from the .tsv files.
-/

namespace Verif.ZhTn

open Verif.Wfst

/-- `number/digit.tsv`. -/
def digit : List (Str × Str) :=
  [(t!"1", t!"一"), (t!"2", t!"二"), (t!"3", t!"三"), (t!"4", t!"四"), (t!"5", t!"五"),
   (t!"6", t!"六"), (t!"7", t!"七"), (t!"8", t!"八"), (t!"9", t!"九"), (t!"１", t!"一"),
   (t!"２", t!"二"), (t!"３", t!"三"), (t!"４", t!"四"), (t!"５", t!"五"), (t!"６", t!"六"),
   (t!"７", t!"七"), (t!"８", t!"八"), (t!"９", t!"九")]

/-- `number/zero.tsv`. -/
def zero : List (Str × Str) :=
  [(t!"0", t!"零"), (t!"０", t!"零")]

/-- `number/teen.tsv`. -/
def teen : List (Str × Str) :=
  [(t!"1", t!""), (t!"2", t!"二"), (t!"3", t!"三"), (t!"4", t!"四"), (t!"5", t!"五"),
   (t!"6", t!"六"), (t!"7", t!"七"), (t!"8", t!"八"), (t!"9", t!"九"), (t!"１", t!""),
   (t!"２", t!"二"), (t!"３", t!"三"), (t!"４", t!"四"), (t!"５", t!"五"), (t!"６", t!"六"),
   (t!"７", t!"七"), (t!"８", t!"八"), (t!"９", t!"九")]

/-- `number/sign.tsv`. -/
def sign : List (Str × Str) :=
  [(t!"+", t!"正"), (t!"±", t!"正负"), (t!"-", t!"负")]

/-- `number/dot.tsv`. -/
def dot : List (Str × Str) :=
  [(t!".", t!"点")]

/-- `cardinal/phone.tsv`. -/
def phone : List (Str × Str) :=
  [(t!"110", t!"幺幺零"), (t!"111", t!"幺幺幺"), (t!"112", t!"幺幺二"), (t!"114", t!"幺幺四"),
   (t!"119", t!"幺幺九"), (t!"120", t!"幺二零"), (t!"122", t!"幺二二"), (t!"10086", t!"幺零零八六"),
   (t!"10010", t!"幺零零幺零"), (t!"12306", t!"幺二三零六"), (t!"12315", t!"幺二三幺五"),
   (t!"12345", t!"幺二三四五"), (t!"12110", t!"幺二幺幺零"), (t!"12320", t!"幺二三二零"),
   (t!"12366", t!"幺二三六六"), (t!"12333", t!"幺二三三三"), (t!"12328", t!"幺二三二八"),
   (t!"95110", t!"九五幺幺零"), (t!"95120", t!"九五幺二零"), (t!"95188", t!"九五幺八八"),
   (t!"95500", t!"九五五零零"), (t!"95511", t!"九五五幺幺"), (t!"95533", t!"九五五三三"),
   (t!"95555", t!"九五五五五"), (t!"95566", t!"九五五六六"), (t!"95588", t!"九五五八八"),
   (t!"95598", t!"九五五九八"), (t!"95599", t!"九五五九九")]

/-- `date/m.tsv`. -/
def dateM : List (Str × Str) :=
  [(t!"1", t!"一月"), (t!"2", t!"二月"), (t!"3", t!"三月"), (t!"4", t!"四月"), (t!"5", t!"五月"),
   (t!"6", t!"六月"), (t!"7", t!"七月"), (t!"8", t!"八月"), (t!"9", t!"九月"), (t!"10", t!"十月"),
   (t!"11", t!"十一月"), (t!"12", t!"十二月")]

/-- `date/mm.tsv`. -/
def dateMM : List (Str × Str) :=
  [(t!"01", t!"一月"), (t!"02", t!"二月"), (t!"03", t!"三月"), (t!"04", t!"四月"), (t!"05", t!"五月"),
   (t!"06", t!"六月"), (t!"07", t!"七月"), (t!"08", t!"八月"), (t!"09", t!"九月"), (t!"10", t!"十月"),
   (t!"11", t!"十一月"), (t!"12", t!"十二月")]

/-- `date/d.tsv`. -/
def dateD : List (Str × Str) :=
  [(t!"1", t!"一日"), (t!"2", t!"二日"), (t!"3", t!"三日"), (t!"4", t!"四日"), (t!"5", t!"五日"),
   (t!"6", t!"六日"), (t!"7", t!"七日"), (t!"8", t!"八日"), (t!"9", t!"九日"), (t!"10", t!"十日"),
   (t!"11", t!"十一日"), (t!"12", t!"十二日"), (t!"13", t!"十三日"), (t!"14", t!"十四日"),
   (t!"15", t!"十五日"), (t!"16", t!"十六日"), (t!"17", t!"十七日"), (t!"18", t!"十八日"),
   (t!"19", t!"十九日"), (t!"20", t!"二十日"), (t!"21", t!"二十一日"), (t!"22", t!"二十二日"),
   (t!"23", t!"二十三日"), (t!"24", t!"二十四日"), (t!"25", t!"二十五日"), (t!"26", t!"二十六日"),
   (t!"27", t!"二十七日"), (t!"28", t!"二十八日"), (t!"29", t!"二十九日"), (t!"30", t!"三十日"),
   (t!"31", t!"三十一日")]

/-- `date/dd.tsv`. -/
def dateDD : List (Str × Str) :=
  [(t!"01", t!"一日"), (t!"02", t!"二日"), (t!"03", t!"三日"), (t!"04", t!"四日"), (t!"05", t!"五日"),
   (t!"06", t!"六日"), (t!"07", t!"七日"), (t!"08", t!"八日"), (t!"09", t!"九日"), (t!"10", t!"十日"),
   (t!"11", t!"十一日"), (t!"12", t!"十二日"), (t!"13", t!"十三日"), (t!"14", t!"十四日"),
   (t!"15", t!"十五日"), (t!"16", t!"十六日"), (t!"17", t!"十七日"), (t!"18", t!"十八日"),
   (t!"19", t!"十九日"), (t!"20", t!"二十日"), (t!"21", t!"二十一日"), (t!"22", t!"二十二日"),
   (t!"23", t!"二十三日"), (t!"24", t!"二十四日"), (t!"25", t!"二十五日"), (t!"26", t!"二十六日"),
   (t!"27", t!"二十七日"), (t!"28", t!"二十八日"), (t!"29", t!"二十九日"), (t!"30", t!"三十日"),
   (t!"31", t!"三十一日")]

/-- `time/hour.tsv`. -/
def hour : List (Str × Str) :=
  [(t!"1", t!"一点"), (t!"2", t!"两点"), (t!"3", t!"三点"), (t!"4", t!"四点"), (t!"5", t!"五点"),
   (t!"6", t!"六点"), (t!"7", t!"七点"), (t!"8", t!"八点"), (t!"9", t!"九点"), (t!"00", t!"零点"),
   (t!"01", t!"一点"), (t!"02", t!"两点"), (t!"03", t!"三点"), (t!"04", t!"四点"), (t!"05", t!"五点"),
   (t!"06", t!"六点"), (t!"07", t!"七点"), (t!"08", t!"八点"), (t!"09", t!"九点"), (t!"10", t!"十点"),
   (t!"11", t!"十一点"), (t!"12", t!"十二点"), (t!"13", t!"十三点"), (t!"14", t!"十四点"),
   (t!"15", t!"十五点"), (t!"16", t!"十六点"), (t!"17", t!"十七点"), (t!"18", t!"十八点"),
   (t!"19", t!"十九点"), (t!"20", t!"二十点"), (t!"21", t!"二十一点"), (t!"22", t!"二十二点"),
   (t!"23", t!"二十三点"), (t!"24", t!"二十四点")]

/-- `time/minute.tsv`. -/
def minute : List (Str × Str) :=
  [(t!"00", t!""), (t!"01", t!"零一分"), (t!"02", t!"零二分"), (t!"03", t!"零三分"), (t!"04", t!"零四分"),
   (t!"05", t!"零五分"), (t!"06", t!"零六分"), (t!"07", t!"零七分"), (t!"08", t!"零八分"),
   (t!"09", t!"零九分"), (t!"10", t!"十分"), (t!"11", t!"十一分"), (t!"12", t!"十二分"),
   (t!"13", t!"十三分"), (t!"14", t!"十四分"), (t!"15", t!"十五分"), (t!"16", t!"十六分"),
   (t!"17", t!"十七分"), (t!"18", t!"十八分"), (t!"19", t!"十九分"), (t!"20", t!"二十分"),
   (t!"21", t!"二十一分"), (t!"22", t!"二十二分"), (t!"23", t!"二十三分"), (t!"24", t!"二十四分"),
   (t!"25", t!"二十五分"), (t!"26", t!"二十六分"), (t!"27", t!"二十七分"), (t!"28", t!"二十八分"),
   (t!"29", t!"二十九分"), (t!"30", t!"三十分"), (t!"31", t!"三十一分"), (t!"32", t!"三十二分"),
   (t!"33", t!"三十三分"), (t!"34", t!"三十四分"), (t!"35", t!"三十五分"), (t!"36", t!"三十六分"),
   (t!"37", t!"三十七分"), (t!"38", t!"三十八分"), (t!"39", t!"三十九分"), (t!"40", t!"四十分"),
   (t!"41", t!"四十一分"), (t!"42", t!"四十二分"), (t!"43", t!"四十三分"), (t!"44", t!"四十四分"),
   (t!"45", t!"四十五分"), (t!"46", t!"四十六分"), (t!"47", t!"四十七分"), (t!"48", t!"四十八分"),
   (t!"49", t!"四十九分"), (t!"50", t!"五十分"), (t!"51", t!"五十一分"), (t!"52", t!"五十二分"),
   (t!"53", t!"五十三分"), (t!"54", t!"五十四分"), (t!"55", t!"五十五分"), (t!"56", t!"五十六分"),
   (t!"57", t!"五十七分"), (t!"58", t!"五十八分"), (t!"59", t!"五十九分")]

/-- `time/second.tsv`. -/
def second : List (Str × Str) :=
  [(t!"00", t!""), (t!"01", t!"一秒"), (t!"02", t!"二秒"), (t!"03", t!"三秒"), (t!"04", t!"四秒"),
   (t!"05", t!"五秒"), (t!"06", t!"六秒"), (t!"07", t!"七秒"), (t!"08", t!"八秒"), (t!"09", t!"九秒"),
   (t!"10", t!"十秒"), (t!"11", t!"十一秒"), (t!"12", t!"十二秒"), (t!"13", t!"十三秒"),
   (t!"14", t!"十四秒"), (t!"15", t!"十五秒"), (t!"16", t!"十六秒"), (t!"17", t!"十七秒"),
   (t!"18", t!"十八秒"), (t!"19", t!"十九秒"), (t!"20", t!"二十秒"), (t!"21", t!"二十一秒"),
   (t!"22", t!"二十二秒"), (t!"23", t!"二十三秒"), (t!"24", t!"二十四秒"), (t!"25", t!"二十五秒"),
   (t!"26", t!"二十六秒"), (t!"27", t!"二十七秒"), (t!"28", t!"二十八秒"), (t!"29", t!"二十九秒"),
   (t!"30", t!"三十秒"), (t!"31", t!"三十一秒"), (t!"32", t!"三十二秒"), (t!"33", t!"三十三秒"),
   (t!"34", t!"三十四秒"), (t!"35", t!"三十五秒"), (t!"36", t!"三十六秒"), (t!"37", t!"三十七秒"),
   (t!"38", t!"三十八秒"), (t!"39", t!"三十九秒"), (t!"40", t!"四十秒"), (t!"41", t!"四十一秒"),
   (t!"42", t!"四十二秒"), (t!"43", t!"四十三秒"), (t!"44", t!"四十四秒"), (t!"45", t!"四十五秒"),
   (t!"46", t!"四十六秒"), (t!"47", t!"四十七秒"), (t!"48", t!"四十八秒"), (t!"49", t!"四十九秒"),
   (t!"50", t!"五十秒"), (t!"51", t!"五十一秒"), (t!"52", t!"五十二秒"), (t!"53", t!"五十三秒"),
   (t!"54", t!"五十四秒"), (t!"55", t!"五十五秒"), (t!"56", t!"五十六秒"), (t!"57", t!"五十七秒"),
   (t!"58", t!"五十八秒"), (t!"59", t!"五十九秒")]

/-- `time/noon.tsv`. -/
def noon : List (Str × Str) :=
  [(t!"a m", t!"上午"), (t!"a.m.", t!"上午"), (t!"am", t!"上午"), (t!"A M", t!"上午"),
   (t!"AM", t!"上午"), (t!"p m", t!"下午"), (t!"p.m.", t!"下午"), (t!"pm", t!"下午"),
   (t!"P M", t!"下午"), (t!"PM", t!"下午")]

/-- `math/operator.tsv`. -/
def operator : List (Str × Str) :=
  [(t!"×", t!"乘"), (t!"-", t!"减"), (t!"+", t!"加"), (t!"=", t!"等于"), (t!"÷", t!"除"),
   (t!"≥", t!"大于等于"), (t!"≤", t!"小于等于"), (t!">=", t!"大于等于"), (t!"<=", t!"小于等于")]

/-- `math/operator_unambiguous.tsv`. -/
def unambiguousOperator : List (Str × Str) :=
  [(t!"×", t!"乘"), (t!"÷", t!"除"), (t!"≥", t!"大于等于"), (t!"≤", t!"小于等于"), (t!">=", t!"大于等于"),
   (t!"<=", t!"小于等于")]

/-- `measure/units_en.tsv`, part 0. -/
def unitsEn0 : List (Str × Str) :=
  [(t!"amu", t!"原子质量"), (t!"bar", t!"巴"), (t!"cm2", t!"平方厘米"), (t!"cm²", t!"平方厘米"),
   (t!"cm3", t!"立方厘米"), (t!"cm³", t!"立方厘米"), (t!"cm", t!"厘米"), (t!"cwt", t!"美担"),
   (t!"°c", t!"摄氏度"), (t!"°C", t!"摄氏度"), (t!"℃", t!"摄氏度"), (t!"db", t!"分贝"),
   (t!"dm3", t!"立方分米"), (t!"dm³", t!"立方分米"), (t!"dm", t!"分米"), (t!"ds", t!"毫秒"),
   (t!"ft", t!"英尺"), (t!"°f", t!"华氏度"), (t!"°F", t!"华氏度"), (t!"℉", t!"华氏度"), (t!"gb", t!"吉字节"),
   (t!"ghz", t!"吉赫兹"), (t!"gpa", t!"吉帕斯卡"), (t!"gwh", t!"吉瓦时"), (t!"gw", t!"吉瓦"),
   (t!"gy", t!"戈瑞"), (t!"h", t!"小时"), (t!"ha", t!"公顷"), (t!"hz", t!"赫兹"),
   (t!"kbps", t!"千比特每秒"), (t!"kcal", t!"千卡"), (t!"kgf", t!"千克力"), (t!"kg", t!"千克"),
   (t!"khz", t!"千赫兹"), (t!"km2", t!"平方千米"), (t!"km²", t!"平方千米"), (t!"km", t!"公里"),
   (t!"kpa", t!"千帕"), (t!"kwh", t!"千瓦时"), (t!"kw", t!"千瓦"), (t!"kW", t!"千瓦"), (t!"lbs", t!"磅"),
   (t!"lb", t!"磅"), (t!"L", t!"升"), (t!"m2", t!"平方米"), (t!"m²", t!"平方米"), (t!"m3", t!"立方米"),
   (t!"m³", t!"立方米"), (t!"mbps", t!"兆比特每秒"), (t!"mg", t!"毫克"), (t!"mhz", t!"兆赫兹"),
   (t!"mi2", t!"平方英里"), (t!"mi²", t!"平方英里"), (t!"min", t!"分钟"), (t!"mi", t!"英里"),
   (t!"ml", t!"毫升"), (t!"mm2", t!"平方毫米"), (t!"mm²", t!"平方毫米"), (t!"mm", t!"毫米"),
   (t!"mol", t!"摩尔"), (t!"mpa", t!"兆帕"), (t!"mph", t!"英里每小时"), (t!"ms", t!"毫秒"),
   (t!"mv", t!"毫伏")]

/-- `measure/units_en.tsv`, part 1. -/
def unitsEn1 : List (Str × Str) :=
  [(t!"mw", t!"毫瓦"), (t!"m", t!"米"), (t!"ng", t!"纳克"), (t!"nm", t!"纳米"), (t!"ns", t!"纳秒"),
   (t!"ºc", t!"摄氏度"), (t!"ºC", t!"摄氏度"), (t!"oz", t!"盎司"), (t!"º", t!"度"), (t!"pa", t!"帕斯卡"),
   (t!"pg", t!"皮克"), (t!"ps", t!"皮秒"), (t!"rad", t!"弧度"), (t!"rpm", t!"转每分"),
   (t!"sq ft", t!"平方英尺"), (t!"sq mi", t!"平方英里"), (t!"sv", t!"系沃特"), (t!"s", t!"秒"),
   (t!"tb", t!"太字节"), (t!"tj", t!"万亿焦耳"), (t!"tl", t!"台两"), (t!"v", t!"伏特"), (t!"yd", t!"码"),
   (t!"μg", t!"微克"), (t!"μm", t!"微米"), (t!"μs", t!"微秒"), (t!"ω", t!"欧米茄"), (t!"°", t!"度")]

/-- `measure/units_en.tsv`. -/
def unitsEn : List (Str × Str) :=
  unitsEn0 ++
  unitsEn1

/-- `measure/units_zh.tsv`, part 0. -/
def unitsZh0 : List (Str × Str) :=
  [(t!"年来", t!"年来"), (t!"年前", t!"年前"), (t!"年后", t!"年后"), (t!"年内", t!"年内"), (t!"年之前", t!"年之前"),
   (t!"年之后", t!"年之后"), (t!"平方", t!"平方"), (t!"平米", t!"平米"), (t!"立方", t!"立方"), (t!"公里", t!"公里"),
   (t!"票", t!"票"), (t!"多", t!"多"), (t!"余", t!"余"), (t!"几", t!"几"), (t!"集", t!"集"),
   (t!"档", t!"档"), (t!"具", t!"具"), (t!"趟", t!"趟"), (t!"人", t!"人"), (t!"篇", t!"篇"),
   (t!"帧", t!"帧"), (t!"把", t!"把"), (t!"封", t!"封"), (t!"艘", t!"艘"), (t!"套", t!"套"),
   (t!"段", t!"段"), (t!"号", t!"号"), (t!"匹", t!"匹"), (t!"张", t!"张"), (t!"座", t!"座"),
   (t!"回", t!"回"), (t!"场", t!"场"), (t!"尾", t!"尾"), (t!"条", t!"条"), (t!"个", t!"个"),
   (t!"首", t!"首"), (t!"阙", t!"阙"), (t!"阵", t!"阵"), (t!"网", t!"网"), (t!"炮", t!"炮"),
   (t!"顶", t!"顶"), (t!"丘", t!"丘"), (t!"棵", t!"棵"), (t!"只", t!"只"), (t!"支", t!"支"),
   (t!"袭", t!"袭"), (t!"辆", t!"辆"), (t!"挑", t!"挑"), (t!"担", t!"担"), (t!"颗", t!"颗"),
   (t!"壳", t!"壳"), (t!"窠", t!"窠"), (t!"曲", t!"曲"), (t!"墙", t!"墙"), (t!"群", t!"群"),
   (t!"腔", t!"腔"), (t!"砣", t!"砣"), (t!"座", t!"座"), (t!"客", t!"客"), (t!"贯", t!"贯"),
   (t!"扎", t!"扎"), (t!"捆", t!"捆"), (t!"刀", t!"刀"), (t!"令", t!"令")]

/-- `measure/units_zh.tsv`, part 1. -/
def unitsZh1 : List (Str × Str) :=
  [(t!"手", t!"手"), (t!"罗", t!"罗"), (t!"坡", t!"坡"), (t!"山", t!"山"), (t!"岭", t!"岭"),
   (t!"江", t!"江"), (t!"溪", t!"溪"), (t!"钟", t!"钟"), (t!"队", t!"队"), (t!"单", t!"单"),
   (t!"双", t!"双"), (t!"对", t!"对"), (t!"口", t!"口"), (t!"头", t!"头"), (t!"脚", t!"脚"),
   (t!"板", t!"板"), (t!"跳", t!"跳"), (t!"枝", t!"枝"), (t!"件", t!"件"), (t!"贴", t!"贴"),
   (t!"针", t!"针"), (t!"线", t!"线"), (t!"管", t!"管"), (t!"名", t!"名"), (t!"位", t!"位"),
   (t!"身", t!"身"), (t!"堂", t!"堂"), (t!"课", t!"课"), (t!"本", t!"本"), (t!"页", t!"页"),
   (t!"家", t!"家"), (t!"户", t!"户"), (t!"层", t!"层"), (t!"丝", t!"丝"), (t!"毫", t!"毫"),
   (t!"厘", t!"厘"), (t!"分", t!"分"), (t!"钱", t!"钱"), (t!"两", t!"两"), (t!"斤", t!"斤"),
   (t!"担", t!"担"), (t!"铢", t!"铢"), (t!"石", t!"石"), (t!"钧", t!"钧"), (t!"锱", t!"锱"),
   (t!"忽", t!"忽"), (t!"克", t!"克"), (t!"毫", t!"毫"), (t!"厘", t!"厘"), (t!"分", t!"分"),
   (t!"寸", t!"寸"), (t!"尺", t!"尺"), (t!"丈", t!"丈"), (t!"里", t!"里"), (t!"寻", t!"寻"),
   (t!"常", t!"常"), (t!"铺", t!"铺"), (t!"程", t!"程"), (t!"米", t!"米"), (t!"撮", t!"撮"),
   (t!"勺", t!"勺"), (t!"合", t!"合"), (t!"升", t!"升"), (t!"斗", t!"斗")]

/-- `measure/units_zh.tsv`, part 2. -/
def unitsZh2 : List (Str × Str) :=
  [(t!"石", t!"石"), (t!"盘", t!"盘"), (t!"碗", t!"碗"), (t!"碟", t!"碟"), (t!"叠", t!"叠"),
   (t!"桶", t!"桶"), (t!"笼", t!"笼"), (t!"盆", t!"盆"), (t!"盒", t!"盒"), (t!"杯", t!"杯"),
   (t!"钟", t!"钟"), (t!"斛", t!"斛"), (t!"锅", t!"锅"), (t!"簋", t!"簋"), (t!"篮", t!"篮"),
   (t!"盘", t!"盘"), (t!"桶", t!"桶"), (t!"罐", t!"罐"), (t!"瓶", t!"瓶"), (t!"壶", t!"壶"),
   (t!"卮", t!"卮"), (t!"盏", t!"盏"), (t!"箩", t!"箩"), (t!"箱", t!"箱"), (t!"煲", t!"煲"),
   (t!"啖", t!"啖"), (t!"袋", t!"袋"), (t!"钵", t!"钵"), (t!"月", t!"月"), (t!"日", t!"日"),
   (t!"季", t!"季"), (t!"刻", t!"刻"), (t!"时", t!"时"), (t!"小时", t!"小时"), (t!"周", t!"周"),
   (t!"天", t!"天"), (t!"秒", t!"秒"), (t!"分", t!"分"), (t!"旬", t!"旬"), (t!"纪", t!"纪"),
   (t!"岁", t!"岁"), (t!"世", t!"世"), (t!"更", t!"更"), (t!"夜", t!"夜"), (t!"春", t!"春"),
   (t!"夏", t!"夏"), (t!"秋", t!"秋"), (t!"冬", t!"冬"), (t!"代", t!"代"), (t!"伏", t!"伏"),
   (t!"辈", t!"辈"), (t!"丸", t!"丸"), (t!"泡", t!"泡"), (t!"粒", t!"粒"), (t!"颗", t!"颗"),
   (t!"幢", t!"幢"), (t!"堆", t!"堆"), (t!"条", t!"条"), (t!"根", t!"根"), (t!"支", t!"支"),
   (t!"道", t!"道"), (t!"面", t!"面"), (t!"片", t!"片"), (t!"张", t!"张")]

/-- `measure/units_zh.tsv`, part 3. -/
def unitsZh3 : List (Str × Str) :=
  [(t!"颗", t!"颗"), (t!"块", t!"块"), (t!"架", t!"架"), (t!"千米", t!"千米"), (t!"分米", t!"分米"),
   (t!"厘米", t!"厘米"), (t!"毫米", t!"毫米"), (t!"微米", t!"微米"), (t!"纳米", t!"纳米"), (t!"亿", t!"亿"),
   (t!"千万", t!"千万"), (t!"百万", t!"百万"), (t!"万", t!"万"), (t!"千", t!"千"), (t!"百", t!"百"),
   (t!"亿块", t!"亿块"), (t!"千万块", t!"千万块"), (t!"百万块", t!"百万块"), (t!"万块", t!"万块"),
   (t!"千块", t!"千块"), (t!"百块", t!"百块"), (t!"亿角", t!"亿角"), (t!"千万角", t!"千万角"),
   (t!"百万角", t!"百万角"), (t!"万角", t!"万角"), (t!"千角", t!"千角"), (t!"百角", t!"百角"), (t!"亿毛", t!"亿毛"),
   (t!"千万毛", t!"千万毛"), (t!"百万毛", t!"百万毛"), (t!"万毛", t!"万毛"), (t!"千毛", t!"千毛"),
   (t!"百毛", t!"百毛"), (t!"亿分", t!"亿分"), (t!"千万分", t!"千万分"), (t!"百万分", t!"百万分"),
   (t!"万分", t!"万分"), (t!"千分", t!"千分"), (t!"百分", t!"百分"), (t!"亿元", t!"亿元"), (t!"千万元", t!"千万元"),
   (t!"百万元", t!"百万元"), (t!"万元", t!"万元"), (t!"千元", t!"千元"), (t!"百元", t!"百元"), (t!"元", t!"元"),
   (t!"吨", t!"吨"), (t!"度", t!"度"), (t!"摄氏度", t!"摄氏度"), (t!"字", t!"字"), (t!"兆", t!"兆")]

/-- `measure/units_zh.tsv`. -/
def unitsZh : List (Str × Str) :=
  unitsZh0 ++
  unitsZh1 ++
  unitsZh2 ++
  unitsZh3

/-- `money/code.tsv`. -/
def moneyCode : List (Str × Str) :=
  [(t!"A$", t!"澳元"), (t!"AED", t!"阿联酋迪拉姆"), (t!"ARS", t!"阿根廷比索"), (t!"AUD", t!"澳元"),
   (t!"CAD$", t!"加元"), (t!"CAD", t!"加元"), (t!"CHF", t!"瑞士法郎"), (t!"CNY", t!"人民币"),
   (t!"EUR", t!"欧元成员国"), (t!"GBP", t!"英镑"), (t!"HK＄", t!"港元"), (t!"HKD", t!"港元"),
   (t!"INR", t!"印度卢比"), (t!"J￥", t!"日元"), (t!"JPY￥", t!"日元"), (t!"JPY", t!"日元"),
   (t!"KRW", t!"韩元"), (t!"RUB", t!"俄罗斯卢布"), (t!"SAR", t!"沙特阿拉伯里亚尔"), (t!"SEK", t!"瑞典克朗"),
   (t!"SGD", t!"新加坡元"), (t!"THB", t!"泰铢"), (t!"TRY", t!"土耳其里拉"), (t!"USD", t!"美元")]

/-- `money/symbol.tsv`. -/
def moneySymbol : List (Str × Str) :=
  [(t!"$", t!"美元"), (t!"£", t!"英镑"), (t!"￡", t!"英镑"), (t!"¥", t!"元"), (t!"￥", t!"元"),
   (t!"฿", t!"泰铢"), (t!"€", t!"欧元"), (t!"₹", t!"印度卢比"), (t!"₽", t!"卢布"), (t!"CHF", t!"瑞士法郎"),
   (t!"R$", t!"巴西雷亚尔")]

/-- `sport/country.tsv`, part 0. -/
def country0 : List (Str × Str) :=
  [(t!"阿富汗", t!"阿富汗"), (t!"阿尔巴尼亚", t!"阿尔巴尼亚"), (t!"阿尔及利亚", t!"阿尔及利亚"), (t!"美属萨摩亚", t!"美属萨摩亚"),
   (t!"安道尔", t!"安道尔"), (t!"安哥拉", t!"安哥拉"), (t!"安圭拉岛", t!"安圭拉岛"), (t!"南极洲", t!"南极洲"),
   (t!"安提瓜和巴布达", t!"安提瓜和巴布达"), (t!"阿根廷", t!"阿根廷"), (t!"亚美尼亚", t!"亚美尼亚"), (t!"阿鲁巴岛", t!"阿鲁巴岛"),
   (t!"澳大利亚", t!"澳大利亚"), (t!"奥地利", t!"奥地利"), (t!"阿塞拜疆", t!"阿塞拜疆"), (t!"巴哈马", t!"巴哈马"),
   (t!"巴林", t!"巴林"), (t!"孟加拉国", t!"孟加拉国"), (t!"巴巴多斯", t!"巴巴多斯"), (t!"白俄罗斯", t!"白俄罗斯"),
   (t!"比利时", t!"比利时"), (t!"伯利兹", t!"伯利兹"), (t!"贝宁", t!"贝宁"), (t!"百慕大", t!"百慕大"),
   (t!"不丹", t!"不丹"), (t!"玻利维亚", t!"玻利维亚"), (t!"波斯尼亚和黑塞哥维那", t!"波斯尼亚和黑塞哥维那"),
   (t!"博茨瓦纳", t!"博茨瓦纳"), (t!"巴西", t!"巴西"), (t!"英属印度洋领地", t!"英属印度洋领地"),
   (t!"英属维尔京群岛", t!"英属维尔京群岛"), (t!"文莱", t!"文莱"), (t!"保加利亚", t!"保加利亚"), (t!"布基纳法索", t!"布基纳法索"),
   (t!"缅甸", t!"缅甸"), (t!"布隆迪", t!"布隆迪"), (t!"柬埔寨", t!"柬埔寨"), (t!"喀麦隆", t!"喀麦隆"),
   (t!"加拿大", t!"加拿大"), (t!"佛得角", t!"佛得角"), (t!"开曼群岛", t!"开曼群岛"), (t!"中非共和国", t!"中非共和国"),
   (t!"乍得", t!"乍得"), (t!"智利", t!"智利"), (t!"中国", t!"中国"), (t!"圣诞岛", t!"圣诞岛"),
   (t!"克利珀顿岛", t!"克利珀顿岛"), (t!"科科斯群岛", t!"科科斯群岛"), (t!"哥伦比亚", t!"哥伦比亚"), (t!"科摩罗", t!"科摩罗"),
   (t!"刚果民主共和国", t!"刚果民主共和国"), (t!"刚果共和国", t!"刚果共和国"), (t!"库克群岛", t!"库克群岛"),
   (t!"珊瑚海群岛", t!"珊瑚海群岛"), (t!"哥斯达黎加", t!"哥斯达黎加"), (t!"科特迪瓦", t!"科特迪瓦"), (t!"克罗地亚", t!"克罗地亚"),
   (t!"古巴", t!"古巴"), (t!"塞浦路斯", t!"塞浦路斯"), (t!"捷克共和国", t!"捷克共和国"), (t!"丹麦", t!"丹麦"),
   (t!"吉布地", t!"吉布地"), (t!"多米尼克", t!"多米尼克"), (t!"多明尼加共和国", t!"多明尼加共和国")]

/-- `sport/country.tsv`, part 1. -/
def country1 : List (Str × Str) :=
  [(t!"厄瓜多尔", t!"厄瓜多尔"), (t!"埃及", t!"埃及"), (t!"萨尔瓦多", t!"萨尔瓦多"), (t!"赤道几内亚", t!"赤道几内亚"),
   (t!"厄立特里亚", t!"厄立特里亚"), (t!"爱沙尼亚", t!"爱沙尼亚"), (t!"埃塞俄比亚", t!"埃塞俄比亚"), (t!"欧罗巴岛", t!"欧罗巴岛"),
   (t!"福克兰群岛", t!"福克兰群岛"), (t!"法罗群岛", t!"法罗群岛"), (t!"斐济", t!"斐济"), (t!"芬兰", t!"芬兰"),
   (t!"法国", t!"法国"), (t!"法属圭亚那", t!"法属圭亚那"), (t!"法属波利尼西亚", t!"法属波利尼西亚"), (t!"加蓬", t!"加蓬"),
   (t!"冈比亚", t!"冈比亚"), (t!"乔治亚", t!"乔治亚"), (t!"德国", t!"德国"), (t!"加纳", t!"加纳"),
   (t!"直布罗陀", t!"直布罗陀"), (t!"格洛里厄斯群岛", t!"格洛里厄斯群岛"), (t!"希腊", t!"希腊"), (t!"格陵兰", t!"格陵兰"),
   (t!"格林纳达", t!"格林纳达"), (t!"瓜德罗普岛", t!"瓜德罗普岛"), (t!"关岛", t!"关岛"), (t!"危地马拉", t!"危地马拉"),
   (t!"根西岛", t!"根西岛"), (t!"几内亚", t!"几内亚"), (t!"几内亚比绍", t!"几内亚比绍"), (t!"圭亚那", t!"圭亚那"),
   (t!"海地", t!"海地"), (t!"梵蒂冈城", t!"梵蒂冈城"), (t!"洪都拉斯", t!"洪都拉斯"), (t!"匈牙利", t!"匈牙利"),
   (t!"冰岛", t!"冰岛"), (t!"印度", t!"印度"), (t!"印度尼西亚", t!"印度尼西亚"), (t!"伊朗", t!"伊朗"),
   (t!"伊拉克", t!"伊拉克"), (t!"爱尔兰", t!"爱尔兰"), (t!"马恩岛", t!"马恩岛"), (t!"以色列", t!"以色列"),
   (t!"意大利", t!"意大利"), (t!"牙买加", t!"牙买加"), (t!"扬马延岛", t!"扬马延岛"), (t!"日本", t!"日本"),
   (t!"泽西岛", t!"泽西岛"), (t!"约旦", t!"约旦"), (t!"新胡安岛", t!"新胡安岛"), (t!"哈萨克斯坦", t!"哈萨克斯坦"),
   (t!"肯尼亚", t!"肯尼亚"), (t!"基里巴斯", t!"基里巴斯"), (t!"科威特", t!"科威特"), (t!"吉尔吉斯斯坦", t!"吉尔吉斯斯坦"),
   (t!"老挝", t!"老挝"), (t!"拉脱维亚", t!"拉脱维亚"), (t!"黎巴嫩", t!"黎巴嫩"), (t!"莱索托", t!"莱索托"),
   (t!"利比里亚", t!"利比里亚"), (t!"利比亚", t!"利比亚"), (t!"列支敦士登", t!"列支敦士登"), (t!"立陶宛", t!"立陶宛")]

/-- `sport/country.tsv`, part 2. -/
def country2 : List (Str × Str) :=
  [(t!"卢森堡", t!"卢森堡"), (t!"马其顿", t!"马其顿"), (t!"马达加斯加", t!"马达加斯加"), (t!"马拉维", t!"马拉维"),
   (t!"马来西亚", t!"马来西亚"), (t!"马尔代夫", t!"马尔代夫"), (t!"马里", t!"马里"), (t!"马耳他", t!"马耳他"),
   (t!"马绍尔群岛", t!"马绍尔群岛"), (t!"马提尼克岛", t!"马提尼克岛"), (t!"毛里塔尼亚", t!"毛里塔尼亚"),
   (t!"毛里求斯", t!"毛里求斯"), (t!"马约特岛", t!"马约特岛"), (t!"墨西哥", t!"墨西哥"),
   (t!"密克罗尼西亚联邦", t!"密克罗尼西亚联邦"), (t!"摩尔多瓦", t!"摩尔多瓦"), (t!"摩纳哥", t!"摩纳哥"), (t!"蒙古", t!"蒙古"),
   (t!"蒙特塞拉特", t!"蒙特塞拉特"), (t!"摩洛哥", t!"摩洛哥"), (t!"莫桑比克", t!"莫桑比克"), (t!"纳米比亚", t!"纳米比亚"),
   (t!"瑙鲁", t!"瑙鲁"), (t!"纳瓦萨岛", t!"纳瓦萨岛"), (t!"尼泊尔", t!"尼泊尔"), (t!"荷兰", t!"荷兰"),
   (t!"荷属安的列斯", t!"荷属安的列斯"), (t!"新喀里多尼亚", t!"新喀里多尼亚"), (t!"新西兰", t!"新西兰"),
   (t!"尼加拉瓜", t!"尼加拉瓜"), (t!"尼日尔", t!"尼日尔"), (t!"尼日利亚", t!"尼日利亚"), (t!"纽埃", t!"纽埃"),
   (t!"诺福克岛", t!"诺福克岛"), (t!"朝鲜", t!"朝鲜"), (t!"北马里亚纳群岛", t!"北马里亚纳群岛"), (t!"挪威", t!"挪威"),
   (t!"阿曼", t!"阿曼"), (t!"巴基斯坦", t!"巴基斯坦"), (t!"帕劳", t!"帕劳"), (t!"巴拿马", t!"巴拿马"),
   (t!"巴布亚新几内亚", t!"巴布亚新几内亚"), (t!"西沙群岛", t!"西沙群岛"), (t!"巴拉圭", t!"巴拉圭"), (t!"秘鲁", t!"秘鲁"),
   (t!"菲律宾", t!"菲律宾"), (t!"皮特凯恩群岛", t!"皮特凯恩群岛"), (t!"波兰", t!"波兰"), (t!"葡萄牙", t!"葡萄牙"),
   (t!"波多黎各", t!"波多黎各"), (t!"卡塔尔", t!"卡塔尔"), (t!"留尼汪", t!"留尼汪"), (t!"罗马尼亚", t!"罗马尼亚"),
   (t!"俄罗斯", t!"俄罗斯"), (t!"卢旺达", t!"卢旺达"), (t!"圣赫勒拿岛", t!"圣赫勒拿岛"), (t!"圣基茨和尼维斯", t!"圣基茨和尼维斯"),
   (t!"圣卢西亚岛", t!"圣卢西亚岛"), (t!"圣皮埃尔和密克隆群岛", t!"圣皮埃尔和密克隆群岛"), (t!"圣文森特和格林纳丁斯", t!"圣文森特和格林纳丁斯"),
   (t!"萨摩亚", t!"萨摩亚"), (t!"圣马力诺", t!"圣马力诺"), (t!"圣多美和普林西比", t!"圣多美和普林西比"),
   (t!"沙特阿拉伯", t!"沙特阿拉伯")]

/-- `sport/country.tsv`, part 3. -/
def country3 : List (Str × Str) :=
  [(t!"塞内加尔", t!"塞内加尔"), (t!"塞尔维亚和黑山", t!"塞尔维亚和黑山"), (t!"塞舌尔群岛", t!"塞舌尔群岛"),
   (t!"塞拉利昂", t!"塞拉利昂"), (t!"新加坡", t!"新加坡"), (t!"斯洛伐克", t!"斯洛伐克"), (t!"斯洛文尼亚", t!"斯洛文尼亚"),
   (t!"所罗门群岛", t!"所罗门群岛"), (t!"索马里", t!"索马里"), (t!"南非", t!"南非"), (t!"韩国", t!"韩国"),
   (t!"西班牙", t!"西班牙"), (t!"南沙群岛", t!"南沙群岛"), (t!"斯里兰卡", t!"斯里兰卡"), (t!"苏丹", t!"苏丹"),
   (t!"苏里南", t!"苏里南"), (t!"斯瓦尔巴群岛", t!"斯瓦尔巴群岛"), (t!"斯威士兰", t!"斯威士兰"), (t!"瑞典", t!"瑞典"),
   (t!"瑞士", t!"瑞士"), (t!"叙利亚", t!"叙利亚"), (t!"塔吉克斯坦", t!"塔吉克斯坦"), (t!"坦桑尼亚", t!"坦桑尼亚"),
   (t!"泰国", t!"泰国"), (t!"东帝汶", t!"东帝汶"), (t!"多哥", t!"多哥"), (t!"托克劳", t!"托克劳"),
   (t!"汤加", t!"汤加"), (t!"特立尼达和多巴哥", t!"特立尼达和多巴哥"), (t!"特罗姆兰岛", t!"特罗姆兰岛"), (t!"突尼斯", t!"突尼斯"),
   (t!"土耳其", t!"土耳其"), (t!"土库曼斯坦", t!"土库曼斯坦"), (t!"特克斯和凯科斯群岛", t!"特克斯和凯科斯群岛"),
   (t!"图瓦卢", t!"图瓦卢"), (t!"乌干达", t!"乌干达"), (t!"乌克兰", t!"乌克兰"), (t!"阿拉伯联合酋长国", t!"阿拉伯联合酋长国"),
   (t!"英国", t!"英国"), (t!"美国", t!"美国"), (t!"乌拉圭", t!"乌拉圭"), (t!"乌兹别克斯坦", t!"乌兹别克斯坦"),
   (t!"瓦努阿图", t!"瓦努阿图"), (t!"委内瑞拉", t!"委内瑞拉"), (t!"越南", t!"越南"), (t!"维尔京群岛", t!"维尔京群岛"),
   (t!"威克岛", t!"威克岛"), (t!"瓦利斯和富图纳群岛", t!"瓦利斯和富图纳群岛"), (t!"西撒哈拉", t!"西撒哈拉"), (t!"也门", t!"也门"),
   (t!"赞比亚", t!"赞比亚"), (t!"津巴布韦", t!"津巴布韦")]

/-- `sport/country.tsv`. -/
def country : List (Str × Str) :=
  country0 ++
  country1 ++
  country2 ++
  country3

/-- `sport/club.tsv`, part 0. -/
def club0 : List (Str × Str) :=
  [(t!"爆冷", t!"爆冷"), (t!"1948中央陆军", t!"1948中央陆军"), (t!"1975学院", t!"1975学院"),
   (t!"AB阿吉尔", t!"AB阿吉尔"), (t!"AC奥卢", t!"AC奥卢"), (t!"AC米兰", t!"AC米兰"),
   (t!"AEK拉亚拿卡", t!"AEK拉亚拿卡"), (t!"AEK雅典", t!"AEK雅典"), (t!"AEL利马素", t!"AEL利马素"),
   (t!"AIK苏纳", t!"AIK苏纳"), (t!"ASO谢里夫", t!"ASO谢里夫"), (t!"B36拖锡云", t!"B36拖锡云"),
   (t!"B68托夫蒂尔", t!"B68托夫蒂尔"), (t!"拉多姆利", t!"拉多姆利"), (t!"BOG史崔克", t!"BOG史崔克"),
   (t!"CDS维达", t!"CDS维达"), (t!"CD奥林比亚", t!"CD奥林比亚"), (t!"CD柏拉坦斯", t!"CD柏拉坦斯"),
   (t!"CD皇家苏斯达", t!"CD皇家苏斯达"), (t!"CD维多利亚", t!"CD维多利亚"), (t!"CD维拉克鲁斯", t!"CD维拉克鲁斯"),
   (t!"斯特雷穆尔", t!"斯特雷穆尔"), (t!"FA希奥利艾", t!"FA希奥利艾"), (t!"FC东京", t!"FC东京"),
   (t!"FC光州", t!"FC光州"), (t!"FC利沃夫", t!"FC利沃夫"), (t!"FC古斯哥", t!"FC古斯哥"),
   (t!"FC圣达哥林玛", t!"FC圣达哥林玛"), (t!"FC奥斯汀", t!"FC奥斯汀"), (t!"FC婆罗洲", t!"FC婆罗洲"),
   (t!"FC悉尼", t!"FC悉尼"), (t!"FC洛杉矶", t!"FC洛杉矶"), (t!"FC萨莫拿", t!"FC萨莫拿"),
   (t!"FC辛辛那提", t!"FC辛辛那提"), (t!"FC达拉斯", t!"FC达拉斯"), (t!"FC首尔", t!"FC首尔"),
   (t!"FK奥达", t!"FK奥达"), (t!"HB拖锡云", t!"HB拖锡云"), (t!"HIFK赫尔辛基", t!"HIFK赫尔辛基"),
   (t!"HJK赫尔辛基", t!"HJK赫尔辛基"), (t!"LOA热力", t!"LOA热力"), (t!"MC奥兰", t!"MC奥兰"),
   (t!"MC阿尔及尔", t!"MC阿尔及尔"), (t!"MKE安卡华高古", t!"MKE安卡华高古"), (t!"NAPA流浪者", t!"NAPA流浪者"),
   (t!"NA侯赛恩", t!"NA侯赛恩"), (t!"NEC奈梅亨", t!"NEC奈梅亨"), (t!"NSI鲁纳维克", t!"NSI鲁纳维克"),
   (t!"OFI克里特", t!"OFI克里特"), (t!"PAOK", t!"PAOK"), (t!"PSIS施马隆", t!"PSIS施马隆"),
   (t!"PSM马卡沙尔", t!"PSM马卡沙尔"), (t!"PSS施莱曼", t!"PSS施莱曼"), (t!"PSV埃因霍温", t!"PSV埃因霍温"),
   (t!"PTT罗勇", t!"PTT罗勇"), (t!"RFC瑟兰", t!"RFC瑟兰"), (t!"RKC华域克", t!"RKC华域克"),
   (t!"SC巴塞罗那", t!"SC巴塞罗那"), (t!"SK超级星", t!"SK超级星"), (t!"TC体育会", t!"TC体育会"),
   (t!"TIRA佩斯卡保", t!"TIRA佩斯卡保"), (t!"UE圣达哥林玛", t!"UE圣达哥林玛"), (t!"UE恩高丹", t!"UE恩高丹"),
   (t!"UNAM普马斯", t!"UNAM普马斯")]

/-- `sport/club.tsv`, part 1. -/
def club1 : List (Str × Str) :=
  [(t!"UOG崔坦", t!"UOG崔坦"), (t!"USM阿尔及尔", t!"USM阿尔及尔"), (t!"USV伊斯琛", t!"USV伊斯琛"),
   (t!"VPS瓦萨", t!"VPS瓦萨"), (t!"WSG蒂罗尔尔", t!"WSG蒂罗尔尔"), (t!"万象", t!"万象"), (t!"万隆", t!"万隆"),
   (t!"上国狮子", t!"上国狮子"), (t!"上海海港", t!"上海海港"), (t!"上海申花", t!"上海申花"), (t!"下科恩", t!"下科恩"),
   (t!"下诺夫哥罗德", t!"下诺夫哥罗德"), (t!"不丹皇家星队", t!"不丹皇家星队"), (t!"不丹皇家波尔", t!"不丹皇家波尔"),
   (t!"不丹皇家联", t!"不丹皇家联"), (t!"不丹结算所", t!"不丹结算所"), (t!"东北文化协会", t!"东北文化协会"),
   (t!"东北联", t!"东北联"), (t!"东宾高", t!"东宾高"), (t!"东方石油", t!"东方石油"), (t!"东方龙狮", t!"东方龙狮"),
   (t!"东部市郊", t!"东部市郊"), (t!"东里法", t!"东里法"), (t!"两国体育", t!"两国体育"), (t!"中央科尔多瓦", t!"中央科尔多瓦"),
   (t!"中日德兰", t!"中日德兰"), (t!"中部海岸海员", t!"中部海岸海员"), (t!"丹戎巴葛联", t!"丹戎巴葛联"), (t!"久加斯", t!"久加斯"),
   (t!"乌坚学院", t!"乌坚学院"), (t!"乌姆沙拉尔", t!"乌姆沙拉尔"), (t!"乌巴赫", t!"乌巴赫"), (t!"乌得勒支", t!"乌得勒支"),
   (t!"乌拉尔", t!"乌拉尔"), (t!"乌拉尔图", t!"乌拉尔图"), (t!"乌比斯迪", t!"乌比斯迪"), (t!"乌纳尼亚", t!"乌纳尼亚"),
   (t!"乌路柏", t!"乌路柏"), (t!"乌路柏点", t!"乌路柏点"), (t!"乌迪内斯", t!"乌迪内斯"), (t!"云达不来梅", t!"云达不来梅"),
   (t!"亚历山德里亚", t!"亚历山德里亚"), (t!"亚松森河床", t!"亚松森河床"), (t!"亚特兰大", t!"亚特兰大"),
   (t!"亚美利加", t!"亚美利加"), (t!"亚蒙克", t!"亚蒙克"), (t!"亚达纳邦", t!"亚达纳邦"), (t!"亨切什蒂", t!"亨切什蒂"),
   (t!"京都不死鸟", t!"京都不死鸟"), (t!"仁川联", t!"仁川联"), (t!"从山谷独立", t!"从山谷独立"), (t!"以斯拉", t!"以斯拉"),
   (t!"仰光联", t!"仰光联"), (t!"伊卜伊蒂哈德", t!"伊卜伊蒂哈德"), (t!"伊卜艾薛伯", t!"伊卜艾薛伯"),
   (t!"伊安尼高斯", t!"伊安尼高斯"), (t!"伊尔韦斯", t!"伊尔韦斯"), (t!"伊斯兰教体育俱乐部", t!"伊斯兰教体育俱乐部"),
   (t!"伊斯坦布尔", t!"伊斯坦布尔"), (t!"伊斯洛奇明斯克", t!"伊斯洛奇明斯克"), (t!"伊斯特拉", t!"伊斯特拉"),
   (t!"伊洛瓦底联", t!"伊洛瓦底联"), (t!"伊纳迪亚", t!"伊纳迪亚"), (t!"伊蒂哈德", t!"伊蒂哈德")]

/-- `sport/club.tsv`, part 2. -/
def club2 : List (Str × Str) :=
  [(t!"伊蒂哈德亚历山大港", t!"伊蒂哈德亚历山大港"), (t!"伊蒂哈德塞拉莱", t!"伊蒂哈德塞拉莱"), (t!"伊蒂法克", t!"伊蒂法克"),
   (t!"伊高斯", t!"伊高斯"), (t!"伍尔弗汉普顿流浪者", t!"伍尔弗汉普顿流浪者"), (t!"伏伊伏丁那", t!"伏伊伏丁那"),
   (t!"伯恩茅斯", t!"伯恩茅斯"), (t!"佐加顿斯", t!"佐加顿斯"), (t!"体操击剑队", t!"体操击剑队"), (t!"体育男", t!"体育男"),
   (t!"佛罗伦萨", t!"佛罗伦萨"), (t!"佩历克", t!"佩历克"), (t!"佩尼亚恩卡纳达", t!"佩尼亚恩卡纳达"), (t!"佩尼邦", t!"佩尼邦"),
   (t!"佩斯拉查", t!"佩斯拉查"), (t!"佩斯普拉", t!"佩斯普拉"), (t!"佩斯查雅加达", t!"佩斯查雅加达"), (t!"佩斯达", t!"佩斯达"),
   (t!"佩特捷德", t!"佩特捷德"), (t!"佩西克", t!"佩西克"), (t!"佩西拉", t!"佩西拉"), (t!"依斯麦里", t!"依斯麦里"),
   (t!"侯斯顿迪纳摩", t!"侯斯顿迪纳摩"), (t!"侯治柏度", t!"侯治柏度"), (t!"侯赛恩", t!"侯赛恩"), (t!"保查", t!"保查"),
   (t!"保迪夫", t!"保迪夫"), (t!"保迪夫华特沙", t!"保迪夫华特沙"), (t!"保迪祖域斯", t!"保迪祖域斯"), (t!"兄弟联", t!"兄弟联"),
   (t!"兄弟联队", t!"兄弟联队"), (t!"先锋体育团", t!"先锋体育团"), (t!"克卢日", t!"克卢日"), (t!"克卢日大学", t!"克卢日大学"),
   (t!"克拉斯诺达尔", t!"克拉斯诺达尔"), (t!"克拉科维亚", t!"克拉科维亚"), (t!"克莱蒙特", t!"克莱蒙特"),
   (t!"克里夫巴斯", t!"克里夫巴斯"), (t!"克雷莫纳", t!"克雷莫纳"), (t!"全北现代汽车", t!"全北现代汽车"),
   (t!"八打灵再也城", t!"八打灵再也城"), (t!"公马内湖", t!"公马内湖"), (t!"兰斯", t!"兰斯"), (t!"兰讷斯", t!"兰讷斯"),
   (t!"关岛造船厂", t!"关岛造船厂"), (t!"兴都库什雄鹰", t!"兴都库什雄鹰"), (t!"内姆梅卡柳", t!"内姆梅卡柳"),
   (t!"冠忠南区", t!"冠忠南区"), (t!"凡恩", t!"凡恩"), (t!"凤凰竞技", t!"凤凰竞技"), (t!"凯尔任", t!"凯尔任"),
   (t!"凯尔特人", t!"凯尔特人"), (t!"切尔西", t!"切尔西"), (t!"切洛", t!"切洛"), (t!"切洛拉高", t!"切洛拉高"),
   (t!"列文科尼茨", t!"列文科尼茨"), (t!"列治亚", t!"列治亚"), (t!"列特", t!"列特"), (t!"列积卡", t!"列积卡"),
   (t!"列达利亚尔", t!"列达利亚尔"), (t!"利云斯顿", t!"利云斯顿"), (t!"利伯泰迪", t!"利伯泰迪"), (t!"利伯达斯", t!"利伯达斯"),
   (t!"利兹联", t!"利兹联")]

/-- `sport/club.tsv`, part 3. -/
def club3 : List (Str × Str) :=
  [(t!"利加大学", t!"利加大学"), (t!"利勒斯特罗姆", t!"利勒斯特罗姆"), (t!"利华戴亚高斯", t!"利华戴亚高斯"), (t!"利尔", t!"利尔"),
   (t!"利尔马卡萨", t!"利尔马卡萨"), (t!"利文哥特奴", t!"利文哥特奴"), (t!"利斯菲体育俱乐部", t!"利斯菲体育俱乐部"),
   (t!"利沃夫鲁克", t!"利沃夫鲁克"), (t!"利物浦", t!"利物浦"), (t!"利瓦迪亚", t!"利瓦迪亚"), (t!"利耶帕亚", t!"利耶帕亚"),
   (t!"利马联", t!"利马联"), (t!"加义", t!"加义"), (t!"加尔各答体育会", t!"加尔各答体育会"), (t!"加巴拉", t!"加巴拉"),
   (t!"加拉塔萨雷", t!"加拉塔萨雷"), (t!"加斯安塔", t!"加斯安塔"), (t!"加格拉", t!"加格拉"),
   (t!"加的夫都市大学", t!"加的夫都市大学"), (t!"加的斯", t!"加的斯"), (t!"加薛耶查柏", t!"加薛耶查柏"),
   (t!"勒沃库森", t!"勒沃库森"), (t!"化奴", t!"化奴"), (t!"北京国安", t!"北京国安"), (t!"北海道札幌冈萨多", t!"北海道札幌冈萨多"),
   (t!"北西兰", t!"北西兰"), (t!"十字军", t!"十字军"), (t!"十月9FC", t!"十月9FC"), (t!"十月十二日队", t!"十月十二日队"),
   (t!"华列达", t!"华列达"), (t!"华利祖大学", t!"华利祖大学"), (t!"华堡", t!"华堡"), (t!"华拉斯", t!"华拉斯"),
   (t!"华拉萨甸", t!"华拉萨甸"), (t!"华沙莱吉亚", t!"华沙莱吉亚"), (t!"华盛顿联队", t!"华盛顿联队"),
   (t!"华纳斯巴达", t!"华纳斯巴达"), (t!"华纳莫", t!"华纳莫"), (t!"华维斯", t!"华维斯"), (t!"华路亚", t!"华路亚"),
   (t!"华达普斯纳", t!"华达普斯纳"), (t!"南安普顿", t!"南安普顿"), (t!"南定", t!"南定"), (t!"南特", t!"南特"),
   (t!"南缅甸联", t!"南缅甸联"), (t!"博亚卡捷高", t!"博亚卡捷高"), (t!"博德闪耀", t!"博德闪耀"), (t!"博托沙尼", t!"博托沙尼"),
   (t!"博格巴索华", t!"博格巴索华"), (t!"博洛尼亚", t!"博洛尼亚"), (t!"博维斯塔", t!"博维斯塔"), (t!"卡内米勇士", t!"卡内米勇士"),
   (t!"卡利", t!"卡利"), (t!"卡利阿美利加", t!"卡利阿美利加"), (t!"卡华拉联", t!"卡华拉联"), (t!"卡图高比斯", t!"卡图高比斯"),
   (t!"卡域克流浪", t!"卡域克流浪"), (t!"卡塔尔体育会", t!"卡塔尔体育会"), (t!"卡塞利", t!"卡塞利"),
   (t!"卡奥诺萨基利兹", t!"卡奥诺萨基利兹"), (t!"卡宾达", t!"卡宾达"), (t!"卡尔巴", t!"卡尔巴"), (t!"卡尔马", t!"卡尔马"),
   (t!"卡布斯科普", t!"卡布斯科普")]

/-- `sport/club.tsv`, part 4. -/
def club4 : List (Str × Str) :=
  [(t!"卡拉保保", t!"卡拉保保"), (t!"卡拉卡斯", t!"卡拉卡斯"), (t!"卡拉古拉克", t!"卡拉古拉克"),
   (t!"卡拉奥华大学", t!"卡拉奥华大学"), (t!"卡拉奥华大学1948", t!"卡拉奥华大学1948"), (t!"卡拉巴克", t!"卡拉巴克"),
   (t!"卡拉干达", t!"卡拉干达"), (t!"卡拉特", t!"卡拉特"), (t!"卡拉雷联", t!"卡拉雷联"), (t!"卡拉马", t!"卡拉马"),
   (t!"卡拜里", t!"卡拜里"), (t!"卡斯比", t!"卡斯比"), (t!"卡斯特里堤", t!"卡斯特里堤"), (t!"卡斯马", t!"卡斯马"),
   (t!"卡查马卡大学", t!"卡查马卡大学"), (t!"卡森柏沙", t!"卡森柏沙"), (t!"卡洛斯文路斯", t!"卡洛斯文路斯"),
   (t!"卡米奥提萨", t!"卡米奥提萨"), (t!"卡萨比亚", t!"卡萨比亚"), (t!"卡诺支柱", t!"卡诺支柱"),
   (t!"卡贝略港大学", t!"卡贝略港大学"), (t!"卡路士斯汀", t!"卡路士斯汀"), (t!"卡达斯", t!"卡达斯"), (t!"卡那芬", t!"卡那芬"),
   (t!"卡阿拉", t!"卡阿拉"), (t!"卡雅", t!"卡雅"), (t!"卡齐纳联", t!"卡齐纳联"), (t!"卢加诺", t!"卢加诺"),
   (t!"卢塞恩", t!"卢塞恩"), (t!"卢多格德斯", t!"卢多格德斯"), (t!"卢旺达国际", t!"卢旺达国际"), (t!"卢旺达石油", t!"卢旺达石油"),
   (t!"印度箭头", t!"印度箭头"), (t!"厄尔布尔士神鸟", t!"厄尔布尔士神鸟"), (t!"历基尼亚", t!"历基尼亚"), (t!"古亚巴", t!"古亚巴"),
   (t!"古亚连拿", t!"古亚连拿"), (t!"古卡历基", t!"古卡历基"), (t!"古泰斯鱼雷", t!"古泰斯鱼雷"), (t!"古达加联", t!"古达加联"),
   (t!"古里高联", t!"古里高联"), (t!"台中Futuro", t!"台中Futuro"), (t!"台北竞技", t!"台北竞技"),
   (t!"台南市台湾钢铁", t!"台南市台湾钢铁"), (t!"台湾电力", t!"台湾电力"), (t!"台湾石虎", t!"台湾石虎"),
   (t!"史塔米列克", t!"史塔米列克"), (t!"史路加多博伊", t!"史路加多博伊"), (t!"史达兰", t!"史达兰"),
   (t!"吉大港阿巴罕尼", t!"吉大港阿巴罕尼"), (t!"吉打", t!"吉打"), (t!"吉达艾阿里", t!"吉达艾阿里"), (t!"吉隆坡联", t!"吉隆坡联"),
   (t!"吉马良斯", t!"吉马良斯"), (t!"名古屋鲸鱼", t!"名古屋鲸鱼"), (t!"名誉", t!"名誉"), (t!"后港联", t!"后港联"),
   (t!"君士坦丁", t!"君士坦丁"), (t!"和富大埔", t!"和富大埔"), (t!"咸仑斯巴坦", t!"咸仑斯巴坦"), (t!"咸卡", t!"咸卡"),
   (t!"哈伊杜克", t!"哈伊杜克"), (t!"哈卡", t!"哈卡"), (t!"哈塔斯堡", t!"哈塔斯堡")]

/-- `sport/club.tsv`, part 5. -/
def club5 : List (Str × Str) :=
  [(t!"哈夫纳夫约杜尔", t!"哈夫纳夫约杜尔"), (t!"哈密尔顿流浪者", t!"哈密尔顿流浪者"), (t!"哈尔迪亚", t!"哈尔迪亚"),
   (t!"哈尼联足球会", t!"哈尼联足球会"), (t!"哈特兰德", t!"哈特兰德"), (t!"哈特堡", t!"哈特堡"), (t!"哈达", t!"哈达"),
   (t!"哈迪拉夏普尔", t!"哈迪拉夏普尔"), (t!"哈里路风暴", t!"哈里路风暴"), (t!"哈马比", t!"哈马比"),
   (t!"哥伦布机员", t!"哥伦布机员"), (t!"哥利卡", t!"哥利卡"), (t!"哥德堡", t!"哥德堡"), (t!"哥本哈根", t!"哥本哈根"),
   (t!"哥罗纳", t!"哥罗纳"), (t!"哥连泰斯", t!"哥连泰斯"), (t!"喀拉拉爆破手", t!"喀拉拉爆破手"), (t!"喜伯年", t!"喜伯年"),
   (t!"四二五体育队", t!"四二五体育队"), (t!"国民会", t!"国民会"), (t!"国民体育俱乐部", t!"国民体育俱乐部"),
   (t!"国民普托斯", t!"国民普托斯"), (t!"国际体育俱乐部", t!"国际体育俱乐部"), (t!"国际图尔库", t!"国际图尔库"),
   (t!"国际米兰", t!"国际米兰"), (t!"国际迈阿密", t!"国际迈阿密"), (t!"图卢兹", t!"图卢兹"),
   (t!"图库姆斯2000", t!"图库姆斯2000"), (t!"图库曼体育俱乐部", t!"图库曼体育俱乐部"), (t!"图积兰奴斯", t!"图积兰奴斯"),
   (t!"图达杜利斯", t!"图达杜利斯"), (t!"圣乔凡尼", t!"圣乔凡尼"), (t!"圣保罗", t!"圣保罗"), (t!"圣加伦", t!"圣加伦"),
   (t!"圣卢西亚", t!"圣卢西亚"), (t!"圣图尔登", t!"圣图尔登"), (t!"圣地亚哥漫游者", t!"圣地亚哥漫游者"),
   (t!"圣基莱斯联", t!"圣基莱斯联"), (t!"圣巴特里克", t!"圣巴特里克"), (t!"圣庄士东", t!"圣庄士东"),
   (t!"圣彼得堡泽尼特", t!"圣彼得堡泽尼特"), (t!"圣罗伦素", t!"圣罗伦素"), (t!"圣美伦", t!"圣美伦"),
   (t!"圣艾斯佩兰卡", t!"圣艾斯佩兰卡"), (t!"圣若瑟", t!"圣若瑟"), (t!"圣荷西体育俱乐部", t!"圣荷西体育俱乐部"),
   (t!"圣荷西地震", t!"圣荷西地震"), (t!"圣达丽塔", t!"圣达丽塔"), (t!"圣达菲", t!"圣达菲"), (t!"圣达菲联", t!"圣达菲联"),
   (t!"圣马田大学", t!"圣马田大学"), (t!"地拉那", t!"地拉那"), (t!"坎特伯雷联龙队", t!"坎特伯雷联龙队"), (t!"坦梅卡", t!"坦梅卡"),
   (t!"埃利赞", t!"埃利赞"), (t!"埃努古流浪", t!"埃努古流浪"), (t!"埃尔切", t!"埃尔切"), (t!"埃弗顿", t!"埃弗顿"),
   (t!"埃斯托里尔", t!"埃斯托里尔"), (t!"埃施福拉", t!"埃施福拉"), (t!"埃施青年", t!"埃施青年"),
   (t!"埃特尔布吕克", t!"埃特尔布吕克"), (t!"埃里温中央陆军", t!"埃里温中央陆军"), (t!"城南FC", t!"城南FC")]

/-- `sport/club.tsv`, part 6. -/
def club6 : List (Str × Str) :=
  [(t!"域堡", t!"域堡"), (t!"基亚尼拿", t!"基亚尼拿"), (t!"基利森", t!"基利森"), (t!"基卡拉斯域卡", t!"基卡拉斯域卡"),
   (t!"基多天主教大学", t!"基多天主教大学"), (t!"基夫拿维克", t!"基夫拿维克"), (t!"基尔史莫纳夏普尔", t!"基尔史莫纳夏普尔"),
   (t!"基尔马诺克", t!"基尔马诺克"), (t!"基希讷乌野牛", t!"基希讷乌野牛"), (t!"基拿云", t!"基拿云"), (t!"基斯华达", t!"基斯华达"),
   (t!"基斯昆姆", t!"基斯昆姆"), (t!"基斯迪辛特", t!"基斯迪辛特"), (t!"基福维利", t!"基福维利"), (t!"基维辛迪", t!"基维辛迪"),
   (t!"基萨斯联", t!"基萨斯联"), (t!"基辅迪纳摩", t!"基辅迪纳摩"), (t!"基锡沙尔", t!"基锡沙尔"), (t!"塔利亚", t!"塔利亚"),
   (t!"塔奇拉", t!"塔奇拉"), (t!"塔拉雅", t!"塔拉雅"), (t!"塔斯干火车头", t!"塔斯干火车头"), (t!"塔林军团", t!"塔林军团"),
   (t!"塔林卡勒夫", t!"塔林卡勒夫"), (t!"塔泰兰", t!"塔泰兰"), (t!"塔达蒙", t!"塔达蒙"), (t!"塞伊奈约基", t!"塞伊奈约基"),
   (t!"塞列斯尼格罗斯", t!"塞列斯尼格罗斯"), (t!"塞尔塔", t!"塞尔塔"), (t!"塞帕", t!"塞帕"), (t!"塞维利亚", t!"塞维利亚"),
   (t!"塞维特", t!"塞维特"), (t!"墨尔本城", t!"墨尔本城"), (t!"墨尔本胜利", t!"墨尔本胜利"), (t!"夏维科韦斯郡", t!"夏维科韦斯郡"),
   (t!"多哈艾阿拉比", t!"多哈艾阿拉比"), (t!"多哈艾阿里", t!"多哈艾阿里"), (t!"多特蒙德", t!"多特蒙德"), (t!"大师7", t!"大师7"),
   (t!"大格兰特", t!"大格兰特"), (t!"大连人", t!"大连人"), (t!"大邱FC", t!"大邱FC"), (t!"大都会FC", t!"大都会FC"),
   (t!"大阪樱花", t!"大阪樱花"), (t!"大阪飞脚", t!"大阪飞脚"), (t!"天主教大学", t!"天主教大学"), (t!"天津津门虎", t!"天津津门虎"),
   (t!"天狼星", t!"天狼星"), (t!"天猫", t!"天猫"), (t!"奇姆基", t!"奇姆基"), (t!"奈夫特索罗曼", t!"奈夫特索罗曼"),
   (t!"奈斯", t!"奈斯"), (t!"奥伊本", t!"奥伊本"), (t!"奥伦斯", t!"奥伦斯"), (t!"奥克兰城", t!"奥克兰城"),
   (t!"奥兰多城", t!"奥兰多城"), (t!"奥地利克拉根福", t!"奥地利克拉根福"), (t!"奥地利维也纳", t!"奥地利维也纳"),
   (t!"奥地利路斯登洛", t!"奥地利路斯登洛"), (t!"奥尔堡", t!"奥尔堡"), (t!"奥尔梅多", t!"奥尔梅多"), (t!"奥尔迪诺", t!"奥尔迪诺"),
   (t!"奥希金斯", t!"奥希金斯"), (t!"奥德格伦兰", t!"奥德格伦兰")]

/-- `sport/club.tsv`, part 7. -/
def club7 : List (Str × Str) :=
  [(t!"奥摩尼亚", t!"奥摩尼亚"), (t!"奥斯坦德", t!"奥斯坦德"), (t!"奥斯泰华", t!"奥斯泰华"), (t!"奥斯积克", t!"奥斯积克"),
   (t!"奥林匹亚科斯", t!"奥林匹亚科斯"), (t!"奥林匹克麦迪亚", t!"奥林匹克麦迪亚"), (t!"奥林比亚", t!"奥林比亚"),
   (t!"奥林比亚会", t!"奥林比亚会"), (t!"奥格斯堡", t!"奥格斯堡"), (t!"奥洛慕克", t!"奥洛慕克"), (t!"奥特海维利", t!"奥特海维利"),
   (t!"奥胡斯", t!"奥胡斯"), (t!"奥萨苏纳", t!"奥萨苏纳"), (t!"奥达巴斯", t!"奥达巴斯"), (t!"奥达斯", t!"奥达斯"),
   (t!"委内瑞拉体育俱乐部", t!"委内瑞拉体育俱乐部"), (t!"威拉", t!"威拉"), (t!"威斯特曼", t!"威斯特曼"), (t!"威灵顿", t!"威灵顿"),
   (t!"威灵顿凤凰预备组", t!"威灵顿凤凰预备组"), (t!"孟买城", t!"孟买城"), (t!"学生队", t!"学生队"),
   (t!"安图法加斯达", t!"安图法加斯达"), (t!"安塔利亚", t!"安塔利亚"), (t!"安察利克", t!"安察利克"),
   (t!"安德莱赫特", t!"安德莱赫特"), (t!"安曼", t!"安曼"), (t!"安波里", t!"安波里"), (t!"安特卫普", t!"安特卫普"),
   (t!"安罗科萨斯", t!"安罗科萨斯"), (t!"安耶巴", t!"安耶巴"), (t!"安联大学", t!"安联大学"), (t!"安萨尔", t!"安萨尔"),
   (t!"安迪江", t!"安迪江"), (t!"宋兰义安", t!"宋兰义安"), (t!"实皆联", t!"实皆联"), (t!"宾尼沙坚", t!"宾尼沙坚"),
   (t!"宾尼耶斯", t!"宾尼耶斯"), (t!"宾约哥", t!"宾约哥"), (t!"富勒姆", t!"富勒姆"), (t!"富拿特", t!"富拿特"),
   (t!"富明尼斯", t!"富明尼斯"), (t!"小保加", t!"小保加"), (t!"小白水体育团", t!"小白水体育团"), (t!"小象", t!"小象"),
   (t!"小阿根廷人", t!"小阿根廷人"), (t!"尤尔马拉斯巴达克斯", t!"尤尔马拉斯巴达克斯"), (t!"尤文图斯", t!"尤文图斯"),
   (t!"尤比沙漠之星", t!"尤比沙漠之星"), (t!"尼兹华", t!"尼兹华"), (t!"尼坦亚马卡尔皮", t!"尼坦亚马卡尔皮"),
   (t!"尼日尔龙卷风", t!"尼日尔龙卷风"), (t!"尼科西亚", t!"尼科西亚"), (t!"尼科西亚奥林匹亚科斯", t!"尼科西亚奥林匹亚科斯"),
   (t!"尼菲治巴库", t!"尼菲治巴库"), (t!"山东泰山", t!"山东泰山"), (t!"山度士", t!"山度士"), (t!"岘港", t!"岘港"),
   (t!"岛民", t!"岛民"), (t!"川崎前锋", t!"川崎前锋"), (t!"巴伦西亚会", t!"巴伦西亚会"), (t!"巴列卡诺", t!"巴列卡诺"),
   (t!"巴利亚多利德", t!"巴利亚多利德"), (t!"巴利米纳联", t!"巴利米纳联")]

/-- `sport/club.tsv`, part 8. -/
def club8 : List (Str × Str) :=
  [(t!"巴力图", t!"巴力图"), (t!"巴卡托普拿", t!"巴卡托普拿"), (t!"巴厘联", t!"巴厘联"), (t!"巴吞联", t!"巴吞联"),
   (t!"巴堤", t!"巴堤"), (t!"巴塞尔", t!"巴塞尔"), (t!"巴塞罗那", t!"巴塞罗那"), (t!"巴尔辛", t!"巴尔辛"),
   (t!"巴尔采斯", t!"巴尔采斯"), (t!"巴希亚", t!"巴希亚"), (t!"巴扬卡拉", t!"巴扬卡拉"), (t!"巴拉城", t!"巴拉城"),
   (t!"巴拉干天奴", t!"巴拉干天奴"), (t!"巴拉杜", t!"巴拉杜"), (t!"巴拉纳体育俱乐部", t!"巴拉纳体育俱乐部"),
   (t!"巴斯顺达拉国王", t!"巴斯顺达拉国王"), (t!"巴杜米迪纳摩", t!"巴杜米迪纳摩"), (t!"巴格达空军", t!"巴格达空军"),
   (t!"巴禾", t!"巴禾"), (t!"巴萨克赛尔", t!"巴萨克赛尔"), (t!"巴蜀基利", t!"巴蜀基利"), (t!"巴赫莱", t!"巴赫莱"),
   (t!"巴迪", t!"巴迪"), (t!"巴黎圣日耳曼", t!"巴黎圣日耳曼"), (t!"布伦特福德", t!"布伦特福德"),
   (t!"布列斯特迪纳摩", t!"布列斯特迪纳摩"), (t!"布加勒斯特星队", t!"布加勒斯特星队"), (t!"布加勒斯特迅速", t!"布加勒斯特迅速"),
   (t!"布卡拉曼加", t!"布卡拉曼加"), (t!"布哈拉", t!"布哈拉"), (t!"布尤坎达基亚", t!"布尤坎达基亚"), (t!"布度洛斯", t!"布度洛斯"),
   (t!"布拉加", t!"布拉加"), (t!"布拉格斯巴达", t!"布拉格斯巴达"), (t!"布拉格斯拉维亚", t!"布拉格斯拉维亚"),
   (t!"布拉沃斯", t!"布拉沃斯"), (t!"布洛顿", t!"布洛顿"), (t!"布莱顿", t!"布莱顿"), (t!"布达亚", t!"布达亚"),
   (t!"布达佩斯华沙斯", t!"布达佩斯华沙斯"), (t!"布达佩斯汉维特", t!"布达佩斯汉维特"), (t!"布里斯班狮吼", t!"布里斯班狮吼"),
   (t!"布阿拉里季堡", t!"布阿拉里季堡"), (t!"布鲁日", t!"布鲁日"), (t!"布鲁日舒高", t!"布鲁日舒高"), (t!"希伯", t!"希伯"),
   (t!"希伯尼恩斯", t!"希伯尼恩斯"), (t!"希拉尔", t!"希拉尔"), (t!"帕丘卡", t!"帕丘卡"), (t!"帕克斯", t!"帕克斯"),
   (t!"帕尔杜比斯", t!"帕尔杜比斯"), (t!"帕度华", t!"帕度华"), (t!"帕斯度", t!"帕斯度"), (t!"帕斯祖洛比", t!"帕斯祖洛比"),
   (t!"帕特奥达斯", t!"帕特奥达斯"), (t!"帕福斯", t!"帕福斯"), (t!"帕纳辛奈科斯", t!"帕纳辛奈科斯"), (t!"帕雷拉", t!"帕雷拉"),
   (t!"平壤体育团", t!"平壤体育团"), (t!"平定", t!"平定"), (t!"平阳", t!"平阳"), (t!"年轻人", t!"年轻人"),
   (t!"幸运薛达", t!"幸运薛达"), (t!"幼狮队", t!"幼狮队")]

/-- `sport/club.tsv`, part 9. -/
def club9 : List (Str × Str) :=
  [(t!"广宁煤炭", t!"广宁煤炭"), (t!"广岛三箭", t!"广岛三箭"), (t!"广州", t!"广州"), (t!"广州城", t!"广州城"),
   (t!"库克斯", t!"库克斯"), (t!"库安多古班哥", t!"库安多古班哥"), (t!"库普斯", t!"库普斯"), (t!"库雷萨雷", t!"库雷萨雷"),
   (t!"庞特普里斯", t!"庞特普里斯"), (t!"康纳斯码头", t!"康纳斯码头"), (t!"廷布市", t!"廷布市"), (t!"弗林特镇联", t!"弗林特镇联"),
   (t!"弗洛拉", t!"弗洛拉"), (t!"弗赖堡", t!"弗赖堡"), (t!"弗雷姆", t!"弗雷姆"), (t!"强者", t!"强者"),
   (t!"当姆萨尼", t!"当姆萨尼"), (t!"当尼斯克矿工", t!"当尼斯克矿工"), (t!"当马兰奴", t!"当马兰奴"), (t!"彭亨", t!"彭亨"),
   (t!"彭尼杜列高斯", t!"彭尼杜列高斯"), (t!"彭尼维兹", t!"彭尼维兹"), (t!"彭拿洛沙", t!"彭拿洛沙"), (t!"彭拿路", t!"彭拿路"),
   (t!"彭美拉斯", t!"彭美拉斯"), (t!"彭迪夫学院", t!"彭迪夫学院"), (t!"得分王", t!"得分王"), (t!"德利城", t!"德利城"),
   (t!"德布雷辛尼", t!"德布雷辛尼"), (t!"德里戴拿模", t!"德里戴拿模"), (t!"德锡", t!"德锡"), (t!"恒势", t!"恒势"),
   (t!"恩彼", t!"恩彼"), (t!"恩维加多", t!"恩维加多"), (t!"恰帕斯美洲豹", t!"恰帕斯美洲豹"), (t!"惠灵顿凤凰", t!"惠灵顿凤凰"),
   (t!"慕尼斯帕尔", t!"慕尼斯帕尔"), (t!"戈亚尼恩斯", t!"戈亚尼恩斯"), (t!"戈里卡", t!"戈里卡"), (t!"成都蓉城", t!"成都蓉城"),
   (t!"托拉卡", t!"托拉卡"), (t!"托特纳姆热刺", t!"托特纳姆热刺"), (t!"拉古亚班巴", t!"拉古亚班巴"),
   (t!"拉多米亚克", t!"拉多米亚克"), (t!"拉奇", t!"拉奇"), (t!"拉巴特", t!"拉巴特"), (t!"拉布历基", t!"拉布历基"),
   (t!"拉德", t!"拉德"), (t!"拉德尼基", t!"拉德尼基"), (t!"拉恩", t!"拉恩"), (t!"拉查体育俱乐部", t!"拉查体育俱乐部"),
   (t!"拉查布里", t!"拉查布里"), (t!"拉特南", t!"拉特南"), (t!"拉瓜尔拉", t!"拉瓜尔拉"), (t!"拉科奥里塔", t!"拉科奥里塔"),
   (t!"拉科尼联", t!"拉科尼联"), (t!"拉米亚", t!"拉米亚"), (t!"拉赫蒂", t!"拉赫蒂"), (t!"拉鲁斯", t!"拉鲁斯"),
   (t!"拉齐奥", t!"拉齐奥"), (t!"拖雷斯", t!"拖雷斯"), (t!"拜仁慕尼黑", t!"拜仁慕尼黑"), (t!"拜利斯", t!"拜利斯"),
   (t!"拜基卡拉", t!"拜基卡拉")]

/-- `sport/club.tsv`, part 10. -/
def club10 : List (Str × Str) :=
  [(t!"拿加沙", t!"拿加沙"), (t!"拿夫巴贺", t!"拿夫巴贺"), (t!"拿夫特", t!"拿夫特"), (t!"拿拉FC", t!"拿拉FC"),
   (t!"拿拉体育俱乐部", t!"拿拉体育俱乐部"), (t!"拿比达克", t!"拿比达克"), (t!"拿沙连拿", t!"拿沙连拿"),
   (t!"拿舒维尔", t!"拿舒维尔"), (t!"拿菲米辛", t!"拿菲米辛"), (t!"拿萨夫", t!"拿萨夫"), (t!"挪亚", t!"挪亚"),
   (t!"捷尔任斯克兵工厂", t!"捷尔任斯克兵工厂"), (t!"捷斯托佐华", t!"捷斯托佐华"), (t!"捷迪斯沃", t!"捷迪斯沃"),
   (t!"掸联", t!"掸联"), (t!"摩拿", t!"摩拿"), (t!"摩纳哥", t!"摩纳哥"), (t!"摩里伦斯", t!"摩里伦斯"),
   (t!"收租者竞技", t!"收租者竞技"), (t!"敦达克", t!"敦达克"), (t!"文茨皮尔斯", t!"文茨皮尔斯"), (t!"斯佩齐亚", t!"斯佩齐亚"),
   (t!"斯卡利察", t!"斯卡利察"), (t!"斯卡拉", t!"斯卡拉"), (t!"斯卢茨克", t!"斯卢茨克"), (t!"斯古比", t!"斯古比"),
   (t!"斯图加特", t!"斯图加特"), (t!"斯基克达", t!"斯基克达"), (t!"斯威夫特", t!"斯威夫特"), (t!"斯平加尔苍鹰", t!"斯平加尔苍鹰"),
   (t!"斯托姆加斯特", t!"斯托姆加斯特"), (t!"斯拉维亚莫兹里", t!"斯拉维亚莫兹里"), (t!"斯洛云", t!"斯洛云"),
   (t!"斯洛华高", t!"斯洛华高"), (t!"斯洛波达", t!"斯洛波达"), (t!"斯特拉斯堡", t!"斯特拉斯堡"), (t!"斯特里达", t!"斯特里达"),
   (t!"斯特鲁加", t!"斯特鲁加"), (t!"斯科普里", t!"斯科普里"), (t!"新人SC", t!"新人SC"),
   (t!"新加坡新潟天鹅", t!"新加坡新潟天鹅"), (t!"新圣徒", t!"新圣徒"), (t!"新英伦革命", t!"新英伦革命"), (t!"新青年", t!"新青年"),
   (t!"施亚拉", t!"施亚拉"), (t!"施伦斯", t!"施伦斯"), (t!"施利高流浪", t!"施利高流浪"), (t!"施历斯", t!"施历斯"),
   (t!"施基斯亚", t!"施基斯亚"), (t!"施安尼", t!"施安尼"), (t!"施恩施雅奴", t!"施恩施雅奴"), (t!"施拉", t!"施拉"),
   (t!"施拉云", t!"施拉云"), (t!"施拉斯克", t!"施拉斯克"), (t!"施捷", t!"施捷"), (t!"施普斯", t!"施普斯"),
   (t!"施比尼克", t!"施比尼克"), (t!"施洛奇伯拉治", t!"施洛奇伯拉治"), (t!"施特拉森", t!"施特拉森"), (t!"施连", t!"施连"),
   (t!"施迪夫", t!"施迪夫"), (t!"日利纳", t!"日利纳"), (t!"时刻准备着", t!"时刻准备着"), (t!"昂热", t!"昂热")]

/-- `sport/club.tsv`, part 11. -/
def club11 : List (Str × Str) :=
  [(t!"昆卡", t!"昆卡"), (t!"明尼苏达联", t!"明尼苏达联"), (t!"明尼路", t!"明尼路"), (t!"明斯克", t!"明斯克"),
   (t!"明斯克迪纳摩", t!"明斯克迪纳摩"), (t!"春武里", t!"春武里"), (t!"晋峰", t!"晋峰"), (t!"普夫迪夫火车头", t!"普夫迪夫火车头"),
   (t!"普斯卡斯学院", t!"普斯卡斯学院"), (t!"普罗斯克", t!"普罗斯克"), (t!"普罗格雷素", t!"普罗格雷素"),
   (t!"智利大学", t!"智利大学"), (t!"曼城", t!"曼城"), (t!"曼塔", t!"曼塔"), (t!"曼彻斯特62", t!"曼彻斯特62"),
   (t!"曼联", t!"曼联"), (t!"曼谷联", t!"曼谷联"), (t!"曼迪奥拉", t!"曼迪奥拉"), (t!"曼霍本拉拉希", t!"曼霍本拉拉希"),
   (t!"月尾岛体育团", t!"月尾岛体育团"), (t!"朗斯", t!"朗斯"), (t!"本菲卡", t!"本菲卡"), (t!"朴比达", t!"朴比达"),
   (t!"朴达丹", t!"朴达丹"), (t!"朴迪莫伦斯", t!"朴迪莫伦斯"), (t!"杜保尔", t!"杜保尔"), (t!"杜克拉", t!"杜克拉"),
   (t!"杜兰", t!"杜兰"), (t!"杜利马", t!"杜利马"), (t!"杜希达联", t!"杜希达联"), (t!"杜斯拿城", t!"杜斯拿城"),
   (t!"杰志", t!"杰志"), (t!"极光队", t!"极光队"), (t!"林比", t!"林比"), (t!"林肯红魔鬼", t!"林肯红魔鬼"),
   (t!"林茨", t!"林茨"), (t!"果阿", t!"果阿"), (t!"柏克塔哥", t!"柏克塔哥"), (t!"柏利斯天奴", t!"柏利斯天奴"),
   (t!"柏拉坦斯", t!"柏拉坦斯"), (t!"柏斯波利斯", t!"柏斯波利斯"), (t!"柏林联", t!"柏林联"), (t!"柏林赫塔", t!"柏林赫塔"),
   (t!"柏简", t!"柏简"), (t!"柏雷素尔", t!"柏雷素尔"), (t!"柔佛DT", t!"柔佛DT"), (t!"查些路", t!"查些路"),
   (t!"查内尔", t!"查内尔"), (t!"查华尔", t!"查华尔"), (t!"查比高恩斯", t!"查比高恩斯"), (t!"查洛摩亚", t!"查洛摩亚"),
   (t!"查维斯", t!"查维斯"), (t!"标准列日", t!"标准列日"), (t!"标准流浪", t!"标准流浪"), (t!"根克", t!"根克"),
   (t!"根茨", t!"根茨"), (t!"格伦杜兰", t!"格伦杜兰"), (t!"格兹拉联", t!"格兹拉联"), (t!"格拉茨", t!"格拉茨"),
   (t!"格罗宁根", t!"格罗宁根"), (t!"桑普多利亚", t!"桑普多利亚"), (t!"梅塔", t!"梅塔"), (t!"梅州客家", t!"梅州客家"),
   (t!"梅拿", t!"梅拿")]

/-- `sport/club.tsv`, part 12. -/
def club12 : List (Str × Str) :=
  [(t!"梅拿达", t!"梅拿达"), (t!"梅格", t!"梅格"), (t!"梅索科菲德", t!"梅索科菲德"), (t!"梅赫伦", t!"梅赫伦"),
   (t!"梅里比拉", t!"梅里比拉"), (t!"梅里达学生队", t!"梅里达学生队"), (t!"棕榈花竞技", t!"棕榈花竞技"), (t!"森利德", t!"森利德"),
   (t!"森彼连", t!"森彼连"), (t!"槟城", t!"槟城"), (t!"横滨水手", t!"横滨水手"), (t!"欧卡斯", t!"欧卡斯"),
   (t!"欧塞尔", t!"欧塞尔"), (t!"欧登塞", t!"欧登塞"), (t!"武汉三镇", t!"武汉三镇"), (t!"武汉长江", t!"武汉长江"),
   (t!"武里南联", t!"武里南联"), (t!"比亚斯华夏普尔", t!"比亚斯华夏普尔"), (t!"比利亚雷亚尔", t!"比利亚雷亚尔"),
   (t!"比卓拿", t!"比卓拿"), (t!"比历斯", t!"比历斯"), (t!"比尔森胜利", t!"比尔森胜利"), (t!"比尼拉纳", t!"比尼拉纳"),
   (t!"比拿斯卡", t!"比拿斯卡"), (t!"比斯克拉", t!"比斯克拉"), (t!"比斯特", t!"比斯特"), (t!"比杜路尔", t!"比杜路尔"),
   (t!"比林", t!"比林"), (t!"比罗", t!"比罗"), (t!"比达比历", t!"比达比历"), (t!"毕尔巴鄂", t!"毕尔巴鄂"),
   (t!"水原FC", t!"水原FC"), (t!"水原三星蓝翼", t!"水原三星蓝翼"), (t!"水晶体育", t!"水晶体育"), (t!"水晶宫", t!"水晶宫"),
   (t!"汉卡约", t!"汉卡约"), (t!"汉达瓦底联", t!"汉达瓦底联"), (t!"江原FC", t!"江原FC"), (t!"沃尔夫斯堡", t!"沃尔夫斯堡"),
   (t!"沃尔夫斯贝格", t!"沃尔夫斯贝格"), (t!"沙兰迪兵工厂", t!"沙兰迪兵工厂"), (t!"沙勒格斯基", t!"沙勒格斯基"),
   (t!"沙哈霍德罗", t!"沙哈霍德罗"), (t!"沙士菲", t!"沙士菲"), (t!"沙奥利姆", t!"沙奥利姆"), (t!"沙尔", t!"沙尔"),
   (t!"沙尔克04", t!"沙尔克04"), (t!"沙巴", t!"沙巴"), (t!"沙巴尔", t!"沙巴尔"), (t!"沙巴巴库", t!"沙巴巴库"),
   (t!"沙巴柏沙希", t!"沙巴柏沙希"), (t!"沙巴罕", t!"沙巴罕"), (t!"沙巴阿罗登", t!"沙巴阿罗登"), (t!"沙布达卢", t!"沙布达卢"),
   (t!"沙恩", t!"沙恩"), (t!"沙拉姆", t!"沙拉姆"), (t!"沙斯辛", t!"沙斯辛"), (t!"沙欣布希尔", t!"沙欣布希尔"),
   (t!"沙比艾阿里", t!"沙比艾阿里"), (t!"沙汉姆", t!"沙汉姆"), (t!"沙没巴干城", t!"沙没巴干城"), (t!"沙洛克流浪", t!"沙洛克流浪"),
   (t!"沙米恩图", t!"沙米恩图"), (t!"沙迦", t!"沙迦")]

/-- `sport/club.tsv`, part 13. -/
def club13 : List (Str × Str) :=
  [(t!"沙马基", t!"沙马基"), (t!"沧州雄狮", t!"沧州雄狮"), (t!"河内FC", t!"河内FC"), (t!"河北FC", t!"河北FC"),
   (t!"河南嵩山龙门", t!"河南嵩山龙门"), (t!"河床", t!"河床"), (t!"河流联", t!"河流联"), (t!"法兰克福", t!"法兰克福"),
   (t!"法尔西亚诺", t!"法尔西亚诺"), (t!"法马利卡奥", t!"法马利卡奥"), (t!"法高尔", t!"法高尔"), (t!"波兹南莱克", t!"波兹南莱克"),
   (t!"波利斯拉夫", t!"波利斯拉夫"), (t!"波图加沙", t!"波图加沙"), (t!"波坦奴", t!"波坦奴"), (t!"波士顿河", t!"波士顿河"),
   (t!"波尔图", t!"波尔图"), (t!"波希米亚人", t!"波希米亚人"), (t!"波希美恩斯", t!"波希美恩斯"),
   (t!"波特兰伐木者", t!"波特兰伐木者"), (t!"波素斯捷", t!"波素斯捷"), (t!"波鸿", t!"波鸿"), (t!"泰哈蒙", t!"泰哈蒙"),
   (t!"泰哥维斯特", t!"泰哥维斯特"), (t!"泰拉克托", t!"泰拉克托"), (t!"泰拉维", t!"泰拉维"), (t!"泰港", t!"泰港"),
   (t!"泰科奥里", t!"泰科奥里"), (t!"泰纳瓦斯巴达", t!"泰纳瓦斯巴达"), (t!"泰路警察", t!"泰路警察"),
   (t!"泽巴格流浪", t!"泽巴格流浪"), (t!"泽维卡平联", t!"泽维卡平联"), (t!"洛杉矶银河", t!"洛杉矶银河"), (t!"洛比托", t!"洛比托"),
   (t!"洛比星队", t!"洛比星队"), (t!"洛里昂", t!"洛里昂"), (t!"洪卡", t!"洪卡"), (t!"洪都拉斯普基素", t!"洪都拉斯普基素"),
   (t!"派德", t!"派德"), (t!"流浪者", t!"流浪者"), (t!"济州联", t!"济州联"), (t!"浙江", t!"浙江"),
   (t!"浦和红钻", t!"浦和红钻"), (t!"浦那城", t!"浦那城"), (t!"浦项制铁", t!"浦项制铁"), (t!"浩罕1912", t!"浩罕1912"),
   (t!"海于格松", t!"海于格松"), (t!"海伦芬", t!"海伦芬"), (t!"海军海鹰", t!"海军海鹰"), (t!"海法马卡尔皮", t!"海法马卡尔皮"),
   (t!"海豚SC", t!"海豚SC"), (t!"海防", t!"海防"), (t!"淡滨尼流浪", t!"淡滨尼流浪"), (t!"深圳", t!"深圳"),
   (t!"深水埗", t!"深水埗"), (t!"清化", t!"清化"), (t!"清奈城", t!"清奈城"), (t!"清奈泰坦", t!"清奈泰坦"),
   (t!"清恩联", t!"清恩联"), (t!"清水心跳", t!"清水心跳"), (t!"清莱联", t!"清莱联"), (t!"温特图尔", t!"温特图尔"),
   (t!"港会", t!"港会"), (t!"游击队", t!"游击队")]

/-- `sport/club.tsv`, part 14. -/
def club14 : List (Str × Str) :=
  [(t!"游击队地拉拿", t!"游击队地拉拿"), (t!"湘南美海", t!"湘南美海"), (t!"澳门士砵亭", t!"澳门士砵亭"),
   (t!"澳门宾菲加", t!"澳门宾菲加"), (t!"澳门警察", t!"澳门警察"), (t!"火炬体育团", t!"火炬体育团"),
   (t!"火车头体育队", t!"火车头体育队"), (t!"灰色队", t!"灰色队"), (t!"燕子体育团", t!"燕子体育团"), (t!"特伦辛", t!"特伦辛"),
   (t!"特拉布宗", t!"特拉布宗"), (t!"特拉维夫夏普尔", t!"特拉维夫夏普尔"), (t!"特拉维夫马卡尔皮", t!"特拉维夫马卡尔皮"),
   (t!"特斯连", t!"特斯连"), (t!"特林素", t!"特林素"), (t!"特温特", t!"特温特"), (t!"特莱姆森", t!"特莱姆森"),
   (t!"特里森", t!"特里森"), (t!"特里森贝格", t!"特里森贝格"), (t!"特里波利斯", t!"特里波利斯"), (t!"特鲁瓦", t!"特鲁瓦"),
   (t!"独立队", t!"独立队"), (t!"狮城水手", t!"狮城水手"), (t!"玛丽港", t!"玛丽港"), (t!"玛拉工艺大学", t!"玛拉工艺大学"),
   (t!"玛格拉", t!"玛格拉"), (t!"环球马卡蒂", t!"环球马卡蒂"), (t!"玻利瓦尔", t!"玻利瓦尔"), (t!"珀斯光辉", t!"珀斯光辉"),
   (t!"班查鲁卡玻拉斯", t!"班查鲁卡玻拉斯"), (t!"班菲特", t!"班菲特"), (t!"理工大学竞技", t!"理工大学竞技"), (t!"理文", t!"理文"),
   (t!"瓜亚基尔城", t!"瓜亚基尔城"), (t!"瓜兰尼", t!"瓜兰尼"), (t!"瓜比拉", t!"瓜比拉"),
   (t!"瓜达拉哈拉体育俱乐部", t!"瓜达拉哈拉体育俱乐部"), (t!"瓦伦西亚", t!"瓦伦西亚"), (t!"瓦勒伦加", t!"瓦勒伦加"),
   (t!"瓦普鲁斯", t!"瓦普鲁斯"), (t!"瓦杜茨", t!"瓦杜茨"), (t!"瓦迪戴加", t!"瓦迪戴加"), (t!"甘堡尔", t!"甘堡尔"),
   (t!"甘美奥", t!"甘美奥"), (t!"电气工业", t!"电气工业"), (t!"登嘉楼", t!"登嘉楼"), (t!"登地联", t!"登地联"),
   (t!"白俄罗斯国立大学", t!"白俄罗斯国立大学"), (t!"百万富翁", t!"百万富翁"), (t!"的黎波里", t!"的黎波里"),
   (t!"皇家伊斯柏纳", t!"皇家伊斯柏纳"), (t!"皇家军力", t!"皇家军力"), (t!"皇家卡施米尔", t!"皇家卡施米尔"),
   (t!"皇家圣克鲁斯", t!"皇家圣克鲁斯"), (t!"皇家帕里", t!"皇家帕里"), (t!"皇家普托斯", t!"皇家普托斯"),
   (t!"皇家盐湖城", t!"皇家盐湖城"), (t!"皇家社会", t!"皇家社会"), (t!"皇家贝蒂斯", t!"皇家贝蒂斯"),
   (t!"皇家马德里", t!"皇家马德里"), (t!"皮亚斯特", t!"皮亚斯特"), (t!"皮埃塔热刺", t!"皮埃塔热刺"),
   (t!"直布罗陀狮子", t!"直布罗陀狮子"), (t!"石油联盟", t!"石油联盟")]

/-- `sport/club.tsv`, part 15. -/
def club15 : List (Str × Str) :=
  [(t!"磐田喜悦", t!"磐田喜悦"), (t!"祖云尼斯杜加拿", t!"祖云尼斯杜加拿"), (t!"祖奴摩勒斯", t!"祖奴摩勒斯"),
   (t!"祖尔特瓦雷根", t!"祖尔特瓦雷根"), (t!"神户胜利船", t!"神户胜利船"), (t!"福冈黄蜂", t!"福冈黄蜂"), (t!"福托华", t!"福托华"),
   (t!"禾伦达利", t!"禾伦达利"), (t!"禾宁丹", t!"禾宁丹"), (t!"禾斯克拉", t!"禾斯克拉"), (t!"禾斯杜华斯", t!"禾斯杜华斯"),
   (t!"禾路斯", t!"禾路斯"), (t!"科伦坡FC", t!"科伦坡FC"), (t!"科利安拿", t!"科利安拿"), (t!"科威特SC", t!"科威特SC"),
   (t!"科尔多瓦美洲虎", t!"科尔多瓦美洲虎"), (t!"科尼亚", t!"科尼亚"), (t!"科布雷素", t!"科布雷素"),
   (t!"科斯克米提", t!"科斯克米提"), (t!"科泰尼沙", t!"科泰尼沙"), (t!"科洛尼亚广场", t!"科洛尼亚广场"),
   (t!"科特赖克", t!"科特赖克"), (t!"科罗拉多急流", t!"科罗拉多急流"), (t!"科莫斯", t!"科莫斯"), (t!"科路巴拉", t!"科路巴拉"),
   (t!"科隆", t!"科隆"), (t!"秘鲁体育大学", t!"秘鲁体育大学"), (t!"积基鲁尼亚", t!"积基鲁尼亚"), (t!"积布尼克", t!"积布尼克"),
   (t!"竞技研讨会", t!"竞技研讨会"), (t!"竞赛会", t!"竞赛会"), (t!"竞赛联", t!"竞赛联"), (t!"第比利斯火车头", t!"第比利斯火车头"),
   (t!"第比利斯迪纳摩", t!"第比利斯迪纳摩"), (t!"第聂伯罗第一", t!"第聂伯罗第一"), (t!"简度拿奥", t!"简度拿奥"),
   (t!"米兰", t!"米兰"), (t!"米勒瓦旁遮普", t!"米勒瓦旁遮普"), (t!"米奈", t!"米奈"), (t!"米奥云尼", t!"米奥云尼"),
   (t!"米尔沙米", t!"米尔沙米"), (t!"米拿罗斯", t!"米拿罗斯"), (t!"米赞比", t!"米赞比"), (t!"米达利兹", t!"米达利兹"),
   (t!"米达利兹1925", t!"米达利兹1925"), (t!"精英队", t!"精英队"), (t!"素可泰", t!"素可泰"),
   (t!"索利戈尔斯克矿工", t!"索利戈尔斯克矿工"), (t!"索契", t!"索契"), (t!"索尔亚", t!"索尔亚"), (t!"索柏阿汉", t!"索柏阿汉"),
   (t!"索莫哈", t!"索莫哈"), (t!"索迪约拿", t!"索迪约拿"), (t!"索非亚中央陆军", t!"索非亚中央陆军"),
   (t!"索非亚利夫斯基", t!"索非亚利夫斯基"), (t!"索非亚斯拉维亚", t!"索非亚斯拉维亚"), (t!"索非亚施谭夫尼", t!"索非亚施谭夫尼"),
   (t!"索非亚火车头", t!"索非亚火车头"), (t!"红星", t!"红星"), (t!"约纳瓦", t!"约纳瓦"), (t!"纳夫艾华萨特", t!"纳夫艾华萨特"),
   (t!"纳尔瓦特兰斯", t!"纳尔瓦特兰斯"), (t!"纳尼恩", t!"纳尼恩"), (t!"纳沙", t!"纳沙")]

/-- `sport/club.tsv`, part 16. -/
def club16 : List (Str × Str) :=
  [(t!"纳沙拉瓦联", t!"纳沙拉瓦联"), (t!"纽卡斯尔联", t!"纽卡斯尔联"), (t!"纽卡素喷气机", t!"纽卡素喷气机"), (t!"纽城", t!"纽城"),
   (t!"纽柏莱斯", t!"纽柏莱斯"), (t!"纽约城", t!"纽约城"), (t!"纽约红牛", t!"纽约红牛"), (t!"纽维尔旧生", t!"纽维尔旧生"),
   (t!"纽里城", t!"纽里城"), (t!"绍乌拉", t!"绍乌拉"), (t!"维也纳迅速", t!"维也纳迅速"), (t!"维京", t!"维京"),
   (t!"维京加高泰", t!"维京加高泰"), (t!"维京古", t!"维京古"), (t!"维图斯", t!"维图斯"), (t!"维基旅行者", t!"维基旅行者"),
   (t!"维安", t!"维安"), (t!"维尔茨", t!"维尔茨"), (t!"维拉斯尼亚", t!"维拉斯尼亚"), (t!"维拿迪马爱华顿", t!"维拿迪马爱华顿"),
   (t!"维捷布斯克", t!"维捷布斯克"), (t!"维泽夫", t!"维泽夫"), (t!"维罗纳", t!"维罗纳"), (t!"维薛拿", t!"维薛拿"),
   (t!"维迪斯", t!"维迪斯"), (t!"绿色街道", t!"绿色街道"), (t!"罗勇", t!"罗勇"), (t!"罗斯托夫", t!"罗斯托夫"),
   (t!"罗斯波特维多利亚", t!"罗斯波特维多利亚"), (t!"罗斯郡", t!"罗斯郡"), (t!"罗森博格", t!"罗森博格"),
   (t!"罗沙里奥中央", t!"罗沙里奥中央"), (t!"罗达", t!"罗达"), (t!"罗马", t!"罗马"), (t!"美因茨", t!"美因茨"),
   (t!"美洲太阳", t!"美洲太阳"), (t!"美达罗", t!"美达罗"), (t!"老挝丰田", t!"老挝丰田"), (t!"老挝警察", t!"老挝警察"),
   (t!"耶路撒冷比达", t!"耶路撒冷比达"), (t!"联乐", t!"联乐"), (t!"股权保险队", t!"股权保险队"),
   (t!"肯萨斯城体育俱乐部", t!"肯萨斯城体育俱乐部"), (t!"胜利联队", t!"胜利联队"), (t!"胡志明市", t!"胡志明市"),
   (t!"胡特恩", t!"胡特恩"), (t!"自由议会", t!"自由议会"), (t!"舒列夫", t!"舒列夫"), (t!"舒尔本", t!"舒尔本"),
   (t!"舒肯迪捷", t!"舒肯迪捷"), (t!"航源FC", t!"航源FC"), (t!"航空竞技", t!"航空竞技"), (t!"般奴", t!"般奴"),
   (t!"般奴麦柏斯", t!"般奴麦柏斯"), (t!"艾乌鲁巴", t!"艾乌鲁巴"), (t!"艾伯哈", t!"艾伯哈"), (t!"艾伯里斯特夫", t!"艾伯里斯特夫"),
   (t!"艾修达", t!"艾修达"), (t!"艾加拉法", t!"艾加拉法"), (t!"艾华卡拉", t!"艾华卡拉"), (t!"艾华夫伯", t!"艾华夫伯"),
   (t!"艾华斯尔", t!"艾华斯尔"), (t!"艾华达", t!"艾华达"), (t!"艾华达SC", t!"艾华达SC")]

/-- `sport/club.tsv`, part 17. -/
def club17 : List (Str × Str) :=
  [(t!"艾卡克", t!"艾卡克"), (t!"艾卡哈艾阿利", t!"艾卡哈艾阿利"), (t!"艾卡夏巴", t!"艾卡夏巴"), (t!"艾卡迪斯亚", t!"艾卡迪斯亚"),
   (t!"艾卡马特", t!"艾卡马特"), (t!"艾哈斯姆", t!"艾哈斯姆"), (t!"艾哥尔", t!"艾哥尔"), (t!"艾喜拉", t!"艾喜拉"),
   (t!"艾基森", t!"艾基森"), (t!"艾塔亚文", t!"艾塔亚文"), (t!"艾塔拉巴", t!"艾塔拉巴"), (t!"艾塞利亚", t!"艾塞利亚"),
   (t!"艾夫斯堡", t!"艾夫斯堡"), (t!"艾安定艾哈比", t!"艾安定艾哈比"), (t!"艾尔索达", t!"艾尔索达"), (t!"艾巴卡", t!"艾巴卡"),
   (t!"艾希迪", t!"艾希迪"), (t!"艾干纳", t!"艾干纳"), (t!"艾恩米利拉", t!"艾恩米利拉"), (t!"艾拉华特", t!"艾拉华特"),
   (t!"艾拉华特阿美尼亚", t!"艾拉华特阿美尼亚"), (t!"艾拉斯克特", t!"艾拉斯克特"), (t!"艾拿查夫", t!"艾拿查夫"),
   (t!"艾拿积马", t!"艾拿积马"), (t!"艾提拉尔", t!"艾提拉尔"), (t!"艾文拿", t!"艾文拿"),
   (t!"艾斯加的斯体育俱乐部", t!"艾斯加的斯体育俱乐部"), (t!"艾斯加的斯国际", t!"艾斯加的斯国际"), (t!"艾斯卡尔", t!"艾斯卡尔"),
   (t!"艾斯宾路拿", t!"艾斯宾路拿"), (t!"艾斯迪格拿", t!"艾斯迪格拿"), (t!"艾杜哈尼", t!"艾杜哈尼"),
   (t!"艾杜美图斯", t!"艾杜美图斯"), (t!"艾杰拉", t!"艾杰拉"), (t!"艾查捷拉", t!"艾查捷拉"), (t!"艾查捷拉安曼", t!"艾查捷拉安曼"),
   (t!"艾沙克", t!"艾沙克"), (t!"艾沙哈尼亚", t!"艾沙哈尼亚"), (t!"艾沙希", t!"艾沙希"), (t!"艾沙比", t!"艾沙比"),
   (t!"艾沙比雅玛迪", t!"艾沙比雅玛迪"), (t!"艾法特", t!"艾法特"), (t!"艾祖拉", t!"艾祖拉"), (t!"艾穆哈拉克", t!"艾穆哈拉克"),
   (t!"艾索莱", t!"艾索莱"), (t!"艾纳斯", t!"艾纳斯"), (t!"艾维达", t!"艾维达"), (t!"艾美历克", t!"艾美历克"),
   (t!"艾萨威尔", t!"艾萨威尔"), (t!"艾萨德", t!"艾萨德"), (t!"艾费哈", t!"艾费哈"), (t!"艾贺查拉", t!"艾贺查拉"),
   (t!"艾贾里勒", t!"艾贾里勒"), (t!"艾赞洛布", t!"艾赞洛布"), (t!"艾赫多德", t!"艾赫多德"), (t!"艾辛尼", t!"艾辛尼"),
   (t!"艾达哈耶", t!"艾达哈耶"), (t!"艾达喀尔迪萨利", t!"艾达喀尔迪萨利"), (t!"艾达治", t!"艾达治"), (t!"艾连姆沙", t!"艾连姆沙"),
   (t!"艾迪云尼亚", t!"艾迪云尼亚"), (t!"艾迪哈法", t!"艾迪哈法"), (t!"艾里斯利马素", t!"艾里斯利马素"), (t!"艾锡卜", t!"艾锡卜")]

/-- `sport/club.tsv`, part 18. -/
def club18 : List (Str × Str) :=
  [(t!"艾阿恩", t!"艾阿恩"), (t!"艾阿达拿", t!"艾阿达拿"), (t!"艾阿里", t!"艾阿里"), (t!"艾阿里文拉马", t!"艾阿里文拉马"),
   (t!"艾阿里萨那", t!"艾阿里萨那"), (t!"艾雷恩", t!"艾雷恩"), (t!"艾马纳特巴格达", t!"艾马纳特巴格达"),
   (t!"艾高斯图", t!"艾高斯图"), (t!"芝加哥火焰", t!"芝加哥火焰"), (t!"芬哈斯", t!"芬哈斯"), (t!"芽笼国际", t!"芽笼国际"),
   (t!"苏亚巴亚", t!"苏亚巴亚"), (t!"苏利亚", t!"苏利亚"), (t!"苏博迪卡", t!"苏博迪卡"), (t!"苏古汉", t!"苏古汉"),
   (t!"苏度瓦", t!"苏度瓦"), (t!"苏怀克", t!"苏怀克"), (t!"苏杜利卡", t!"苏杜利卡"), (t!"苏积斯卡", t!"苏积斯卡"),
   (t!"苏鲁切恩圣乔治", t!"苏鲁切恩圣乔治"), (t!"苏黎世", t!"苏黎世"), (t!"若基诺鱼雷", t!"若基诺鱼雷"),
   (t!"英胡利兹", t!"英胡利兹"), (t!"草蜢", t!"草蜢"), (t!"莫塔瓜", t!"莫塔瓜"), (t!"莫尔", t!"莫尔"),
   (t!"莫斯科中央陆军", t!"莫斯科中央陆军"), (t!"莫斯科斯巴达克", t!"莫斯科斯巴达克"), (t!"莫斯科火车头", t!"莫斯科火车头"),
   (t!"莫斯科迪纳摩", t!"莫斯科迪纳摩"), (t!"莫斯科鱼雷", t!"莫斯科鱼雷"), (t!"莫斯达", t!"莫斯达"), (t!"莫纳加斯", t!"莫纳加斯"),
   (t!"莱切", t!"莱切"), (t!"莱奥塔", t!"莱奥塔"), (t!"莱斯特城", t!"莱斯特城"), (t!"莱比锡RB", t!"莱比锡RB"),
   (t!"菲奥兰提诺", t!"菲奥兰提诺"), (t!"菲律宾U-23", t!"菲律宾U-23"), (t!"菲律宾空军", t!"菲律宾空军"),
   (t!"萨克贺", t!"萨克贺"), (t!"萨勒尼塔纳", t!"萨勒尼塔纳"), (t!"萨古拉利", t!"萨古拉利"), (t!"萨哈布", t!"萨哈布"),
   (t!"萨基利兹", t!"萨基利兹"), (t!"萨姆加耶特", t!"萨姆加耶特"), (t!"萨尔米亚", t!"萨尔米亚"),
   (t!"萨尔茨堡红牛", t!"萨尔茨堡红牛"), (t!"萨巴柏保查", t!"萨巴柏保查"), (t!"萨拉热窝", t!"萨拉热窝"),
   (t!"萨拉米斯", t!"萨拉米斯"), (t!"萨普", t!"萨普"), (t!"萨普斯堡", t!"萨普斯堡"), (t!"萨格勒布火车头", t!"萨格勒布火车头"),
   (t!"萨格勒布迪纳摩", t!"萨格勒布迪纳摩"), (t!"萨比利斯", t!"萨比利斯"), (t!"萨法", t!"萨法"), (t!"萨瓦赫尔", t!"萨瓦赫尔"),
   (t!"萨索洛", t!"萨索洛"), (t!"萨那艾华达", t!"萨那艾华达"), (t!"萨马华", t!"萨马华"), (t!"萨马拉", t!"萨马拉"),
   (t!"萨马雷克", t!"萨马雷克"), (t!"葛度尔古斯", t!"葛度尔古斯")]

/-- `sport/club.tsv`, part 19. -/
def club19 : List (Str × Str) :=
  [(t!"葡人之家", t!"葡人之家"), (t!"葡萄牙体育", t!"葡萄牙体育"), (t!"蒂图斯佩唐日", t!"蒂图斯佩唐日"),
   (t!"蒂拉斯波尔", t!"蒂拉斯波尔"), (t!"蒂拉斯波尔迪纳摩", t!"蒂拉斯波尔迪纳摩"), (t!"蒂瓦特阿森纳", t!"蒂瓦特阿森纳"),
   (t!"蒙代康日", t!"蒙代康日"), (t!"蒙地卡罗", t!"蒙地卡罗"), (t!"蒙多夫", t!"蒙多夫"), (t!"蒙彼利埃", t!"蒙彼利埃"),
   (t!"蒙扎", t!"蒙扎"), (t!"蒙斯卡普", t!"蒙斯卡普"), (t!"蒙特维多利物浦", t!"蒙特维多利物浦"),
   (t!"蒙特维多国民队", t!"蒙特维多国民队"), (t!"蒙特维多城扭矩", t!"蒙特维多城扭矩"), (t!"蒙特维多河床", t!"蒙特维多河床"),
   (t!"蒙特维多流浪", t!"蒙特维多流浪"), (t!"蒙通联", t!"蒙通联"), (t!"蓝十字体育俱乐部", t!"蓝十字体育俱乐部"),
   (t!"蓝星", t!"蓝星"), (t!"蔚山现代", t!"蔚山现代"), (t!"蔡伦戈", t!"蔡伦戈"), (t!"薛谢斯历卡", t!"薛谢斯历卡"),
   (t!"西悉尼流浪", t!"西悉尼流浪"), (t!"西汉姆联", t!"西汉姆联"), (t!"西班牙人", t!"西班牙人"), (t!"西贡", t!"西贡"),
   (t!"西部联", t!"西部联"), (t!"西雅图海湾者", t!"西雅图海湾者"), (t!"诺丁汉森林", t!"诺丁汉森林"), (t!"诺拉万克", t!"诺拉万克"),
   (t!"诺维柏沙", t!"诺维柏沙"), (t!"诺费尔", t!"诺费尔"), (t!"诺高平", t!"诺高平"), (t!"诺高莫", t!"诺高莫"),
   (t!"谢夫", t!"谢夫"), (t!"谢赫拉塞尔", t!"谢赫拉塞尔"), (t!"豪克斯湾", t!"豪克斯湾"), (t!"豪尔费坎", t!"豪尔费坎"),
   (t!"贝加尼卡", t!"贝加尼卡"), (t!"贝勒阿巴斯", t!"贝勒阿巴斯"), (t!"贝尔格莱德红星", t!"贝尔格莱德红星"),
   (t!"贝西克塔斯", t!"贝西克塔斯"), (t!"贝雷茨", t!"贝雷茨"), (t!"贝鲁札达", t!"贝鲁札达"), (t!"质量经销商", t!"质量经销商"),
   (t!"费伦茨瓦罗斯", t!"费伦茨瓦罗斯"), (t!"费内巴切", t!"费内巴切"), (t!"费利拿", t!"费利拿"), (t!"费坦奴", t!"费坦奴"),
   (t!"费城联", t!"费城联"), (t!"费夏华", t!"费夏华"), (t!"费耶诺德", t!"费耶诺德"), (t!"费萨里", t!"费萨里"),
   (t!"贺拉戴克", t!"贺拉戴克"), (t!"贾柏莱", t!"贾柏莱"), (t!"赫塔费", t!"赫塔费"), (t!"赫尔辛堡", t!"赫尔辛堡"),
   (t!"赫斯", t!"赫斯"), (t!"赫根", t!"赫根"), (t!"赫格尔曼立陶宛", t!"赫格尔曼立陶宛"), (t!"赫罗纳", t!"赫罗纳"),
   (t!"超级联体育会", t!"超级联体育会"), (t!"越电信", t!"越电信")]

/-- `sport/club.tsv`, part 20. -/
def club20 : List (Str × Str) :=
  [(t!"路宾", t!"路宾"), (t!"路昆奴", t!"路昆奴"), (t!"路梳比洛", t!"路梳比洛"), (t!"路达普列夫利亚", t!"路达普列夫利亚"),
   (t!"轻工业省体育团", t!"轻工业省体育团"), (t!"辛斯华尔", t!"辛斯华尔"), (t!"辛特儒尼奥尔", t!"辛特儒尼奥尔"),
   (t!"辛达喀尔拉", t!"辛达喀尔拉"), (t!"辛连斯基", t!"辛连斯基"), (t!"辛迪夫佐特", t!"辛迪夫佐特"), (t!"达保亚", t!"达保亚"),
   (t!"达叻", t!"达叻"), (t!"达奴比奥", t!"达奴比奥"), (t!"达安蒙迪", t!"达安蒙迪"), (t!"达尔贝达", t!"达尔贝达"),
   (t!"达马克", t!"达马克"), (t!"迈万德冠军", t!"迈万德冠军"), (t!"进步者", t!"进步者"), (t!"连菲特", t!"连菲特"),
   (t!"迪克维斯", t!"迪克维斯"), (t!"迪加科斯", t!"迪加科斯"), (t!"迪宾尼", t!"迪宾尼"), (t!"迪尼伯", t!"迪尼伯"),
   (t!"迪弗当日", t!"迪弗当日"), (t!"迪德朗日", t!"迪德朗日"), (t!"迪拿哥里", t!"迪拿哥里"), (t!"迪赫弗", t!"迪赫弗"),
   (t!"邓根伦", t!"邓根伦"), (t!"那不勒斯", t!"那不勒斯"), (t!"那空拉查斯马", t!"那空拉查斯马"), (t!"邦加", t!"邦加"),
   (t!"邹北记", t!"邹北记"), (t!"都柏林大学", t!"都柏林大学"), (t!"都灵", t!"都灵"), (t!"里加FC", t!"里加FC"),
   (t!"里加足校", t!"里加足校"), (t!"里奥艾维", t!"里奥艾维"), (t!"里昂", t!"里昂"), (t!"里波洛", t!"里波洛"),
   (t!"金字塔", t!"金字塔"), (t!"铭传大学", t!"铭传大学"), (t!"锡尔克堡", t!"锡尔克堡"), (t!"锡永", t!"锡永"),
   (t!"锡瓦斯体育", t!"锡瓦斯体育"), (t!"长春亚泰", t!"长春亚泰"), (t!"门兴格拉德巴赫", t!"门兴格拉德巴赫"),
   (t!"防卫者", t!"防卫者"), (t!"阳光星", t!"阳光星"), (t!"阿伯丁", t!"阿伯丁"), (t!"阿克托比", t!"阿克托比"),
   (t!"阿克瓦联", t!"阿克瓦联"), (t!"阿克苏", t!"阿克苏"), (t!"阿勒颇伊蒂哈德", t!"阿勒颇伊蒂哈德"), (t!"阿古拿斯", t!"阿古拿斯"),
   (t!"阿古雷利", t!"阿古雷利"), (t!"阿喀巴", t!"阿喀巴"), (t!"阿姆波浪", t!"阿姆波浪"), (t!"阿尔亚莫克", t!"阿尔亚莫克"),
   (t!"阿尔克马尔", t!"阿尔克马尔"), (t!"阿尔内泽默", t!"阿尔内泽默"), (t!"阿尔列法", t!"阿尔列法"), (t!"阿尔华达", t!"阿尔华达"),
   (t!"阿尔哈拉", t!"阿尔哈拉"), (t!"阿尔富吉拉", t!"阿尔富吉拉")]

/-- `sport/club.tsv`, part 21. -/
def club21 : List (Str × Str) :=
  [(t!"阿尔拿达", t!"阿尔拿达"), (t!"阿尔查殊", t!"阿尔查殊"), (t!"阿尔梅里亚", t!"阿尔梅里亚"), (t!"阿尔禾里亚", t!"阿尔禾里亚"),
   (t!"阿尔纳夫", t!"阿尔纳夫"), (t!"阿尔纳斯", t!"阿尔纳斯"), (t!"阿尔纳沙", t!"阿尔纳沙"), (t!"阿尔艾拉比", t!"阿尔艾拉比"),
   (t!"阿尔萨特", t!"阿尔萨特"), (t!"阿尔费萨里", t!"阿尔费萨里"), (t!"阿尔阿赫德", t!"阿尔阿赫德"),
   (t!"阿巴辛波浪", t!"阿巴辛波浪"), (t!"阿度斯维", t!"阿度斯维"), (t!"阿德莱德联", t!"阿德莱德联"),
   (t!"阿拉伯建筑", t!"阿拉伯建筑"), (t!"阿拉姆巴格体育会", t!"阿拉姆巴格体育会"), (t!"阿拉尼亚", t!"阿拉尼亚"),
   (t!"阿拉德", t!"阿拉德"), (t!"阿拉瓜", t!"阿拉瓜"), (t!"阿斯塔纳", t!"阿斯塔纳"), (t!"阿斯顿维拉", t!"阿斯顿维拉"),
   (t!"阿斯麦隼鸟", t!"阿斯麦隼鸟"), (t!"阿曼FC", t!"阿曼FC"), (t!"阿查斯", t!"阿查斯"), (t!"阿森纳", t!"阿森纳"),
   (t!"阿比亚勇士", t!"阿比亚勇士"), (t!"阿比尔", t!"阿比尔"), (t!"阿波罗利马素", t!"阿波罗利马素"), (t!"阿洛卡", t!"阿洛卡"),
   (t!"阿特兰大联", t!"阿特兰大联"), (t!"阿特雷", t!"阿特雷"), (t!"阿积曼", t!"阿积曼"), (t!"阿简尼斯", t!"阿简尼斯"),
   (t!"阿美利加明尼路", t!"阿美利加明尼路"), (t!"阿耶古祖", t!"阿耶古祖"), (t!"阿舒多", t!"阿舒多"), (t!"阿贾克斯", t!"阿贾克斯"),
   (t!"阿达纳", t!"阿达纳"), (t!"阿里斯", t!"阿里斯"), (t!"阿里辛特", t!"阿里辛特"), (t!"阿雅克肖", t!"阿雅克肖"),
   (t!"阿雷马", t!"阿雷马"), (t!"陶格夫匹尔斯", t!"陶格夫匹尔斯"), (t!"隆德比", t!"隆德比"), (t!"雅拉古恩奴斯", t!"雅拉古恩奴斯"),
   (t!"雪兰莪", t!"雪兰莪"), (t!"雷克雅未克", t!"雷克雅未克"), (t!"雷尼基利斯", t!"雷尼基利斯"), (t!"雷恩", t!"雷恩"),
   (t!"雷格尔", t!"雷格尔"), (t!"雷诺华", t!"雷诺华"), (t!"霍尔森斯", t!"霍尔森斯"), (t!"霍斯特尔特", t!"霍斯特尔特"),
   (t!"霍芬海姆", t!"霍芬海姆"), (t!"霹雳", t!"霹雳"), (t!"青年人", t!"青年人"), (t!"青年体育俱乐部", t!"青年体育俱乐部"),
   (t!"青锋", t!"青锋"), (t!"靴曼斯达特", t!"靴曼斯达特"), (t!"韦斯图尔", t!"韦斯图尔"), (t!"韦斯特曼纳耶", t!"韦斯特曼纳耶"),
   (t!"韦斯达路", t!"韦斯达路"), (t!"韦达卡萨布兰卡", t!"韦达卡萨布兰卡"), (t!"韦达基利联", t!"韦达基利联")]

/-- `sport/club.tsv`, part 22. -/
def club22 : List (Str × Str) :=
  [(t!"飓风队", t!"飓风队"), (t!"香港U23", t!"香港U23"), (t!"马克塔拉尔", t!"马克塔拉尔"), (t!"马六甲联", t!"马六甲联"),
   (t!"马其顿尼亚", t!"马其顿尼亚"), (t!"马兹亚", t!"马兹亚"), (t!"马勒杜斯", t!"马勒杜斯"), (t!"马卡拉", t!"马卡拉"),
   (t!"马圭", t!"马圭"), (t!"马奇尼沙治", t!"马奇尼沙治"), (t!"马安", t!"马安"), (t!"马尔多纳多", t!"马尔多纳多"),
   (t!"马尔默", t!"马尔默"), (t!"马德里竞技", t!"马德里竞技"), (t!"马拉奇", t!"马拉奇"), (t!"马拉顿", t!"马拉顿"),
   (t!"马斯喀特", t!"马斯喀特"), (t!"马斯特", t!"马斯特"), (t!"马斯纳亚", t!"马斯纳亚"), (t!"马格里布", t!"马格里布"),
   (t!"马沙尔", t!"马沙尔"), (t!"马沙斯洛克", t!"马沙斯洛克"), (t!"马瑟韦尔", t!"马瑟韦尔"), (t!"马略卡", t!"马略卡"),
   (t!"马萨雷", t!"马萨雷"), (t!"马赛", t!"马赛"), (t!"马赞德兰", t!"马赞德兰"), (t!"马都拉联", t!"马都拉联"),
   (t!"马里博尔", t!"马里博尔"), (t!"马里士他卡沙", t!"马里士他卡沙"), (t!"马里迪莫", t!"马里迪莫"), (t!"高利宁", t!"高利宁"),
   (t!"高劳", t!"高劳"), (t!"高原联", t!"高原联"), (t!"高古林", t!"高古林"), (t!"高尔高赫", t!"高尔高赫"),
   (t!"高柏", t!"高柏"), (t!"高洛斯", t!"高洛斯"), (t!"高美尔", t!"高美尔"), (t!"高路高路", t!"高路高路"),
   (t!"高隆", t!"高隆"), (t!"鲁卡尼", t!"鲁卡尼"), (t!"鲁斯塔克", t!"鲁斯塔克"), (t!"鲤明水体育团", t!"鲤明水体育团"),
   (t!"鸟栖砂岩", t!"鸟栖砂岩"), (t!"鸭绿江体育队", t!"鸭绿江体育队"), (t!"鸿岭河静", t!"鸿岭河静"), (t!"鹿岛鹿角", t!"鹿岛鹿角"),
   (t!"鹿特丹斯巴达", t!"鹿特丹斯巴达"), (t!"麦克阿瑟", t!"麦克阿瑟"), (t!"麦德林独立", t!"麦德林独立"), (t!"麦纳玛", t!"麦纳玛"),
   (t!"黄英嘉莱", t!"黄英嘉莱"), (t!"黎明体育团", t!"黎明体育团")]

/-- `sport/club.tsv`. -/
def club : List (Str × Str) :=
  club0 ++
  club1 ++
  club2 ++
  club3 ++
  club4 ++
  club5 ++
  club6 ++
  club7 ++
  club8 ++
  club9 ++
  club10 ++
  club11 ++
  club12 ++
  club13 ++
  club14 ++
  club15 ++
  club16 ++
  club17 ++
  club18 ++
  club19 ++
  club20 ++
  club21 ++
  club22

/-- `default/blacklist.tsv`. -/
def blacklist : List (Str × Str) :=
  [(t!"呃", t!"呃"), (t!"啊", t!"啊")]

/-- `default/whitelist.tsv`. -/
def whitelist : List (Str × Str) :=
  [(t!"B2B", t!"B to B"), (t!"M.V.P", t!"M V P"), (t!"O2O", t!"O to O"), (t!"P2P", t!"P to P"),
   (t!"BY2", t!"BY TWO"), (t!"By2", t!"By Two"), (t!"10后", t!"一零后"), (t!"00后", t!"零零后"),
   (t!"90后", t!"九零后"), (t!"80后", t!"八零后"), (t!"70后", t!"七零后"), (t!"60后", t!"六零后"),
   (t!"50后", t!"五零后")]

/-- `erhua/whitelist.tsv`. -/
def erhuaWhitelist : List (Str × Str) :=
  [(t!"儿女", t!"儿女"), (t!"儿子", t!"儿子"), (t!"儿孙", t!"儿孙"), (t!"女儿", t!"女儿"), (t!"儿媳", t!"儿媳"),
   (t!"妻儿", t!"妻儿"), (t!"胎儿", t!"胎儿"), (t!"婴儿", t!"婴儿"), (t!"新生儿", t!"新生儿"),
   (t!"婴幼儿", t!"婴幼儿"), (t!"幼儿", t!"幼儿"), (t!"少儿", t!"少儿"), (t!"小儿", t!"小儿"), (t!"儿歌", t!"儿歌"),
   (t!"儿童", t!"儿童"), (t!"儿科", t!"儿科"), (t!"托儿所", t!"托儿所"), (t!"孤儿", t!"孤儿"), (t!"儿戏", t!"儿戏"),
   (t!"儿化", t!"儿化"), (t!"台儿庄", t!"台儿庄"), (t!"鹿儿岛", t!"鹿儿岛"), (t!"正儿八经", t!"正儿八经"),
   (t!"吊儿郎当", t!"吊儿郎当"), (t!"生儿育女", t!"生儿育女"), (t!"托儿带女", t!"托儿带女"), (t!"养儿防老", t!"养儿防老"),
   (t!"痴儿呆女", t!"痴儿呆女"), (t!"佳儿佳妇", t!"佳儿佳妇"), (t!"儿怜兽扰", t!"儿怜兽扰"), (t!"儿无常父", t!"儿无常父"),
   (t!"儿不嫌母丑", t!"儿不嫌母丑"), (t!"儿行千里母担忧", t!"儿行千里母担忧"), (t!"儿大不由爷", t!"儿大不由爷"),
   (t!"苏乞儿", t!"苏乞儿"), (t!"容祖儿", t!"容祖儿")]

end Verif.ZhTn
