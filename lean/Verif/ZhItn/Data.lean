import Verif.Wfst.Processor

/-
Data tables of /repo/itn/chinese/data, written by tools/mkdata.py from the .tsv files.
-/

namespace Verif.ZhItn

open Verif.Wfst

/-- `number/digit.tsv`. -/
def digit : List (Str × Str) :=
  [(t!"一", t!"1"), (t!"幺", t!"1"), (t!"壹", t!"1"), (t!"二", t!"2"), (t!"两", t!"2"),
   (t!"贰", t!"2"), (t!"三", t!"3"), (t!"叁", t!"3"), (t!"四", t!"4"), (t!"肆", t!"4"),
   (t!"五", t!"5"), (t!"伍", t!"5"), (t!"六", t!"6"), (t!"陆", t!"6"), (t!"七", t!"7"),
   (t!"柒", t!"7"), (t!"拐", t!"7"), (t!"八", t!"8"), (t!"捌", t!"8"), (t!"九", t!"9"),
   (t!"玖", t!"9")]

/-- `number/digit_zh.tsv`. -/
def digitZh : List (Str × Str) :=
  [(t!"一", t!"一"), (t!"二", t!"二"), (t!"两", t!"两"), (t!"三", t!"三"), (t!"四", t!"四"),
   (t!"五", t!"五"), (t!"六", t!"六"), (t!"七", t!"七"), (t!"八", t!"八"), (t!"九", t!"九")]

/-- `number/dot.tsv`. -/
def dot : List (Str × Str) :=
  [(t!"点", t!"."), (t!"點", t!".")]

/-- `number/repeat_digit.tsv`, part 0. -/
def repeatDigit0 : List (Str × Str) :=
  [(t!"七个一", t!"1111111"), (t!"七个七", t!"7777777"), (t!"七个三", t!"3333333"),
   (t!"七个两", t!"2222222"), (t!"七个九", t!"9999999"), (t!"七个二", t!"2222222"),
   (t!"七个五", t!"5555555"), (t!"七个伍", t!"5555555"), (t!"七个八", t!"8888888"),
   (t!"七个六", t!"6666666"), (t!"七个叁", t!"3333333"), (t!"七个四", t!"4444444"),
   (t!"七个壹", t!"1111111"), (t!"七个幺", t!"1111111"), (t!"七个拐", t!"7777777"),
   (t!"七个捌", t!"8888888"), (t!"七个柒", t!"7777777"), (t!"七个洞", t!"0000000"),
   (t!"七个玖", t!"9999999"), (t!"七个肆", t!"4444444"), (t!"七个贰", t!"2222222"),
   (t!"七个陆", t!"6666666"), (t!"七个零", t!"0000000"), (t!"三个一", t!"111"), (t!"三个七", t!"777"),
   (t!"三个三", t!"333"), (t!"三个两", t!"222"), (t!"三个九", t!"999"), (t!"三个二", t!"222"),
   (t!"三个五", t!"555"), (t!"三个伍", t!"555"), (t!"三个八", t!"888"), (t!"三个六", t!"666"),
   (t!"三个叁", t!"333"), (t!"三个四", t!"444"), (t!"三个壹", t!"111"), (t!"三个幺", t!"111"),
   (t!"三个拐", t!"777"), (t!"三个捌", t!"888"), (t!"三个柒", t!"777"), (t!"三个洞", t!"000"),
   (t!"三个玖", t!"999"), (t!"三个肆", t!"444"), (t!"三个贰", t!"222"), (t!"三个陆", t!"666"),
   (t!"三个零", t!"000"), (t!"九个一", t!"111111111"), (t!"九个七", t!"777777777"),
   (t!"九个三", t!"333333333"), (t!"九个两", t!"222222222"), (t!"九个九", t!"999999999"),
   (t!"九个二", t!"222222222"), (t!"九个五", t!"555555555"), (t!"九个伍", t!"555555555"),
   (t!"九个八", t!"888888888"), (t!"九个六", t!"666666666"), (t!"九个叁", t!"333333333"),
   (t!"九个四", t!"444444444"), (t!"九个壹", t!"111111111"), (t!"九个幺", t!"111111111"),
   (t!"九个拐", t!"777777777"), (t!"九个捌", t!"888888888"), (t!"九个柒", t!"777777777"),
   (t!"九个洞", t!"000000000")]

/-- `number/repeat_digit.tsv`, part 1. -/
def repeatDigit1 : List (Str × Str) :=
  [(t!"九个玖", t!"999999999"), (t!"九个肆", t!"444444444"), (t!"九个贰", t!"222222222"),
   (t!"九个陆", t!"666666666"), (t!"九个零", t!"000000000"), (t!"五个一", t!"11111"),
   (t!"五个七", t!"77777"), (t!"五个三", t!"33333"), (t!"五个两", t!"22222"), (t!"五个九", t!"99999"),
   (t!"五个二", t!"22222"), (t!"五个五", t!"55555"), (t!"五个伍", t!"55555"), (t!"五个八", t!"88888"),
   (t!"五个六", t!"66666"), (t!"五个叁", t!"33333"), (t!"五个四", t!"44444"), (t!"五个壹", t!"11111"),
   (t!"五个幺", t!"11111"), (t!"五个拐", t!"77777"), (t!"五个捌", t!"88888"), (t!"五个柒", t!"77777"),
   (t!"五个洞", t!"00000"), (t!"五个玖", t!"99999"), (t!"五个肆", t!"44444"), (t!"五个贰", t!"22222"),
   (t!"五个陆", t!"66666"), (t!"五个零", t!"00000"), (t!"伍个一", t!"11111"), (t!"伍个七", t!"77777"),
   (t!"伍个三", t!"33333"), (t!"伍个两", t!"22222"), (t!"伍个九", t!"99999"), (t!"伍个二", t!"22222"),
   (t!"伍个五", t!"55555"), (t!"伍个伍", t!"55555"), (t!"伍个八", t!"88888"), (t!"伍个六", t!"66666"),
   (t!"伍个叁", t!"33333"), (t!"伍个四", t!"44444"), (t!"伍个壹", t!"11111"), (t!"伍个幺", t!"11111"),
   (t!"伍个拐", t!"77777"), (t!"伍个捌", t!"88888"), (t!"伍个柒", t!"77777"), (t!"伍个洞", t!"00000"),
   (t!"伍个玖", t!"99999"), (t!"伍个肆", t!"44444"), (t!"伍个贰", t!"22222"), (t!"伍个陆", t!"66666"),
   (t!"伍个零", t!"00000"), (t!"八个一", t!"11111111"), (t!"八个七", t!"77777777"),
   (t!"八个三", t!"33333333"), (t!"八个两", t!"22222222"), (t!"八个九", t!"99999999"),
   (t!"八个二", t!"22222222"), (t!"八个五", t!"55555555"), (t!"八个伍", t!"55555555"),
   (t!"八个八", t!"88888888"), (t!"八个六", t!"66666666"), (t!"八个叁", t!"33333333"),
   (t!"八个四", t!"44444444"), (t!"八个壹", t!"11111111")]

/-- `number/repeat_digit.tsv`, part 2. -/
def repeatDigit2 : List (Str × Str) :=
  [(t!"八个幺", t!"11111111"), (t!"八个拐", t!"77777777"), (t!"八个捌", t!"88888888"),
   (t!"八个柒", t!"77777777"), (t!"八个洞", t!"00000000"), (t!"八个玖", t!"99999999"),
   (t!"八个肆", t!"44444444"), (t!"八个贰", t!"22222222"), (t!"八个陆", t!"66666666"),
   (t!"八个零", t!"00000000"), (t!"六个一", t!"111111"), (t!"六个七", t!"777777"),
   (t!"六个三", t!"333333"), (t!"六个两", t!"222222"), (t!"六个九", t!"999999"), (t!"六个二", t!"222222"),
   (t!"六个五", t!"555555"), (t!"六个伍", t!"555555"), (t!"六个八", t!"888888"), (t!"六个六", t!"666666"),
   (t!"六个叁", t!"333333"), (t!"六个四", t!"444444"), (t!"六个壹", t!"111111"), (t!"六个幺", t!"111111"),
   (t!"六个拐", t!"777777"), (t!"六个捌", t!"888888"), (t!"六个柒", t!"777777"), (t!"六个洞", t!"000000"),
   (t!"六个玖", t!"999999"), (t!"六个肆", t!"444444"), (t!"六个贰", t!"222222"), (t!"六个陆", t!"666666"),
   (t!"六个零", t!"000000"), (t!"叁个一", t!"111"), (t!"叁个七", t!"777"), (t!"叁个三", t!"333"),
   (t!"叁个两", t!"222"), (t!"叁个九", t!"999"), (t!"叁个二", t!"222"), (t!"叁个五", t!"555"),
   (t!"叁个伍", t!"555"), (t!"叁个八", t!"888"), (t!"叁个六", t!"666"), (t!"叁个叁", t!"333"),
   (t!"叁个四", t!"444"), (t!"叁个壹", t!"111"), (t!"叁个幺", t!"111"), (t!"叁个拐", t!"777"),
   (t!"叁个捌", t!"888"), (t!"叁个柒", t!"777"), (t!"叁个洞", t!"000"), (t!"叁个玖", t!"999"),
   (t!"叁个肆", t!"444"), (t!"叁个贰", t!"222"), (t!"叁个陆", t!"666"), (t!"叁个零", t!"000"),
   (t!"四个一", t!"1111"), (t!"四个七", t!"7777"), (t!"四个三", t!"3333"), (t!"四个两", t!"2222"),
   (t!"四个九", t!"9999"), (t!"四个二", t!"2222"), (t!"四个五", t!"5555"), (t!"四个伍", t!"5555")]

/-- `number/repeat_digit.tsv`, part 3. -/
def repeatDigit3 : List (Str × Str) :=
  [(t!"四个八", t!"8888"), (t!"四个六", t!"6666"), (t!"四个叁", t!"3333"), (t!"四个四", t!"4444"),
   (t!"四个壹", t!"1111"), (t!"四个幺", t!"1111"), (t!"四个拐", t!"7777"), (t!"四个捌", t!"8888"),
   (t!"四个柒", t!"7777"), (t!"四个洞", t!"0000"), (t!"四个玖", t!"9999"), (t!"四个肆", t!"4444"),
   (t!"四个贰", t!"2222"), (t!"四个陆", t!"6666"), (t!"四个零", t!"0000"), (t!"捌个一", t!"11111111"),
   (t!"捌个七", t!"77777777"), (t!"捌个三", t!"33333333"), (t!"捌个两", t!"22222222"),
   (t!"捌个九", t!"99999999"), (t!"捌个二", t!"22222222"), (t!"捌个五", t!"55555555"),
   (t!"捌个伍", t!"55555555"), (t!"捌个八", t!"88888888"), (t!"捌个六", t!"66666666"),
   (t!"捌个叁", t!"33333333"), (t!"捌个四", t!"44444444"), (t!"捌个壹", t!"11111111"),
   (t!"捌个幺", t!"11111111"), (t!"捌个拐", t!"77777777"), (t!"捌个捌", t!"88888888"),
   (t!"捌个柒", t!"77777777"), (t!"捌个洞", t!"00000000"), (t!"捌个玖", t!"99999999"),
   (t!"捌个肆", t!"44444444"), (t!"捌个贰", t!"22222222"), (t!"捌个陆", t!"66666666"),
   (t!"捌个零", t!"00000000"), (t!"柒个一", t!"1111111"), (t!"柒个七", t!"7777777"),
   (t!"柒个三", t!"3333333"), (t!"柒个两", t!"2222222"), (t!"柒个九", t!"9999999"),
   (t!"柒个二", t!"2222222"), (t!"柒个五", t!"5555555"), (t!"柒个伍", t!"5555555"),
   (t!"柒个八", t!"8888888"), (t!"柒个六", t!"6666666"), (t!"柒个叁", t!"3333333"),
   (t!"柒个四", t!"4444444"), (t!"柒个壹", t!"1111111"), (t!"柒个幺", t!"1111111"),
   (t!"柒个拐", t!"7777777"), (t!"柒个捌", t!"8888888"), (t!"柒个柒", t!"7777777"),
   (t!"柒个洞", t!"0000000"), (t!"柒个玖", t!"9999999"), (t!"柒个肆", t!"4444444"),
   (t!"柒个贰", t!"2222222"), (t!"柒个陆", t!"6666666"), (t!"柒个零", t!"0000000"),
   (t!"玖个一", t!"111111111"), (t!"玖个七", t!"777777777"), (t!"玖个三", t!"333333333")]

/-- `number/repeat_digit.tsv`, part 4. -/
def repeatDigit4 : List (Str × Str) :=
  [(t!"玖个两", t!"222222222"), (t!"玖个九", t!"999999999"), (t!"玖个二", t!"222222222"),
   (t!"玖个五", t!"555555555"), (t!"玖个伍", t!"555555555"), (t!"玖个八", t!"888888888"),
   (t!"玖个六", t!"666666666"), (t!"玖个叁", t!"333333333"), (t!"玖个四", t!"444444444"),
   (t!"玖个壹", t!"111111111"), (t!"玖个幺", t!"111111111"), (t!"玖个拐", t!"777777777"),
   (t!"玖个捌", t!"888888888"), (t!"玖个柒", t!"777777777"), (t!"玖个洞", t!"000000000"),
   (t!"玖个玖", t!"999999999"), (t!"玖个肆", t!"444444444"), (t!"玖个贰", t!"222222222"),
   (t!"玖个陆", t!"666666666"), (t!"玖个零", t!"000000000"), (t!"肆个一", t!"1111"),
   (t!"肆个七", t!"7777"), (t!"肆个三", t!"3333"), (t!"肆个两", t!"2222"), (t!"肆个九", t!"9999"),
   (t!"肆个二", t!"2222"), (t!"肆个五", t!"5555"), (t!"肆个伍", t!"5555"), (t!"肆个八", t!"8888"),
   (t!"肆个六", t!"6666"), (t!"肆个叁", t!"3333"), (t!"肆个四", t!"4444"), (t!"肆个壹", t!"1111"),
   (t!"肆个幺", t!"1111"), (t!"肆个拐", t!"7777"), (t!"肆个捌", t!"8888"), (t!"肆个柒", t!"7777"),
   (t!"肆个洞", t!"0000"), (t!"肆个玖", t!"9999"), (t!"肆个肆", t!"4444"), (t!"肆个贰", t!"2222"),
   (t!"肆个陆", t!"6666"), (t!"肆个零", t!"0000"), (t!"陆个一", t!"111111"), (t!"陆个七", t!"777777"),
   (t!"陆个三", t!"333333"), (t!"陆个两", t!"222222"), (t!"陆个九", t!"999999"), (t!"陆个二", t!"222222"),
   (t!"陆个五", t!"555555"), (t!"陆个伍", t!"555555"), (t!"陆个八", t!"888888"), (t!"陆个六", t!"666666"),
   (t!"陆个叁", t!"333333"), (t!"陆个四", t!"444444"), (t!"陆个壹", t!"111111"), (t!"陆个幺", t!"111111"),
   (t!"陆个拐", t!"777777"), (t!"陆个捌", t!"888888"), (t!"陆个柒", t!"777777"), (t!"陆个洞", t!"000000"),
   (t!"陆个玖", t!"999999"), (t!"陆个肆", t!"444444"), (t!"陆个贰", t!"222222")]

/-- `number/repeat_digit.tsv`, part 5. -/
def repeatDigit5 : List (Str × Str) :=
  [(t!"陆个陆", t!"666666"), (t!"陆个零", t!"000000")]

/-- `number/repeat_digit.tsv`. -/
def repeatDigit : List (Str × Str) :=
  repeatDigit0 ++
  repeatDigit1 ++
  repeatDigit2 ++
  repeatDigit3 ++
  repeatDigit4 ++
  repeatDigit5

/-- `number/sign.tsv`. -/
def sign : List (Str × Str) :=
  [(t!"正", t!"+"), (t!"正负", t!"±"), (t!"负", t!"-"), (t!"负的", t!"-")]

/-- `number/special_dash.tsv`. -/
def specialDash : List (Str × Str) :=
  [(t!"一二", t!"1-2"), (t!"二三", t!"2-3"), (t!"三四", t!"3-4"), (t!"三五", t!"3-5"),
   (t!"四五", t!"4-5"), (t!"五六", t!"5-6"), (t!"六七", t!"6-7"), (t!"七八", t!"7-8"),
   (t!"八九", t!"8-9"), (t!"一二十", t!"10-20"), (t!"二三十", t!"20-30"), (t!"三四十", t!"30-40"),
   (t!"三五十", t!"30-50"), (t!"四五十", t!"40-50"), (t!"五六十", t!"50-60"), (t!"六七十", t!"60-70"),
   (t!"七八十", t!"70-80"), (t!"八九十", t!"80-90"), (t!"一二百", t!"100-200"), (t!"一两百", t!"100-200"),
   (t!"二三百", t!"200-300"), (t!"两三百", t!"200-300"), (t!"三四百", t!"300-400"),
   (t!"三五百", t!"300-500"), (t!"四五百", t!"400-500"), (t!"五六百", t!"500-600"),
   (t!"六七百", t!"600-700"), (t!"七八百", t!"700-800"), (t!"八九百", t!"800-900"),
   (t!"一二千", t!"1000-2000"), (t!"一两千", t!"1000-2000"), (t!"二三千", t!"2000-3000"),
   (t!"两三千", t!"2000-3000"), (t!"三四千", t!"3000-4000"), (t!"三五千", t!"3000-5000"),
   (t!"四五千", t!"4000-5000"), (t!"五六千", t!"5000-6000"), (t!"六七千", t!"6000-7000"),
   (t!"七八千", t!"7000-8000"), (t!"八九千", t!"8000-9000")]

/-- `number/special_tilde.tsv`. -/
def specialTilde : List (Str × Str) :=
  [(t!"一二", t!"1~2"), (t!"二三", t!"2~3"), (t!"三四", t!"3~4"), (t!"三五", t!"3~5"),
   (t!"四五", t!"4~5"), (t!"五六", t!"5~6"), (t!"六七", t!"6~7"), (t!"七八", t!"7~8"),
   (t!"八九", t!"8~9"), (t!"一二十", t!"10~20"), (t!"二三十", t!"20~30"), (t!"三四十", t!"30~40"),
   (t!"三五十", t!"30~50"), (t!"四五十", t!"40~50"), (t!"五六十", t!"50~60"), (t!"六七十", t!"60~70"),
   (t!"七八十", t!"70~80"), (t!"八九十", t!"80~90"), (t!"一二百", t!"100~200"), (t!"一两百", t!"100~200"),
   (t!"二三百", t!"200~300"), (t!"两三百", t!"200~300"), (t!"三四百", t!"300~400"),
   (t!"三五百", t!"300~500"), (t!"四五百", t!"400~500"), (t!"五六百", t!"500~600"),
   (t!"六七百", t!"600~700"), (t!"七八百", t!"700~800"), (t!"八九百", t!"800~900"),
   (t!"一二千", t!"1000~2000"), (t!"一两千", t!"1000~2000"), (t!"二三千", t!"2000~3000"),
   (t!"两三千", t!"2000~3000"), (t!"三四千", t!"3000~4000"), (t!"三五千", t!"3000~5000"),
   (t!"四五千", t!"4000~5000"), (t!"五六千", t!"5000~6000"), (t!"六七千", t!"6000~7000"),
   (t!"七八千", t!"7000~8000"), (t!"八九千", t!"8000~9000")]

/-- `number/zero.tsv`. -/
def zero : List (Str × Str) :=
  [(t!"零", t!"0"), (t!"洞", t!"0")]

/-- `date/dd.tsv`. -/
def dateDD : List (Str × Str) :=
  [(t!"一日", t!"01"), (t!"二日", t!"02"), (t!"三日", t!"03"), (t!"四日", t!"04"), (t!"五日", t!"05"),
   (t!"六日", t!"06"), (t!"七日", t!"07"), (t!"八日", t!"08"), (t!"九日", t!"09"), (t!"十日", t!"10"),
   (t!"十一日", t!"11"), (t!"十二日", t!"12"), (t!"十三日", t!"13"), (t!"十四日", t!"14"),
   (t!"十五日", t!"15"), (t!"十六日", t!"16"), (t!"十七日", t!"17"), (t!"十八日", t!"18"),
   (t!"十九日", t!"19"), (t!"二十日", t!"20"), (t!"二十一日", t!"21"), (t!"二十二日", t!"22"),
   (t!"二十三日", t!"23"), (t!"二十四日", t!"24"), (t!"二十五日", t!"25"), (t!"二十六日", t!"26"),
   (t!"二十七日", t!"27"), (t!"二十八日", t!"28"), (t!"二十九日", t!"29"), (t!"三十日", t!"30"),
   (t!"三十一日", t!"31"), (t!"一号", t!"01"), (t!"二号", t!"02"), (t!"三号", t!"03"), (t!"四号", t!"04"),
   (t!"五号", t!"05"), (t!"六号", t!"06"), (t!"七号", t!"07"), (t!"八号", t!"08"), (t!"九号", t!"09"),
   (t!"十号", t!"10"), (t!"十一号", t!"11"), (t!"十二号", t!"12"), (t!"十三号", t!"13"),
   (t!"十四号", t!"14"), (t!"十五号", t!"15"), (t!"十六号", t!"16"), (t!"十七号", t!"17"),
   (t!"十八号", t!"18"), (t!"十九号", t!"19"), (t!"二十号", t!"20"), (t!"二十一号", t!"21"),
   (t!"二十二号", t!"22"), (t!"二十三号", t!"23"), (t!"二十四号", t!"24"), (t!"二十五号", t!"25"),
   (t!"二十六号", t!"26"), (t!"二十七号", t!"27"), (t!"二十八号", t!"28"), (t!"二十九号", t!"29"),
   (t!"三十号", t!"30"), (t!"三十一号", t!"31")]

/-- `date/mm.tsv`. -/
def dateMM : List (Str × Str) :=
  [(t!"一月", t!"01"), (t!"二月", t!"02"), (t!"三月", t!"03"), (t!"四月", t!"04"), (t!"五月", t!"05"),
   (t!"六月", t!"06"), (t!"七月", t!"07"), (t!"八月", t!"08"), (t!"九月", t!"09"), (t!"十月", t!"10"),
   (t!"十一月", t!"11"), (t!"十二月", t!"12")]

/-- `default/blacklist.tsv`. -/
def blacklist : List (Str × Str) :=
  [(t!"呃", t!"呃"), (t!"啊", t!"啊")]

/-- `default/whitelist.tsv`, part 0. -/
def whitelist0 : List (Str × Str) :=
  [(t!"三七二十一", t!"三七二十一"), (t!"一共", t!"一共"), (t!"一个", t!"一个"), (t!"一下", t!"一下"),
   (t!"一些", t!"一些"), (t!"一起", t!"一起"), (t!"一会", t!"一会"), (t!"一路", t!"一路"), (t!"二维码", t!"二维码"),
   (t!"慢一点", t!"慢一点"), (t!"一般", t!"一般"), (t!"统一", t!"统一"), (t!"星期一", t!"星期一"),
   (t!"星期二", t!"星期二"), (t!"星期三", t!"星期三"), (t!"星期四", t!"星期四"), (t!"星期五", t!"星期五"),
   (t!"星期六", t!"星期六"), (t!"一年一度", t!"一年一度"), (t!"一点一滴", t!"一点一滴"), (t!"三心二意", t!"三心二意"),
   (t!"阳春三月", t!"阳春三月"), (t!"七嘴八舌", t!"七嘴八舌"), (t!"四分五裂", t!"四分五裂"), (t!"七荤八素", t!"七荤八素"),
   (t!"三纲五常", t!"三纲五常"), (t!"三姑六婆", t!"三姑六婆"), (t!"四大皆空", t!"四大皆空"), (t!"五体投地", t!"五体投地"),
   (t!"六神无主", t!"六神无主"), (t!"七窍生烟", t!"七窍生烟"), (t!"七擒七纵", t!"七擒七纵"), (t!"八仙过海", t!"八仙过海"),
   (t!"十恶不赦", t!"十恶不赦"), (t!"一言九鼎", t!"一言九鼎"), (t!"一应俱全", t!"一应俱全"), (t!"一窍不通", t!"一窍不通"),
   (t!"一盘散沙", t!"一盘散沙"), (t!"十全十美", t!"十全十美"), (t!"一五一十", t!"一五一十"), (t!"让你三分", t!"让你三分"),
   (t!"乱七八糟", t!"乱七八糟"), (t!"一日三餐", t!"一日三餐"), (t!"十分高兴", t!"十分高兴"), (t!"十万八千里", t!"十万八千里"),
   (t!"四川", t!"四川"), (t!"三明", t!"三明"), (t!"九寨沟", t!"九寨沟"), (t!"七里河", t!"七里河"),
   (t!"九江", t!"九江"), (t!"六安", t!"六安"), (t!"十堰", t!"十堰"), (t!"八公山", t!"八公山"),
   (t!"七台河", t!"七台河"), (t!"五常", t!"五常"), (t!"四平", t!"四平"), (t!"四子王旗", t!"四子王旗"),
   (t!"三亚", t!"三亚"), (t!"二连浩特", t!"二连浩特"), (t!"零陵", t!"零陵"), (t!"五台山", t!"五台山"),
   (t!"六盘水", t!"六盘水"), (t!"八宿", t!"八宿"), (t!"十二五", t!"十二五")]

/-- `default/whitelist.tsv`, part 1. -/
def whitelist1 : List (Str × Str) :=
  [(t!"十三五", t!"十三五"), (t!"十四五", t!"十四五"), (t!"几十万", t!"几十万"), (t!"几百万", t!"几百万"),
   (t!"几千万", t!"几千万"), (t!"十几万", t!"十几万"), (t!"二十几万", t!"二十几万"), (t!"三十几万", t!"三十几万"),
   (t!"四十几万", t!"四十几万"), (t!"五十几万", t!"五十几万"), (t!"六十几万", t!"六十几万"), (t!"七十几万", t!"七十几万"),
   (t!"八十几万", t!"八十几万"), (t!"九十几万", t!"九十几万"), (t!"七乘二十四小时", t!"7x24小时"),
   (t!"七乘二十四个小时", t!"7x24个小时"), (t!"四S店", t!"4S店"), (t!"四s店", t!"4s店")]

/-- `default/whitelist.tsv`. -/
def whitelist : List (Str × Str) :=
  whitelist0 ++
  whitelist1

/-- `license_plate/province.tsv`. -/
def province : List (Str × Str) :=
  [(t!"京", t!"京"), (t!"津", t!"津"), (t!"沪", t!"沪"), (t!"渝", t!"渝"), (t!"冀", t!"冀"),
   (t!"豫", t!"豫"), (t!"云", t!"云"), (t!"辽", t!"辽"), (t!"黑", t!"黑"), (t!"湘", t!"湘"),
   (t!"皖", t!"皖"), (t!"鲁", t!"鲁"), (t!"新", t!"新"), (t!"苏", t!"苏"), (t!"浙", t!"浙"),
   (t!"赣", t!"赣"), (t!"鄂", t!"鄂"), (t!"桂", t!"桂"), (t!"甘", t!"甘"), (t!"晋", t!"晋"),
   (t!"蒙", t!"蒙"), (t!"陕", t!"陕"), (t!"吉", t!"吉"), (t!"闽", t!"闽"), (t!"贵", t!"贵"),
   (t!"粤", t!"粤"), (t!"青", t!"青"), (t!"藏", t!"藏"), (t!"川", t!"川"), (t!"宁", t!"宁"),
   (t!"琼", t!"琼")]

/-- `math/operator.tsv`. -/
def operator : List (Str × Str) :=
  [(t!"乘", t!"×"), (t!"减", t!"-"), (t!"到", t!"~"), (t!"加", t!"+"), (t!"比", t!":"),
   (t!"等于", t!"="), (t!"除", t!"÷")]

/-- `measure/units_en.tsv`, part 0. -/
def unitsEn0 : List (Str × Str) :=
  [(t!"原子质量", t!"amu"), (t!"巴", t!"bar"), (t!"平方厘米", t!"cm²"), (t!"立方厘米", t!"cm³"),
   (t!"厘米", t!"cm"), (t!"美担", t!"cwt"), (t!"摄氏度", t!"°C"), (t!"分贝", t!"db"),
   (t!"立方分米", t!"dm³"), (t!"分米", t!"dm"), (t!"英尺", t!"ft"), (t!"华氏度", t!"°F"),
   (t!"吉字节", t!"gb"), (t!"吉赫兹", t!"ghz"), (t!"吉帕斯卡", t!"gpa"), (t!"吉瓦时", t!"gwh"),
   (t!"吉瓦", t!"gw"), (t!"戈瑞", t!"gy"), (t!"小时", t!"h"), (t!"公顷", t!"ha"), (t!"赫兹", t!"hz"),
   (t!"千比特每秒", t!"kbps"), (t!"千比特一秒", t!"kbps"), (t!"千卡", t!"kcal"), (t!"千克力", t!"kgf"),
   (t!"千克", t!"kg"), (t!"公斤", t!"kg"), (t!"千赫兹", t!"khz"), (t!"平方千米", t!"km²"),
   (t!"公里", t!"km"), (t!"公里每小时", t!"km/h"), (t!"公里一小时", t!"km/h"), (t!"千米", t!"km"),
   (t!"千米每小时", t!"km/h"), (t!"千米一小时", t!"km/h"), (t!"千帕", t!"kpa"), (t!"千瓦时", t!"kwh"),
   (t!"千瓦", t!"kw"), (t!"磅", t!"lbs"), (t!"平方米", t!"m²"), (t!"立方米", t!"m³"),
   (t!"兆比特每秒", t!"mbps"), (t!"兆比特一秒", t!"mbps"), (t!"克", t!"g"), (t!"毫克", t!"mg"),
   (t!"兆赫兹", t!"mhz"), (t!"平方英里", t!"mi²"), (t!"分钟", t!"min"), (t!"英里", t!"mi"),
   (t!"毫升", t!"ml"), (t!"平方毫米", t!"mm²"), (t!"毫米", t!"mm"), (t!"摩尔", t!"mol"),
   (t!"兆帕", t!"mpa"), (t!"英里每小时", t!"mph"), (t!"英里一小时", t!"mph"), (t!"毫秒", t!"ms"),
   (t!"毫伏", t!"mv"), (t!"毫瓦", t!"mw"), (t!"千伏", t!"kv"), (t!"米", t!"m"), (t!"纳克", t!"ng"),
   (t!"纳米", t!"nm"), (t!"纳秒", t!"ns")]

/-- `measure/units_en.tsv`, part 1. -/
def unitsEn1 : List (Str × Str) :=
  [(t!"盎司", t!"oz"), (t!"度", t!"º"), (t!"帕斯卡", t!"pa"), (t!"皮克", t!"pg"), (t!"皮秒", t!"ps"),
   (t!"弧度", t!"rad"), (t!"转每分", t!"rpm"), (t!"平方英尺", t!"sq ft"), (t!"平方英里", t!"sq mi"),
   (t!"系沃特", t!"sv"), (t!"秒", t!"s"), (t!"太字节", t!"tb"), (t!"万亿焦耳", t!"tj"), (t!"台两", t!"tl"),
   (t!"伏特", t!"v"), (t!"码", t!"yd"), (t!"微克", t!"μg"), (t!"微米", t!"μm"), (t!"微秒", t!"μs"),
   (t!"欧米茄", t!"ω"), (t!"度", t!"°")]

/-- `measure/units_en.tsv`. -/
def unitsEn : List (Str × Str) :=
  unitsEn0 ++
  unitsEn1

/-- `measure/units_zh.tsv`, part 0. -/
def unitsZh0 : List (Str × Str) :=
  [(t!"年来", t!"年来"), (t!"年前", t!"年前"), (t!"年后", t!"年后"), (t!"年内", t!"年内"), (t!"年之前", t!"年之前"),
   (t!"年之后", t!"年之后"), (t!"人", t!"人"), (t!"篇", t!"篇"), (t!"帧", t!"帧"), (t!"把", t!"把"),
   (t!"封", t!"封"), (t!"艘", t!"艘"), (t!"套", t!"套"), (t!"段", t!"段"), (t!"匹", t!"匹"),
   (t!"张", t!"张"), (t!"座", t!"座"), (t!"回", t!"回"), (t!"场", t!"场"), (t!"尾", t!"尾"),
   (t!"条", t!"条"), (t!"个", t!"个"), (t!"首", t!"首"), (t!"阙", t!"阙"), (t!"阵", t!"阵"),
   (t!"网", t!"网"), (t!"炮", t!"炮"), (t!"顶", t!"顶"), (t!"丘", t!"丘"), (t!"棵", t!"棵"),
   (t!"只", t!"只"), (t!"支", t!"支"), (t!"袭", t!"袭"), (t!"辆", t!"辆"), (t!"挑", t!"挑"),
   (t!"担", t!"担"), (t!"颗", t!"颗"), (t!"壳", t!"壳"), (t!"窠", t!"窠"), (t!"曲", t!"曲"),
   (t!"墙", t!"墙"), (t!"群", t!"群"), (t!"腔", t!"腔"), (t!"砣", t!"砣"), (t!"座", t!"座"),
   (t!"客", t!"客"), (t!"贯", t!"贯"), (t!"扎", t!"扎"), (t!"捆", t!"捆"), (t!"刀", t!"刀"),
   (t!"令", t!"令"), (t!"手", t!"手"), (t!"罗", t!"罗"), (t!"坡", t!"坡"), (t!"山", t!"山"),
   (t!"岭", t!"岭"), (t!"江", t!"江"), (t!"溪", t!"溪"), (t!"钟", t!"钟"), (t!"队", t!"队"),
   (t!"单", t!"单"), (t!"双", t!"双"), (t!"对", t!"对"), (t!"口", t!"口")]

/-- `measure/units_zh.tsv`, part 1. -/
def unitsZh1 : List (Str × Str) :=
  [(t!"头", t!"头"), (t!"脚", t!"脚"), (t!"板", t!"板"), (t!"跳", t!"跳"), (t!"枝", t!"枝"),
   (t!"件", t!"件"), (t!"贴", t!"贴"), (t!"针", t!"针"), (t!"线", t!"线"), (t!"管", t!"管"),
   (t!"名", t!"名"), (t!"位", t!"位"), (t!"身", t!"身"), (t!"堂", t!"堂"), (t!"课", t!"课"),
   (t!"本", t!"本"), (t!"页", t!"页"), (t!"家", t!"家"), (t!"户", t!"户"), (t!"层", t!"层"),
   (t!"丝", t!"丝"), (t!"毫", t!"毫"), (t!"厘", t!"厘"), (t!"分", t!"分"), (t!"钱", t!"钱"),
   (t!"斤", t!"斤"), (t!"担", t!"担"), (t!"铢", t!"铢"), (t!"石", t!"石"), (t!"钧", t!"钧"),
   (t!"锱", t!"锱"), (t!"忽", t!"忽"), (t!"克", t!"克"), (t!"毫", t!"毫"), (t!"厘", t!"厘"),
   (t!"寸", t!"寸"), (t!"尺", t!"尺"), (t!"丈", t!"丈"), (t!"里", t!"里"), (t!"寻", t!"寻"),
   (t!"常", t!"常"), (t!"铺", t!"铺"), (t!"程", t!"程"), (t!"米", t!"米"), (t!"撮", t!"撮"),
   (t!"勺", t!"勺"), (t!"合", t!"合"), (t!"升", t!"升"), (t!"斗", t!"斗"), (t!"石", t!"石"),
   (t!"盘", t!"盘"), (t!"碗", t!"碗"), (t!"碟", t!"碟"), (t!"叠", t!"叠"), (t!"桶", t!"桶"),
   (t!"笼", t!"笼"), (t!"盆", t!"盆"), (t!"盒", t!"盒"), (t!"杯", t!"杯"), (t!"钟", t!"钟"),
   (t!"斛", t!"斛"), (t!"锅", t!"锅"), (t!"簋", t!"簋"), (t!"篮", t!"篮")]

/-- `measure/units_zh.tsv`, part 2. -/
def unitsZh2 : List (Str × Str) :=
  [(t!"盘", t!"盘"), (t!"桶", t!"桶"), (t!"罐", t!"罐"), (t!"瓶", t!"瓶"), (t!"壶", t!"壶"),
   (t!"卮", t!"卮"), (t!"盏", t!"盏"), (t!"箩", t!"箩"), (t!"箱", t!"箱"), (t!"煲", t!"煲"),
   (t!"啖", t!"啖"), (t!"袋", t!"袋"), (t!"钵", t!"钵"), (t!"季", t!"季"), (t!"年", t!"年"),
   (t!"月", t!"月"), (t!"日", t!"日"), (t!"刻", t!"刻"), (t!"时", t!"时"), (t!"周", t!"周"),
   (t!"天", t!"天"), (t!"秒", t!"秒"), (t!"旬", t!"旬"), (t!"纪", t!"纪"), (t!"岁", t!"岁"),
   (t!"世", t!"世"), (t!"更", t!"更"), (t!"夜", t!"夜"), (t!"春", t!"春"), (t!"夏", t!"夏"),
   (t!"秋", t!"秋"), (t!"冬", t!"冬"), (t!"代", t!"代"), (t!"伏", t!"伏"), (t!"辈", t!"辈"),
   (t!"丸", t!"丸"), (t!"泡", t!"泡"), (t!"粒", t!"粒"), (t!"颗", t!"颗"), (t!"幢", t!"幢"),
   (t!"堆", t!"堆"), (t!"条", t!"条"), (t!"根", t!"根"), (t!"支", t!"支"), (t!"道", t!"道"),
   (t!"面", t!"面"), (t!"片", t!"片"), (t!"张", t!"张"), (t!"颗", t!"颗"), (t!"块", t!"块"),
   (t!"架", t!"架"), (t!"角", t!"角"), (t!"毛", t!"毛"), (t!"字", t!"字"), (t!"元", t!"元"),
   (t!"两", t!"两"), (t!"两米饭", t!"两米饭"), (t!"两酒", t!"两酒"), (t!"吨", t!"吨"), (t!"顿", t!"顿"),
   (t!"牛", t!"牛"), (t!"次", t!"次"), (t!"号", t!"号")]

/-- `measure/units_zh.tsv`. -/
def unitsZh : List (Str × Str) :=
  unitsZh0 ++
  unitsZh1 ++
  unitsZh2

/-- `money/code.tsv`, part 0. -/
def moneyCode0 : List (Str × Str) :=
  [(t!"澳元", t!"A$"), (t!"阿联酋迪拉姆", t!"AED"), (t!"阿富汗 阿富汗尼", t!"AFN"), (t!"阿尔巴尼亚列克", t!"ALL"),
   (t!"荷属安的列斯盾", t!"ANG"), (t!"阿根廷比索", t!"ARS"), (t!"澳元", t!"AUD"), (t!"阿鲁巴盾", t!"AWG"),
   (t!"阿塞拜疆马纳特", t!"AZN"), (t!"波斯尼亚和黑塞哥维那可兑换马克", t!"BAM"), (t!"巴巴多斯元", t!"BBD"),
   (t!"保加利亚列弗", t!"BGN"), (t!"百慕大元", t!"BMD"), (t!"文莱达鲁萨兰国元", t!"BND"),
   (t!"玻利维亚玻利维亚诺", t!"BOB"), (t!"巴西雷亚尔", t!"BRL"), (t!"巴哈马元", t!"BSD"), (t!"博茨瓦纳普拉", t!"BWP"),
   (t!"白俄罗斯卢布", t!"BYN"), (t!"伯利兹元", t!"BZD"), (t!"加元", t!"CAD$"), (t!"加元", t!"CAD"),
   (t!"瑞士法郎", t!"CHF"), (t!"智利比索", t!"CLP"), (t!"人民币", t!"CNY"), (t!"哥伦比亚比索", t!"COP"),
   (t!"哥斯达黎加科隆", t!"CRC"), (t!"古巴比索", t!"CUP"), (t!"捷克克朗", t!"CZK"), (t!"丹麦克朗", t!"DKK"),
   (t!"多米尼加共和国比索", t!"DOP"), (t!"埃及镑", t!"EGP"), (t!"欧元成员国", t!"EUR"), (t!"斐济元", t!"FJD"),
   (t!"福克兰群岛（马尔维纳斯）镑", t!"FKP"), (t!"英镑", t!"GBP"), (t!"根西岛镑", t!"GGP"), (t!"加纳塞地", t!"GHS"),
   (t!"直布罗陀镑", t!"GIP"), (t!"危地马拉格查尔", t!"GTQ"), (t!"圭亚那元", t!"GYD"), (t!"港元", t!"HK＄"),
   (t!"港元", t!"HKD"), (t!"洪都拉斯伦皮拉", t!"HNL"), (t!"克罗地亚库纳", t!"HRK"), (t!"匈牙利福林", t!"HUF"),
   (t!"印尼盾", t!"IDR"), (t!"以色列谢克尔", t!"ILS"), (t!"马恩岛英镑", t!"IMP"), (t!"印度卢比", t!"INR"),
   (t!"伊朗里亚尔", t!"IRR"), (t!"冰岛克朗", t!"ISK"), (t!"日元", t!"J￥"), (t!"泽西镑", t!"JEP"),
   (t!"牙买加元", t!"JMD"), (t!"日元", t!"JPY￥"), (t!"日元", t!"JPY"), (t!"吉尔吉斯斯坦索姆", t!"KGS"),
   (t!"柬埔寨瑞尔", t!"KHR"), (t!"朝鲜园", t!"KPW"), (t!"韩元", t!"KRW"), (t!"韩元", t!"KRW"),
   (t!"开曼群岛元", t!"KYD"), (t!"哈萨克斯坦腾格", t!"KZT")]

/-- `money/code.tsv`, part 1. -/
def moneyCode1 : List (Str × Str) :=
  [(t!"老挝基普", t!"LAK"), (t!"黎巴嫩镑", t!"LBP"), (t!"斯里兰卡卢比", t!"LKR"), (t!"利比里亚元", t!"LRD"),
   (t!"马其顿代纳尔", t!"MKD"), (t!"摩洛哥迪拉姆", t!"MNT"), (t!"蒙古图格里克", t!"MNT"), (t!"毛里求斯卢比", t!"MUR"),
   (t!"墨西哥比索", t!"MXN"), (t!"马来西亚令吉", t!"MYR"), (t!"莫桑比克梅蒂卡尔", t!"MZN"), (t!"纳米比亚元", t!"NAD"),
   (t!"尼日利亚奈拉", t!"NGN"), (t!"尼加拉瓜科尔多瓦", t!"NIO"), (t!"挪威克朗", t!"NOK"), (t!"尼泊尔卢比", t!"NPR"),
   (t!"新西兰元", t!"NZD"), (t!"阿曼里亚尔", t!"OMR"), (t!"巴拿马巴尔博亚", t!"PAB"), (t!"秘鲁索尔", t!"PEN"),
   (t!"菲律宾比索", t!"PHP"), (t!"巴基斯坦卢比", t!"PKR"), (t!"波兰兹罗提", t!"PLN"), (t!"巴拉圭瓜拉尼", t!"PYG"),
   (t!"卡塔尔里亚尔", t!"QAR"), (t!"罗马尼亚列伊", t!"RON"), (t!"塞尔维亚第纳尔", t!"RSD"), (t!"俄罗斯卢布", t!"RUB"),
   (t!"沙特阿拉伯里亚尔", t!"SAR"), (t!"所罗门群岛元", t!"SBD"), (t!"塞舌尔卢比", t!"SCR"), (t!"瑞典克朗", t!"SEK"),
   (t!"新加坡元", t!"SGD"), (t!"圣赫勒拿镑", t!"SHP"), (t!"索马里先令", t!"SOS"), (t!"苏里南元", t!"SRD"),
   (t!"萨尔瓦多科隆", t!"SVC"), (t!"叙利亚镑", t!"SYP"), (t!"泰铢", t!"THB"), (t!"土耳其里拉", t!"TRY"),
   (t!"特立尼达和多巴哥元", t!"TTD"), (t!"图瓦卢元", t!"TVD"), (t!"新台币", t!"TWD"), (t!"乌克兰格里夫纳", t!"UAH"),
   (t!"美元", t!"USD"), (t!"乌拉圭比索", t!"UYU"), (t!"乌兹别克斯坦索姆", t!"UZS"), (t!"委内瑞拉玻利瓦尔", t!"VEF"),
   (t!"越南东", t!"VND"), (t!"东加勒比元", t!"XCD"), (t!"也门里亚尔", t!"YER"), (t!"南非兰特", t!"ZAR"),
   (t!"津巴布韦元", t!"ZWD")]

/-- `money/code.tsv`. -/
def moneyCode : List (Str × Str) :=
  moneyCode0 ++
  moneyCode1

/-- `money/symbol.tsv`. -/
def moneySymbol : List (Str × Str) :=
  [(t!"加纳塞地", t!"¢"), (t!"玻利维亚玻利维亚诺", t!"$b"), (t!"乌拉圭比索", t!"$U"), (t!"美元", t!"$"),
   (t!"英镑", t!"£"), (t!"元", t!"¥"), (t!"泰铢", t!"฿"), (t!"柬埔寨瑞尔", t!"៛"), (t!"哥斯达黎加科隆", t!"₡"),
   (t!"尼日利亚奈拉", t!"₦"), (t!"朝鲜园", t!"₩"), (t!"以色列谢克尔", t!"₪"), (t!"越南东", t!"₫"),
   (t!"欧元", t!"€"), (t!"老挝基普", t!"₭"), (t!"蒙古图格里克", t!"₮"), (t!"古巴比索", t!"₱"),
   (t!"菲律宾比索", t!"₱"), (t!"乌克兰格里夫纳", t!"₴"), (t!"印度卢比", t!"₹"), (t!"土耳其里拉", t!"₺"),
   (t!"卢布", t!"₽"), (t!"白俄罗斯卢布", t!"Br"), (t!"委内瑞拉玻利瓦尔", t!"Bs"), (t!"伯利兹元", t!"BZ$"),
   (t!"巴拿马巴尔博亚", t!"B/."), (t!"尼加拉瓜科尔多瓦", t!"C$"), (t!"瑞士法郎", t!"CHF"), (t!"匈牙利福林", t!"Ft"),
   (t!"阿鲁巴盾", t!"ƒ"), (t!"巴拉圭瓜拉尼", t!"Gs"), (t!"牙买加元", t!"J$"), (t!"捷克克朗", t!"Kč"),
   (t!"波斯尼亚和黑塞哥维那可兑换马克", t!"KM"), (t!"克罗地亚库纳", t!"kn"), (t!"丹麦克朗", t!"kr"),
   (t!"罗马尼亚列伊", t!"lei"), (t!"阿尔巴尼亚列克", t!"Lek"), (t!"洪都拉斯伦皮拉", t!"L"), (t!"莫桑比克梅蒂卡尔", t!"MT"),
   (t!"博茨瓦纳普拉", t!"P"), (t!"危地马拉格查尔", t!"Q"), (t!"巴西雷亚尔", t!"R$"), (t!"多米尼加共和国比索", t!"RD$"),
   (t!"马来西亚令吉", t!"RM"), (t!"印尼盾", t!"Rp"), (t!"巴基斯坦卢比", t!"₨"), (t!"毛里求斯卢比", t!"₨"),
   (t!"南非兰特", t!"R"), (t!"秘鲁索尔", t!"S/."), (t!"索马里先令", t!"S"), (t!"特立尼达和多巴哥元", t!"TT$"),
   (t!"津巴布韦元", t!"Z$"), (t!"波兰兹罗提", t!"zł"), (t!"马其顿代纳尔", t!"ден"), (t!"塞尔维亚第纳尔", t!"Дин."),
   (t!"乌兹别克斯坦索姆", t!"лв"), (t!"保加利亚列弗", t!"лв"), (t!"吉尔吉斯斯坦索姆", t!"лв"), (t!"哈萨克斯坦腾格", t!"лв")]

/-- `time/hour.tsv`. -/
def hour : List (Str × Str) :=
  [(t!"一点", t!"1"), (t!"两点", t!"2"), (t!"三点", t!"3"), (t!"四点", t!"4"), (t!"五点", t!"5"),
   (t!"六点", t!"6"), (t!"七点", t!"7"), (t!"八点", t!"8"), (t!"九点", t!"9"), (t!"零点", t!"00"),
   (t!"一点", t!"01"), (t!"两点", t!"02"), (t!"三点", t!"03"), (t!"四点", t!"04"), (t!"五点", t!"05"),
   (t!"六点", t!"06"), (t!"七点", t!"07"), (t!"八点", t!"08"), (t!"九点", t!"09"), (t!"十点", t!"10"),
   (t!"十一点", t!"11"), (t!"十二点", t!"12"), (t!"十三点", t!"13"), (t!"十四点", t!"14"),
   (t!"十五点", t!"15"), (t!"十六点", t!"16"), (t!"十七点", t!"17"), (t!"十八点", t!"18"),
   (t!"十九点", t!"19"), (t!"二十点", t!"20"), (t!"二十一点", t!"21"), (t!"二十二点", t!"22"),
   (t!"二十三点", t!"23"), (t!"二十四点", t!"24")]

/-- `time/minute.tsv`. -/
def minute : List (Str × Str) :=
  [(t!"半", t!"30"), (t!"十", t!"10"), (t!"十一", t!"11"), (t!"十二", t!"12"), (t!"十三", t!"13"),
   (t!"十四", t!"14"), (t!"十五", t!"15"), (t!"十六", t!"16"), (t!"十七", t!"17"), (t!"十八", t!"18"),
   (t!"十九", t!"19"), (t!"二十", t!"20"), (t!"二十一", t!"21"), (t!"二十二", t!"22"), (t!"二十三", t!"23"),
   (t!"二十四", t!"24"), (t!"二十五", t!"25"), (t!"二十六", t!"26"), (t!"二十七", t!"27"),
   (t!"二十八", t!"28"), (t!"二十九", t!"29"), (t!"三十", t!"30"), (t!"三十一", t!"31"),
   (t!"三十二", t!"32"), (t!"三十三", t!"33"), (t!"三十四", t!"34"), (t!"三十五", t!"35"),
   (t!"三十六", t!"36"), (t!"三十七", t!"37"), (t!"三十八", t!"38"), (t!"三十九", t!"39"),
   (t!"四十", t!"40"), (t!"四十一", t!"41"), (t!"四十二", t!"42"), (t!"四十三", t!"43"),
   (t!"四十四", t!"44"), (t!"四十五", t!"45"), (t!"四十六", t!"46"), (t!"四十七", t!"47"),
   (t!"四十八", t!"48"), (t!"四十九", t!"49"), (t!"五十", t!"50"), (t!"五十一", t!"51"),
   (t!"五十二", t!"52"), (t!"五十三", t!"53"), (t!"五十四", t!"54"), (t!"五十五", t!"55"),
   (t!"五十六", t!"56"), (t!"五十七", t!"57"), (t!"五十八", t!"58"), (t!"五十九", t!"59")]

/-- `time/minute_zero.tsv`. -/
def minuteZero : List (Str × Str) :=
  [(t!"零一", t!"01"), (t!"零二", t!"02"), (t!"零三", t!"03"), (t!"零四", t!"04"), (t!"零五", t!"05"),
   (t!"零六", t!"06"), (t!"零七", t!"07"), (t!"零八", t!"08"), (t!"零九", t!"09")]

/-- `time/noon.tsv`. -/
def noon : List (Str × Str) :=
  [(t!"上午", t!"a.m."), (t!"早上", t!"a.m."), (t!"早晨", t!"a.m."), (t!"下午", t!"p.m."),
   (t!"晚上", t!"p.m."), (t!"傍晚", t!"p.m.")]

/-- `time/second.tsv`. -/
def second : List (Str × Str) :=
  [(t!"", t!"00"), (t!"一秒", t!"01"), (t!"二秒", t!"02"), (t!"三秒", t!"03"), (t!"四秒", t!"04"),
   (t!"五秒", t!"05"), (t!"六秒", t!"06"), (t!"七秒", t!"07"), (t!"八秒", t!"08"), (t!"九秒", t!"09"),
   (t!"十秒", t!"10"), (t!"十一秒", t!"11"), (t!"十二秒", t!"12"), (t!"十三秒", t!"13"),
   (t!"十四秒", t!"14"), (t!"十五秒", t!"15"), (t!"十六秒", t!"16"), (t!"十七秒", t!"17"),
   (t!"十八秒", t!"18"), (t!"十九秒", t!"19"), (t!"二十秒", t!"20"), (t!"二十一秒", t!"21"),
   (t!"二十二秒", t!"22"), (t!"二十三秒", t!"23"), (t!"二十四秒", t!"24"), (t!"二十五秒", t!"25"),
   (t!"二十六秒", t!"26"), (t!"二十七秒", t!"27"), (t!"二十八秒", t!"28"), (t!"二十九秒", t!"29"),
   (t!"三十秒", t!"30"), (t!"三十一秒", t!"31"), (t!"三十二秒", t!"32"), (t!"三十三秒", t!"33"),
   (t!"三十四秒", t!"34"), (t!"三十五秒", t!"35"), (t!"三十六秒", t!"36"), (t!"三十七秒", t!"37"),
   (t!"三十八秒", t!"38"), (t!"三十九秒", t!"39"), (t!"四十秒", t!"40"), (t!"四十一秒", t!"41"),
   (t!"四十二秒", t!"42"), (t!"四十三秒", t!"43"), (t!"四十四秒", t!"44"), (t!"四十五秒", t!"45"),
   (t!"四十六秒", t!"46"), (t!"四十七秒", t!"47"), (t!"四十八秒", t!"48"), (t!"四十九秒", t!"49"),
   (t!"五十秒", t!"50"), (t!"五十一秒", t!"51"), (t!"五十二秒", t!"52"), (t!"五十三秒", t!"53"),
   (t!"五十四秒", t!"54"), (t!"五十五秒", t!"55"), (t!"五十六秒", t!"56"), (t!"五十七秒", t!"57"),
   (t!"五十八秒", t!"58"), (t!"五十九秒", t!"59")]

/-- `train_number/prefix.tsv`. -/
def trainPrefix : List (Str × Str) :=
  [(t!"高", t!"G"), (t!"动", t!"D"), (t!"特", t!"T"), (t!"快", t!"K"), (t!"直", t!"Z"),
   (t!"慢", t!"L"), (t!"临", t!"L")]

end Verif.ZhItn
