import Verif.Wfst.Processor

/-
Data tables of /repo/itn/japanese/data, written by tools/mkdata.py from the .tsv files.
-/

namespace Verif.JaItn

open Verif.Wfst

/-- `number/zero.tsv`. -/
def zero : List (Str × Str) :=
  [(t!"〇", t!"0"), (t!"零", t!"0"), (t!"ゼロ", t!"0"), (t!"れい", t!"0")]

/-- `number/digit.tsv`. -/
def digit : List (Str × Str) :=
  [(t!"一", t!"1"), (t!"二", t!"2"), (t!"三", t!"3"), (t!"四", t!"4"), (t!"五", t!"5"),
   (t!"六", t!"6"), (t!"七", t!"7"), (t!"八", t!"8"), (t!"九", t!"9")]

/-- `number/hundred_digit.tsv`. -/
def hundredDigit : List (Str × Str) :=
  [(t!"百一", t!"101"), (t!"百二", t!"102"), (t!"百三", t!"103"), (t!"百四", t!"104"),
   (t!"百五", t!"105"), (t!"百六", t!"106"), (t!"百七", t!"107"), (t!"百八", t!"108"), (t!"百九", t!"109")]

/-- `number/sign.tsv`. -/
def sign : List (Str × Str) :=
  [(t!"プラス", t!"+"), (t!"プラスマイナス", t!"±"), (t!"マイナス", t!"-"), (t!"负の", t!"-")]

/-- `number/dot.tsv`. -/
def dot : List (Str × Str) :=
  [(t!"点", t!".")]

/-- `number/ties.tsv`. -/
def ties : List (Str × Str) :=
  [(t!"二十", t!"2"), (t!"三十", t!"3"), (t!"四十", t!"4"), (t!"五十", t!"5"), (t!"六十", t!"6"),
   (t!"七十", t!"7"), (t!"八十", t!"8"), (t!"九十", t!"9")]

/-- `number/teen.tsv`. -/
def teen : List (Str × Str) :=
  [(t!"十", t!"10"), (t!"十一", t!"11"), (t!"十二", t!"12"), (t!"十三", t!"13"), (t!"十四", t!"14"),
   (t!"十五", t!"15"), (t!"十六", t!"16"), (t!"十七", t!"17"), (t!"十八", t!"18"), (t!"十九", t!"19")]

/-- `date/day.tsv`. -/
def day : List (Str × Str) :=
  [(t!"一", t!"1"), (t!"二", t!"2"), (t!"三", t!"3"), (t!"四", t!"4"), (t!"五", t!"5"),
   (t!"六", t!"6"), (t!"七", t!"7"), (t!"八", t!"8"), (t!"九", t!"9"), (t!"十", t!"10"),
   (t!"十一", t!"11"), (t!"十二", t!"12"), (t!"十三", t!"13"), (t!"十四", t!"14"), (t!"十五", t!"15"),
   (t!"十六", t!"16"), (t!"十七", t!"17"), (t!"十八", t!"18"), (t!"十九", t!"19"), (t!"二十", t!"20"),
   (t!"二十一", t!"21"), (t!"二十二", t!"22"), (t!"二十三", t!"23"), (t!"二十四", t!"24"),
   (t!"二十五", t!"25"), (t!"二十六", t!"26"), (t!"二十七", t!"27"), (t!"二十八", t!"28"),
   (t!"二十九", t!"29"), (t!"三十", t!"30"), (t!"三十一", t!"31")]

/-- `date/month.tsv`. -/
def month : List (Str × Str) :=
  [(t!"一", t!"1"), (t!"二", t!"2"), (t!"三", t!"3"), (t!"四", t!"4"), (t!"五", t!"5"),
   (t!"六", t!"6"), (t!"七", t!"7"), (t!"八", t!"8"), (t!"九", t!"9"), (t!"十", t!"10"),
   (t!"十一", t!"11"), (t!"十二", t!"12")]

/-- `default/whitelist.tsv`. -/
def whitelist : List (Str × Str) :=
  [(t!"十三湖", t!"十三湖"), (t!"一月三舟", t!"一月三舟"), (t!"一日之長", t!"一日之長"), (t!"十八番", t!"十八番"),
   (t!"百人一首", t!"百人一首"), (t!"二百十日", t!"二百十日"), (t!"三度笠", t!"三度笠"), (t!"千円札", t!"千円札"),
   (t!"二十面相", t!"二十面相"), (t!"七つの海", t!"七つの海"), (t!"四国八十八箇所", t!"四国八十八箇所"), (t!"五箇山", t!"五箇山"),
   (t!"千本鳥居", t!"千本鳥居"), (t!"五月雨", t!"五月雨"), (t!"六本木ヒルズ", t!"六本木ヒルズ"), (t!"七つの大罪", t!"七つの大罪"),
   (t!"千本格子", t!"千本格子"), (t!"二枚目俳優", t!"二枚目俳優"), (t!"六本木アートナイト", t!"六本木アートナイト"),
   (t!"七人の侍", t!"七人の侍"), (t!"五月祭", t!"五月祭"), (t!"七人の姉妹", t!"七人の姉妹"), (t!"十八番目の男", t!"十八番目の男")]

/-- `math/operator.tsv`. -/
def operator : List (Str × Str) :=
  [(t!"カケル", t!"×"), (t!"負", t!"-"), (t!"マイナス", t!"-"), (t!"プラス", t!"+"), (t!"イコール", t!"="),
   (t!"ワル", t!"÷"), (t!"から", t!"~"), (t!"対", t!":")]

/-- `measure/unit_en.tsv`, part 0. -/
def unitEn0 : List (Str × Str) :=
  [(t!"華氏", t!"f"), (t!"摂氏", t!"c"), (t!"キロメートル", t!"km"), (t!"千キロメートル", t!"km"),
   (t!"メートル", t!"m"), (t!"センチ", t!"cm"), (t!"インチ", t!"インチ"), (t!"リットル", t!"L"),
   (t!"ジュール", t!"J"), (t!"ワット", t!"W"), (t!"アンペア", t!"A"), (t!"ボルト", t!"V"), (t!"オーム", t!"Ω"),
   (t!"アンペア毎メートル", t!"A/m"), (t!"ビット", t!"bit"), (t!"バイト", t!"Byte"), (t!"メガバイト", t!"MB"),
   (t!"キロバイト", t!"KB"), (t!"ギガバイト", t!"GB"), (t!"度", t!"℃"), (t!"立方センチメートル", t!"cm³"),
   (t!"ドット", t!"dpi"), (t!"ケルビン", t!"K"), (t!"センチメートル", t!"cm"), (t!"ミリメートル", t!"mm"),
   (t!"ヘクタール", t!"ha"), (t!"マイル", t!"mi"), (t!"平方メートル", t!"m²"), (t!"平方キロメートル", t!"km²"),
   (t!"足", t!"ft"), (t!"パーセント", t!"%"), (t!"ヘルツ", t!"hz"), (t!"キロワット", t!"kw"),
   (t!"馬力", t!"hp"), (t!"ミリグラム", t!"mg"), (t!"キログラム", t!"kg"), (t!"キロ", t!"kg"),
   (t!"ギガヘルツ", t!"ghz"), (t!"キロヘルツ", t!"khz"), (t!"メガヘルツ", t!"mhz"), (t!"ボルト", t!"v"),
   (t!"メガクーロン", t!"mc"), (t!"ナノメートル", t!"nm"), (t!"毎分回転数", t!"rpm"), (t!"ミリアンペア", t!"mA"),
   (t!"パーセント", t!"%"), (t!"キロワット時", t!"kwh"), (t!"立方メートル", t!"m³"), (t!"時速マイル", t!"mph"),
   (t!"テラワット", t!"tw"), (t!"ミリボルト", t!"mv"), (t!"メガワット", t!"mw"), (t!"マイクロメータ", t!"μm"),
   (t!"テラバイト", t!"TB"), (t!"グラム", t!"g"), (t!"ダルトン", t!"da"), (t!"雰囲気", t!"atm"),
   (t!"オーム", t!"ω"), (t!"デシベル", t!"dB"), (t!"ペタ秒", t!"ps"), (t!"オンス", t!"oz"),
   (t!"ヘクトリットル", t!"hl"), (t!"マイクログラム", t!"μg"), (t!"ペタグラム", t!"pg")]

/-- `measure/unit_en.tsv`, part 1. -/
def unitEn1 : List (Str × Str) :=
  [(t!"ギガバイト", t!"gb"), (t!"キロビット", t!"kb"), (t!"電子ボルト", t!"ev"), (t!"メガバイト", t!"mb"),
   (t!"キロバイト", t!"kb"), (t!"キロビット/秒", t!"kbps"), (t!"毎秒メガビット", t!"mbps"), (t!"結石", t!"st"),
   (t!"キロリットル", t!"kl"), (t!"テラジュール", t!"tj"), (t!"キロボルト", t!"kv"), (t!"メガボルト", t!"mv"),
   (t!"キロニュートン", t!"kn"), (t!"メガメーター", t!"mm"), (t!"天文単位", t!"au"), (t!"ヤード", t!"yd"),
   (t!"ラジアン", t!"rad"), (t!"ルーメン", t!"lm"), (t!"ヘクト秒", t!"hs"), (t!"モル", t!"mol"),
   (t!"ギガパスカル", t!"gpa"), (t!"ミリリットル", t!"ml"), (t!"ギガワット", t!"gw"), (t!"メガアンペア", t!"ma"),
   (t!"結び目", t!"kt"), (t!"キログラム力", t!"kgf"), (t!"ナノグラム", t!"ng"), (t!"ナノ秒", t!"ns"),
   (t!"メガシーメンス", t!"ms"), (t!"バー", t!"bar"), (t!"ギガリットル", t!"gl"), (t!"マイクロ秒", t!"μs"),
   (t!"デシアンペア", t!"da"), (t!"パスカル", t!"pa"), (t!"デシ秒", t!"ds"), (t!"ミリ秒", t!"ms"),
   (t!"デシメートル", t!"dm"), (t!"立方デシメートル", t!"dm³"), (t!"原子質量単位", t!"amu"), (t!"メガビット", t!"mb"),
   (t!"メガファラッド", t!"mf"), (t!"ベクレル", t!"bq"), (t!"ペタビット", t!"pb"), (t!"平方ミリメートル", t!"mm²"),
   (t!"平方センチメートル", t!"cm²"), (t!"平方マイル", t!"sq mi"), (t!"平方フィート", t!"sq ft"),
   (t!"キロパスカル", t!"kpa"), (t!"カンデラ", t!"cd"), (t!"テラリットル", t!"tl"), (t!"メガ秒", t!"ms"),
   (t!"メガパスカル", t!"mpa"), (t!"ペタメーター", t!"pm"), (t!"ペタバイト", t!"pb"), (t!"ギガワットアワー", t!"gwh"),
   (t!"キロカロリー", t!"kcal"), (t!"グレー", t!"gy"), (t!"シーベルト", t!"sv"), (t!"ハンドレッド", t!"cwt")]

/-- `measure/unit_en.tsv`. -/
def unitEn : List (Str × Str) :=
  unitEn0 ++
  unitEn1

/-- `measure/unit_ja.tsv`. -/
def unitJa : List (Str × Str) :=
  [(t!"つ", t!"つ"), (t!"枚", t!"枚"), (t!"部", t!"部"), (t!"台", t!"台"), (t!"杯", t!"杯"),
   (t!"匹", t!"匹"), (t!"本", t!"本"), (t!"階", t!"階"), (t!"個", t!"個"), (t!"箇", t!"箇"),
   (t!"円", t!"円"), (t!"个", t!"个"), (t!"ヶ", t!"ヶ"), (t!"面", t!"面"), (t!"名", t!"名"),
   (t!"人", t!"人"), (t!"歳", t!"歳"), (t!"才", t!"才"), (t!"冊", t!"冊"), (t!"話", t!"話"),
   (t!"秒", t!"秒"), (t!"分", t!"分"), (t!"月", t!"月"), (t!"泊", t!"泊"), (t!"時", t!"時"),
   (t!"時間", t!"時間"), (t!"日", t!"日"), (t!"ヶ月", t!"ヶ月"), (t!"箇月", t!"箇月"), (t!"年", t!"年"),
   (t!"日", t!"日"), (t!"週", t!"週"), (t!"倍", t!"倍"), (t!"番", t!"番"), (t!"度", t!"度"),
   (t!"畳", t!"畳"), (t!"回", t!"回"), (t!"年前", t!"年前"), (t!"年後", t!"年後"), (t!"年以内", t!"年以内"),
   (t!"平方", t!"平方"), (t!"平方メートル", t!"平方メートル"), (t!"立方", t!"立方"), (t!"立方メートル", t!"立方メートル"),
   (t!"キロ", t!"キロ"), (t!"キロメトル", t!"キロメトル"), (t!"世紀", t!"世紀"), (t!"年代", t!"年代")]

/-- `money/symbol.tsv`. -/
def moneySymbol : List (Str × Str) :=
  [(t!"ドル", t!"$"), (t!"ポンド", t!"£"), (t!"ポンド", t!"￡"), (t!"バーツ", t!"฿"), (t!"ユーロ", t!"€"),
   (t!"インドルピー", t!"₹"), (t!"ルーブル", t!"₽"), (t!"スイスフラン", t!"CHF"), (t!"レアル", t!"R$")]

/-- `time/hour.tsv`. -/
def hour : List (Str × Str) :=
  [(t!"一時", t!"1"), (t!"两時", t!"2"), (t!"三時", t!"3"), (t!"四時", t!"4"), (t!"五時", t!"5"),
   (t!"六時", t!"6"), (t!"七時", t!"7"), (t!"八時", t!"8"), (t!"九時", t!"9"), (t!"零時", t!"0"),
   (t!"一時", t!"1"), (t!"两時", t!"2"), (t!"三時", t!"3"), (t!"四時", t!"4"), (t!"五時", t!"5"),
   (t!"六時", t!"6"), (t!"七時", t!"7"), (t!"八時", t!"8"), (t!"九時", t!"9"), (t!"十時", t!"10"),
   (t!"十一時", t!"11"), (t!"十二時", t!"12"), (t!"十三時", t!"13"), (t!"十四時", t!"14"),
   (t!"十五時", t!"15"), (t!"十六時", t!"16"), (t!"十七時", t!"17"), (t!"十八時", t!"18"),
   (t!"十九時", t!"19"), (t!"二十時", t!"20"), (t!"二十一時", t!"21"), (t!"二十二時", t!"22"),
   (t!"二十三時", t!"23"), (t!"二十四時", t!"24")]

/-- `time/minute.tsv`. -/
def minute : List (Str × Str) :=
  [(t!"一分", t!"1"), (t!"二分", t!"2"), (t!"三分", t!"3"), (t!"四分", t!"4"), (t!"五分", t!"5"),
   (t!"六分", t!"6"), (t!"七分", t!"7"), (t!"八分", t!"8"), (t!"九分", t!"9"), (t!"十分", t!"10"),
   (t!"十一分", t!"11"), (t!"十二分", t!"12"), (t!"十三分", t!"13"), (t!"十四分", t!"14"),
   (t!"十五分", t!"15"), (t!"十六分", t!"16"), (t!"十七分", t!"17"), (t!"十八分", t!"18"),
   (t!"十九分", t!"19"), (t!"二十分", t!"20"), (t!"二十一分", t!"21"), (t!"二十二分", t!"22"),
   (t!"二十三分", t!"23"), (t!"二十四分", t!"24"), (t!"二十五分", t!"25"), (t!"二十六分", t!"26"),
   (t!"二十七分", t!"27"), (t!"二十八分", t!"28"), (t!"二十九分", t!"29"), (t!"三十分", t!"30"),
   (t!"三十一分", t!"31"), (t!"三十二分", t!"32"), (t!"三十三分", t!"33"), (t!"三十四分", t!"34"),
   (t!"三十五分", t!"35"), (t!"三十六分", t!"36"), (t!"三十七分", t!"37"), (t!"三十八分", t!"38"),
   (t!"三十九分", t!"39"), (t!"四十分", t!"40"), (t!"四十一分", t!"41"), (t!"四十二分", t!"42"),
   (t!"四十三分", t!"43"), (t!"四十四分", t!"44"), (t!"四十五分", t!"45"), (t!"四十六分", t!"46"),
   (t!"四十七分", t!"47"), (t!"四十八分", t!"48"), (t!"四十九分", t!"49"), (t!"五十分", t!"50"),
   (t!"五十一分", t!"51"), (t!"五二十分", t!"52"), (t!"五十三分", t!"53"), (t!"五十四分", t!"54"),
   (t!"五十五分", t!"55"), (t!"五十六分", t!"56"), (t!"五十七分", t!"57"), (t!"五十八分", t!"58"),
   (t!"五十九分", t!"59"), (t!"六十分", t!"60")]

/-- `time/second.tsv`. -/
def second : List (Str × Str) :=
  [(t!"一秒", t!"1"), (t!"二秒", t!"2"), (t!"三秒", t!"3"), (t!"四秒", t!"4"), (t!"五秒", t!"5"),
   (t!"六秒", t!"6"), (t!"七秒", t!"7"), (t!"八秒", t!"8"), (t!"九秒", t!"9"), (t!"十秒", t!"10"),
   (t!"十一秒", t!"11"), (t!"十二秒", t!"12"), (t!"十三秒", t!"13"), (t!"十四秒", t!"14"),
   (t!"十五秒", t!"15"), (t!"十六秒", t!"16"), (t!"十七秒", t!"17"), (t!"十八秒", t!"18"),
   (t!"十九秒", t!"19"), (t!"二十秒", t!"20"), (t!"二十一秒", t!"21"), (t!"二十二秒", t!"22"),
   (t!"二十三秒", t!"23"), (t!"二十四秒", t!"24"), (t!"二十五秒", t!"25"), (t!"二十六秒", t!"26"),
   (t!"二十七秒", t!"27"), (t!"二十八秒", t!"28"), (t!"二十九秒", t!"29"), (t!"三十秒", t!"30"),
   (t!"三十一秒", t!"31"), (t!"三十二秒", t!"32"), (t!"三十三秒", t!"33"), (t!"三十四秒", t!"34"),
   (t!"三十五秒", t!"35"), (t!"三十六秒", t!"36"), (t!"三十七秒", t!"37"), (t!"三十八秒", t!"38"),
   (t!"三十九秒", t!"39"), (t!"四十秒", t!"40"), (t!"四十一秒", t!"41"), (t!"四十二秒", t!"42"),
   (t!"四十三秒", t!"43"), (t!"四十四秒", t!"44"), (t!"四十五秒", t!"45"), (t!"四十六秒", t!"46"),
   (t!"四十七秒", t!"47"), (t!"四十八秒", t!"48"), (t!"四十九秒", t!"49"), (t!"五十秒", t!"50"),
   (t!"五十一秒", t!"51"), (t!"五二十秒", t!"52"), (t!"五十三秒", t!"53"), (t!"五十四秒", t!"54"),
   (t!"五十五秒", t!"55"), (t!"五十六秒", t!"56"), (t!"五十七秒", t!"57"), (t!"五十八秒", t!"58"),
   (t!"五十九秒", t!"59"), (t!"六十秒", t!"60")]

/-- `char/fullwidth_to_halfwidth.tsv`, part 0. -/
def fullToHalf0 : List (Char × Char) :=
  List.zip
    t!"，。．“”！＂＃％＆＇（）＊＋－／：；＜＝＞？＠＼＾＿｀｛｜｝～＄０１２３４５６７８９ａＡｂＢｃＣｄＤｅＥｆＦｇＧｈＨｉＩｊＪｋ"
    t!",..\"\"!\"#%&'()*+-/:;<=>?@\\^_`{|}~$0123456789aAbBcCdDeEfFgGhHiIjJk"

/-- `char/fullwidth_to_halfwidth.tsv`, part 1. -/
def fullToHalf1 : List (Char × Char) :=
  List.zip
    t!"ＫｌＬｍＭｎＮｏＯｐＰｑＱｒＲｓＳｔＴｕＵｖＶｗＷｘＸｙＹｚＺ"
    t!"KlLmMnNoOpPqQrRsStTuUvVwWxXyYzZ"

/-- `char/fullwidth_to_halfwidth.tsv`. -/
def fullToHalf : List (Char × Char) :=
  fullToHalf0 ++ fullToHalf1

end Verif.JaItn
