import Verif.Wfst.Processor

/-
Data tables of /repo/tn/japanese/data, written by tools/mkdata.py from the .tsv files.
-/

namespace Verif.JaTn

open Verif.Wfst

/-- `number/zero.tsv`. -/
def zero : List (Str × Str) :=
  [(t!"0", t!"〇"), (t!"０", t!"〇")]

/-- `number/digit.tsv`. -/
def digit : List (Str × Str) :=
  [(t!"1", t!"一"), (t!"2", t!"二"), (t!"3", t!"三"), (t!"4", t!"四"), (t!"5", t!"五"),
   (t!"6", t!"六"), (t!"7", t!"七"), (t!"8", t!"八"), (t!"9", t!"九"), (t!"１", t!"一"),
   (t!"２", t!"二"), (t!"３", t!"三"), (t!"４", t!"四"), (t!"５", t!"五"), (t!"６", t!"六"),
   (t!"７", t!"七"), (t!"８", t!"八"), (t!"９", t!"九")]

/-- `number/teen.tsv`. -/
def teen : List (Str × Str) :=
  [(t!"1", t!""), (t!"2", t!"二"), (t!"3", t!"三"), (t!"4", t!"四"), (t!"5", t!"五"),
   (t!"6", t!"六"), (t!"7", t!"七"), (t!"8", t!"八"), (t!"9", t!"九"), (t!"１", t!""),
   (t!"２", t!"二"), (t!"３", t!"三"), (t!"４", t!"四"), (t!"５", t!"五"), (t!"６", t!"六"),
   (t!"７", t!"七"), (t!"８", t!"八"), (t!"９", t!"九")]

/-- `number/sign.tsv`. -/
def sign : List (Str × Str) :=
  [(t!"+", t!"プラス"), (t!"±", t!"プラスマイナス"), (t!"-", t!"マイナス")]

/-- `number/dot.tsv`. -/
def dot : List (Str × Str) :=
  [(t!".", t!"点")]

/-- `date/d.tsv`. -/
def dateD : List (Str × Str) :=
  [(t!"1", t!"一日"), (t!"2", t!"二日"), (t!"3", t!"三日"), (t!"4", t!"四日"), (t!"5", t!"五日"),
   (t!"6", t!"六日"), (t!"7", t!"七日"), (t!"8", t!"八日"), (t!"9", t!"九日"), (t!"10", t!"十日"),
   (t!"11", t!"十一日"), (t!"12", t!"十二日"), (t!"13", t!"十三日"), (t!"14", t!"十四日"),
   (t!"15", t!"十五日"), (t!"16", t!"十六日"), (t!"17", t!"十七日"), (t!"18", t!"十八日"),
   (t!"19", t!"十九日"), (t!"20", t!"二十日"), (t!"21", t!"二十一日"), (t!"22", t!"二十二日"),
   (t!"23", t!"二十三日"), (t!"24", t!"二十四日"), (t!"25", t!"二十五日"), (t!"26", t!"二十六日"),
   (t!"27", t!"二十七日"), (t!"28", t!"二十八日"), (t!"29", t!"二十九日"), (t!"30", t!"三十日"),
   (t!"31", t!"三十一日")]

/-- `date/dd.tsv`. -/
def dateDD : List (Str × Str) :=
  [(t!"01", t!"一日"), (t!"02", t!"二日"), (t!"03", t!"三日"), (t!"04", t!"四日"), (t!"05", t!"五日"),
   (t!"06", t!"六日"), (t!"07", t!"七日"), (t!"08", t!"八日"), (t!"09", t!"九日")]

/-- `date/m.tsv`. -/
def dateM : List (Str × Str) :=
  [(t!"1", t!"一月"), (t!"2", t!"二月"), (t!"3", t!"三月"), (t!"4", t!"四月"), (t!"5", t!"五月"),
   (t!"6", t!"六月"), (t!"7", t!"七月"), (t!"8", t!"八月"), (t!"9", t!"九月"), (t!"10", t!"十月"),
   (t!"11", t!"十一月"), (t!"12", t!"十二月")]

/-- `date/mm.tsv`. -/
def dateMM : List (Str × Str) :=
  [(t!"01", t!"一月"), (t!"02", t!"二月"), (t!"03", t!"三月"), (t!"04", t!"四月"), (t!"05", t!"五月"),
   (t!"06", t!"六月"), (t!"07", t!"七月"), (t!"08", t!"八月"), (t!"09", t!"九月")]

/-- `default/blacklist.tsv`. -/
def blacklist : List (Str × Str) :=
  []

/-- `default/whitelist.tsv`. -/
def whitelist : List (Str × Str) :=
  [(t!"B2B", t!"B to B"), (t!"M.V.P", t!"M V P"), (t!"O2O", t!"O to O"), (t!"P2P", t!"P to P"),
   (t!"BY2", t!"BY TWO"), (t!"By2", t!"By Two"), (t!"R-18", t!"R十八"), (t!"r-18", t!"R十八"),
   (t!"M-1", t!"Mワン"), (t!"Ｍ-１", t!"Mワン"), (t!"Ｍ１", t!"Mワン"), (t!"M1", t!"Mワン"),
   (t!"FOREVER21", t!"FOREVERトゥエンティーワン"), (t!"@", t!"アットマーク")]

/-- `math/operator.tsv`. -/
def operator : List (Str × Str) :=
  [(t!"×", t!"カケル"), (t!"-", t!"マイナス"), (t!"+", t!"プラス"), (t!"=", t!"イコール"), (t!">", t!"大なり"),
   (t!"<", t!"小なり"), (t!"≥", t!"大なりイコール"), (t!"≤", t!"小なりイコール"), (t!">=", t!"大なりイコール"),
   (t!"<=", t!"小なりイコール"), (t!"÷", t!"ワル"), (t!"~", t!"から")]

/-- `measure/units_en.tsv`, part 0. -/
def unitsEn0 : List (Str × Str) :=
  [(t!"g", t!"グラム"), (t!"kg", t!"キログラム"), (t!"mg", t!"ミリグラム"), (t!"µg", t!"マイクログラム"),
   (t!"oz", t!"オンス"), (t!"t", t!"トン"), (t!"lb", t!"ポンド"), (t!"cm", t!"センチメートル"),
   (t!"m", t!"メートル"), (t!"km", t!"キロメートル"), (t!"dm", t!"デシメートル"), (t!"mm", t!"ミリメートル"),
   (t!"μm", t!"マイクロメートル"), (t!"nm", t!"ナノメートル"), (t!"ft", t!"フィート"), (t!"h", t!"時"),
   (t!"hour", t!"時"), (t!"min", t!"分"), (t!"sec", t!"秒"), (t!"s", t!"秒"), (t!"ms", t!"ミリ秒"),
   (t!"°C", t!"摂氏"), (t!"℃", t!"摂氏"), (t!"°F", t!"華氏"), (t!"mm²", t!"平方ミリメートル"),
   (t!"cm²", t!"平方センチメートル"), (t!"m²", t!"平方メートル"), (t!"㎡", t!"平方メートル"),
   (t!"km²", t!"平方キロメートル"), (t!"ha", t!"ヘクタール"), (t!"ml", t!"ミリリットル"), (t!"L", t!"リットル"),
   (t!"mm³", t!"立方ミリメートル"), (t!"cm³", t!"立方センチメートル"), (t!"gal", t!"ガロン"), (t!"m³", t!"立方メートル"),
   (t!"mol", t!"モル"), (t!"μmol", t!"マイクロモル"), (t!"nmol", t!"ナノモル"), (t!"mmol", t!"ミリモル"),
   (t!"cd", t!"カンデラ"), (t!"Lm", t!"ルーメン"), (t!"Lux", t!"ルクス"), (t!"lm", t!"ルーメン"),
   (t!"fpm", t!"フィート毎分"), (t!"fph", t!"フィート毎時"), (t!"fps", t!"フィート毎秒"), (t!"mpm", t!"マイル毎分"),
   (t!"ips", t!"インチ毎秒"), (t!"ipm", t!"インチ毎分"), (t!"mph", t!"マイル毎時"), (t!"mps", t!"マイル毎秒"),
   (t!"in", t!"インチ"), (t!"mi", t!"マイル"), (t!"s²", t!"毎秒毎秒"), (t!"s³", t!"毎秒毎秒毎秒"),
   (t!"kn", t!"ノット"), (t!"°", t!"度"), (t!"'", t!"分"), (t!"Pa", t!"パスカル"), (t!"N/m²", t!"パスカル"),
   (t!"pz", t!"ピエーズ"), (t!"N", t!"ニュートン"), (t!"mmHg", t!"水銀柱ミリメートル")]

/-- `measure/units_en.tsv`, part 1. -/
def unitsEn1 : List (Str × Str) :=
  [(t!"hPa", t!"ヘクトパスカル"), (t!"MPa", t!"メガパスカル"), (t!"mbar", t!"ミリバール"), (t!"bar", t!"バール"),
   (t!"J", t!"ジュール"), (t!"kcal", t!"キロカロリー"), (t!"cal", t!"カロリー"), (t!"KCal", t!"キロカロリー"),
   (t!"Cal", t!"カロリー"), (t!"W", t!"ワット"), (t!"kWh", t!"キロワット時"), (t!"kW", t!"キロワット"),
   (t!"J·s", t!"ジュール秒"), (t!"A", t!"アンペア"), (t!"V", t!"ボルト"), (t!"Ω", t!"オーム"),
   (t!"A/m", t!"アンペア毎メートル"), (t!"Wb", t!"ウェーバ"), (t!"mAh", t!"ミリアンペアアワー"),
   (t!"Pa·s", t!"パスカル秒"), (t!"Bq", t!"ベクレル"), (t!"Gy", t!"グレイ"), (t!"rad", t!"ラド"),
   (t!"Sv", t!"シーベルト"), (t!"rem", t!"レム"), (t!"kat", t!"カタール"), (t!"Np", t!"ネーパ"),
   (t!"Hz", t!"ヘルツ"), (t!"dB", t!"デシベル"), (t!"hz", t!"ヘルツ"), (t!"bit", t!"ビット"),
   (t!"Byte", t!"バイト"), (t!"byte", t!"バイト"), (t!"MB", t!"メガバイト"), (t!"KB", t!"キロバイト"),
   (t!"GB", t!"ギガバイト"), (t!"TB", t!"テラバイト")]

/-- `measure/units_en.tsv`. -/
def unitsEn : List (Str × Str) :=
  unitsEn0 ++
  unitsEn1

/-- `measure/units_ja.tsv`. -/
def unitsJa : List (Str × Str) :=
  [(t!"つ", t!"つ"), (t!"枚", t!"枚"), (t!"部", t!"部"), (t!"台", t!"台"), (t!"杯", t!"杯"),
   (t!"匹", t!"匹"), (t!"本", t!"本"), (t!"階", t!"階"), (t!"個", t!"個"), (t!"箇", t!"箇"),
   (t!"个", t!"个"), (t!"ヶ", t!"ヶ"), (t!"面", t!"面"), (t!"名", t!"名"), (t!"人", t!"人"),
   (t!"歳", t!"歳"), (t!"才", t!"才"), (t!"冊", t!"冊"), (t!"話", t!"話"), (t!"秒", t!"秒"),
   (t!"分", t!"分"), (t!"月", t!"月"), (t!"泊", t!"泊"), (t!"時", t!"時"), (t!"時間", t!"時間"),
   (t!"日", t!"日"), (t!"ヶ月", t!"ヶ月"), (t!"箇月", t!"箇月"), (t!"年", t!"年"), (t!"日", t!"日"),
   (t!"週", t!"週"), (t!"倍", t!"倍"), (t!"番", t!"番"), (t!"度", t!"度"), (t!"畳", t!"畳"),
   (t!"回", t!"回"), (t!"年前", t!"年前"), (t!"年後", t!"年後"), (t!"年以内", t!"年以内"), (t!"平方", t!"平方"),
   (t!"平方メートル", t!"平方メートル"), (t!"立方", t!"立方"), (t!"立方メートル", t!"立方メートル"), (t!"キロ", t!"キロ"),
   (t!"キロメトル", t!"キロメトル")]

/-- `money/code.tsv`. -/
def moneyCode : List (Str × Str) :=
  [(t!"A$", t!"豪ドル"), (t!"AED", t!"UAEディルハム"), (t!"ARS", t!"アルゼンチンペソ"), (t!"AUD", t!"豪ドル"),
   (t!"CAD$", t!"カナダドル"), (t!"CAD", t!"カナダドル"), (t!"CHF", t!"スイスフラン"), (t!"CNY", t!"人民元"),
   (t!"EUR", t!"ユーロ"), (t!"GBP", t!"ポンド"), (t!"HK＄", t!"香港ドル"), (t!"HKD", t!"香港ドル"),
   (t!"INR", t!"インドルピー"), (t!"J￥", t!"円"), (t!"JPY￥", t!"円"), (t!"JPY", t!"円"),
   (t!"KRW", t!"ウォン"), (t!"RUB", t!"ロシアルーブル"), (t!"SAR", t!"サウジリヤル"),
   (t!"SEK", t!"スウェーデンクローナ"), (t!"SGD", t!"シンガポールドル"), (t!"THB", t!"タイバーツ"),
   (t!"TRY", t!"トルコリラ"), (t!"USD", t!"アメリカドル")]

/-- `money/symbol.tsv`. -/
def moneySymbol : List (Str × Str) :=
  [(t!"$", t!"ドル"), (t!"£", t!"ポンド"), (t!"￡", t!"ポンド"), (t!"¥", t!"円"), (t!"￥", t!"円"),
   (t!"฿", t!"バーツ"), (t!"€", t!"ユーロ"), (t!"₹", t!"インドルピー"), (t!"₽", t!"ルーブル"),
   (t!"CHF", t!"スイスフラン"), (t!"R$", t!"レアル")]

/-- `sport/club.tsv`. -/
def club : List (Str × Str) :=
  [(t!"FCバルセロナ", t!"FCバルセロナ"), (t!"レアル・マドリード", t!"レアル・マドリード"),
   (t!"マンチェスター・ユナイテッド", t!"マンチェスター・ユナイテッド"), (t!"マンチェスター・シティ", t!"マンチェスター・シティ"),
   (t!"バイエルン・ミュンヘン", t!"バイエルン・ミュンヘン"), (t!"リヴァプールFC", t!"リヴァプールFC"),
   (t!"ユヴェントスFC", t!"ユヴェントスFC"), (t!"パリ・サンジェルマンFC", t!"パリ・サンジェルマンFC"), (t!"ACミラン", t!"ACミラン"),
   (t!"インテル・ミラノ", t!"インテル・ミラノ"), (t!"チェルシーFC", t!"チェルシーFC"), (t!"アーセナルFC", t!"アーセナルFC"),
   (t!"ボルシア・ドルトムント", t!"ボルシア・ドルトムント"), (t!"トッテナム・ホットスパーFC", t!"トッテナム・ホットスパーFC"),
   (t!"ASローマ", t!"ASローマ"), (t!"アトレティコ・マドリード", t!"アトレティコ・マドリード"), (t!"SSCナポリ", t!"SSCナポリ"),
   (t!"バレンシアCF", t!"バレンシアCF"), (t!"オリンピック・リヨン", t!"オリンピック・リヨン"),
   (t!"オリンピック・マルセイユ", t!"オリンピック・マルセイユ"), (t!"SLベンフィカ", t!"SLベンフィカ"), (t!"FCポルト", t!"FCポルト"),
   (t!"アヤックス・アムステルダム", t!"アヤックス・アムステルダム"), (t!"フェイエノールト", t!"フェイエノールト"),
   (t!"SSラツィオ", t!"SSラツィオ"), (t!"ビジャレアルCF", t!"ビジャレアルCF"), (t!"セビージャFC", t!"セビージャFC"),
   (t!"スパルタク・モスクワ", t!"スパルタク・モスクワ"), (t!"ゼニト・サンクトペテルブルク", t!"ゼニト・サンクトペテルブルク"),
   (t!"セルティックFC", t!"セルティックFC"), (t!"レンジャーズFC", t!"レンジャーズFC")]

/-- `sport/country.tsv`, part 0. -/
def country0 : List (Str × Str) :=
  [(t!"アフガニスタン", t!"アフガニスタン"), (t!"アルバニア", t!"アルバニア"), (t!"アルジェリア", t!"アルジェリア"),
   (t!"アンドラ", t!"アンドラ"), (t!"アンゴラ", t!"アンゴラ"), (t!"アルゼンチン", t!"アルゼンチン"),
   (t!"アルメニア", t!"アルメニア"), (t!"オーストラリア", t!"オーストラリア"), (t!"オーストリア", t!"オーストリア"),
   (t!"アゼルバイジャン", t!"アゼルバイジャン"), (t!"バハマ", t!"バハマ"), (t!"バーレーン", t!"バーレーン"),
   (t!"バングラデシュ", t!"バングラデシュ"), (t!"バルバドス", t!"バルバドス"), (t!"ベラルーシ", t!"ベラルーシ"),
   (t!"ベルギー", t!"ベルギー"), (t!"ベリーズ", t!"ベリーズ"), (t!"ベナン", t!"ベナン"), (t!"ブータン", t!"ブータン"),
   (t!"ボリビア", t!"ボリビア"), (t!"ボスニア・ヘルツェゴビナ", t!"ボスニア・ヘルツェゴビナ"), (t!"ボツワナ", t!"ボツワナ"),
   (t!"ブラジル", t!"ブラジル"), (t!"ブルネイ", t!"ブルネイ"), (t!"ブルガリア", t!"ブルガリア"),
   (t!"ブルキナファソ", t!"ブルキナファソ"), (t!"ミャンマー", t!"ミャンマー"), (t!"ブルンジ", t!"ブルンジ"),
   (t!"カーボベルデ", t!"カーボベルデ"), (t!"カンボジア", t!"カンボジア"), (t!"カメルーン", t!"カメルーン"),
   (t!"カナダ", t!"カナダ"), (t!"中央アフリカ共和国", t!"中央アフリカ共和国"), (t!"チャド", t!"チャド"), (t!"チリ", t!"チリ"),
   (t!"中国", t!"中国"), (t!"コロンビア", t!"コロンビア"), (t!"コモロ", t!"コモロ"), (t!"コスタリカ", t!"コスタリカ"),
   (t!"クロアチア", t!"クロアチア"), (t!"キューバ", t!"キューバ"), (t!"キプロス", t!"キプロス"), (t!"チェコ", t!"チェコ"),
   (t!"コンゴ民主共和国", t!"コンゴ民主共和国"), (t!"コンゴ共和国", t!"コンゴ共和国"), (t!"デンマーク", t!"デンマーク"),
   (t!"ジブチ", t!"ジブチ"), (t!"ドミニカ共和国", t!"ドミニカ共和国"), (t!"ドミニカ国", t!"ドミニカ国"),
   (t!"東ティモール", t!"東ティモール"), (t!"エクアドル", t!"エクアドル"), (t!"エジプト", t!"エジプト"),
   (t!"エルサルバドル", t!"エルサルバドル"), (t!"赤道ギニア", t!"赤道ギニア"), (t!"エリトリア", t!"エリトリア"),
   (t!"エストニア", t!"エストニア"), (t!"エチオピア", t!"エチオピア"), (t!"フィジー", t!"フィジー"),
   (t!"フィンランド", t!"フィンランド"), (t!"フランス", t!"フランス"), (t!"ガボン", t!"ガボン"), (t!"ガンビア", t!"ガンビア"),
   (t!"ジョージア", t!"ジョージア"), (t!"ドイツ", t!"ドイツ")]

/-- `sport/country.tsv`, part 1. -/
def country1 : List (Str × Str) :=
  [(t!"ガーナ", t!"ガーナ"), (t!"ギリシャ", t!"ギリシャ"), (t!"グレナダ", t!"グレナダ"), (t!"グアテマラ", t!"グアテマラ"),
   (t!"ギニア", t!"ギニア"), (t!"ギニアビサウ", t!"ギニアビサウ"), (t!"ガイアナ", t!"ガイアナ"), (t!"ハイチ", t!"ハイチ"),
   (t!"ホンジュラス", t!"ホンジュラス"), (t!"ハンガリー", t!"ハンガリー"), (t!"アイスランド", t!"アイスランド"),
   (t!"インド", t!"インド"), (t!"インドネシア", t!"インドネシア"), (t!"イラン", t!"イラン"), (t!"イラク", t!"イラク"),
   (t!"アイルランド", t!"アイルランド"), (t!"イスラエル", t!"イスラエル"), (t!"イタリア", t!"イタリア"),
   (t!"ジャマイカ", t!"ジャマイカ"), (t!"日本", t!"日本"), (t!"ヨルダン", t!"ヨルダン"), (t!"カザフスタン", t!"カザフスタン"),
   (t!"ケニア", t!"ケニア"), (t!"北朝鮮", t!"北朝鮮"), (t!"韓国", t!"韓国"), (t!"クウェート", t!"クウェート"),
   (t!"キルギス", t!"キルギス"), (t!"ラオス", t!"ラオス"), (t!"ラトビア", t!"ラトビア"), (t!"レバノン", t!"レバノン"),
   (t!"レソト", t!"レソト"), (t!"リベリア", t!"リベリア"), (t!"リビア", t!"リビア"),
   (t!"リヒテンシュタイン", t!"リヒテンシュタイン"), (t!"リトアニア", t!"リトアニア"), (t!"ルクセンブルク", t!"ルクセンブルク"),
   (t!"マダガスカル", t!"マダガスカル"), (t!"マラウイ", t!"マラウイ"), (t!"マレーシア", t!"マレーシア"),
   (t!"モルディブ", t!"モルディブ"), (t!"マリ", t!"マリ"), (t!"マルタ", t!"マルタ"), (t!"モーリタニア", t!"モーリタニア"),
   (t!"モーリシャス", t!"モーリシャス"), (t!"メキシコ", t!"メキシコ"), (t!"モルドバ", t!"モルドバ"), (t!"モナコ", t!"モナコ"),
   (t!"モンゴル", t!"モンゴル"), (t!"モンテネグロ", t!"モンテネグロ"), (t!"モロッコ", t!"モロッコ"),
   (t!"モザンビーク", t!"モザンビーク"), (t!"ナミビア", t!"ナミビア"), (t!"ネパール", t!"ネパール"), (t!"オランダ", t!"オランダ"),
   (t!"ニュージーランド", t!"ニュージーランド"), (t!"ニカラグア", t!"ニカラグア"), (t!"ニジェール", t!"ニジェール"),
   (t!"ナイジェリア", t!"ナイジェリア"), (t!"ノルウェー", t!"ノルウェー"), (t!"オマーン", t!"オマーン"),
   (t!"パキスタン", t!"パキスタン"), (t!"パナマ", t!"パナマ"), (t!"パプアニューギニア", t!"パプアニューギニア"),
   (t!"パラグアイ", t!"パラグアイ")]

/-- `sport/country.tsv`, part 2. -/
def country2 : List (Str × Str) :=
  [(t!"ペルー", t!"ペルー"), (t!"フィリピン", t!"フィリピン"), (t!"ポーランド", t!"ポーランド"), (t!"ポルトガル", t!"ポルトガル"),
   (t!"カタール", t!"カタール"), (t!"ルーマニア", t!"ルーマニア"), (t!"ロシア", t!"ロシア"), (t!"ルワンダ", t!"ルワンダ"),
   (t!"セントクリストファー・ネイビス", t!"セントクリストファー・ネイビス"), (t!"セントルシア", t!"セントルシア"),
   (t!"セントビンセントおよびグレナディーン諸島", t!"セントビンセントおよびグレナディーン諸島"), (t!"サモア", t!"サモア"),
   (t!"サンマリノ", t!"サンマリノ"), (t!"サウジアラビア", t!"サウジアラビア"), (t!"セネガル", t!"セネガル"),
   (t!"セルビア", t!"セルビア"), (t!"セーシェル", t!"セーシェル"), (t!"シエラレオネ", t!"シエラレオネ"),
   (t!"シンガポール", t!"シンガポール"), (t!"スロバキア", t!"スロバキア"), (t!"スロベニア", t!"スロベニア"),
   (t!"ソロモン諸島", t!"ソロモン諸島"), (t!"ソマリア", t!"ソマリア"), (t!"南アフリカ", t!"南アフリカ"),
   (t!"南スーダン", t!"南スーダン"), (t!"スペイン", t!"スペイン"), (t!"スリランカ", t!"スリランカ"), (t!"スーダン", t!"スーダン"),
   (t!"スリナム", t!"スリナム"), (t!"エスワティニ", t!"エスワティニ"), (t!"スウェーデン", t!"スウェーデン"),
   (t!"スイス", t!"スイス"), (t!"シリア", t!"シリア"), (t!"タジキスタン", t!"タジキスタン"), (t!"タンザニア", t!"タンザニア"),
   (t!"タイ", t!"タイ"), (t!"東ティモール", t!"東ティモール"), (t!"トーゴ", t!"トーゴ"), (t!"トンガ", t!"トンガ"),
   (t!"トリニダード・トバゴ", t!"トリニダード・トバゴ"), (t!"チュニジア", t!"チュニジア"), (t!"トルコ", t!"トルコ"),
   (t!"トルクメニスタン", t!"トルクメニスタン"), (t!"ツバル", t!"ツバル"), (t!"ウガンダ", t!"ウガンダ"),
   (t!"ウクライナ", t!"ウクライナ"), (t!"アラブ首長国連邦", t!"アラブ首長国連邦"), (t!"イギリス", t!"イギリス"),
   (t!"アメリカ", t!"アメリカ"), (t!"ウルグアイ", t!"ウルグアイ"), (t!"ウズベキスタン", t!"ウズベキスタン"),
   (t!"バヌアツ", t!"バヌアツ"), (t!"ベネズエラ", t!"ベネズエラ"), (t!"ベトナム", t!"ベトナム"), (t!"イエメン", t!"イエメン"),
   (t!"ザンビア", t!"ザンビア"), (t!"ジンバブエ", t!"ジンバブエ")]

/-- `sport/country.tsv`. -/
def country : List (Str × Str) :=
  country0 ++
  country1 ++
  country2

/-- `time/hour.tsv`. -/
def hour : List (Str × Str) :=
  [(t!"0", t!"〇時"), (t!"1", t!"一時"), (t!"2", t!"二時"), (t!"3", t!"三時"), (t!"4", t!"四時"),
   (t!"5", t!"五時"), (t!"6", t!"六時"), (t!"7", t!"七時"), (t!"8", t!"八時"), (t!"9", t!"九時"),
   (t!"00", t!"〇時"), (t!"01", t!"一時"), (t!"02", t!"二時"), (t!"03", t!"三時"), (t!"04", t!"四時"),
   (t!"05", t!"五時"), (t!"06", t!"六時"), (t!"07", t!"七時"), (t!"08", t!"八時"), (t!"09", t!"九時"),
   (t!"10", t!"十時"), (t!"11", t!"十一時"), (t!"12", t!"十二時"), (t!"13", t!"十三時"),
   (t!"14", t!"十四時"), (t!"15", t!"十五時"), (t!"16", t!"十六時"), (t!"17", t!"十七時"),
   (t!"18", t!"十八時"), (t!"19", t!"十九時"), (t!"20", t!"二十時"), (t!"21", t!"二十一時"),
   (t!"22", t!"二十二時"), (t!"23", t!"二十三時"), (t!"24", t!"二十四時")]

/-- `time/minute.tsv`. -/
def minute : List (Str × Str) :=
  [(t!"00", t!""), (t!"01", t!"一分"), (t!"02", t!"二分"), (t!"03", t!"三分"), (t!"04", t!"四分"),
   (t!"05", t!"五分"), (t!"06", t!"六分"), (t!"07", t!"七分"), (t!"08", t!"八分"), (t!"09", t!"九分"),
   (t!"10", t!"十分"), (t!"11", t!"十一分"), (t!"12", t!"十二分"), (t!"13", t!"十三分"),
   (t!"14", t!"十四分"), (t!"15", t!"十五分"), (t!"16", t!"十六分"), (t!"17", t!"十七分"),
   (t!"18", t!"十八分"), (t!"19", t!"十九分"), (t!"20", t!"二十分"), (t!"21", t!"二十一分"),
   (t!"22", t!"二十二分"), (t!"23", t!"二十三分"), (t!"24", t!"二十四分"), (t!"25", t!"二十五分"),
   (t!"26", t!"二十六分"), (t!"27", t!"二十七分"), (t!"28", t!"二十八分"), (t!"29", t!"二十九分"),
   (t!"30", t!"三十分"), (t!"31", t!"三十一分"), (t!"32", t!"三十二分"), (t!"33", t!"三十三分"),
   (t!"34", t!"三十四分"), (t!"35", t!"三十五分"), (t!"36", t!"三十六分"), (t!"37", t!"三十七分"),
   (t!"38", t!"三十八分"), (t!"39", t!"三十九分"), (t!"40", t!"四十分"), (t!"41", t!"四十一分"),
   (t!"42", t!"四十二分"), (t!"43", t!"四十三分"), (t!"44", t!"四十四分"), (t!"45", t!"四十五分"),
   (t!"46", t!"四十六分"), (t!"47", t!"四十七分"), (t!"48", t!"四十八分"), (t!"49", t!"四十九分"),
   (t!"50", t!"五十分"), (t!"51", t!"五十一分"), (t!"52", t!"五十二分"), (t!"53", t!"五十三分"),
   (t!"54", t!"五十四分"), (t!"55", t!"五十五分"), (t!"56", t!"五十六分"), (t!"57", t!"五十七分"),
   (t!"58", t!"五十八分"), (t!"59", t!"五十九分")]

/-- `time/noon.tsv`. -/
def noon : List (Str × Str) :=
  [(t!"a m", t!"午前"), (t!"a.m.", t!"午前"), (t!"am", t!"午前"), (t!"A M", t!"午前"),
   (t!"AM", t!"午前"), (t!"p m", t!"午後"), (t!"p.m.", t!"午後"), (t!"pm", t!"午後"),
   (t!"P M", t!"午後"), (t!"PM", t!"午後")]

/-- `time/second.tsv`. -/
def second : List (Str × Str) :=
  [(t!"00", t!""), (t!"01", t!"一秒"), (t!"02", t!"二秒"), (t!"03", t!"三秒"), (t!"04", t!"四秒"),
   (t!"05", t!"五秒"), (t!"06", t!"六秒"), (t!"07", t!"七秒"), (t!"08", t!"八秒"), (t!"09", t!"九秒"),
   (t!"10", t!"十秒"), (t!"11", t!"十一秒"), (t!"12", t!"十二秒"), (t!"13", t!"十三秒"),
   (t!"14", t!"十四秒"), (t!"15", t!"十五秒"), (t!"16", t!"十六秒"), (t!"17", t!"十七秒"),
   (t!"18", t!"十八秒"), (t!"19", t!"十九秒"), (t!"20", t!"二十秒"), (t!"21", t!"二十一秒"),
   (t!"22", t!"二十二秒"), (t!"23", t!"二十三秒"), (t!"24", t!"二十四秒"), (t!"25", t!"二十五秒"),
   (t!"26", t!"二十六秒"), (t!"27", t!"二十七秒"), (t!"28", t!"二十八秒"), (t!"29", t!"二十九秒"),
   (t!"30", t!"三十秒"), (t!"31", t!"三十一秒"), (t!"32", t!"三十二秒"), (t!"33", t!"三十三秒"),
   (t!"34", t!"三十四秒"), (t!"35", t!"三十五秒"), (t!"36", t!"三十六秒"), (t!"37", t!"三十七秒"),
   (t!"38", t!"三十八秒"), (t!"39", t!"三十九秒"), (t!"40", t!"四十秒"), (t!"41", t!"四十一秒"),
   (t!"42", t!"四十二秒"), (t!"43", t!"四十三秒"), (t!"44", t!"四十四秒"), (t!"45", t!"四十五秒"),
   (t!"46", t!"四十六秒"), (t!"47", t!"四十七秒"), (t!"48", t!"四十八秒"), (t!"49", t!"四十九秒"),
   (t!"50", t!"五十秒"), (t!"51", t!"五十一秒"), (t!"52", t!"五十二秒"), (t!"53", t!"五十三秒"),
   (t!"54", t!"五十四秒"), (t!"55", t!"五十五秒"), (t!"56", t!"五十六秒"), (t!"57", t!"五十七秒"),
   (t!"58", t!"五十八秒"), (t!"59", t!"五十九秒")]

end Verif.JaTn
