import Verif.Wfst.Processor

/-
Data tables of /repo/tn/japanese/data, written by tools/mkdata.py from the .tsv files.
-/

namespace Verif.JaTn

open Verif.Wfst

/-- `char/fullwidth_to_halfwidth.tsv`, part 0. -/
def fullToHalf0 : List (Char × Char) :=
  List.zip
    t!"，。．“”！＂＃％＆＇（）＊＋－／：；＜＝＞？＠＼＾＿｀｛｜｝～＄０１２３４５６７８９ａＡｂＢｃＣｄＤｅＥｆＦｇＧｈＨｉＩｊＪｋ"
    t!",..\"\"!\"#%&'()*+-/:;<=>?@\\^_`{|}~$0123456789aAbBcCdDeEfFgGhHiIjJk"

/-- `char/fullwidth_to_halfwidth.tsv`, part 1. -/
def fullToHalf1 : List (Char × Char) :=
  List.zip
    t!"ＫｌＬｍＭｎＮｏＯｐＰｑＱｒＲｓＳｔＴｕＵｖＶｗＷｘＸｙＹｚＺ"
    t!"KlLmMnNoOpPqQrRsStTuUvVwWxXyYzZ"

/-- `char/fullwidth_to_halfwidth.tsv`. -/
def fullToHalf : List (Char × Char) :=
  fullToHalf0 ++ fullToHalf1

/-- `char/punctuations_ja.tsv`, part 0. -/
def punctsJa0 : List Char :=
  t!"！？｡。＂＃＄％＆＇（）＊＋，－／：；＜＝＞＠［＼］＾＿｀｛｜｝～｟｠｢｣､、〃》「」『』【】〔〕〖〗〘〙〚〛〜〝〞〟〰–—‘’"

/-- `char/punctuations_ja.tsv`, part 1. -/
def punctsJa1 : List Char :=
  t!"‛“”„‟…‧﹏"

/-- `char/punctuations_ja.tsv`. -/
def punctsJa : List Char :=
  punctsJa0 ++ punctsJa1

/-- `char/hiragana_and_katakana.tsv`, part 0. -/
def charsetStd0 : List Char :=
  t!"あいうえおかきくけこさしすせそたちつてとなにぬねのはひふへほまみむめもやゆよらりるれろわをんアイウエオカキクケコサシスセソタチツ"

/-- `char/hiragana_and_katakana.tsv`, part 1. -/
def charsetStd1 : List Char :=
  t!"テトナニヌネノハヒフヘホマミムメモヤユヨラリルレロワヲンがぎぐげござじずぜぞだぢづでどばびぶべぼぱぴぷぺぽガギグゲゴザジズゼゾダ"

/-- `char/hiragana_and_katakana.tsv`, part 2. -/
def charsetStd2 : List Char :=
  t!"ヂヅデドバビブベボパピプペポャァィュッゥェョォぁぃぅぇぉっゃゅょ"

/-- `char/hiragana_and_katakana.tsv`. -/
def charsetStd : List Char :=
  charsetStd0 ++ charsetStd1 ++ charsetStd2

/-- `char/common_chinese_char.tsv`, part 0. -/
def charsetExt0 : List Char :=
  t!"尽愼霸伯健市盤萬致奈眺衞声徹衣比巡革謡険玄獸沈商住艦傳祈彰渓酸刹苗齢詠號盛薰昨敢背陛貌等怖大丘到緖門瀨然貢録裕咲耕勅梨三授謹斥田"

/-- `char/common_chinese_char.tsv`, part 1. -/
def charsetExt1 : List Char :=
  t!"視貸緩降杉濯童竊薦靴既胴沸渡卑方爲罪図命俵蛍彙甚腕圍会損腸俸沃寺諦峠朕鯨泣枢確蔵熊邪遺給遲辣莊發陽雑把昔和騎種卷誰乙紅零汚詰蓄剛"

/-- `char/common_chinese_char.tsv`, part 2. -/
def charsetExt2 : List Char :=
  t!"拉遅餌渋合統映踊漁腰瓦王存孤擇旨併渴還知餘井渦戀凶餓逸亡犯舗刻今嫌形売詣諸廃貧忠后架祥雲葉加化心錄継搾般蜂捜負尾空洗回行沖太偉坊"

/-- `char/common_chinese_char.tsv`, part 3. -/
def charsetExt3 : List Char :=
  t!"刈虎恭朴暑君悠尚思增汰虛響輪漂乘書打捗現弐邊軍植鼻頻迭蟲擁汽官干抵慣傾非迫微是拓純出排勤薫福社醜諾峽浴若舟契聞詮庫妊帯丙以塀柵詔"

/-- `char/common_chinese_char.tsv`, part 4. -/
def charsetExt4 : List Char :=
  t!"錮瀧塩元遡煮殉脂陶去癡候稲慢眠穩討巾訟貳勝支深蚕探党堂乗龍象數澄人峰魚粹喚丹輩奮墜廉懸退譽概裝糾械喝寛丁者置洋九繊瞳斤夜瘍隆爆赦"

/-- `char/common_chinese_char.tsv`, part 5. -/
def charsetExt5 : List Char :=
  t!"御哀雌提姉賓歌諧芽挨仕音府買依錦祉待催浮塀泥櫻払麓崖切物織西縄妙賂緻郡眞悟憲製郞静俊県團基車叔界驅陪班繁苛博伏二稚絵月賢乳滿具坂"

/-- `char/common_chinese_char.tsv`, part 6. -/
def charsetExt6 : List Char :=
  t!"兼労聲讀仰隱材顯英免沙枠弁拙組砲固髄歡天凍副肘柱款崇由鍊瀬麵軌妹林徑舷匂祉拠係着旧盡北挙赤宝阻諮疑淡毛夕将近斷擴鉛惠弟極妻誉珍突"

/-- `char/common_chinese_char.tsv`, part 7. -/
def charsetExt7 : List Char :=
  t!"畳放券圈賓妄海猫嫡紫薄褐刷壯送堕挟毆憬綻獲粧晴中幣柿旅飢飛本症紛服営滞但罐済審家須程票自爽米寡詳角泡倒稿戦災距捕族璧坪毎阪路得品"

/-- `char/common_chinese_char.tsv`, part 8. -/
def charsetExt8 : List Char :=
  t!"尻蛇樂淑茶聴学施運海策弥憾莖削膳隻積浜濫尋臨灣詞許列伎豪斉婦斗芸療俳評幼他励希築南麻寒町必典一儀匠紹呂歷艶廣煎奔頑摯剖茨怨私寶減"

/-- `char/common_chinese_char.tsv`, part 9. -/
def charsetExt9 : List Char :=
  t!"陷管盜條留込玩德永答薬軽国頭頒仏罰口齡龜署謙麦科白驗岡互愛囲氷卸周勉翌嚇浅案直姿座五藝索獨塞所礁菌呪撃拜冒伐胆没濕仙佳隣栄曆楷笛"

/-- `char/common_chinese_char.tsv`, part 10. -/
def charsetExt10 : List Char :=
  t!"吟怠寄腹弱驛灰俗那改器亜兒凝輕連操取駄態絲訂梅昼測禍糸母衰春拳暑漫瑠卓押儒嵐猛麗逸奨感制線軟圖病舌懲謁硬垂肢懷江鈍葬正望吉踐翻末"

/-- `char/common_chinese_char.tsv`, part 11. -/
def charsetExt11 : List Char :=
  t!"脅且袋電芋隅却碁作妃貫量同笑栓稱遭拒敏朽試競長筆兵召皿兩禁看妖揭憂壊濟涉牧卵問徒畔蓋膽土己叫禮建頻載略恒暖混内岐財箱窓硏劍奥止擧"

/-- `char/common_chinese_char.tsv`, part 12. -/
def charsetExt12 : List Char :=
  t!"応苦鮮遍傍申繁抹徵濱顧結上否采藍倍幹殘歓睦犬肖逓胸塁謎成鳴錬添惧雪墓特波百寸璃債詩企剤木喩庭広避新葛系防娘卑曇星冗墨吐欠彫敕賀鑛"

/-- `char/common_chinese_char.tsv`, part 13. -/
def charsetExt13 : List Char :=
  t!"戚鷄頼才穗猶集僚壌暮段蔑騒醸懐衝従偏唾侮報員潛粗刃利畜犧戻恵繩術習攝腎脳遞配氣國劇釣應劾埼鉢媒稼級勸節棋穴憶四選封妥唆網複酬飯據"

/-- `char/common_chinese_char.tsv`, part 14. -/
def charsetExt14 : List Char :=
  t!"尼堤泰甁至縱責鹿因味下度肝場序鋳村尊埋底瓣写抄推耐断崩判項駆既擬含督艷嫉努杯痩辭潮蜜業続育演謹頃椅從更踏屯央養優岳舊悦赴駅凡疊晩"

/-- `char/common_chinese_char.tsv`, part 15. -/
def charsetExt15 : List Char :=
  t!"訓經楽面陰違險源簿汎矯骸錠棄湿砂寫調幻穀争劑睡脊剰整搬戾賦括郎邸慎專晝昧伺章教阜吏週換臆炊満勤陣腐甲餅某窟勃樓臟蛮酷賄狙恆嘱嬢曖"

/-- `char/common_chinese_char.tsv`, part 16. -/
def charsetExt16 : List Char :=
  t!"宰貝患遂厄桑卽總蚊攻暇較漢黃壁猿昇川室慮前団越敷未廳注億画失慰妬姫講験殴示拭曉銘涼発情石勧旬傷膜靜故茂澁乾髪岸詐粛仁騷豆根慕績剝"

/-- `char/common_chinese_char.tsv`, part 17. -/
def charsetExt17 : List Char :=
  t!"誤秋役悼悪滝休挑披床地魂史馬持修騰夏橋氾領涙忌液辯滑堪幕類朱千経殖著遵識圏札釀丸粘禅榮握歐鏡穏導話虞両震飲的骨観局侯寮拡採汗肉桟"

/-- `char/common_chinese_char.tsv`, part 18. -/
def charsetExt18 : List Char :=
  t!"護厚矛芯安藤価腦廢顎缺検殊欺水型膨薪畑規菜裁參姓鎌碑醫嚴耗諭痛祖潰鬱分別購寿步終蹴拍囑真霊浦蠻宇對里侮爪麥燃廷異狭淚欧河狂燥縦強"

/-- `char/common_chinese_char.tsv`, part 19. -/
def charsetExt19 : List Char :=
  t!"孝則兆無良舞糖彈湯氏實秀点鬼紋戒言點雨槪興威續浄脈富肯慶援桜芝多題奉在閉循理単籠随盆窮轄総衷後便銃帶訪敬荘酒影砕生離京釋帳煮怪陸"

/-- `char/common_chinese_char.tsv`, part 20. -/
def charsetExt20 : List Char :=
  t!"殺超転閥透嘲弦属鍋繼付並惱殺壘吸淫洞質磨迎稻甘跡效塚効恣双議伴殻皇署庶弄況譲響潟扇公想締犠陵停晶証宵遷搜雄毀賛令受層環朗円孔拷覆"

/-- `char/common_chinese_char.tsv`, part 21. -/
def charsetExt21 : List Char :=
  t!"監酌瞭旺羨掛剩琴男牙鋼景衡勳鎮専虹巨残獣俺驚潔善社躍紡辱仮柔困黄実娠算挾常墮投傲脇遜表弧該叙都届手雜事准廊任児飽賊拶尉抜遇暴差勉"

/-- `char/common_chinese_char.tsv`, part 22. -/
def charsetExt22 : List Char :=
  t!"読芳帝塊張漬靈字刑郭頰曹寢途縮与消韻唐記願歳惨涯慌賣節及死境獵牛子忙熟七敏携対履縫漏日租保際台塗轉駐翼暫奧鎖婆雰折値悩計篤毒均箋"

/-- `char/common_chinese_char.tsv`, part 23. -/
def charsetExt23 : List Char :=
  t!"婿破房編繕鬭覇宅反誌青恐冷謝森鍵慨八立壇第焦衆鄕繭竜募課贈緯初域肺侶勞収沼齊早花霧暗密膝帽帥慄脱害老勾要動菊恩懇沢客遮相約舶全讓"

/-- `char/common_chinese_char.tsv`, part 24. -/
def charsetExt24 : List Char :=
  t!"果玉飼滅秘疲往宣贈燒承臺視松鐵彌主傘僧穂奬旦端鉱來細盗乱期標堆樣警裂霜魔宛慘政店万察鼓漠湧径觸蠶恋隊季塚隔屬捨閲佐秩麺通校孃紙幾"

/-- `char/common_chinese_char.tsv`, part 25. -/
def charsetExt25 : List Char :=
  t!"體武割箇賞褐忍僕宜奇逐状挿擔荷逝克流盟隆機圧覧桁供疎盾每布屋穀移句煩竹乞釈澤凄巢礼檢平貞尺酢撮務泳宙朝僅匿査淨賜処橫盲壽棧岬曲筒"

/-- `char/common_chinese_char.tsv`, part 26. -/
def charsetExt26 : List Char :=
  t!"喝漆鶏顕裾枕法錯針絡溫意高束儉偶勢納勘唱栽順敍冊津介酎摘墾韓娯黑辺臭陥僞變光酵弊了賭棚時暦抱熱墨溶練祭鶴位鹽撲寝危惰邦胞研都開色"

/-- `char/common_chinese_char.tsv`, part 27. -/
def charsetExt27 : List Char :=
  t!"魅隙舎粋風呉佛狀腺被浸喜癒午憤縛宗追撤謄露治文僧指血硫濃貨迅秒幸能］彩畝兄格獻側碎賴擦昭易語彼歸雇精爵圓屈漸明拐穫年当駒摂速憧康"

/-- `char/common_chinese_char.tsv`, part 28. -/
def charsetExt28 : List Char :=
  t!"挫倉名辨亂右重街据屆抑個淺臣棒難容功侵羊刊漢足槽壓析椎間次嗅緑器緒居扉触油歴矢装気信進草絶齋範鑑［礎顔肪綱道始勲輝培鉄貪譯牲温友"

/-- `char/common_chinese_char.tsv`, part 29. -/
def charsetExt29 : List Char :=
  t!"士免志皆眼迷臼登絞糧創箸食又璽辞原潜余谷蒸證額枯設郊説短夢池嫁拂髓遠践虫不冬襃席独使裏船達享掘件禍農祕群觀助粒十拾灯炉鍛変為資歯"

/-- `char/common_chinese_char.tsv`, part 30. -/
def charsetExt30 : List Char :=
  t!"遣緣欄嶽拝瘦補者剣冥黙維廊完繰敵惜突来紺揮罵悲摩溪税趣豐潤卒執髮凹神義性古金冶輸入融求首普島館素譜收雅階獄批欄爐用復酔塑愁奪祖會"

/-- `char/common_chinese_char.tsv`, part 31. -/
def charsetExt31 : List Char :=
  t!"著墳權働醒堀華適造緊喪串跳衛謀低覽似肅起共称描煙餠快愚交荒豫酪身坑羞岩銀航神戰掃弾民述模訴省闘予層慈唯泊升射眉猟侍單胃硝益誇艇美"

/-- `char/common_chinese_char.tsv`, part 32. -/
def charsetExt32 : List Char :=
  t!"何桃飜見竝山皮揚學預照厘綿敗守亭晚炭献謁劣尿野借珠償院障縣黒錢偵旋誠銭惡訃外託力峡増戴當軒最式腫女畏談搭如沿逆枚律世陳勵好憩爭走"

/-- `char/common_chinese_char.tsv`, part 33. -/
def charsetExt33 : List Char :=
  t!"委促宮虚掌費裸畫隨扶捉厳滯囚踪丈亀嘆征清覚痕搖例措壹伸醉郵歩惑鳥豚狹呈鋭渉激左占体恨區捻湖痘累番控殿戸可有先勇難偽與過鈴診壮愉園"

/-- `char/common_chinese_char.tsv`, part 34. -/
def charsetExt34 : List Char :=
  t!"貴泌倂禪誓藏罷翁關粉巧姻率臭悔区雙贊再我藻默倹準技孫担返啓賃鎭巣溝択横洪活寂解丼婚念謠宴港喫練濁久決引刺將香職凸畿祈逮請吹烈類昆"

/-- `char/common_chinese_char.tsv`, part 35. -/
def charsetExt35 : List Char :=
  t!"籍宿幽様派倫曽臓父楼参羽頂巻憎褒急諸机梅遊息条誘聖旗菓唇各定梗向癖縁窃嘆像貯延肌産少充片汁胎城半湾庁咽郷筋滴柄祝関祥振乏肥忘磁散"

/-- `char/common_chinese_char.tsv`, part 36. -/
def charsetExt36 : List Char :=
  t!"塔塾包窒祝襲襟符樞懲扱豊究斬東肩耳痴棺柳虜渇擊染溺羅壤怒假附絹協痢逃鑄股寧喉就徐奴代泉帆核除棟噴認夫救價仲辛工誕告伝替紀浪即弓号"

/-- `char/common_chinese_char.tsv`, part 37. -/
def charsetExt37 : List Char :=
  t!"亞堅板庸部雷斎炎司目匹螢鐘販斑閣拔樹窯聽傑呼州招缶暁壱齒碑嗣数哺揺營寬帰抽展脚斜媛飾医唄料需藩弔貿曾妨瓶拘権萎虜稽論欲插疫師朗綠"

/-- `char/common_chinese_char.tsv`, part 38. -/
def charsetExt38 : List Char :=
  t!"限疾繪狩𠮟壞憎構頓膚纖燈栃銅版垣虐抗備處冠接六殼閑親隷奏貼慨藥落賠曜闇戲幅考刀徳焼恥塡茎掲徴小黨簡隠訳株軸崎球倣火枝覺袖紳印釜哲"

/-- `char/common_chinese_char.tsv`, part 39. -/
def charsetExt39 : List Char :=
  t!"戯蔽悔福瞬滋"

/-- `char/common_chinese_char.tsv`. -/
def charsetExt : List Char :=
  charsetExt0 ++ charsetExt1 ++ charsetExt2 ++ charsetExt3 ++ charsetExt4 ++ charsetExt5 ++ charsetExt6 ++ charsetExt7 ++
  charsetExt8 ++ charsetExt9 ++ charsetExt10 ++ charsetExt11 ++ charsetExt12 ++ charsetExt13 ++ charsetExt14 ++ charsetExt15 ++
  charsetExt16 ++ charsetExt17 ++ charsetExt18 ++ charsetExt19 ++ charsetExt20 ++ charsetExt21 ++ charsetExt22 ++ charsetExt23 ++
  charsetExt24 ++ charsetExt25 ++ charsetExt26 ++ charsetExt27 ++ charsetExt28 ++ charsetExt29 ++ charsetExt30 ++ charsetExt31 ++
  charsetExt32 ++ charsetExt33 ++ charsetExt34 ++ charsetExt35 ++ charsetExt36 ++ charsetExt37 ++ charsetExt38 ++ charsetExt39

end Verif.JaTn
