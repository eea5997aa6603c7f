import Verif.Wfst.Processor

/-
Data tables of /repo/tn/chinese/data, written by tools/mkdata.py from the .tsv files.
-/

namespace Verif.ZhTn

open Verif.Wfst

/-- `char/traditional_to_simple.tsv`, part 0. -/
def traditionalToSimple0 : List (Char × Char) :=
  List.zip
    t!"丟並乗乹亁亂亙亞亯亱亷亾伕佀佇佈佔併來侖侶侷俁係俛俠倀倆倉個倐們倖倣倫倸偉偘偪側偵偸偺偽傑傖傘備傚傢傭傯傳傴債傷傾僂僅僉僊僑僕僞"
    t!"丢并乘乾乾乱亘亚享夜廉亡夫似伫布占并来仑侣局俣系俯侠伥俩仓个倏们幸仿伦睬伟侃逼侧侦偷咱伪杰伧伞备效家佣偬传伛债伤倾偻仅佥仙侨仆伪"

/-- `char/traditional_to_simple.tsv`, part 1. -/
def traditionalToSimple1 : List (Char × Char) :=
  List.zip
    t!"僥僨僱價儀儁儂億儅儈儉儐儔儕儘償優儲儵儷儸儹儺儻儼兇兌兎兒兗兠內兩冄冊冐冪冺凃凍凜凟凣処凱凴別刦刧刪刼剄則剋剛剝剮剳剴創剷剹劃劄"
    t!"侥偾雇价仪俊侬亿当侩俭傧俦侪尽偿优储倏俪罗攒傩傥俨凶兑兔儿兖兜内两冉册冒幂泯涂冻凛渎凡处凯凭别劫劫删劫刭则克刚剥剐札剀创铲戮划札"

/-- `char/traditional_to_simple.tsv`, part 2. -/
def traditionalToSimple2 : List (Char × Char) :=
  List.zip
    t!"劇劉劊劌劍劑劒効勁勅勌動勗務勛勝勞勢勣勦勱勳勵勸勻匃匄匟匭匯匱匲匳匵區協卹卻厀厙厛厠厤厭厰厲厴參叡叢吚吳呂呌呪咊咼員哢哶唄唕唚唫"
    t!"剧刘刽刿剑剂剑效劲敕倦动勖务勋胜劳势绩剿劢勋励劝匀丐丐炕匦汇匮奁奁椟区协恤却膝厍厅厕历厌厂厉厣参睿丛咿吴吕叫咒和呙员咔咩呗唣吣吟"

/-- `char/traditional_to_simple.tsv`, part 3. -/
def traditionalToSimple3 : List (Char × Char) :=
  List.zip
    t!"唸啎問啑啓啗啞啟啣喆喒喚喦喪喫喬單喲嗁嗆嗇嗎嗚嗩嗶嘅嘆嘍嘑嘔嘖嘗嘜嘠嘩嘮嘯嘰嘵嘸噁噅噉噓噝噠噥噦噯噲噴噸噹嚀嚇嚌嚐嚕嚙嚥嚦嚨嚮嚳"
    t!"念忤问喋启啖哑启衔哲咱唤岩丧吃乔单哟啼呛啬吗呜唢哔慨叹喽呼呕啧尝唛嘎哗唠啸叽哓呒恶咴啖嘘咝哒哝哕嗳哙喷吨当咛吓哜尝噜啮咽呖咙向喾"

/-- `char/traditional_to_simple.tsv`, part 4. -/
def traditionalToSimple4 : List (Char × Char) :=
  List.zip
    t!"嚴嚶嚻囀囁囂囅囈囌囑囘囙囪囬囯圅圇國圍園圓圖團坰坵坿垜垵垻埛埜埡埰埳執堃堅堊堖堘堝堦堯報場堿塊塋塏塒塗塚塟塢塤塲塵塹塼墊墖墜墝墪"
    t!"严嘤嚣啭嗫嚣冁呓苏嘱回因囱回国函囵国围园圆图团垧丘附垛埯坝炯野垭采坎执坤坚垩垴塍埚阶尧报场碱块茔垲埘涂冢葬坞埙场尘堑砖垫塔坠硗墩"

/-- `char/traditional_to_simple.tsv`, part 5. -/
def traditionalToSimple5 : List (Char × Char) :=
  List.zip
    t!"墮墰墳墻墾壄壇壎壓壘壙壚壜壞壟壠壢壩壯壺壻壽夀夘夠夢夾奐奧奩奪奮妝妬妳妷姉姍姙姦姪娛娬娿婁婦婬婭媧媮媯媼媽媿嫋嫗嫰嫵嫺嫻嬀嬈嬋嬌"
    t!"堕坛坟墙垦野坛埙压垒圹垆坛坏垄垄坜坝壮壶婿寿寿帽够梦夹奂奥奁夺奋妆妒你侄姊姗妊奸侄娱妩婀娄妇淫娅娲偷妫媪妈愧袅妪嫩妩娴娴妫娆婵娇"

/-- `char/traditional_to_simple.tsv`, part 6. -/
def traditionalToSimple6 : List (Char × Char) :=
  List.zip
    t!"嬙嬝嬡嬤嬪嬭嬰嬸嬾孃孌孫學孼孿宂宮宼寀寘寢實寧審寫寬寵寶尅將專尋對導尲尷屆屍屜屢層屨屬岅岡峝峩峯峴島峽崍崐崑崗崙崠崢崬崳嵐嵗嶁嶄"
    t!"嫱袅嫒嬷嫔奶婴婶懒娘娈孙学孽孪冗宫寇采置寝实宁审写宽宠宝克将专寻对导尴尴届尸屉屡层屦属坂冈峒峨峰岘岛峡崃昆昆岗仑岽峥岽嵛岚岁嵝崭"

/-- `char/traditional_to_simple.tsv`, part 7. -/
def traditionalToSimple7 : List (Char × Char) :=
  List.zip
    t!"嶇嶗嶠嶧嶴嶸嶺嶼嶽巋巒巔巖巗巰巵巹帀帥師帬帳帶幀幃幑幗幘幙幟幣幫幬幹幾庫庻廁廂廄廈廐廕廚廝廟廠廡廢廣廩廬廳廵廹廻廼弔弳張強彆彈彊"
    t!"岖崂峤峄岙嵘岭屿岳岿峦巅岩岩巯卮卺匝帅师裙帐带帧帏徽帼帻幕帜币帮帱干几库庶厕厢厩厦厩荫厨厮庙厂庑废广廪庐厅巡迫回乃吊弪张强别弹强"

/-- `char/traditional_to_simple.tsv`, part 8. -/
def traditionalToSimple8 : List (Char × Char) :=
  List.zip
    t!"彌彎彙彜彞彥彫彿徃徑從徠復徬徴徹怱怳恆恠恡恥悅悤悳悵悶悽惏惡惥惱惲惻愛愜愨愴愷愽愾慂慄慇態慍慘慙慚慟慣慤慪慫慮慳慴慶慼慾憂憇憊憐"
    t!"弥弯汇彝彝彦雕佛往径从徕复仿征彻匆恍恒怪吝耻悦匆德怅闷凄婪恶恿恼恽恻爱惬悫怆恺博忾恿栗殷态愠惨惭惭恸惯悫怄怂虑悭慑庆戚欲忧憩惫怜"

/-- `char/traditional_to_simple.tsv`, part 9. -/
def traditionalToSimple9 : List (Char × Char) :=
  List.zip
    t!"憑憒憚憤憫憮憲憶懃懇應懌懍懕懞懟懣懨懲懶懷懸懺懼懽懾戀戇戔戧戩戯戰戲戶戹戼扡拏拕挐挱挾挿捄捨捫捲掃掄掙掛採掽揀揑揚換揫揮揹搆搇搉"
    t!"凭愦惮愤悯怃宪忆勤恳应怿懔恹蒙怼懑恹惩懒怀悬忏惧欢慑恋戆戋戗戬戏战戏户厄帽扦拿拖拿挲挟插救舍扪卷扫抡挣挂采碰拣捏扬换揪挥背构揿榷"

/-- `char/traditional_to_simple.tsv`, part 10. -/
def traditionalToSimple10 : List (Char × Char) :=
  List.zip
    t!"損搖搗搥搨搯搶搾摑摜摟摣摯摳摶摻撈撐撓撚撟撡撣撥撦撫撲撳撻撾撿擁擄擇擊擋擔擕據擠擡擣擧擬擯擰擱擲擴擷擺擻擼擾攄攆攏攔攖攙攛攜攝攢"
    t!"损摇捣捶拓掏抢榨掴掼搂揸挚抠抟掺捞撑挠捻挢操掸拨扯抚扑揿挞挝捡拥掳择击挡担携据挤抬捣举拟摈拧搁掷扩撷摆擞撸扰摅撵拢拦撄搀撺携摄攒"

/-- `char/traditional_to_simple.tsv`, part 11. -/
def traditionalToSimple11 : List (Char × Char) :=
  List.zip
    t!"攣攤攩攪攬攷敂敍敗敘敭敵數敺斂斃斕斬斮斲斵斷旂旾昇昬昰時晉晝晳晻暈暉暎暠暢暫暱曄曆曇曉曏曖曠曡曬書會朢朧朶東枏枒枴柟柵柹柺査栁桮"
    t!"挛摊挡搅揽考叩叙败叙扬敌数驱敛毙斓斩斫斫斫断旗春升昏是时晋昼晰暗晕晖映皓畅暂昵晔历昙晓向暧旷叠晒书会望胧朵东楠丫拐楠栅柿拐查柳杯"

/-- `char/traditional_to_simple.tsv`, part 12. -/
def traditionalToSimple12 : List (Char × Char) :=
  List.zip
    t!"桺桿梔梘條梟梱棃棄棊棖棗棟棧棬棲椀椏椗椶楊楓楥楨業楳極榦榪榮榿槀槃構槍槑槓槕槧槨槩槳槼樁樂樅樑樓標樞樣樷樸樹樺橈橋橜機橢橤橫橰檁"
    t!"柳杆栀枧条枭捆梨弃棋枨枣栋栈桊栖碗桠碇棕杨枫楦桢业梅极干杩荣桤稿盘构枪梅杠桌椠椁概桨规桩乐枞梁楼标枢样丛朴树桦桡桥橛机椭蕊横槔檩"

/-- `char/traditional_to_simple.tsv`, part 13. -/
def traditionalToSimple13 : List (Char × Char) :=
  List.zip
    t!"檉檔檜檝檢檣檯檳檸檻檾櫂櫃櫈櫓櫚櫛櫝櫞櫟櫥櫧櫨櫪櫫櫬櫳櫸櫺櫻欄權欏欑欒欖欞欬欵欽歎歐歗歛歟歡歲歷歸歿殀殘殞殤殫殭殮殯殲殺殼毀毆毉"
    t!"柽档桧楫检樯台槟柠槛苘棹柜凳橹榈栉椟橼栎橱槠栌枥橥榇栊榉棂樱栏权椤攒栾榄棂咳款钦叹欧啸敛欤欢岁历归殁夭残殒殇殚僵殓殡歼杀壳毁殴医"

/-- `char/traditional_to_simple.tsv`, part 14. -/
def traditionalToSimple14 : List (Char × Char) :=
  List.zip
    t!"毘毧毬毿氂氈氊氌氣氫氬氳氷氹氾汎汙汚決沍沒沖況泝洩洶浹涇涖涼淒淚淛淥淨淩淪淵淶淺渙減渦測渾湊湞湣湧湯湻溈準溝溫溼滄滅滌滎滙滛滬滯"
    t!"毗绒球毵牦毡毡氇气氢氩氲冰凼泛泛污污决冱没冲况溯泄汹浃泾莅凉凄泪浙渌净凌沦渊涞浅涣减涡测浑凑浈愍涌汤淳沩准沟温湿沧灭涤荥汇淫沪滞"

/-- `char/traditional_to_simple.tsv`, part 15. -/
def traditionalToSimple15 : List (Char × Char) :=
  List.zip
    t!"滲滷滸滾滿漁漚漢漣漬漲漵漸漿潁潄潑潔潙潛潟潤潯潰潷潿澀澁澂澆澇澗澠澤澩澮澱濁濃濕濘濛濟濤濫濬濰濱濶濺濼濾瀅瀆瀉瀋瀏瀕瀘瀝瀟瀠瀦瀧"
    t!"渗卤浒滚满渔沤汉涟渍涨溆渐浆颍漱泼洁沩潜舄润浔溃滗涠涩涩澄浇涝涧渑泽泶浍淀浊浓湿泞蒙济涛滥浚潍滨阔溅泺滤滢渎泻渖浏濒泸沥潇潆潴泷"

/-- `char/traditional_to_simple.tsv`, part 16. -/
def traditionalToSimple16 : List (Char × Char) :=
  List.zip
    t!"瀨瀰瀲瀾灃灄灋灑灕灘灝灣灤灧灩災炤為烏烖烴無煆煇煉煑煒煖煗煙煢煥煩煬熒熗熱熾燁燄燈燉燐燒燙燜營燦燬燭燴燻燼燾燿爍爐爗爛爭爲爺爾牀"
    t!"濑弥潋澜沣滠法洒漓滩灏湾滦滟滟灾照为乌灾烃无煅辉炼煮炜暖暖烟茕焕烦炀荧炝热炽烨焰灯炖磷烧烫焖营灿毁烛烩熏烬焘耀烁炉烨烂争为爷尔床"

/-- `char/traditional_to_simple.tsv`, part 17. -/
def traditionalToSimple17 : List (Char × Char) :=
  List.zip
    t!"牆牋牎牐牓牕牘牠牴牽犂犇犖犛犢犧狀狥狹狽猂猙猨猶猻獁獃獄獅獋獎獘獧獨獪獫獰獲獵獷獸獺獻獼玀玅玆玨珎珮現琍琯琱琹琺琿瑉瑋瑠瑣瑤瑩瑪"
    t!"墙笺窗闸榜窗牍它抵牵犁奔荦牦犊牺状徇狭狈悍狰猿犹狲犸呆狱狮嗥奖弊狷独狯猃狞获猎犷兽獭献猕猡妙兹珏珍佩现璃管雕琴珐珲珉玮琉琐瑶莹玛"

/-- `char/traditional_to_simple.tsv`, part 18. -/
def traditionalToSimple18 : List (Char × Char) :=
  List.zip
    t!"瑯璉璢璣璦環璽璿瓈瓊瓌瓏瓔瓚甌甎甕甖產産甦畊畝畢畧畫異畱當疇疉疊疎疘疿痐痙痠痳痺痾瘂瘉瘋瘍瘓瘖瘞瘡瘧瘺瘻療癄癅癆癇癉癒癘癟癡癢癤"
    t!"琅琏琉玑瑷环玺璇璃琼瑰珑璎瓒瓯砖瓮罂产产苏耕亩毕略画异留当畴叠叠疏肛痱蛔痉酸淋痹疴痖愈疯疡痪喑瘗疮疟瘘瘘疗憔瘤痨痫瘅愈疠瘪痴痒疖"

/-- `char/traditional_to_simple.tsv`, part 19. -/
def traditionalToSimple19 : List (Char × Char) :=
  List.zip
    t!"癥癧癩癬癭癮癰癱癲發皁皚皜皰皷皸皺盃盇盌盜盞盡監盤盧盪眎眡眥眾睏睜睞睠瞇瞖瞘瞞瞼矁矇矙矚矯矴砲硃硤硨硯硶碁碩碪碭碸確碼磚磣磧磯磽"
    t!"症疬癞癣瘿瘾痈瘫癫发皂皑皓疱鼓皲皱杯盍碗盗盏尽监盘卢荡视视眦众困睁睐眷眯翳眍瞒睑瞅蒙瞰瞩矫碇炮朱硖砗砚碜棋硕砧砀砜确码砖碜碛矶硗"

/-- `char/traditional_to_simple.tsv`, part 20. -/
def traditionalToSimple20 : List (Char × Char) :=
  List.zip
    t!"礎礙礦礪礫礬礮礱祐祑祕祿禍禎禦禩禪禮禰禱禿秈秌稅稈稜稟稭種稱稺穀穅穉穌積穎穡穢穨穩穫穭穽窓窩窪窮窯窰窶窺竄竅竇竈竊竚竝竢竪競筆筍"
    t!"础碍矿砺砾矾炮砻佑帙秘禄祸祯御祀禅礼祢祷秃籼秋税秆棱禀秸种称稚谷糠稚稣积颖穑秽颓稳获稆阱窗窝洼穷窑窑窭窥窜窍窦灶窃伫并俟竖竞笔笋"

/-- `char/traditional_to_simple.tsv`, part 21. -/
def traditionalToSimple21 : List (Char × Char) :=
  List.zip
    t!"筞筦筧筩筯筴箇箋箏箒箠節範築篋篛篠篤篩篳篹簀簍簑簒簞簡簣簫簮簷簽簾籃籌籐籜籟籠籢籤籥籩籪籬籮籲粃粇粦粧粬粰粵粺糉糝糞糢糧糰糲糴糶"
    t!"策管笕筒箸策个笺筝帚棰节范筑箧箬筱笃筛筚纂箦篓蓑篡箪简篑箫簪檐签帘篮筹藤箨籁笼奁签钥笾簖篱箩吁秕糠磷妆曲麸粤稗粽糁粪模粮团粝籴粜"

/-- `char/traditional_to_simple.tsv`, part 22. -/
def traditionalToSimple22 : List (Char × Char) :=
  List.zip
    t!"糾紀紂約紅紆紇紈紉紋納紐紓純紕紗紙級紛紜紡紥紮細紱紲紳紹紺紼紿絀終絃組絆絎絏結絕絛絝絞絡絢給絨統絲絳絹綁綃綆綈綉綏綑經綜綞綠綢綣"
    t!"纠纪纣约红纡纥纨纫纹纳纽纾纯纰纱纸级纷纭纺扎扎细绂绁绅绍绀绋绐绌终弦组绊绗绁结绝绦绔绞络绚给绒统丝绛绢绑绡绠绨绣绥捆经综缍绿绸绻"

/-- `char/traditional_to_simple.tsv`, part 23. -/
def traditionalToSimple23 : List (Char × Char) :=
  List.zip
    t!"綫綬維綰綱網綳綴綵綸綹綺綻綽綾綿緄緇緊緋緍緐緒緔緗緘緙線緜緝緞締緡緣緤緥緦編緩緬緯緱緲練緶緹緻縂縈縉縊縋縐縑縚縛縝縞縟縣縧縫縭縮"
    t!"线绶维绾纲网绷缀彩纶绺绮绽绰绫绵绲缁紧绯缗繁绪绱缃缄缂线绵缉缎缔缗缘绁褓缌编缓缅纬缑缈练缏缇致总萦缙缢缒绉缣绦缚缜缟缛县绦缝缡缩"

/-- `char/traditional_to_simple.tsv`, part 24. -/
def traditionalToSimple24 : List (Char × Char) :=
  List.zip
    t!"縯縱縲縴縵縶縷縹總績繃繅繆繈繒織繕繖繙繚繞繡繢繦繩繪繫繭繮繯繰繳繹繼繽繾纈纊續纍纏纓纖纘纜缽缾罇罈罋罌罎罏罰罵罷罸羅羆羈羋羗羢羣"
    t!"演纵缧纤缦絷缕缥总绩绷缫缪襁缯织缮伞翻缭绕绣缋襁绳绘系茧缰缳缲缴绎继缤缱缬纩续累缠缨纤缵缆钵瓶樽坛瓮罂坛垆罚骂罢罚罗罴羁芈羌绒群"

/-- `char/traditional_to_simple.tsv`, part 25. -/
def traditionalToSimple25 : List (Char × Char) :=
  List.zip
    t!"羥羨義羶習翫翶翹翺耑耡耬耮聖聞聯聰聲聳聵聶職聹聼聽聾肅肎肐肧胷脃脅脇脈脗脛脣脩脫脹腎腖腡腦腫腳腸膁膃膚膠膩膽膾膿臉臋臍臏臒臕臘臙"
    t!"羟羡义膻习玩翱翘翱端锄耧耢圣闻联聪声耸聩聂职聍听听聋肃肯胳胚胸脆胁胁脉吻胫唇修脱胀肾胨脶脑肿脚肠肷腽肤胶腻胆脍脓脸臀脐膑癯膘腊胭"

/-- `char/traditional_to_simple.tsv`, part 26. -/
def traditionalToSimple26 : List (Char × Char) :=
  List.zip
    t!"臚臝臟臠臥臨臯臺與興舉舊舖舘舩艕艙艢艣艤艦艪艫艱艷艸芲芻苧茘茲荊荳莊莖莢莧菑菓華菴萇萊萬萲萵葉葒葠葤葦葯葷蒐蒓蒔蒞蒼蓀蓆蓋蓡蓧蓮"
    t!"胪裸脏脔卧临皋台与兴举旧铺馆船膀舱樯橹舣舰橹舻艰艳艹花刍苎荔兹荆豆庄茎荚苋灾果华庵苌莱万萱莴叶荭参荮苇药荤搜莼莳莅苍荪席盖参莜莲"

/-- `char/traditional_to_simple.tsv`, part 27. -/
def traditionalToSimple27 : List (Char × Char) :=
  List.zip
    t!"蓯蓴蓽蔆蔔蔕蔞蔣蔥蔦蔭蔴蔾蕁蕆蕋蕎蕒蕓蕕蕘蕚蕢蕩蕪蕭蕷蕿薈薊薌薑薔薙薟薦薩薺藍藎藝藥藪藶藷藹藺藼蘂蘄蘆蘇蘊蘋蘐蘚蘞蘢蘤蘭蘺蘿處虖"
    t!"苁莼荜菱卜蒂蒌蒋葱茑荫麻藜荨蒇蕊荞荬芸莸荛萼蒉荡芜萧蓣萱荟蓟芗姜蔷剃莶荐萨荠蓝荩艺药薮苈薯蔼蔺萱蕊蕲芦苏蕴苹萱藓蔹茏花兰蓠萝处呼"

/-- `char/traditional_to_simple.tsv`, part 28. -/
def traditionalToSimple28 : List (Char × Char) :=
  List.zip
    t!"虛虜號虧虯虵蚘蛕蛺蛻蜆蜋蜖蜨蜺蝕蝟蝦蝨蝯蝳蝸螄螎螘螞螡螢螻蟁蟄蟇蟈蟎蟣蟬蟯蟲蟶蟻蠅蠆蠍蠏蠐蠑蠔蠟蠣蠱蠶蠻衆衇衊術衕衖衚衛衝衞衹衺"
    t!"虚虏号亏虬蛇蛔蛔蛱蜕蚬螂蛔蝶霓蚀猬虾虱猿玳蜗蛳融蚁蚂蚊萤蝼蚊蛰蟆蝈螨虮蝉蛲虫蛏蚁蝇虿蝎蟹蛴蝾蚝蜡蛎蛊蚕蛮众脉蔑术同弄胡卫冲卫只邪"

/-- `char/traditional_to_simple.tsv`, part 29. -/
def traditionalToSimple29 : List (Char × Char) :=
  List.zip
    t!"袞袠裊裌裏補裝裠裡裦製複褲褳褸褻襆襇襍襖襝襠襢襤襪襯襲覇覈見規覓覔視覘覜覡覦覩親覬覯覰覲覷覺覻覽覿觀觔觕觝觴觶觸訁訂訃計訊訌討訏"
    t!"衮帙袅夹里补装裙里褒制复裤裢褛亵幞裥杂袄裣裆袒褴袜衬袭霸核见规觅觅视觇眺觋觎睹亲觊觏觑觐觑觉觑览觌观斤粗抵觞觯触讠订讣计讯讧讨吁"

/-- `char/traditional_to_simple.tsv`, part 30. -/
def traditionalToSimple30 : List (Char × Char) :=
  List.zip
    t!"訐訓訕訖託記訛訝訟訢訣訥訦訪設許訴訶診註証詁詆詎詐詒詔評詘詛詞詠詡詢詣試詧詩詫詬詭詮詰話該詳詵詶詼詿誄誅誆誇誌認誑誒誕誖誘誚語誠"
    t!"讦训讪讫托记讹讶讼欣诀讷谌访设许诉诃诊注证诂诋讵诈诒诏评诎诅词咏诩询诣试察诗诧诟诡诠诘话该详诜酬诙诖诔诛诓夸志认诳诶诞悖诱诮语诚"

/-- `char/traditional_to_simple.tsv`, part 31. -/
def traditionalToSimple31 : List (Char × Char) :=
  List.zip
    t!"誡誣誤誥誦誨說説誰課誶誹誼調諂諄談諉請諍諏諐諑諒論諗諛諜諞諠諡諢諤諦諧諫諭諮諱諳諶諷諸諺諼諾謀謁謂謄謅謊謌謎謐謔謖謗謙謚講謝謠謨"
    t!"诫诬误诰诵诲说说谁课谇诽谊调谄谆谈诿请诤诹愆诼谅论谂谀谍谝喧谥诨谔谛谐谏谕谘讳谙谌讽诸谚谖诺谋谒谓誊诌谎歌谜谧谑谡谤谦谥讲谢谣谟"

/-- `char/traditional_to_simple.tsv`, part 32. -/
def traditionalToSimple32 : List (Char × Char) :=
  List.zip
    t!"謫謬謳謹謼謾譁譆證譌譎譏譔譖識譙譚譜譟譫譭譯議譴護譽譾讀讁讅變讌讎讐讒讓讕讖讚讛讜讞谿豈豎豐豔豬貍貓貛貝貞負財貢貧貨販貪貫責貯貰"
    t!"谪谬讴谨呼谩哗嘻证讹谲讥撰谮识谯谭谱噪谵毁译议谴护誉谫读谪审变燕雠雠谗让谰谶赞呓谠谳溪岂竖丰艳猪狸猫獾贝贞负财贡贫货贩贪贯责贮贳"

/-- `char/traditional_to_simple.tsv`, part 33. -/
def traditionalToSimple33 : List (Char × Char) :=
  List.zip
    t!"貲貳貴貶買貸貺費貼貽貿賀賁賂賃賄賅資賈賉賊賍賑賒賓賔賕賚賛賜賞賠賡賢賣賤賦賧質賫賬賭賮賴賸賺賻購賽賾贄贅贈贊贋贍贏贐贓贖贗贛贜趂"
    t!"赀贰贵贬买贷贶费贴贻贸贺贲赂赁贿赅资贾恤贼赃赈赊宾宾赇赉赞赐赏赔赓贤卖贱赋赕质赍账赌赆赖剩赚赙购赛赜贽赘赠赞赝赡赢赆赃赎赝赣赃趁"

/-- `char/traditional_to_simple.tsv`, part 34. -/
def traditionalToSimple34 : List (Char × Char) :=
  List.zip
    t!"趕趙趨趲跡跥跴跼踐踡踫踰踴蹌蹏蹕蹚蹟蹠蹣蹤蹧蹵蹺躉躊躋躍躑躒躓躕躚躡躥躦躪躰躳躶軀車軋軌軍軒軔軛軟軤軫軲軸軹軺軻軼軾較輅輇載輊輒"
    t!"赶赵趋趱迹跺踩局践蜷碰逾踊跄蹄跸趟迹跖蹒踪糟蹴跷趸踌跻跃踯跞踬蹰跹蹑蹿躜躏体躬裸躯车轧轨军轩轫轭软轷轸轱轴轵轺轲轶轼较辂辁载轾辄"

/-- `char/traditional_to_simple.tsv`, part 35. -/
def traditionalToSimple35 : List (Char × Char) :=
  List.zip
    t!"輓輔輕輛輜輝輞輟輥輦輩輪輭輯輳輸輻輾輿轂轄轅轆轉轍轎轔轟轡轢轤辠辢辤辦辭辮辯農辳迆迴迺迻逈逕這連逩週進遊運過達違遙遜遝遞遠遡適遯"
    t!"挽辅轻辆辎辉辋辍辊辇辈轮软辑辏输辐辗舆毂辖辕辘转辙轿辚轰辔轹轳罪辣辞办辞辫辩农农迤回乃移迥径这连奔周进游运过达违遥逊沓递远溯适遁"

/-- `char/traditional_to_simple.tsv`, part 36. -/
def traditionalToSimple36 : List (Char × Char) :=
  List.zip
    t!"遲遷選遺遼邁還邇邊邏邐邨郃郟郤郵鄆鄉鄒鄔鄕鄖鄘鄧鄭鄰鄲鄴鄶鄺酈酧醃醕醖醜醞醫醬醻醼釀釁釃釅釋釐釓釔釕釗釘釙針釣釤釦釧釩釬釵釷釹釺"
    t!"迟迁选遗辽迈还迩边逻逦村合郏郄邮郓乡邹邬乡郧墉邓郑邻郸邺郐邝郦酬腌醇酝丑酝医酱酬燕酿衅酾酽释厘钆钇钌钊钉钋针钓钐扣钏钒焊钗钍钕钎"

/-- `char/traditional_to_simple.tsv`, part 37. -/
def traditionalToSimple37 : List (Char × Char) :=
  List.zip
    t!"鈀鈁鈄鈅鈈鈉鈍鈎鈐鈑鈔鈕鈞鈡鈣鈥鈦鈧鈮鈰鈳鈴鈷鈸鈹鈺鈽鈾鈿鉀鉄鉅鉆鉈鉉鉋鉍鉑鉕鉗鉚鉛鉞鉢鉤鉦鉬鉭鉸鉺鉻鉿銀銃銅銑銓銕銖銘銚銜銠銣"
    t!"钯钫钭钥钚钠钝钩钤钣钞钮钧钟钙钬钛钪铌铈钶铃钴钹铍钰钸铀钿钾铁钜钻铊铉刨铋铂钷钳铆铅钺钵钩钲钼钽铰铒铬铪银铳铜铣铨铁铢铭铫衔铑铷"

/-- `char/traditional_to_simple.tsv`, part 38. -/
def traditionalToSimple38 : List (Char × Char) :=
  List.zip
    t!"銥銦銨銩銪銫銬銱銲銳銷銹銻銼鋁鋃鋅鋇鋌鋏鋒鋜鋝鋟鋣鋤鋥鋦鋨鋪鋮鋯鋰鋱鋶鋸鋻鋼錁錄錆錇錈錐錒錕錘錙錚錛錟錠錢錦錨錫錮錯錳錶錸鍀鍁鍃"
    t!"铱铟铵铥铕铯铐铞焊锐销锈锑锉铝锒锌钡铤铗锋镯锊锓铘锄锃锔锇铺铖锆锂铽锍锯鉴钢锞录锖锫锩锥锕锟锤锱铮锛锬锭钱锦锚锡锢错锰表铼锝锨锪"

/-- `char/traditional_to_simple.tsv`, part 39. -/
def traditionalToSimple39 : List (Char × Char) :=
  List.zip
    t!"鍆鍇鍊鍋鍍鍔鍘鍛鍤鍥鍩鍫鍬鍰鍵鍶鍺鍼鍾鎂鎄鎇鎊鎋鎖鎘鎚鎢鎣鎦鎧鎩鎪鎬鎮鎰鎳鎵鎸鎿鏃鏇鏈鏌鏍鏑鏗鏘鏚鏜鏝鏞鏟鏡鏢鏤鏨鏵鏷鏹鏽鐃鐋鐐"
    t!"钔锴炼锅镀锷铡锻锸锲锘锹锹锾键锶锗针钟镁锿镅镑辖锁镉锤钨蓥镏铠铩锼镐镇镒镍镓镌镎镞旋链镆镙镝铿锵戚镗镘镛铲镜镖镂錾铧镤镪锈铙铴镣"

/-- `char/traditional_to_simple.tsv`, part 40. -/
def traditionalToSimple40 : List (Char × Char) :=
  List.zip
    t!"鐒鐓鐔鐘鐙鐝鐠鐦鐧鐨鐫鐮鐲鐳鐵鐸鐺鐿鑄鑊鑌鑑鑒鑔鑛鑠鑣鑤鑥鑪鑭鑰鑲鑵鑷鑹鑼鑽鑾鑿钁長門閂閃閆閉開閌閎閏閑閒間閔閘閙閡関閣閤閥閨閩"
    t!"铹镦镡钟镫镢镨锎锏镄镌镰镯镭铁铎铛镱铸镬镔鉴鉴镲矿铄镳刨镥炉镧钥镶罐镊镩锣钻銮凿镢长门闩闪闫闭开闶闳闰闲闲间闵闸闹阂关阁合阀闺闽"

/-- `char/traditional_to_simple.tsv`, part 41. -/
def traditionalToSimple41 : List (Char × Char) :=
  List.zip
    t!"閫閬閭閱閲閶閹閻閼閽閾閿闃闆闇闈闊闋闌闐闔闕闖闚關闞闡闢闥阨阬阯陗陘陝陞陣陰陳陸陻陽隂隄隉隊階隕隖際隣隨險隱隴隷隸隻雋雖雙雛雜雝"
    t!"阃阆闾阅阅阊阉阎阏阍阈阌阒板暗闱阔阕阑阗阖阙闯窥关阚阐辟闼厄坑址峭陉陕升阵阴陈陆堙阳阴堤陧队阶陨坞际邻随险隐陇隶隶只隽虽双雏杂雍"

/-- `char/traditional_to_simple.tsv`, part 42. -/
def traditionalToSimple42 : List (Char × Char) :=
  List.zip
    t!"雞離難雰雲電霑霛霤霧霽靂靄靈靚靜靣靦靨靭鞀鞉鞌鞏鞦鞵鞽鞾韁韃韆韉韋韌韓韙韜韝韞韤韮韻響頁頂頃項順頇須頊頌頎頏預頑頒頓頗領頜頡頤頦"
    t!"鸡离难氛云电沾灵溜雾霁雳霭灵靓静面腼靥韧鼗鼗鞍巩秋鞋鞒靴缰鞑千鞯韦韧韩韪韬鞴韫袜韭韵响页顶顷项顺顸须顼颂颀颃预顽颁顿颇领颌颉颐颏"

/-- `char/traditional_to_simple.tsv`, part 43. -/
def traditionalToSimple43 : List (Char × Char) :=
  List.zip
    t!"頫頭頰頷頸頹頻頽顂顆顋題額顎顏顓顔願顙顛類顢顥顦顧顫顬顯顰顱顳顴風颮颯颱颳颶颺颼颿飃飄飆飇飈飛飜飢飩飪飫飭飯飱飲飴飼飽飾餃餅餈餉"
    t!"俯头颊颔颈颓频颓赖颗腮题额颚颜颛颜愿颡颠类颟颢憔顾颤颥显颦颅颞颧风飑飒台刮飓扬飕帆飘飘飙飙飚飞翻饥饨饪饫饬饭飧饮饴饲饱饰饺饼糍饷"

/-- `char/traditional_to_simple.tsv`, part 44. -/
def traditionalToSimple44 : List (Char × Char) :=
  List.zip
    t!"養餌餑餒餓餘餚餛餞餡餧館餬餱餳餵餷餹餻餼餽餾餿饃饅饈饉饊饋饌饍饑饒饗饜饝饞饢馬馭馮馱馳馴駁駐駑駒駔駕駘駙駛駝駟駡駢駭駮駱駿騁騅騍"
    t!"养饵饽馁饿余肴馄饯馅喂馆糊糇饧喂馇糖糕饩馈馏馊馍馒馐馑馓馈馔膳饥饶飨餍馍馋馕马驭冯驮驰驯驳驻驽驹驵驾骀驸驶驼驷骂骈骇驳骆骏骋骓骒"

/-- `char/traditional_to_simple.tsv`, part 45. -/
def traditionalToSimple45 : List (Char × Char) :=
  List.zip
    t!"騎騏騐騖騗騙騣騫騭騮騰騶騷騸騾驀驁驂驃驄驅驊驍驏驕驗驘驚驛驟驢驤驥驪骽骾髏髒體髕髖髣髩髮鬀鬁鬆鬉鬍鬚鬢鬥鬦鬧鬨鬩鬭鬮鬱魎魘魚魯魴"
    t!"骑骐验骛骗骗鬃骞骘骝腾驺骚骟骡蓦骜骖骠骢驱骅骁骣骄验骡惊驿骤驴骧骥骊腿鲠髅脏体髌髋仿鬓发剃疬松鬃胡须鬓斗斗闹哄阋斗阄郁魉魇鱼鲁鲂"

/-- `char/traditional_to_simple.tsv`, part 46. -/
def traditionalToSimple46 : List (Char × Char) :=
  List.zip
    t!"魷鮁鮃鮌鮎鮐鮑鮒鮚鮞鮪鮫鮭鮮鯀鯁鯇鯉鯊鯔鯖鯗鯛鯝鯡鯢鯤鯧鯨鯪鯫鯰鯴鯽鯿鰈鰉鰌鰍鰐鰒鰓鰠鰣鰥鰨鰩鰭鰱鰲鰳鰵鰷鰹鰻鰾鱅鱈鱉鱒鱓鱔鱖鱗"
    t!"鱿鲅鲆鲧鲇鲐鲍鲋鲒鲕鲔鲛鲑鲜鲧鲠鲩鲤鲨鲻鲭鲞鲷鲴鲱鲵鲲鲳鲸鲮鲰鲶鲺鲫鳊鲽鳇鳅鳅鳄鳆鳃鳋鲥鳏鳎鳐鳍鲢鳌鳓鳘鲦鲣鳗鳔鳙鳕鳖鳟鳝鳝鳜鳞"

/-- `char/traditional_to_simple.tsv`, part 47. -/
def traditionalToSimple47 : List (Char × Char) :=
  List.zip
    t!"鱘鱝鱟鱧鱭鱷鱸鱺鳥鳧鳩鳳鳴鳶鴆鴇鴈鴉鴕鴛鴝鴟鴣鴦鴨鴯鴰鴻鴿鵂鵑鵒鵓鵜鵝鵞鵠鵡鵪鵬鵯鵰鵲鵶鶇鶉鶓鶘鶚鶥鶩鶯鶴鶻鶼鶿鷀鷂鷄鷓鷗鷙鷚鷥"
    t!"鲟鲼鲎鳢鲚鳄鲈鲡鸟凫鸠凤鸣鸢鸩鸨雁鸦鸵鸳鸲鸱鸪鸯鸭鸸鸹鸿鸽鸺鹃鹆鹁鹈鹅鹅鹄鹉鹌鹏鹎雕鹊鸦鸫鹑鹋鹕鹗鹛鹜莺鹤鹘鹣鹚鹚鹞鸡鹧鸥鸷鹨鸶"

/-- `char/traditional_to_simple.tsv`, part 48. -/
def traditionalToSimple48 : List (Char × Char) :=
  List.zip
    t!"鷦鷯鷰鷲鷳鷴鷸鷹鷺鷼鸌鸎鸕鸚鸛鸝鸞鹵鹹鹺鹼鹽麅麐麗麞麤麥麩麪麯麵麼黃黌點黨黲黴黷黽黿鼃鼇鼈鼉鼕鼴齇齊齋齎齏齒齔齙齜齟齠齡齣齦齧齪"
    t!"鹪鹩燕鹫鹇鹇鹬鹰鹭鹇鹱莺鸬鹦鹳鹂鸾卤咸鹾碱盐狍麟丽獐粗麦麸面曲面么黄黉点党黪霉黩黾鼋蛙鳌鳖鼍冬鼹齄齐斋赍齑齿龀龅龇龃龆龄出龈啮龊"

/-- `char/traditional_to_simple.tsv`, part 49. -/
def traditionalToSimple49 : List (Char × Char) :=
  List.zip
    t!"齬齲齶齷龍龐龔龕龜後"
    t!"龉龋腭龌龙庞龚龛龟后"

/-- `char/traditional_to_simple.tsv`. -/
def traditionalToSimple : List (Char × Char) :=
  traditionalToSimple0 ++ traditionalToSimple1 ++ traditionalToSimple2 ++ traditionalToSimple3 ++ traditionalToSimple4 ++ traditionalToSimple5 ++ traditionalToSimple6 ++ traditionalToSimple7 ++
  traditionalToSimple8 ++ traditionalToSimple9 ++ traditionalToSimple10 ++ traditionalToSimple11 ++ traditionalToSimple12 ++ traditionalToSimple13 ++ traditionalToSimple14 ++ traditionalToSimple15 ++
  traditionalToSimple16 ++ traditionalToSimple17 ++ traditionalToSimple18 ++ traditionalToSimple19 ++ traditionalToSimple20 ++ traditionalToSimple21 ++ traditionalToSimple22 ++ traditionalToSimple23 ++
  traditionalToSimple24 ++ traditionalToSimple25 ++ traditionalToSimple26 ++ traditionalToSimple27 ++ traditionalToSimple28 ++ traditionalToSimple29 ++ traditionalToSimple30 ++ traditionalToSimple31 ++
  traditionalToSimple32 ++ traditionalToSimple33 ++ traditionalToSimple34 ++ traditionalToSimple35 ++ traditionalToSimple36 ++ traditionalToSimple37 ++ traditionalToSimple38 ++ traditionalToSimple39 ++
  traditionalToSimple40 ++ traditionalToSimple41 ++ traditionalToSimple42 ++ traditionalToSimple43 ++ traditionalToSimple44 ++ traditionalToSimple45 ++ traditionalToSimple46 ++ traditionalToSimple47 ++
  traditionalToSimple48 ++ traditionalToSimple49

/-- `char/fullwidth_to_halfwidth.tsv`, part 0. -/
def fullToHalf0 : List (Char × Char) :=
  List.zip
    t!"，。．“”！＂＃％＆＇（）＊＋－／：；＜＝＞？＠＼＾＿｀｛｜｝～＄０１２３４５６７８９ａＡｂＢｃＣｄＤｅＥｆＦｇＧｈＨｉＩｊＪｋ"
    t!",..\"\"!\"#%&'()*+-/:;<=>?@\\^_`{|}~$0123456789aAbBcCdDeEfFgGhHiIjJk"

/-- `char/fullwidth_to_halfwidth.tsv`, part 1. -/
def fullToHalf1 : List (Char × Char) :=
  List.zip
    t!"ＫｌＬｍＭｎＮｏＯｐＰｑＱｒＲｓＳｔＴｕＵｖＶｗＷｘＸｙＹｚＺ"
    t!"KlLmMnNoOpPqQrRsStTuUvVwWxXyYzZ"

/-- `char/fullwidth_to_halfwidth.tsv`. -/
def fullToHalf : List (Char × Char) :=
  fullToHalf0 ++ fullToHalf1

/-- `char/punctuations_zh.tsv`, part 0. -/
def punctsZh0 : List Char :=
  t!"–—‘’‛“”„‟…‧、。〃《》「」『』【】〔〕〖〗〘〙〚〛〜〝〞〟〰﹏！＂＃％＆＇（）＊＋，－／：；＜＝＞？＠［＼］＾＿｀｛｜"

/-- `char/punctuations_zh.tsv`, part 1. -/
def punctsZh1 : List Char :=
  t!"｝～｟｠｡｢｣､＄"

/-- `char/punctuations_zh.tsv`. -/
def punctsZh : List Char :=
  punctsZh0 ++ punctsZh1

/-- `char/charset_national_standard_2013_8105.tsv`, part 0. -/
def charsetStd0 : List Char :=
  t!"一丁七万丈三上下不与丏丐丑专且丕世丘丙业丛东丝丞丢两严丧个丫中丰串临丸丹为主丽举乂乃久么义之乌乍乎乏乐乒乓乔乖乘乙乜九乞也习乡书"

/-- `char/charset_national_standard_2013_8105.tsv`, part 1. -/
def charsetStd1 : List Char :=
  t!"乩买乱乳乸乾了予争事二亍于亏云互亓五井亘亚些亟亡亢交亥亦产亨亩享京亭亮亲亳亵亶亸亹人亿什仁仂仃仄仅仆仇仉今介仍从仑仓仔仕他仗付仙"

/-- `char/charset_national_standard_2013_8105.tsv`, part 2. -/
def charsetStd2 : List Char :=
  t!"仝仞仟仡代令以仨仪仫们仰仲仳仵件价任份仿企伈伉伊伋伍伎伏伐休众优伙会伛伞伟传伢伣伤伥伦伧伪伫伭伯估伲伴伶伸伺似伽伾佁佃但位低住佐"

/-- `char/charset_national_standard_2013_8105.tsv`, part 3. -/
def charsetStd3 : List Char :=
  t!"佑体何佖佗佘余佚佛作佝佞佟你佣佤佥佩佬佯佰佳佴佶佸佺佻佼佽佾使侁侂侃侄侈侉例侍侏侑侔侗侘供依侠侣侥侦侧侨侩侪侬侮侯侴侵侹便促俄俅"

/-- `char/charset_national_standard_2013_8105.tsv`, part 4. -/
def charsetStd4 : List Char :=
  t!"俊俍俎俏俐俑俗俘俙俚俜保俞俟信俣俦俨俩俪俫俭修俯俱俳俵俶俸俺俾倌倍倏倒倓倔倕倘候倚倜倞借倡倥倦倧倨倩倪倬倭倮倴债倻值倾偁偃假偈偌"

/-- `char/charset_national_standard_2013_8105.tsv`, part 5. -/
def charsetStd5 : List Char :=
  t!"偎偏偓偕做停偡健偬偭偰偲偶偷偻偾偿傀傃傅傈傉傍傒傕傣傥傧储傩催傲傺傻僇僎像僔僖僚僦僧僬僭僮僰僳僵僻儆儇儋儒儡儦儳儴儿兀允元兄充兆"

/-- `char/charset_national_standard_2013_8105.tsv`, part 6. -/
def charsetStd6 : List Char :=
  t!"先光克免兑兔兕兖党兜兢入全八公六兮兰共关兴兵其具典兹养兼兽冀冁内冈冉册再冏冒冔冕冗写军农冠冢冤冥冬冮冯冰冱冲决况冶冷冻冼冽净凄准"

/-- `char/charset_national_standard_2013_8105.tsv`, part 7. -/
def charsetStd7 : List Char :=
  t!"凇凉凋凌减凑凓凘凛凝几凡凤凫凭凯凰凳凶凸凹出击凼函凿刀刁刃分切刈刊刍刎刑划刖列刘则刚创初删判刨利别刬刭刮到刳制刷券刹刺刻刽刿剀剁"

/-- `char/charset_national_standard_2013_8105.tsv`, part 8. -/
def charsetStd8 : List Char :=
  t!"剂剃剅削剋剌前剐剑剔剕剖剜剞剟剡剥剧剩剪副割剽剿劁劂劄劈劐劓力劝办功加务劢劣动助努劫劬劭励劲劳劼劾势勃勇勉勋勍勐勒勔勖勘勚募勠勤"

/-- `char/charset_national_standard_2013_8105.tsv`, part 9. -/
def charsetStd9 : List Char :=
  t!"勰勺勾勿匀包匆匈匍匏匐匕化北匙匜匝匠匡匣匦匪匮匹区医匼匾匿十千卅升午卉半华协卑卒卓单卖南博卜卞卟占卡卢卣卤卦卧卫卬卮卯印危即却卵"

/-- `char/charset_national_standard_2013_8105.tsv`, part 10. -/
def charsetStd10 : List Char :=
  t!"卷卸卺卿厂厄厅历厉压厌厍厕厖厘厚厝原厢厣厥厦厨厩厮去厾县叁参叆叇又叉及友双反发叔叕取受变叙叚叛叟叠口古句另叨叩只叫召叭叮可台叱史"

/-- `char/charset_national_standard_2013_8105.tsv`, part 11. -/
def charsetStd11 : List Char :=
  t!"右叵叶号司叹叻叼叽吁吃各吆合吉吊同名后吏吐向吒吓吕吖吗君吝吞吟吠吡吣否吧吨吩含听吭吮启吱吲吴吵吸吹吻吼吽吾呀呃呆呇呈告呋呐呒呓呔"

/-- `char/charset_national_standard_2013_8105.tsv`, part 12. -/
def charsetStd12 : List Char :=
  t!"呕呖呗员呙呛呜呢呣呤呦周呱呲味呵呶呷呸呻呼命咀咂咄咆咇咉咋和咍咎咏咐咒咔咕咖咙咚咛咝咡咣咤咥咦咧咨咩咪咫咬咯咱咳咴咸咺咻咽咿哀品"

/-- `char/charset_national_standard_2013_8105.tsv`, part 13. -/
def charsetStd13 : List Char :=
  t!"哂哃哄哆哇哈哉哌响哎哏哐哑哒哓哔哕哗哙哚哝哞哟哢哥哦哧哨哩哪哭哮哱哲哳哺哼哽哿唁唆唇唉唏唐唑唔唛唝唠唢唣唤唧唪唬售唯唰唱唳唵唷唼"

/-- `char/charset_national_standard_2013_8105.tsv`, part 14. -/
def charsetStd14 : List Char :=
  t!"唾唿啁啃啄商啉啊啐啕啖啜啡啤啥啦啧啪啫啬啭啮啰啴啵啶啷啸啻啼啾喀喁喂喃善喆喇喈喉喊喋喏喑喔喘喙喜喝喟喤喧喱喳喵喷喹喻喽喾嗄嗅嗉嗌"

/-- `char/charset_national_standard_2013_8105.tsv`, part 15. -/
def charsetStd15 : List Char :=
  t!"嗍嗐嗑嗒嗓嗔嗖嗜嗝嗞嗟嗡嗣嗤嗥嗦嗨嗪嗫嗬嗯嗲嗳嗵嗷嗽嗾嘀嘁嘈嘉嘌嘎嘏嘘嘚嘛嘞嘟嘡嘣嘤嘧嘬嘭嘱嘲嘴嘶嘹嘻嘿噀噂噇噌噍噎噔噗噘噙噜噢"

/-- `char/charset_national_standard_2013_8105.tsv`, part 16. -/
def charsetStd16 : List Char :=
  t!"噤器噩噪噫噬噱噶噻噼嚄嚅嚆嚎嚏嚓嚚嚣嚭嚯嚷嚼囊囔囚四回囟因囡团囤囫园困囱围囵囷囹固国图囿圃圄圆圈圉圊圌圐圙圜土圢圣在圩圪圫圬圭圮"

/-- `char/charset_national_standard_2013_8105.tsv`, part 17. -/
def charsetStd17 : List Char :=
  t!"圯地圲圳圹场圻圾址坂均坉坊坋坌坍坎坏坐坑坒块坚坛坜坝坞坟坠坡坤坥坦坨坩坪坫坬坭坯坰坳坷坻坼坽垂垃垄垆垈型垌垍垎垏垒垓垕垙垚垛垞垟"

/-- `char/charset_national_standard_2013_8105.tsv`, part 18. -/
def charsetStd18 : List Char :=
  t!"垠垡垢垣垤垦垧垩垫垭垮垯垱垲垴垵垸垺垾垿埂埃埆埇埋埌城埏埒埔埕埗埘埙埚埝域埠埤埪埫埭埯埴埵埸培基埼埽堂堃堆堇堉堋堌堍堎堐堑堕堙堞"

/-- `char/charset_national_standard_2013_8105.tsv`, part 19. -/
def charsetStd19 : List Char :=
  t!"堠堡堤堧堨堪堰堲堵堼堽堾塄塅塆塌塍塑塔塘塝塞塥填塬塱塾墀墁境墅墈墉墐墒墓墕墘墙墚增墟墡墣墦墨墩墼壁壅壑壕壤士壬壮声壳壶壸壹处备复"

/-- `char/charset_national_standard_2013_8105.tsv`, part 20. -/
def charsetStd20 : List Char :=
  t!"夏夐夔夕外夙多夜够夤夥大天太夫夬夭央夯失头夷夸夹夺夼奁奂奄奇奈奉奋奎奏契奓奔奕奖套奘奚奠奡奢奥奭女奴奶奸她好妁如妃妄妆妇妈妊妍妒"

/-- `char/charset_national_standard_2013_8105.tsv`, part 21. -/
def charsetStd21 : List Char :=
  t!"妓妖妗妘妙妞妣妤妥妧妨妩妪妫妭妮妯妲妹妻妾姆姈姊始姐姑姒姓委姗姘姚姜姝姞姣姤姥姨姬姮姱姶姹姻姽姿娀威娃娄娅娆娇娈娉娌娑娓娘娜娟娠"

/-- `char/charset_national_standard_2013_8105.tsv`, part 22. -/
def charsetStd22 : List Char :=
  t!"娣娥娩娱娲娴娵娶娼婀婆婉婊婌婍婕婘婚婞婠婢婤婧婪婫婳婴婵婶婷婺婻婼婿媂媄媆媒媓媖媚媛媞媪媭媱媲媳媵媸媾嫁嫂嫄嫉嫌嫒嫔嫕嫖嫘嫚嫜嫠"

/-- `char/charset_national_standard_2013_8105.tsv`, part 23. -/
def charsetStd23 : List Char :=
  t!"嫡嫣嫦嫩嫪嫫嫭嫱嫽嬉嬖嬗嬛嬥嬬嬴嬷嬿孀孅子孑孓孔孕孖字存孙孚孛孜孝孟孢季孤孥学孩孪孬孰孱孳孵孺孽宁它宄宅宇守安宋完宏宓宕宗官宙定"

/-- `char/charset_national_standard_2013_8105.tsv`, part 24. -/
def charsetStd24 : List Char :=
  t!"宛宜宝实宠审客宣室宥宦宧宪宫宬宰害宴宵家宸容宽宾宿寁寂寄寅密寇富寐寒寓寝寞察寡寤寥寨寮寰寸对寺寻导寿封射将尉尊小少尔尕尖尘尚尜尝"

/-- `char/charset_national_standard_2013_8105.tsv`, part 25. -/
def charsetStd25 : List Char :=
  t!"尢尤尥尧尨尪尬就尴尸尹尺尻尼尽尾尿局屁层屃居屈屉届屋屎屏屐屑展屙属屠屡屣履屦屯山屹屺屼屾屿岁岂岈岊岌岍岐岑岔岖岗岘岙岚岛岜岞岠岢"

/-- `char/charset_national_standard_2013_8105.tsv`, part 26. -/
def charsetStd26 : List Char :=
  t!"岣岨岩岫岬岭岱岳岵岷岸岽岿峁峂峃峄峋峒峗峘峙峛峡峣峤峥峦峧峨峪峭峰峱峻峿崀崁崂崃崄崆崇崌崎崒崔崖崚崛崞崟崡崤崦崧崩崭崮崴崶崽崾崿"

/-- `char/charset_national_standard_2013_8105.tsv`, part 27. -/
def charsetStd27 : List Char :=
  t!"嵁嵅嵇嵊嵋嵌嵎嵖嵘嵚嵛嵝嵩嵫嵬嵯嵲嵴嶂嶅嶍嶒嶓嶙嶝嶟嶦嶲嶷巅巇巉巍川州巡巢工左巧巨巩巫差巯己已巳巴巷巽巾币市布帅帆师希帏帐帑帔帕"

/-- `char/charset_national_standard_2013_8105.tsv`, part 28. -/
def charsetStd28 : List Char :=
  t!"帖帘帙帚帛帜帝帡带帧帨席帮帱帷常帻帼帽幂幄幅幌幔幕幖幛幞幡幢幪干平年并幸幺幻幼幽广庄庆庇床庋序庐庑库应底庖店庙庚府庞废庠庤庥度座"

/-- `char/charset_national_standard_2013_8105.tsv`, part 29. -/
def charsetStd29 : List Char :=
  t!"庭庱庳庵庶康庸庹庼庾廆廉廊廋廑廒廓廖廙廛廨廪延廷建廿开弁异弃弄弆弇弈弊弋式弑弓引弗弘弛弟张弢弥弦弧弨弩弭弯弱弶弸弹强弼彀归当录彖"

/-- `char/charset_national_standard_2013_8105.tsv`, part 30. -/
def charsetStd30 : List Char :=
  t!"彗彘彝彟形彤彦彧彩彪彬彭彰影彳彷役彻彼往征徂径待徇很徉徊律徐徒徕得徘徙徛徜御徨循徭微徵德徼徽心必忆忉忌忍忏忐忑忒忖志忘忙忝忞忠忡"

/-- `char/charset_national_standard_2013_8105.tsv`, part 31. -/
def charsetStd31 : List Char :=
  t!"忤忧忪快忭忮忱忳念忸忺忻忽忾忿怀态怂怃怄怅怆怊怍怎怏怒怔怕怖怙怛怜思怠怡急怦性怨怩怪怫怯怵总怼怿恁恂恃恋恍恐恒恓恔恕恙恚恝恢恣恤"

/-- `char/charset_national_standard_2013_8105.tsv`, part 32. -/
def charsetStd32 : List Char :=
  t!"恧恨恩恪恫恬恭息恰恳恶恸恹恺恻恼恽恿悃悄悆悈悉悌悍悒悔悖悚悛悝悟悠悢患悦您悫悬悭悯悰悱悲悴悸悻悼情惆惇惊惋惎惑惔惕惘惙惚惛惜惝惟"

/-- `char/charset_national_standard_2013_8105.tsv`, part 33. -/
def charsetStd33 : List Char :=
  t!"惠惦惧惨惩惫惬惭惮惯惰想惴惶惹惺愀愁愃愆愈愉愍愎意愐愔愕愚感愠愣愤愦愧愫愭愿慆慈慊慌慎慑慕慝慢慥慧慨慬慭慰慵慷憋憎憔憕憙憧憨憩憬"

/-- `char/charset_national_standard_2013_8105.tsv`, part 34. -/
def charsetStd34 : List Char :=
  t!"憭憷憺憾懂懈懊懋懑懒懔懦懵懿戆戈戊戋戌戍戎戏成我戒戕或戗战戚戛戟戡戢戣戤戥截戬戭戮戳戴户戽戾房所扁扂扃扅扆扇扈扉扊手才扎扑扒打扔"

/-- `char/charset_national_standard_2013_8105.tsv`, part 35. -/
def charsetStd35 : List Char :=
  t!"托扛扞扣扦执扩扪扫扬扭扮扯扰扳扶批扺扼扽找承技抃抄抉把抑抒抓抔投抖抗折抚抛抟抠抡抢护报抨披抬抱抵抹抻押抽抿拂拃拄担拆拇拈拉拊拌拍"

/-- `char/charset_national_standard_2013_8105.tsv`, part 36. -/
def charsetStd36 : List Char :=
  t!"拎拐拒拓拔拖拗拘拙招拜拟拢拣拤拥拦拧拨择括拭拮拯拱拳拴拶拷拼拽拾拿持挂指挈按挎挑挓挖挚挛挝挞挟挠挡挣挤挥挦挨挪挫振挲挹挺挽捂捃捅"

/-- `char/charset_national_standard_2013_8105.tsv`, part 37. -/
def charsetStd37 : List Char :=
  t!"捆捉捋捌捍捎捏捐捕捞损捡换捣捧捩捭据捯捶捷捺捻捽掀掂掇授掉掊掌掎掏掐排掖掘掞掠探掣接控推掩措掬掭掮掰掳掴掷掸掺掼掾揄揆揉揍描提插"

/-- `char/charset_national_standard_2013_8105.tsv`, part 38. -/
def charsetStd38 : List Char :=
  t!"揕揖揠握揣揩揪揭揳援揶揸揽揿搀搁搂搅搋搌搏搐搒搓搔搛搜搞搠搡搦搪搬搭搴携搽摁摄摅摆摇摈摊摏摒摔摘摛摞摧摩摭摴摸摹摽撂撄撅撇撑撒撕"

/-- `char/charset_national_standard_2013_8105.tsv`, part 39. -/
def charsetStd39 : List Char :=
  t!"撖撙撞撤撩撬播撮撰撵撷撸撺撼擀擂擅操擎擐擒擘擞擢擤擦擿攀攉攒攘攥攫攮支收攸改攻攽放政故效敉敌敏救敔敕敖教敛敝敞敢散敦敩敫敬数敲整"

/-- `char/charset_national_standard_2013_8105.tsv`, part 40. -/
def charsetStd40 : List Char :=
  t!"敷文斋斌斐斑斓斗料斛斜斝斟斠斡斤斥斧斩斫断斯新斶方於施旁旃旄旅旆旋旌旎族旐旒旖旗旞无既日旦旧旨早旬旭旮旯旰旱旴旵时旷旸旺旻旿昀昂"

/-- `char/charset_national_standard_2013_8105.tsv`, part 41. -/
def charsetStd41 : List Char :=
  t!"昃昄昆昇昈昉昊昌明昏昒易昔昕昙昝星映昡昣昤春昧昨昪昫昭是昱昳昴昵昶昺昼昽显晁晃晅晊晋晌晏晐晒晓晔晕晖晗晙晚晞晟晡晢晤晦晨晪晫普景"

/-- `char/charset_national_standard_2013_8105.tsv`, part 42. -/
def charsetStd42 : List Char :=
  t!"晰晱晴晶晷智晾暂暄暅暇暌暑暕暖暗暝暧暨暮暲暴暵暶暹暾暿曈曌曙曛曜曝曦曩曰曲曳更曷曹曼曾替最月有朋服朏朐朓朔朕朗望朝期朦木未末本札"

/-- `char/charset_national_standard_2013_8105.tsv`, part 43. -/
def charsetStd43 : List Char :=
  t!"术朱朳朴朵朸机朽杀杂权杄杆杈杉杌李杏材村杓杕杖杙杜杞束杠条来杧杨杩杪杭杯杰杲杳杵杷杻杼松板极构枅枇枉枋枍析枕林枘枚果枝枞枢枣枥枧"

/-- `char/charset_national_standard_2013_8105.tsv`, part 44. -/
def charsetStd44 : List Char :=
  t!"枨枪枫枭枯枰枲枳枵架枷枸枹柁柃柄柈柊柏某柑柒染柔柖柘柙柚柜柝柞柠柢查柩柬柯柰柱柳柴柷柽柿栀栅标栈栉栊栋栌栎栏栐树栒栓栖栗栝栟校栩"

/-- `char/charset_national_standard_2013_8105.tsv`, part 45. -/
def charsetStd45 : List Char :=
  t!"株栲栳栴样核根栻格栽栾桀桁桂桃桄桅框案桉桊桌桎桐桑桓桔桕桠桡桢档桤桥桦桧桨桩桫桯桲桴桶桷桹梁梃梅梆梌梏梓梗梠梢梣梦梧梨梭梯械梳梴"

/-- `char/charset_national_standard_2013_8105.tsv`, part 46. -/
def charsetStd46 : List Char :=
  t!"梵梼梽梾梿检棁棂棉棋棍棐棒棓棕棘棚棠棣棤棨棪棫棬森棰棱棵棹棺棻棼棽椀椁椅椆椋植椎椐椑椒椓椟椠椤椪椭椰椴椸椹椽椿楂楒楔楗楙楚楝楞楠"

/-- `char/charset_national_standard_2013_8105.tsv`, part 47. -/
def charsetStd47 : List Char :=
  t!"楣楦楩楪楫楮楯楷楸楹楼概榃榄榅榆榇榈榉榍榑榔榕榖榛榜榧榨榫榭榰榱榴榷榻槁槃槊槌槎槐槔槚槛槜槟槠槭槱槲槽槿樊樗樘樟模樨横樯樱樵樽樾"

/-- `char/charset_national_standard_2013_8105.tsv`, part 48. -/
def charsetStd48 : List Char :=
  t!"橄橇橐橑橘橙橛橞橡橥橦橱橹橼檀檄檎檐檑檗檞檠檩檫檬櫆欂欠次欢欣欤欧欲欸欹欺欻款歃歅歆歇歉歌歙止正此步武歧歪歹死歼殁殂殃殄殆殇殉殊"

/-- `char/charset_national_standard_2013_8105.tsv`, part 49. -/
def charsetStd49 : List Char :=
  t!"残殍殒殓殖殚殛殡殣殪殳殴段殷殿毁毂毅毋毌母每毐毒毓比毕毖毗毙毛毡毪毫毯毳毵毹毽氅氆氇氍氏氐民氓气氕氖氘氙氚氛氟氡氢氤氦氧氨氩氪氮"

/-- `char/charset_national_standard_2013_8105.tsv`, part 50. -/
def charsetStd50 : List Char :=
  t!"氯氰氲水永氾氿汀汁求汆汇汈汉汊汋汐汔汕汗汛汜汝汞江池污汤汧汨汩汪汫汭汰汲汴汶汹汽汾沁沂沃沄沅沆沇沈沉沌沏沐沓沔沘沙沚沛沟没沣沤沥"

/-- `char/charset_national_standard_2013_8105.tsv`, part 51. -/
def charsetStd51 : List Char :=
  t!"沦沧沨沩沪沫沭沮沱河沸油沺治沼沽沾沿泂泃泄泅泇泉泊泌泐泓泔法泖泗泙泚泛泜泞泠泡波泣泥注泪泫泮泯泰泱泳泵泷泸泺泻泼泽泾洁洄洇洈洋洌"

/-- `char/charset_national_standard_2013_8105.tsv`, part 52. -/
def charsetStd52 : List Char :=
  t!"洎洑洒洓洗洘洙洚洛洞洢洣津洧洨洪洫洭洮洱洲洳洴洵洸洹洺活洼洽派洿流浃浅浆浇浈浉浊测浍济浏浐浑浒浓浔浕浙浚浛浜浞浟浠浡浣浥浦浩浪浬"

/-- `char/charset_national_standard_2013_8105.tsv`, part 53. -/
def charsetStd53 : List Char :=
  t!"浭浮浯浰浲浴海浸浼涂涄涅消涉涌涍涎涐涑涓涔涕涘涛涝涞涟涠涡涢涣涤润涧涨涩涪涫涮涯液涴涵涸涿淀淄淅淆淇淋淌淏淑淖淘淙淜淝淞淟淠淡淤"

/-- `char/charset_national_standard_2013_8105.tsv`, part 54. -/
def charsetStd54 : List Char :=
  t!"淦淫淬淮淯深淳淴混淹添淼清渊渌渍渎渐渑渔渗渚渝渟渠渡渣渤渥温渫渭港渰渲渴游渺渼湃湄湉湍湎湑湓湔湖湘湛湜湝湟湣湫湮湲湴湾湿溁溃溅溆"

/-- `char/charset_national_standard_2013_8105.tsv`, part 55. -/
def charsetStd55 : List Char :=
  t!"溇溉溍溏源溘溚溜溞溟溠溢溥溦溧溪溯溱溲溴溵溶溷溹溺溻溽滁滂滃滆滇滉滋滍滏滑滓滔滕滗滘滚滞滟滠满滢滤滥滦滧滨滩滪滫滴滹漂漆漈漉漋漏"

/-- `char/charset_national_standard_2013_8105.tsv`, part 56. -/
def charsetStd56 : List Char :=
  t!"漓演漕漖漠漤漦漩漪漫漭漯漱漳漴漶漷漹漻漼漾潆潇潋潍潏潖潘潜潞潟潢潦潩潭潮潲潴潵潸潺潼潽潾澂澄澈澉澌澍澎澛澜澡澥澧澪澭澳澴澶澹澼澽"

/-- `char/charset_national_standard_2013_8105.tsv`, part 57. -/
def charsetStd57 : List Char :=
  t!"激濂濉濋濑濒濞濠濡濩濮濯瀌瀍瀑瀔瀚瀛瀣瀱瀵瀹瀼灈灌灏灞火灭灯灰灵灶灸灼灾灿炀炅炆炉炊炌炎炒炔炕炖炘炙炜炝炟炣炫炬炭炮炯炱炳炷炸点"

/-- `char/charset_national_standard_2013_8105.tsv`, part 58. -/
def charsetStd58 : List Char :=
  t!"炻炼炽烀烁烂烃烈烊烔烘烙烛烜烝烟烠烤烦烧烨烩烫烬热烯烶烷烹烺烻烽焆焉焊焌焐焓焕焖焗焘焙焚焜焞焦焯焰焱然煁煃煅煊煋煌煎煓煜煞煟煤煦"

/-- `char/charset_national_standard_2013_8105.tsv`, part 59. -/
def charsetStd59 : List Char :=
  t!"照煨煮煲煳煴煸煺煽熄熇熊熏熔熘熙熛熜熟熠熥熨熬熵熹熻燃燊燋燎燏燔燕燚燠燥燧燮燹爆爇爔爚爝爟爨爪爬爰爱爵父爷爸爹爻爽爿牁牂片版牌牍"

/-- `char/charset_national_standard_2013_8105.tsv`, part 60. -/
def charsetStd60 : List Char :=
  t!"牒牖牙牚牛牝牟牡牢牤牥牦牧物牮牯牲牵特牺牻牾牿犀犁犄犇犊犋犍犏犒犟犨犬犯犰犴状犷犸犹狁狂狃狄狈狉狍狎狐狒狗狙狝狞狠狡狨狩独狭狮狯"

/-- `char/charset_national_standard_2013_8105.tsv`, part 61. -/
def charsetStd61 : List Char :=
  t!"狰狱狲狳狴狷狸狺狻狼猁猃猄猇猊猎猕猖猗猛猜猝猞猡猢猥猩猪猫猬献猯猰猱猴猷猹猺猾猿獍獐獒獗獠獬獭獯獴獾玃玄率玉王玎玑玒玓玕玖玘玙玚"

/-- `char/charset_national_standard_2013_8105.tsv`, part 62. -/
def charsetStd62 : List Char :=
  t!"玛玞玟玠玡玢玤玥玦玩玫玭玮环现玱玲玳玶玷玹玺玻玼玿珀珂珅珇珈珉珊珋珌珍珏珐珑珒珕珖珙珛珝珞珠珢珣珥珦珧珩珪珫班珰珲珵珷珸珹珺珽琀"

/-- `char/charset_national_standard_2013_8105.tsv`, part 63. -/
def charsetStd63 : List Char :=
  t!"球琄琅理琇琈琉琊琎琏琐琔琚琛琟琡琢琤琥琦琨琪琫琬琭琮琯琰琲琳琴琵琶琼瑀瑁瑂瑃瑄瑅瑆瑑瑓瑔瑕瑖瑗瑙瑚瑛瑜瑝瑞瑟瑢瑧瑨瑬瑭瑰瑱瑳瑶瑷"

/-- `char/charset_national_standard_2013_8105.tsv`, part 64. -/
def charsetStd64 : List Char :=
  t!"瑾璀璁璃璆璇璈璋璎璐璒璘璜璞璟璠璥璧璨璩璪璬璮璱璲璺瓀瓒瓖瓘瓜瓞瓠瓢瓣瓤瓦瓮瓯瓴瓶瓷瓻瓿甄甍甏甑甓甗甘甚甜生甡甥甦用甩甪甫甬甭甯"

/-- `char/charset_national_standard_2013_8105.tsv`, part 65. -/
def charsetStd65 : List Char :=
  t!"田由甲申电男甸町画甾畀畅畈畋界畎畏畔畖留畚畛畜畤略畦番畬畯畲畴畸畹畿疁疃疆疍疏疐疑疔疖疗疙疚疝疟疠疡疢疣疤疥疫疬疭疮疯疰疱疲疳疴"

/-- `char/charset_national_standard_2013_8105.tsv`, part 66. -/
def charsetStd66 : List Char :=
  t!"疵疸疹疼疽疾痂痃痄病症痈痉痊痍痒痓痔痕痘痛痞痢痣痤痦痧痨痪痫痰痱痴痹痼痿瘀瘁瘃瘅瘆瘊瘌瘐瘕瘗瘘瘙瘛瘟瘠瘢瘤瘥瘦瘩瘪瘫瘭瘰瘳瘴瘵瘸"

/-- `char/charset_national_standard_2013_8105.tsv`, part 67. -/
def charsetStd67 : List Char :=
  t!"瘼瘾瘿癀癃癌癍癔癖癗癜癞癣癫癯癸登白百癿皂的皆皇皈皋皎皑皓皕皖皙皛皞皤皦皭皮皱皲皴皿盂盅盆盈盉益盍盎盏盐监盒盔盖盗盘盛盟盥盦目盯"

/-- `char/charset_national_standard_2013_8105.tsv`, part 68. -/
def charsetStd68 : List Char :=
  t!"盱盲直盷相盹盼盾省眄眇眈眉眊看眍眙眚真眠眢眦眨眩眬眭眯眵眶眷眸眺眼着睁睃睄睇睎睐睑睚睛睡睢督睥睦睨睫睬睹睽睾睿瞀瞄瞅瞋瞌瞍瞎瞑瞒"

/-- `char/charset_national_standard_2013_8105.tsv`, part 69. -/
def charsetStd69 : List Char :=
  t!"瞟瞠瞢瞥瞧瞩瞪瞫瞬瞭瞰瞳瞵瞻瞽瞿矍矗矛矜矞矢矣知矧矩矫矬短矮矰石矶矸矻矼矾矿砀码砂砄砆砉砌砍砑砒研砖砗砘砚砜砝砟砠砣砥砧砫砬砭砮"

/-- `char/charset_national_standard_2013_8105.tsv`, part 70. -/
def charsetStd70 : List Char :=
  t!"砰破砵砷砸砹砺砻砼砾础硁硅硇硊硌硍硎硐硒硔硕硖硗硙硚硝硪硫硬硭确硼硿碃碇碈碉碌碍碎碏碑碓碗碘碚碛碜碟碡碣碥碧碨碰碱碲碳碴碶碹碾磁"

/-- `char/charset_national_standard_2013_8105.tsv`, part 71. -/
def charsetStd71 : List Char :=
  t!"磅磉磊磋磏磐磔磕磙磜磡磨磬磲磴磷磹磻礁礅礌礓礞礴礵示礼社祀祁祃祆祇祈祉祊祋祎祏祐祓祕祖祗祚祛祜祝神祟祠祢祥祧票祭祯祲祷祸祺祼祾禀"

/-- `char/charset_national_standard_2013_8105.tsv`, part 72. -/
def charsetStd72 : List Char :=
  t!"禁禄禅禊禋福禒禔禘禚禛禤禧禳禹禺离禽禾秀私秃秆秉秋种科秒秕秘租秣秤秦秧秩秫秬秭积称秸移秽秾稀稂稃稆程稌稍税稑稔稗稙稚稞稠稣稳稷稹"

/-- `char/charset_national_standard_2013_8105.tsv`, part 73. -/
def charsetStd73 : List Char :=
  t!"稻稼稽稿穄穆穑穗穙穜穟穰穴究穷穸穹空穿窀突窃窄窅窈窊窍窎窑窒窕窖窗窘窜窝窟窠窣窥窦窨窬窭窳窸窿立竑竖竘站竞竟章竣童竦竫竭端竹竺竽"

/-- `char/charset_national_standard_2013_8105.tsv`, part 74. -/
def charsetStd74 : List Char :=
  t!"竿笃笄笆笈笊笋笏笑笔笕笙笛笞笠笤笥符笨笪笫第笮笯笱笳笸笺笼笾筀筅筇等筋筌筏筐筑筒答策筘筚筛筜筝筠筢筤筥筦筮筱筲筵筶筷筹筻筼签简箅"

/-- `char/charset_national_standard_2013_8105.tsv`, part 75. -/
def charsetStd75 : List Char :=
  t!"箍箐箓箔箕箖算箜管箢箦箧箨箩箪箫箬箭箱箴箸篁篆篇篌篑篓篙篚篝篡篥篦篪篮篯篱篷篼篾簃簇簉簋簌簏簕簖簝簟簠簧簪簰簸簿籀籁籍籥米籴类籼"

/-- `char/charset_national_standard_2013_8105.tsv`, part 76. -/
def charsetStd76 : List Char :=
  t!"籽粉粑粒粕粗粘粜粝粞粟粢粤粥粪粮粱粲粳粹粼粽精粿糁糅糇糈糊糌糍糒糕糖糗糙糜糟糠糨糯糵系紊素索紧紫累絜絮絷綦綮縠縢縻繁繄繇纂纛纠纡"

/-- `char/charset_national_standard_2013_8105.tsv`, part 77. -/
def charsetStd77 : List Char :=
  t!"红纣纤纥约级纨纩纪纫纬纭纮纯纰纱纲纳纴纵纶纷纸纹纺纻纼纽纾线绀绁绂练组绅细织终绉绊绋绌绍绎经绐绑绒结绔绕绖绗绘给绚绛络绝绞统绠绡"

/-- `char/charset_national_standard_2013_8105.tsv`, part 78. -/
def charsetStd78 : List Char :=
  t!"绢绣绤绥绦继绨绩绪绫续绮绯绰绱绲绳维绵绶绷绸绹绺绻综绽绾绿缀缁缂缃缄缅缆缇缈缉缊缌缎缐缑缒缓缔缕编缗缘缙缚缛缜缝缞缟缠缡缢缣缤缥"

/-- `char/charset_national_standard_2013_8105.tsv`, part 79. -/
def charsetStd79 : List Char :=
  t!"缦缧缨缩缪缫缬缭缮缯缰缱缲缳缴缵缶缸缺罂罄罅罍罐网罔罕罗罘罚罟罡罢罨罩罪置罱署罴罶罹罽罾羁羊羌美羑羓羔羕羖羚羝羞羟羡群羧羯羰羱羲"

/-- `char/charset_national_standard_2013_8105.tsv`, part 80. -/
def charsetStd80 : List Char :=
  t!"羸羹羼羽羿翀翁翂翃翅翈翊翌翎翔翕翘翙翚翛翟翠翡翥翦翩翮翯翰翱翳翷翻翼翾耀老考耄者耆耇耋而耍耏耐耑耒耔耕耖耗耘耙耜耠耢耤耥耦耧耨耩"

/-- `char/charset_national_standard_2013_8105.tsv`, part 81. -/
def charsetStd81 : List Char :=
  t!"耪耰耱耳耵耶耷耸耻耽耿聂聃聆聊聋职聍聒联聘聚聩聪聱聿肃肄肆肇肉肋肌肓肖肘肚肛肝肟肠股肢肤肥肩肪肫肭肮肯肱育肴肷肸肺肼肽肾肿胀胁胂"

/-- `char/charset_national_standard_2013_8105.tsv`, part 82. -/
def charsetStd82 : List Char :=
  t!"胃胄胆胈背胍胎胖胗胙胚胛胜胝胞胠胡胣胤胥胧胨胩胪胫胬胭胯胰胱胲胳胴胶胸胺胼能脂脆脉脊脍脎脏脐脑脒脓脔脖脘脚脞脟脩脬脯脱脲脶脸脾脿"

/-- `char/charset_national_standard_2013_8105.tsv`, part 83. -/
def charsetStd83 : List Char :=
  t!"腆腈腊腋腌腐腑腒腓腔腕腘腙腚腠腥腧腨腩腭腮腯腰腱腴腹腺腻腼腽腾腿膀膂膈膊膏膑膘膙膛膜膝膦膨膳膺膻臀臂臃臆臊臌臑臜臣臧自臬臭至致臻"

/-- `char/charset_national_standard_2013_8105.tsv`, part 84. -/
def charsetStd84 : List Char :=
  t!"臼臾舀舁舂舄舅舆舌舍舐舒舔舛舜舞舟舠舢舣舥航舫般舭舯舰舱舲舳舴舵舶舷舸船舻舾艄艅艇艉艋艎艏艘艚艟艨艮良艰色艳艴艺艽艾艿节芃芄芈芊"

/-- `char/charset_national_standard_2013_8105.tsv`, part 85. -/
def charsetStd85 : List Char :=
  t!"芋芍芎芏芑芒芗芘芙芜芝芟芠芡芣芤芥芦芨芩芪芫芬芭芮芯芰花芳芴芷芸芹芼芽芾苁苄苇苈苉苊苋苌苍苎苏苑苒苓苔苕苗苘苛苜苞苟苠苡苣苤若苦"

/-- `char/charset_national_standard_2013_8105.tsv`, part 86. -/
def charsetStd86 : List Char :=
  t!"苧苫苯英苴苷苹苻苾茀茁茂范茄茅茆茈茉茋茌茎茏茑茓茔茕茗茚茛茜茝茧茨茫茬茭茯茱茳茴茵茶茸茹茺茼茽荀荁荃荄荆荇草荏荐荑荒荓荔荖荙荚荛"

/-- `char/charset_national_standard_2013_8105.tsv`, part 87. -/
def charsetStd87 : List Char :=
  t!"荜荞荟荠荡荣荤荥荦荧荨荩荪荫荬荭荮药荷荸荻荼荽莅莆莉莎莒莓莘莙莛莜莝莞莠莨莩莪莫莰莱莲莳莴莶获莸莹莺莼莽莿菀菁菂菅菇菉菊菌菍菏菔"

/-- `char/charset_national_standard_2013_8105.tsv`, part 88. -/
def charsetStd88 : List Char :=
  t!"菖菘菜菝菟菠菡菥菩菪菰菱菲菹菼菽萁萃萄萆萋萌萍萎萏萑萘萚萜萝萣萤营萦萧萨萩萱萳萸萹萼落葆葎葑葖著葙葚葛葜葡董葩葫葬葭葰葱葳葴葵葶"

/-- `char/charset_national_standard_2013_8105.tsv`, part 89. -/
def charsetStd89 : List Char :=
  t!"葸葺蒂蒄蒇蒈蒉蒋蒌蒎蒐蒗蒙蒜蒟蒡蒨蒯蒱蒲蒴蒸蒹蒺蒻蒽蒿蓁蓂蓄蓇蓉蓊蓍蓏蓐蓑蓓蓖蓝蓟蓠蓢蓣蓥蓦蓬蓰蓼蓿蔀蔃蔈蔊蔌蔑蔓蔗蔚蔟蔡蔫蔬蔷"

/-- `char/charset_national_standard_2013_8105.tsv`, part 90. -/
def charsetStd90 : List Char :=
  t!"蔸蔹蔺蔻蔼蔽蕃蕈蕉蕊蕖蕗蕙蕞蕤蕨蕰蕲蕴蕹蕺蕻蕾薁薄薅薇薏薛薜薢薤薨薪薮薯薰薳薷薸薹薿藁藉藏藐藓藕藜藟藠藤藦藨藩藻藿蘅蘑蘖蘘蘧蘩蘸"

/-- `char/charset_national_standard_2013_8105.tsv`, part 91. -/
def charsetStd91 : List Char :=
  t!"蘼虎虏虐虑虒虓虔虚虞虢虤虫虬虮虱虷虸虹虺虻虼虽虾虿蚀蚁蚂蚄蚆蚊蚋蚌蚍蚓蚕蚜蚝蚣蚤蚧蚨蚩蚪蚬蚯蚰蚱蚲蚴蚶蚺蛀蛃蛄蛆蛇蛉蛊蛋蛎蛏蛐蛑"

/-- `char/charset_national_standard_2013_8105.tsv`, part 92. -/
def charsetStd92 : List Char :=
  t!"蛔蛘蛙蛛蛞蛟蛤蛩蛭蛮蛰蛱蛲蛳蛴蛸蛹蛾蜀蜂蜃蜇蜈蜉蜊蜍蜎蜐蜒蜓蜕蜗蜘蜚蜜蜞蜡蜢蜣蜥蜩蜮蜱蜴蜷蜻蜾蜿蝇蝈蝉蝌蝎蝓蝗蝘蝙蝠蝣蝤蝥蝮蝰蝲"

/-- `char/charset_national_standard_2013_8105.tsv`, part 93. -/
def charsetStd93 : List Char :=
  t!"蝴蝶蝻蝼蝽蝾螂螃螅螈螋融螗螟螠螣螨螫螬螭螯螱螳螵螺螽蟀蟆蟊蟋蟏蟑蟒蟛蟠蟥蟪蟫蟮蟹蟾蠃蠊蠋蠓蠕蠖蠡蠢蠲蠹蠼血衃衄衅行衍衎衒衔街衙衠"

/-- `char/charset_national_standard_2013_8105.tsv`, part 94. -/
def charsetStd94 : List Char :=
  t!"衡衢衣补表衩衫衬衮衰衲衷衽衾衿袁袂袄袅袆袈袋袍袒袖袗袜袢袤袪被袭袯袱袷袼裁裂装裆裈裉裎裒裔裕裘裙裛裟裢裣裤裥裨裰裱裳裴裸裹裼裾褂"

/-- `char/charset_national_standard_2013_8105.tsv`, part 95. -/
def charsetStd95 : List Char :=
  t!"褊褐褒褓褕褙褚褛褟褡褥褪褫褯褰褴褶襁襄襕襚襜襞襟襦襫襻西要覃覆见观觃规觅视觇览觉觊觋觌觎觏觐觑角觖觚觜觞觟解觥触觫觭觯觱觳觿言訄"

/-- `char/charset_national_standard_2013_8105.tsv`, part 96. -/
def charsetStd96 : List Char :=
  t!"訇訚訾詈詟詹誉誊誓謇警譬计订讣认讥讦讧讨让讪讫训议讯记讱讲讳讴讵讶讷许讹论讻讼讽设访诀证诂诃评诅识诇诈诉诊诋诌词诎诏诐译诒诓诔试"

/-- `char/charset_national_standard_2013_8105.tsv`, part 97. -/
def charsetStd97 : List Char :=
  t!"诖诗诘诙诚诛诜话诞诟诠诡询诣诤该详诧诨诩诫诬语诮误诰诱诲诳说诵请诸诹诺读诼诽课诿谀谁谂调谄谅谆谇谈谊谋谌谍谎谏谐谑谒谓谔谕谖谗谙"

/-- `char/charset_national_standard_2013_8105.tsv`, part 98. -/
def charsetStd98 : List Char :=
  t!"谚谛谜谝谞谟谠谡谢谣谤谥谦谧谨谩谪谫谬谭谮谯谰谱谲谳谴谵谶谷谼谿豁豆豇豉豌豕豚象豢豨豪豫豮豳豸豹豺貂貅貆貉貊貌貔貘贝贞负贡财责贤"

/-- `char/charset_national_standard_2013_8105.tsv`, part 99. -/
def charsetStd99 : List Char :=
  t!"败账货质贩贪贫贬购贮贯贰贱贲贳贴贵贶贷贸费贺贻贼贽贾贿赀赁赂赃资赅赆赇赈赉赊赋赌赍赎赏赐赑赒赓赔赕赖赗赘赙赚赛赜赝赞赟赠赡赢赣赤"

/-- `char/charset_national_standard_2013_8105.tsv`, part 100. -/
def charsetStd100 : List Char :=
  t!"赦赧赪赫赭走赳赴赵赶起趁趄超越趋趑趔趟趣趯趱足趴趵趸趺趼趾趿跂跃跄跆跋跌跎跏跐跑跖跗跚跛距跞跟跣跤跨跪跬路跱跳践跶跷跸跹跺跻跽踅"

/-- `char/charset_national_standard_2013_8105.tsv`, part 101. -/
def charsetStd101 : List Char :=
  t!"踉踊踌踏踒踔踝踞踟踢踣踦踩踪踬踮踯踱踵踶踹踺踽蹀蹁蹂蹄蹅蹇蹈蹉蹊蹋蹐蹑蹒蹙蹚蹜蹢蹦蹩蹬蹭蹯蹰蹲蹴蹶蹼蹽蹾蹿躁躅躇躏躐躔躜躞身躬躯"

/-- `char/charset_national_standard_2013_8105.tsv`, part 102. -/
def charsetStd102 : List Char :=
  t!"躲躺车轧轨轩轪轫转轭轮软轰轱轲轳轴轵轶轷轸轹轺轻轼载轾轿辀辁辂较辄辅辆辇辈辉辊辋辌辍辎辏辐辑辒输辔辕辖辗辘辙辚辛辜辞辟辣辨辩辫辰"

/-- `char/charset_national_standard_2013_8105.tsv`, part 103. -/
def charsetStd103 : List Char :=
  t!"辱边辽达辿迁迂迄迅过迈迎运近迓返迕还这进远违连迟迢迤迥迦迨迩迪迫迭迮述迳迷迸迹迺追退送适逃逄逅逆选逊逋逍透逐逑递途逖逗通逛逝逞速"

/-- `char/charset_national_standard_2013_8105.tsv`, part 104. -/
def charsetStd104 : List Char :=
  t!"造逡逢逦逭逮逯逴逵逶逸逻逼逾遁遂遄遆遇遍遏遐遑遒道遗遘遛遢遣遥遨遭遮遴遵遹遽避邀邂邃邈邋邑邓邕邗邘邙邛邝邠邡邢那邦邨邪邬邮邯邰邱"

/-- `char/charset_national_standard_2013_8105.tsv`, part 105. -/
def charsetStd105 : List Char :=
  t!"邲邳邴邵邶邸邹邺邻邽邾邿郁郃郄郅郇郈郊郎郏郐郑郓郗郚郛郜郝郡郢郤郦郧部郪郫郭郯郴郸都郾郿鄀鄂鄃鄄鄅鄌鄑鄗鄘鄙鄚鄜鄞鄠鄢鄣鄫鄯鄱鄹"

/-- `char/charset_national_standard_2013_8105.tsv`, part 106. -/
def charsetStd106 : List Char :=
  t!"酂酃酅酆酉酊酋酌配酎酏酐酒酗酚酝酞酡酢酣酤酥酦酩酪酬酮酯酰酱酲酴酵酶酷酸酹酺酽酾酿醅醇醉醋醌醍醐醑醒醚醛醢醨醪醭醮醯醴醵醺醾采釉"

/-- `char/charset_national_standard_2013_8105.tsv`, part 107. -/
def charsetStd107 : List Char :=
  t!"释里重野量釐金釜鉴銎銮鋆鋈錾鍪鎏鏊鏖鐾鑫钆钇针钉钊钋钌钍钎钏钐钒钓钔钕钖钗钘钙钚钛钜钝钞钟钠钡钢钣钤钥钦钧钨钩钪钫钬钭钮钯钰钱钲"

/-- `char/charset_national_standard_2013_8105.tsv`, part 108. -/
def charsetStd108 : List Char :=
  t!"钳钴钵钷钹钺钻钼钽钾钿铀铁铂铃铄铅铆铈铉铊铋铌铍铎铏铐铑铒铕铖铗铘铙铚铛铜铝铞铟铠铡铢铣铤铥铧铨铩铪铫铬铭铮铯铰铱铲铳铴铵银铷铸"

/-- `char/charset_national_standard_2013_8105.tsv`, part 109. -/
def charsetStd109 : List Char :=
  t!"铹铺铻铼铽链铿销锁锂锃锄锅锆锇锈锉锊锋锌锍锎锏锐锑锒锓锔锕锖锗锘错锚锛锜锝锞锟锡锢锣锤锥锦锧锨锩锪锫锬锭键锯锰锱锲锳锴锵锶锷锸锹"

/-- `char/charset_national_standard_2013_8105.tsv`, part 110. -/
def charsetStd110 : List Char :=
  t!"锺锻锼锽锾锿镀镁镂镃镄镅镆镇镈镉镊镋镌镍镎镏镐镑镒镓镔镕镖镗镘镚镛镜镝镞镠镡镢镣镤镥镦镧镨镩镪镫镬镭镮镯镰镱镲镳镴镵镶长门闩闪闫"

/-- `char/charset_national_standard_2013_8105.tsv`, part 111. -/
def charsetStd111 : List Char :=
  t!"闭问闯闰闱闲闳间闵闶闷闸闹闺闻闼闽闾闿阀阁阂阃阄阅阆阇阈阉阊阋阌阍阎阏阐阑阒阔阕阖阗阘阙阚阜队阡阪阮阱防阳阴阵阶阻阼阽阿陀陂附际"

/-- `char/charset_national_standard_2013_8105.tsv`, part 112. -/
def charsetStd112 : List Char :=
  t!"陆陇陈陉陋陌降陎限陑陔陕陛陞陟陡院除陧陨险陪陬陲陴陵陶陷隃隅隆隈隋隍随隐隔隗隘隙障隧隩隰隳隶隹隺隼隽难雀雁雄雅集雇雉雊雌雍雎雏雒"

/-- `char/charset_national_standard_2013_8105.tsv`, part 113. -/
def charsetStd113 : List Char :=
  t!"雕雠雨雩雪雯雱雳零雷雹雾需霁霄霅霆震霈霉霍霎霏霓霖霜霞霨霪霭霰露霸霹霾青靓靖静靛非靠靡面靥革靬靰靳靴靶靸靺靼靽靿鞁鞅鞋鞍鞑鞒鞔鞘"

/-- `char/charset_national_standard_2013_8105.tsv`, part 114. -/
def charsetStd114 : List Char :=
  t!"鞠鞡鞣鞧鞨鞫鞬鞭鞮鞯鞲鞳鞴韂韦韧韨韩韪韫韬韭音韵韶页顶顷顸项顺须顼顽顾顿颀颁颂颃预颅领颇颈颉颊颋颌颍颎颏颐频颓颔颖颗题颙颚颛颜额"

/-- `char/charset_national_standard_2013_8105.tsv`, part 115. -/
def charsetStd115 : List Char :=
  t!"颞颟颠颡颢颤颥颦颧风飏飐飑飒飓飔飕飗飘飙飞食飧飨餍餐餮饔饕饥饧饨饩饪饫饬饭饮饯饰饱饲饳饴饵饶饷饸饹饺饻饼饽饿馁馃馄馅馆馇馈馉馊馋"

/-- `char/charset_national_standard_2013_8105.tsv`, part 116. -/
def charsetStd116 : List Char :=
  t!"馌馍馏馐馑馒馓馔馕首馗馘香馝馞馥馧馨马驭驮驯驰驱驲驳驴驵驶驷驸驹驺驻驼驽驾驿骀骁骂骃骄骅骆骇骈骉骊骋验骍骎骏骐骑骒骓骕骖骗骘骙骚"

/-- `char/charset_national_standard_2013_8105.tsv`, part 117. -/
def charsetStd117 : List Char :=
  t!"骛骜骝骞骟骠骡骢骣骤骥骦骧骨骰骱骶骷骸骺骼髀髁髂髃髅髋髌髎髑髓高髡髢髦髫髭髯髹髻髽鬃鬈鬏鬒鬓鬘鬟鬣鬯鬲鬶鬷鬻鬼魁魂魃魄魅魆魇魈魉"

/-- `char/charset_national_standard_2013_8105.tsv`, part 118. -/
def charsetStd118 : List Char :=
  t!"魋魍魏魑魔鱼鱽鱾鱿鲀鲁鲂鲃鲅鲆鲇鲈鲉鲊鲋鲌鲍鲎鲏鲐鲑鲒鲔鲕鲖鲗鲘鲙鲚鲛鲜鲝鲞鲟鲠鲡鲢鲣鲤鲥鲦鲧鲨鲩鲪鲫鲬鲭鲮鲯鲰鲱鲲鲳鲴鲵鲷鲸鲹"

/-- `char/charset_national_standard_2013_8105.tsv`, part 119. -/
def charsetStd119 : List Char :=
  t!"鲺鲻鲼鲽鲾鲿鳀鳁鳂鳃鳄鳅鳇鳈鳉鳊鳌鳍鳎鳏鳐鳑鳒鳓鳔鳕鳖鳗鳘鳙鳚鳛鳜鳝鳞鳟鳠鳡鳢鳣鳤鸟鸠鸡鸢鸣鸤鸥鸦鸧鸨鸩鸪鸫鸬鸭鸮鸯鸰鸱鸲鸳鸵鸶"

/-- `char/charset_national_standard_2013_8105.tsv`, part 120. -/
def charsetStd120 : List Char :=
  t!"鸷鸸鸹鸺鸻鸼鸽鸾鸿鹀鹁鹂鹃鹄鹅鹆鹇鹈鹉鹊鹋鹌鹍鹎鹏鹐鹑鹒鹔鹕鹖鹗鹘鹙鹚鹛鹜鹝鹞鹟鹠鹡鹢鹣鹤鹦鹧鹨鹩鹪鹫鹬鹭鹮鹯鹰鹱鹲鹳鹴鹾鹿麀麂"

/-- `char/charset_national_standard_2013_8105.tsv`, part 121. -/
def charsetStd121 : List Char :=
  t!"麇麈麋麑麒麓麖麝麟麦麸麹麻麽麾黄黇黉黍黎黏黑黔默黛黜黝黟黠黡黢黥黧黩黪黯黹黻黼黾鼋鼍鼎鼐鼒鼓鼗鼙鼠鼢鼩鼫鼬鼯鼱鼷鼹鼻鼽鼾齁齇齉齐"

/-- `char/charset_national_standard_2013_8105.tsv`, part 122. -/
def charsetStd122 : List Char :=
  t!"齑齿龀龁龂龃龄龅龆龇龈龉龊龋龌龙龚龛龟龠龢鿍鿎鿏㑇㑊㕮㘎㙍㙘㙦㛃㛚㛹㟃㠇㠓㤘㥄㧐㧑㧟㫰㬊㬎㬚㭎㭕㮾㰀㳇㳘㳚㴔㵐㶲㸆㸌㺄㻬㽏㿠䁖䂮"

/-- `char/charset_national_standard_2013_8105.tsv`, part 123. -/
def charsetStd123 : List Char :=
  t!"䃅䃎䅟䌹䎃䎖䏝䏡䏲䐃䓖䓛䓨䓫䓬䗖䗛䗪䗴䜣䝙䢺䢼䣘䥽䦃䲟䲠䲢䴓䴔䴕䴖䴗䴘䴙䶮𠅤𠙶𠳐𡎚𡐓𣗋𣲗𣲘𣸣𤧛𤩽𤫉𥔲𥕢𥖨𥻗𦈡𦒍𦙶𦝼𦭜𦰡𧿹𨐈𨙸𨚕𨟠"

/-- `char/charset_national_standard_2013_8105.tsv`, part 124. -/
def charsetStd124 : List Char :=
  t!"𨭉𨱇𨱏𨱑𨱔𨺙𩽾𩾃𩾌𪟝𪣻𪤗𪨰𪨶𪩘𪾢𫄧𫄨𫄷𫄸𫇭𫌀𫍣𫍯𫍲𫍽𫐄𫐐𫐓𫑡𫓧𫓯𫓶𫓹𫔍𫔎𫔶𫖮𫖯𫖳𫗧𫗴𫘜𫘝𫘦𫘧𫘨𫘪𫘬𫚕𫚖𫚭𫛭𫞩𫟅𫟦𫟹𫟼𫠆𫠊𫠜𫢸𫫇𫭟"

/-- `char/charset_national_standard_2013_8105.tsv`, part 125. -/
def charsetStd125 : List Char :=
  t!"𫭢𫭼𫮃𫰛𫵷𫶇𫷷𫸩𬀩𬀪𬂩𬃊𬇕𬇙𬇹𬉼𬊈𬊤𬌗𬍛𬍡𬍤𬒈𬒔𬒗𬕂𬘓𬘘𬘡𬘩𬘫𬘬𬘭𬘯𬙂𬙊𬙋𬜬𬜯𬞟𬟁𬟽𬣙𬣞𬣡𬣳𬤇𬤊𬤝𬨂𬨎𬩽𬪩𬬩𬬭𬬮𬬱𬬸𬬹𬬻𬬿𬭁𬭊𬭎"

/-- `char/charset_national_standard_2013_8105.tsv`, part 126. -/
def charsetStd126 : List Char :=
  t!"𬭚𬭛𬭤𬭩𬭬𬭯𬭳𬭶𬭸𬭼𬮱𬮿𬯀𬯎𬱖𬱟𬳵𬳶𬳽𬳿𬴂𬴃𬴊𬶋𬶍𬶏𬶐𬶟𬶠𬶨𬶭𬶮𬷕𬸘𬸚𬸣𬸦𬸪𬹼𬺈𬺓"

/-- `char/charset_national_standard_2013_8105.tsv`. -/
def charsetStd : List Char :=
  charsetStd0 ++ charsetStd1 ++ charsetStd2 ++ charsetStd3 ++ charsetStd4 ++ charsetStd5 ++ charsetStd6 ++ charsetStd7 ++
  charsetStd8 ++ charsetStd9 ++ charsetStd10 ++ charsetStd11 ++ charsetStd12 ++ charsetStd13 ++ charsetStd14 ++ charsetStd15 ++
  charsetStd16 ++ charsetStd17 ++ charsetStd18 ++ charsetStd19 ++ charsetStd20 ++ charsetStd21 ++ charsetStd22 ++ charsetStd23 ++
  charsetStd24 ++ charsetStd25 ++ charsetStd26 ++ charsetStd27 ++ charsetStd28 ++ charsetStd29 ++ charsetStd30 ++ charsetStd31 ++
  charsetStd32 ++ charsetStd33 ++ charsetStd34 ++ charsetStd35 ++ charsetStd36 ++ charsetStd37 ++ charsetStd38 ++ charsetStd39 ++
  charsetStd40 ++ charsetStd41 ++ charsetStd42 ++ charsetStd43 ++ charsetStd44 ++ charsetStd45 ++ charsetStd46 ++ charsetStd47 ++
  charsetStd48 ++ charsetStd49 ++ charsetStd50 ++ charsetStd51 ++ charsetStd52 ++ charsetStd53 ++ charsetStd54 ++ charsetStd55 ++
  charsetStd56 ++ charsetStd57 ++ charsetStd58 ++ charsetStd59 ++ charsetStd60 ++ charsetStd61 ++ charsetStd62 ++ charsetStd63 ++
  charsetStd64 ++ charsetStd65 ++ charsetStd66 ++ charsetStd67 ++ charsetStd68 ++ charsetStd69 ++ charsetStd70 ++ charsetStd71 ++
  charsetStd72 ++ charsetStd73 ++ charsetStd74 ++ charsetStd75 ++ charsetStd76 ++ charsetStd77 ++ charsetStd78 ++ charsetStd79 ++
  charsetStd80 ++ charsetStd81 ++ charsetStd82 ++ charsetStd83 ++ charsetStd84 ++ charsetStd85 ++ charsetStd86 ++ charsetStd87 ++
  charsetStd88 ++ charsetStd89 ++ charsetStd90 ++ charsetStd91 ++ charsetStd92 ++ charsetStd93 ++ charsetStd94 ++ charsetStd95 ++
  charsetStd96 ++ charsetStd97 ++ charsetStd98 ++ charsetStd99 ++ charsetStd100 ++ charsetStd101 ++ charsetStd102 ++ charsetStd103 ++
  charsetStd104 ++ charsetStd105 ++ charsetStd106 ++ charsetStd107 ++ charsetStd108 ++ charsetStd109 ++ charsetStd110 ++ charsetStd111 ++
  charsetStd112 ++ charsetStd113 ++ charsetStd114 ++ charsetStd115 ++ charsetStd116 ++ charsetStd117 ++ charsetStd118 ++ charsetStd119 ++
  charsetStd120 ++ charsetStd121 ++ charsetStd122 ++ charsetStd123 ++ charsetStd124 ++ charsetStd125 ++ charsetStd126

/-- `char/charset_extension.tsv`, part 0. -/
def charsetExt0 : List Char :=
  t!"吶囧屄屌诶飚"

/-- `char/charset_extension.tsv`. -/
def charsetExt : List Char :=
  charsetExt0

end Verif.ZhTn
