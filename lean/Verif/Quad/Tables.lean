import Mathlib.Analysis.Real.Sqrt
import Verif.Mem

/-!
# The tabulated quadrature rules of `elements/elements.cpp`

Generated by `tools/gen_quad.py` from the literals of the code.  A decimal literal `d.ddd` is the exact
decimal number (`dec m e` is `m / 10 ^ e`), not its nearest double.
`swage/swage.cpp` contains a copy of the Lobatto node table (`lobatto_nodes_1D_tmp`, 63-327) with the same
literals.
-/

namespace Verif.Quad

/-- A decimal literal. -/
def dec (m : ℤ) (e : ℕ) : ℚ := m / 10 ^ e

/-- Rational entries of `lobatto_nodes_1D`, elements/elements.cpp:126-390. -/
def lobNodesQ : ℕ → List ℚ
  | 1 => [0]
  | 2 => [-1,
      1]
  | 3 => [-1,
      0,
      1]
  | 7 => [-1,
      dec (-830223896278566929872032213967) 30,
      dec (-468848793470714213803771881909) 30,
      0,
      dec (468848793470714213803771881909) 30,
      dec (830223896278566929872032213967) 30,
      1]
  | 8 => [-1,
      dec (-871740148509606615337445761221) 30,
      dec (-591700181433142302144510731398) 30,
      dec (-209299217902478868768657260345) 30,
      dec (209299217902478868768657260345) 30,
      dec (591700181433142302144510731398) 30,
      dec (871740148509606615337445761221) 30,
      1]
  | 9 => [-1,
      dec (-899757995411460157312345244418) 30,
      dec (-677186279510737753445885427091) 30,
      dec (-363117463826178158710752068709) 30,
      0,
      dec (363117463826178158710752068709) 30,
      dec (677186279510737753445885427091) 30,
      dec (899757995411460157312345244418) 30,
      1]
  | 10 => [-1,
      dec (-919533908166458813828932660822) 30,
      dec (-73877386510550507500310617486) 29,
      dec (-477924949810444495661175092731) 30,
      dec (-165278957666387024626219765958) 30,
      dec (165278957666387024626219765958) 30,
      dec (477924949810444495661175092731) 30,
      dec (73877386510550507500310617486) 29,
      dec (919533908166458813828932660822) 30,
      1]
  | 11 => [-1,
      dec (-934001430408059134332274136099) 30,
      dec (-784483473663144418622417816108) 30,
      dec (-565235326996205006470963969478) 30,
      dec (-295758135586939391431911515559) 30,
      0,
      dec (295758135586939391431911515559) 30,
      dec (565235326996205006470963969478) 30,
      dec (784483473663144418622417816108) 30,
      dec (934001430408059134332274136099) 30,
      1]
  | 12 => [-1,
      dec (-944899272222882223407580138303) 30,
      dec (-819279321644006678348641581717) 30,
      dec (-632876153031869677662404854444) 30,
      dec (-399530940965348932264349791567) 30,
      dec (-13655293285492755486406185574) 29,
      dec (13655293285492755486406185574) 29,
      dec (399530940965348932264349791567) 30,
      dec (632876153031869677662404854444) 30,
      dec (819279321644006678348641581717) 30,
      dec (944899272222882223407580138303) 30,
      1]
  | 13 => [-1,
      dec (-953309846642163911896905464755) 30,
      dec (-846347564651872316865925607099) 30,
      dec (-686188469081757426072759039566) 30,
      dec (-482909821091336201746937233637) 30,
      dec (-249286930106239992568673700374) 30,
      0,
      dec (249286930106239992568673700374) 30,
      dec (482909821091336201746937233637) 30,
      dec (686188469081757426072759039566) 30,
      dec (846347564651872316865925607099) 30,
      dec (953309846642163911896905464755) 30,
      1]
  | 14 => [-1,
      dec (-959935045267260901355100162015) 30,
      dec (-867801053830347251000220202908) 30,
      dec (-728868599091326140584672400521) 30,
      dec (-550639402928647055316622705859) 30,
      dec (-342724013342712845043903403642) 30,
      dec (-116331868883703867658776709736) 30,
      dec (116331868883703867658776709736) 30,
      dec (342724013342712845043903403642) 30,
      dec (550639402928647055316622705859) 30,
      dec (728868599091326140584672400521) 30,
      dec (867801053830347251000220202908) 30,
      dec (959935045267260901355100162015) 30,
      1]
  | 15 => [-1,
      dec (-96524592650383857279585139207) 29,
      dec (-885082044222976298825401631482) 30,
      dec (-763519689951815200704118475976) 30,
      dec (-606253205469845711123529938637) 30,
      dec (-420638054713672480921896938739) 30,
      dec (-215353955363794238225679446273) 30,
      0,
      dec (215353955363794238225679446273) 30,
      dec (420638054713672480921896938739) 30,
      dec (606253205469845711123529938637) 30,
      dec (763519689951815200704118475976) 30,
      dec (885082044222976298825401631482) 30,
      dec (96524592650383857279585139207) 29,
      1]
  | 16 => [-1,
      dec (-969568046270217932952242738367) 30,
      dec (-89920053309347209299462826152) 29,
      dec (-792008291861815063931088270963) 30,
      dec (-652388702882493089467883219641) 30,
      dec (-486059421887137611781890785847) 30,
      dec (-299830468900763208098353454722) 30,
      dec (-101326273521949447843033005046) 30,
      dec (101326273521949447843033005046) 30,
      dec (299830468900763208098353454722) 30,
      dec (486059421887137611781890785847) 30,
      dec (652388702882493089467883219641) 30,
      dec (792008291861815063931088270963) 30,
      dec (89920053309347209299462826152) 29,
      dec (969568046270217932952242738367) 30,
      1]
  | 17 => [-1,
      dec (-973132176631418314156979501874) 30,
      dec (-910879995915573595623802506398) 30,
      dec (-815696251221770307106750553238) 30,
      dec (-691028980627684705394919357372) 30,
      dec (-541385399330101539123733407504) 30,
      dec (-372174433565477041907234680735) 30,
      dec (-189511973518317388304263014753) 30,
      0,
      dec (189511973518317388304263014753) 30,
      dec (372174433565477041907234680735) 30,
      dec (541385399330101539123733407504) 30,
      dec (691028980627684705394919357372) 30,
      dec (815696251221770307106750553238) 30,
      dec (910879995915573595623802506398) 30,
      dec (973132176631418314156979501874) 30,
      1]
  | 18 => [-1,
      dec (-976105557412198542864518924342) 30,
      dec (-920649185347533873837854625431) 30,
      dec (-835593535218090213713646362328) 30,
      dec (-723679329283242681306210365302) 30,
      dec (-588504834318661761173535893194) 30,
      dec (-434415036912123975342287136741) 30,
      dec (-266362652878280984167665332026) 30,
      dec (-897490934846521110226450100886) 31,
      dec (897490934846521110226450100886) 31,
      dec (266362652878280984167665332026) 30,
      dec (434415036912123975342287136741) 30,
      dec (588504834318661761173535893194) 30,
      dec (723679329283242681306210365302) 30,
      dec (835593535218090213713646362328) 30,
      dec (920649185347533873837854625431) 30,
      dec (976105557412198542864518924342) 30,
      1]
  | 19 => [-1,
      dec (-97861176622208009515263406311) 29,
      dec (-928901528152586243717940258797) 30,
      dec (-852460577796646093085955970041) 30,
      dec (-751494202552613014163637489634) 30,
      dec (-628908137265220497766832306229) 30,
      dec (-488229285680713502777909637625) 30,
      dec (-333504847824498610298500103845) 30,
      dec (-169186023409281571375154153445) 30,
      0,
      dec (169186023409281571375154153445) 30,
      dec (333504847824498610298500103845) 30,
      dec (488229285680713502777909637625) 30,
      dec (628908137265220497766832306229) 30,
      dec (751494202552613014163637489634) 30,
      dec (852460577796646093085955970041) 30,
      dec (928901528152586243717940258797) 30,
      dec (97861176622208009515263406311) 29,
      1]
  | 20 => [-1,
      dec (-980743704893914171925446438584) 30,
      dec (-935934498812665435716181584931) 30,
      dec (-866877978089950141309847214616) 30,
      dec (-775368260952055870414317527595) 30,
      dec (-663776402290311289846403322971) 30,
      dec (-534992864031886261648135961829) 30,
      dec (-392353183713909299386474703816) 30,
      dec (-239551705922986495182401356927) 30,
      dec (-805459372388218379759445181596) 31,
      dec (805459372388218379759445181596) 31,
      dec (239551705922986495182401356927) 30,
      dec (392353183713909299386474703816) 30,
      dec (534992864031886261648135961829) 30,
      dec (663776402290311289846403322971) 30,
      dec (775368260952055870414317527595) 30,
      dec (866877978089950141309847214616) 30,
      dec (935934498812665435716181584931) 30,
      dec (980743704893914171925446438584) 30,
      1]
  | _ => []

/-- The entries written by `lobatto_nodes_1D(a, num)`, elements/elements.cpp:126-390, in order of the index. -/
noncomputable def lobNodes : ℕ → List ℝ
  | 4 => [-1, -1/5*√5, 1/5*√5, 1]
  | 5 => [-1, -1/7*√21, 0, 1/7*√21, 1]
  | 6 => [-1, -√(1/21*(7+2*√7)), -√(1/21*(7-2*√7)), √(1/21*(7-2*√7)), √(1/21*(7+2*√7)), 1]
  | n => (lobNodesQ n).map (fun q : ℚ => (q : ℝ))

/-- Rational entries of `lobatto_weights_1D`, elements/elements.cpp:400-665. -/
def lobWeightsQ : ℕ → List ℚ
  | 1 => [2]
  | 2 => [1,
      1]
  | 3 => [1/3,
      4/3,
      1/3]
  | 4 => [1/6,
      5/6,
      5/6,
      1/6]
  | 5 => [1/10,
      49/90,
      32/45,
      49/90,
      1/10]
  | 7 => [dec (47619047619047619047619047619) 30,
      dec (27682604736156594801070040629) 29,
      dec (431745381209862623417871022281) 30,
      dec (487619047619047619047619047619) 30,
      dec (431745381209862623417871022281) 30,
      dec (27682604736156594801070040629) 29,
      dec (47619047619047619047619047619) 30]
  | 8 => [dec (357142857142857142857142857143) 31,
      dec (210704227143506039382991065776) 30,
      dec (341122692483504364764240677108) 30,
      dec (412458794658703881567052971402) 30,
      dec (412458794658703881567052971402) 30,
      dec (341122692483504364764240677108) 30,
      dec (210704227143506039382991065776) 30,
      dec (357142857142857142857142857143) 31]
  | 9 => [dec (277777777777777777777777777778) 31,
      dec (165495361560805525046339720029) 30,
      dec (274538712500161735280705618579) 30,
      dec (34642851097304634511513153214) 29,
      dec (371519274376417233560090702948) 30,
      dec (34642851097304634511513153214) 29,
      dec (274538712500161735280705618579) 30,
      dec (165495361560805525046339720029) 30,
      dec (277777777777777777777777777778) 31]
  | 10 => [dec (222222222222222222222222222222) 31,
      dec (133305990851070111126227170755) 30,
      dec (224889342063126452119457821731) 30,
      dec (292042683679683757875582257374) 30,
      dec (327539761183897456656510527917) 30,
      dec (327539761183897456656510527917) 30,
      dec (292042683679683757875582257374) 30,
      dec (224889342063126452119457821731) 30,
      dec (133305990851070111126227170755) 30,
      dec (222222222222222222222222222222) 31]
  | 11 => [dec (181818181818181818181818181818) 31,
      dec (10961227326699486446140344958) 29,
      dec (187169881780305204108141521899) 30,
      dec (248048104264028314040084866422) 30,
      dec (286879124779008088679222403332) 30,
      dec (30021759545569069378593188117) 29,
      dec (286879124779008088679222403332) 30,
      dec (248048104264028314040084866422) 30,
      dec (187169881780305204108141521899) 30,
      dec (10961227326699486446140344958) 29,
      dec (181818181818181818181818181818) 31]
  | 12 => [dec (151515151515151515151515151515) 31,
      dec (916845174131961306683425941341) 31,
      dec (1579747055643701151646710627) 28,
      dec (212508417761021145358302077367) 30,
      dec (251275603199201280293244412148) 30,
      dec (2714052409106961770002883385) 28,
      dec (2714052409106961770002883385) 28,
      dec (251275603199201280293244412148) 30,
      dec (212508417761021145358302077367) 30,
      dec (1579747055643701151646710627) 28,
      dec (916845174131961306683425941341) 31,
      dec (151515151515151515151515151515) 31]
  | 13 => [dec (128205128205128205128205128205) 31,
      dec (778016867468189277935889883331) 31,
      dec (134981926689608349119914762589) 30,
      dec (183646865203550092007494258747) 30,
      dec (220767793566110086085534008379) 30,
      dec (24401579030667635645857814836) 29,
      dec (251930849333446736044138641541) 30,
      dec (24401579030667635645857814836) 29,
      dec (220767793566110086085534008379) 30,
      dec (183646865203550092007494258747) 30,
      dec (134981926689608349119914762589) 30,
      dec (778016867468189277935889883331) 31,
      dec (128205128205128205128205128205) 31]
  | 14 => [dec (10989010989010989010989010989) 30,
      dec (668372844976812846340706607461) 31,
      dec (116586655898711651540996670655) 30,
      dec (160021851762952142412820997988) 30,
      dec (194826149373416118640331778376) 30,
      dec (219126253009770754871162523954) 30,
      dec (231612794468457058889628357293) 30,
      dec (231612794468457058889628357293) 30,
      dec (219126253009770754871162523954) 30,
      dec (194826149373416118640331778376) 30,
      dec (160021851762952142412820997988) 30,
      dec (116586655898711651540996670655) 30,
      dec (668372844976812846340706607461) 31,
      dec (10989010989010989010989010989) 30]
  | 15 => [dec (952380952380952380952380952381) 32,
      dec (580298930286012490968805840253) 31,
      dec (101660070325718067603666170789) 30,
      dec (140511699802428109460446805644) 30,
      dec (172789647253600949052077099408) 30,
      dec (196987235964613356092500346507) 30,
      dec (211973585926820920127430076977) 30,
      dec (217048116348815649514950214251) 30,
      dec (211973585926820920127430076977) 30,
      dec (196987235964613356092500346507) 30,
      dec (172789647253600949052077099408) 30,
      dec (140511699802428109460446805644) 30,
      dec (101660070325718067603666170789) 30,
      dec (580298930286012490968805840253) 31,
      dec (952380952380952380952380952381) 32]
  | 16 => [dec (833333333333333333333333333333) 32,
      dec (508503610059199054032449195655) 31,
      dec (893936973259308009910520801661) 31,
      dec (124255382132514098349536332657) 30,
      dec (154026980807164280815644940485) 30,
      dec (177491913391704125301075669528) 30,
      dec (193690023825203584316913598854) 30,
      dec (201958308178229871489199125411) 30,
      dec (201958308178229871489199125411) 30,
      dec (193690023825203584316913598854) 30,
      dec (177491913391704125301075669528) 30,
      dec (154026980807164280815644940485) 30,
      dec (124255382132514098349536332657) 30,
      dec (893936973259308009910520801661) 31,
      dec (508503610059199054032449195655) 31,
      dec (833333333333333333333333333333) 32]
  | 17 => [dec (735294117647058823529411764706) 32,
      dec (449219405432542096474009546232) 31,
      dec (791982705036871191902644299528) 31,
      dec (11059290900702816137577270522) 29,
      dec (137987746201926559056201574954) 30,
      dec (160394661997621539516328365865) 30,
      dec (177004253515657870436945745363) 30,
      dec (187216339677619235892088482861) 30,
      dec (190661874753469433299407247028) 30,
      dec (187216339677619235892088482861) 30,
      dec (177004253515657870436945745363) 30,
      dec (160394661997621539516328365865) 30,
      dec (137987746201926559056201574954) 30,
      dec (11059290900702816137577270522) 29,
      dec (791982705036871191902644299528) 31,
      dec (449219405432542096474009546232) 31,
      dec (735294117647058823529411764706) 32]
  | 18 => [dec (653594771241830065359477124183) 32,
      dec (399706288109140661375991764101) 31,
      dec (706371668856336649992229601678) 31,
      dec (990162717175028023944236053187) 31,
      dec (124210533132967100263396358897) 30,
      dec (145411961573802267983003210494) 30,
      dec (1619395172376024892643267067) 28,
      dec (173262109489456226010614403827) 30,
      dec (179015863439703082293818806944) 30,
      dec (179015863439703082293818806944) 30,
      dec (173262109489456226010614403827) 30,
      dec (1619395172376024892643267067) 28,
      dec (145411961573802267983003210494) 30,
      dec (124210533132967100263396358897) 30,
      dec (990162717175028023944236053187) 31,
      dec (706371668856336649992229601678) 31,
      dec (399706288109140661375991764101) 31,
      dec (653594771241830065359477124183) 32]
  | 19 => [dec (584795321637426900584795321637) 32,
      dec (357933651861764771154255690351) 31,
      dec (633818917626297368516956904183) 31,
      dec (891317570992070844480087905562) 31,
      dec (112315341477305044070910015464) 30,
      dec (13226728044875077692604673391) 29,
      dec (148413942595938885009680643668) 30,
      dec (160290924044061241979910968184) 30,
      dec (16755658452714286727013727774) 29,
      dec (170001919284827234644672715617) 30,
      dec (16755658452714286727013727774) 29,
      dec (160290924044061241979910968184) 30,
      dec (148413942595938885009680643668) 30,
      dec (13226728044875077692604673391) 29,
      dec (112315341477305044070910015464) 30,
      dec (891317570992070844480087905562) 31,
      dec (633818917626297368516956904183) 31,
      dec (357933651861764771154255690351) 31,
      dec (584795321637426900584795321637) 32]
  | 20 => [dec (526315789473684210526315789474) 32,
      dec (322371231884889414916050281173) 31,
      dec (571818021275668260047536271732) 31,
      dec (806317639961196031447768461137) 31,
      dec (101991499699450815683781205733) 30,
      dec (120709227628674725099429705002) 30,
      dec (136300482358724184489780792989) 30,
      dec (148361554070916825814713013734) 30,
      dec (156580102647475487158169896794) 30,
      dec (160743286387845749007726726449) 30,
      dec (160743286387845749007726726449) 30,
      dec (156580102647475487158169896794) 30,
      dec (148361554070916825814713013734) 30,
      dec (136300482358724184489780792989) 30,
      dec (120709227628674725099429705002) 30,
      dec (101991499699450815683781205733) 30,
      dec (806317639961196031447768461137) 31,
      dec (571818021275668260047536271732) 31,
      dec (322371231884889414916050281173) 31,
      dec (526315789473684210526315789474) 32]
  | _ => []

/-- The entries written by `lobatto_weights_1D(a, num)`, elements/elements.cpp:400-665, in order of the index. -/
noncomputable def lobWeights : ℕ → List ℝ
  | 6 => [1/15, 1/30*(14-√7), 1/30*(14+√7), 1/30*(14+√7), 1/30*(14-√7), 1/15]
  | n => (lobWeightsQ n).map (fun q : ℚ => (q : ℝ))

/-- Rational entries of `legendre_nodes_1D`, elements/elements.cpp:667-911. -/
def legNodesQ : ℕ → List ℚ
  | 1 => [0]
  | 2 => [dec (-577350269189625764509148780501) 30,
      dec (577350269189625764509148780501) 30]
  | 3 => [dec (-774596669241483377035853079956) 30,
      0,
      dec (774596669241483377035853079956) 30]
  | 4 => [dec (-861136311594052575223946488892) 30,
      dec (-339981043584856264802665759103) 30,
      dec (339981043584856264802665759103) 30,
      dec (861136311594052575223946488892) 30]
  | 5 => [dec (-906179845938663992797626878299) 30,
      dec (-5384693101056830910363144207) 28,
      0,
      dec (5384693101056830910363144207) 28,
      dec (906179845938663992797626878299) 30]
  | 6 => [dec (-932469514203152027812301554493) 30,
      dec (-661209386466264513661399595019) 30,
      dec (-23861918608319690863050172168) 29,
      dec (23861918608319690863050172168) 29,
      dec (661209386466264513661399595019) 30,
      dec (932469514203152027812301554493) 30]
  | 7 => [dec (-949107912342758524526189684047) 30,
      dec (-74153118559939443986386477328) 29,
      dec (-405845151377397166906606412076) 30,
      0,
      dec (405845151377397166906606412076) 30,
      dec (74153118559939443986386477328) 29,
      dec (949107912342758524526189684047) 30]
  | 8 => [dec (-960289856497536231683560868569) 30,
      dec (-796666477413626739591553936475) 30,
      dec (-525532409916328985817739049189) 30,
      dec (-18343464249564980493947614236) 29,
      dec (18343464249564980493947614236) 29,
      dec (525532409916328985817739049189) 30,
      dec (796666477413626739591553936475) 30,
      dec (960289856497536231683560868569) 30]
  | 9 => [dec (-968160239507626089835576202903) 30,
      dec (-836031107326635794299429788069) 30,
      dec (-613371432700590397308702039341) 30,
      dec (-324253423403808929038538014643) 30,
      0,
      dec (324253423403808929038538014643) 30,
      dec (613371432700590397308702039341) 30,
      dec (836031107326635794299429788069) 30,
      dec (968160239507626089835576202903) 30]
  | 10 => [dec (-9739065285171717200779640120844) 31,
      dec (-8650633666889845107320966884234) 31,
      dec (-6794095682990244062343273651148) 31,
      dec (-4333953941292471907992659431657) 31,
      dec (-1488743389816312108848260011297) 31,
      dec (1488743389816312108848260011297) 31,
      dec (4333953941292471907992659431657) 31,
      dec (6794095682990244062343273651148) 31,
      dec (8650633666889845107320966884234) 31,
      dec (9739065285171717200779640120844) 31]
  | 11 => [dec (-9782286581460569928039380011228) 31,
      dec (-8870625997680952990751577693039) 31,
      dec (-7301520055740493240934162520311) 31,
      dec (-5190961292068118159257256694586) 31,
      dec (-2695431559523449723315319854008) 31,
      0,
      dec (2695431559523449723315319854008) 31,
      dec (5190961292068118159257256694586) 31,
      dec (7301520055740493240934162520311) 31,
      dec (8870625997680952990751577693039) 31,
      dec (9782286581460569928039380011228) 31]
  | 12 => [dec (-9815606342467192506905490901492) 31,
      dec (-904117256370474856678465866119) 30,
      dec (-7699026741943046870368938332128) 31,
      dec (-5873179542866174472967024189405) 31,
      dec (-3678314989981801937526915366437) 31,
      dec (-1252334085114689154724413694638) 31,
      dec (1252334085114689154724413694638) 31,
      dec (3678314989981801937526915366437) 31,
      dec (5873179542866174472967024189405) 31,
      dec (7699026741943046870368938332128) 31,
      dec (904117256370474856678465866119) 30,
      dec (9815606342467192506905490901492) 31]
  | 13 => [dec (-9841830547185881494728294488071) 31,
      dec (-91759839922297796520654783650071) 32,
      dec (-80157809073330991279420648958285) 32,
      dec (-64234933944034022064398460699551) 32,
      dec (-44849275103644685287791285212763) 32,
      dec (-23045831595513479406552812109798) 32,
      0,
      dec (23045831595513479406552812109798) 32,
      dec (44849275103644685287791285212763) 32,
      dec (64234933944034022064398460699551) 32,
      dec (80157809073330991279420648958285) 32,
      dec (91759839922297796520654783650071) 32,
      dec (9841830547185881494728294488071) 31]
  | 14 => [dec (-986283808696812338841597266704052) 33,
      dec (-928434883663573517336391139377874) 33,
      dec (-827201315069764993189794742650394) 33,
      dec (-687292904811685470148019803019334) 33,
      dec (-515248636358154091965290718551188) 33,
      dec (-319112368927889760435671824168475) 33,
      dec (-108054948707343662066244650219834) 33,
      dec (108054948707343662066244650219834) 33,
      dec (319112368927889760435671824168475) 33,
      dec (515248636358154091965290718551188) 33,
      dec (687292904811685470148019803019334) 33,
      dec (827201315069764993189794742650394) 33,
      dec (928434883663573517336391139377874) 33,
      dec (986283808696812338841597266704052) 33]
  | 15 => [dec (-987992518020485428489565718586612) 33,
      dec (-937273392400705904307758947710209) 33,
      dec (-848206583410427216200648320774216) 33,
      dec (-724417731360170047416186054613938) 33,
      dec (-57097217260853884753722673725391) 32,
      dec (-394151347077563369897207370981045) 33,
      dec (-201194093997434522300628303394596) 33,
      0,
      dec (201194093997434522300628303394596) 33,
      dec (394151347077563369897207370981045) 33,
      dec (57097217260853884753722673725391) 32,
      dec (724417731360170047416186054613938) 33,
      dec (848206583410427216200648320774216) 33,
      dec (937273392400705904307758947710209) 33,
      dec (987992518020485428489565718586612) 33]
  | 16 => [dec (-989400934991649932596154173450332) 33,
      dec (-944575023073232576077988415534608) 33,
      dec (-865631202387831743880467897712393) 33,
      dec (-755404408355003033895101194847442) 33,
      dec (-617876244402643748446671764048791) 33,
      dec (-458016777657227386342419442983577) 33,
      dec (-281603550779258913230460501460496) 33,
      dec (-95012509837637440185319335424958) 33,
      dec (95012509837637440185319335424958) 33,
      dec (281603550779258913230460501460496) 33,
      dec (458016777657227386342419442983577) 33,
      dec (617876244402643748446671764048791) 33,
      dec (755404408355003033895101194847442) 33,
      dec (865631202387831743880467897712393) 33,
      dec (944575023073232576077988415534608) 33,
      dec (989400934991649932596154173450332) 33]
  | 17 => [dec (-990575475314417335675434019940665) 33,
      dec (-950675521768767761222716957895803) 33,
      dec (-880239153726985902122955694488155) 33,
      dec (-781514003896801406925230055520476) 33,
      dec (-657671159216690765850302216643002) 33,
      dec (-512690537086476967886246568629551) 33,
      dec (-351231763453876315297185517095346) 33,
      dec (-178484181495847855850677493654065) 33,
      0,
      dec (178484181495847855850677493654065) 33,
      dec (351231763453876315297185517095346) 33,
      dec (512690537086476967886246568629551) 33,
      dec (657671159216690765850302216643002) 33,
      dec (781514003896801406925230055520476) 33,
      dec (880239153726985902122955694488155) 33,
      dec (950675521768767761222716957895803) 33,
      dec (990575475314417335675434019940665) 33]
  | 18 => [dec (-99156516842093094673001600470615) 32,
      dec (-955823949571397755181195892929776) 33,
      dec (-892602466497555739206060591127145) 33,
      dec (-80370495897252311568241745501459) 32,
      dec (-691687043060353207874891081288848) 33,
      dec (-559770831073947534607871548525329) 33,
      dec (-411751161462842646035931793833051) 33,
      dec (-251886225691505509588972854877911) 33,
      dec (-84775013041735301242261852935783) 33,
      dec (84775013041735301242261852935783) 33,
      dec (251886225691505509588972854877911) 33,
      dec (411751161462842646035931793833051) 33,
      dec (559770831073947534607871548525329) 33,
      dec (691687043060353207874891081288848) 33,
      dec (80370495897252311568241745501459) 32,
      dec (892602466497555739206060591127145) 33,
      dec (955823949571397755181195892929776) 33,
      dec (99156516842093094673001600470615) 32]
  | 19 => [dec (-99240684384358440318901767025326) 32,
      dec (-960208152134830030852778840687651) 33,
      dec (-903155903614817901642660928532312) 33,
      dec (-822714656537142824978922486712713) 33,
      dec (-720966177335229378617095860823781) 33,
      dec (-600545304661681023469638164946239) 33,
      dec (-464570741375960945717267148104102) 33,
      dec (-316564099963629831990117328849844) 33,
      dec (-160358645640225375868096115740743) 33,
      0,
      dec (160358645640225375868096115740743) 33,
      dec (316564099963629831990117328849844) 33,
      dec (464570741375960945717267148104102) 33,
      dec (600545304661681023469638164946239) 33,
      dec (720966177335229378617095860823781) 33,
      dec (822714656537142824978922486712713) 33,
      dec (903155903614817901642660928532312) 33,
      dec (960208152134830030852778840687651) 33,
      dec (99240684384358440318901767025326) 32]
  | _ => []

/-- The entries written by `legendre_nodes_1D(a, num)`, elements/elements.cpp:667-911, in order of the index. -/
noncomputable def legNodes : ℕ → List ℝ
  | n => (legNodesQ n).map (fun q : ℚ => (q : ℝ))

/-- Rational entries of `legendre_weights_1D`, elements/elements.cpp:914-1158. -/
def legWeightsQ : ℕ → List ℚ
  | 1 => [2]
  | 2 => [1,
      1]
  | 3 => [dec (555555555555555555555555555555555) 33,
      dec (888888888888888888888888888888888) 33,
      dec (555555555555555555555555555555555) 33]
  | 4 => [dec (347854845137453857373063949221999) 33,
      dec (652145154862546142626936050778) 30,
      dec (652145154862546142626936050778) 30,
      dec (347854845137453857373063949221999) 33]
  | 5 => [dec (236926885056189087514264040719917) 33,
      dec (478628670499366468041291514835638) 33,
      dec (568888888888888888888888888888888) 33,
      dec (478628670499366468041291514835638) 33,
      dec (236926885056189087514264040719917) 33]
  | 6 => [dec (171324492379170345040296142172732) 33,
      dec (360761573048138607569833513837716) 33,
      dec (46791393457269104738987034398955) 32,
      dec (46791393457269104738987034398955) 32,
      dec (360761573048138607569833513837716) 33,
      dec (171324492379170345040296142172732) 33]
  | 7 => [dec (129484966168869693270611432679082) 33,
      dec (279705391489276667901467771423779) 33,
      dec (381830050505118944950369775488975) 33,
      dec (417959183673469387755102040816326) 33,
      dec (381830050505118944950369775488975) 33,
      dec (279705391489276667901467771423779) 33,
      dec (129484966168869693270611432679082) 33]
  | 8 => [dec (101228536290376259152531354309962) 33,
      dec (22238103445337447054435599442624) 32,
      dec (313706645877887287337962201986601) 33,
      dec (362683783378361982965150449277195) 33,
      dec (362683783378361982965150449277195) 33,
      dec (313706645877887287337962201986601) 33,
      dec (22238103445337447054435599442624) 32,
      dec (101228536290376259152531354309962) 33]
  | 9 => [dec (81274388361574411971892158110523) 33,
      dec (180648160694857404058472031242912) 33,
      dec (260610696402935462318742869418632) 33,
      dec (312347077040002840068630406584443) 33,
      dec (330239355001259763164525069286974) 33,
      dec (312347077040002840068630406584443) 33,
      dec (260610696402935462318742869418632) 33,
      dec (180648160694857404058472031242912) 33,
      dec (81274388361574411971892158110523) 33]
  | 10 => [dec (66671344308688137593568809893331) 33,
      dec (149451349150580593145776339657697) 33,
      dec (219086362515982043995534934228163) 33,
      dec (269266719309996355091226921569469) 33,
      dec (295524224714752870173892994651338) 33,
      dec (295524224714752870173892994651338) 33,
      dec (269266719309996355091226921569469) 33,
      dec (219086362515982043995534934228163) 33,
      dec (149451349150580593145776339657697) 33,
      dec (66671344308688137593568809893331) 33]
  | 11 => [dec (55668567116173666482753720442548) 33,
      dec (12558036946490462463469429922394) 32,
      dec (186290210927734251426097641431655) 33,
      dec (233193764591990479918523704843175) 33,
      dec (262804544510246662180688869890509) 33,
      dec (272925086777900630714483528336342) 33,
      dec (262804544510246662180688869890509) 33,
      dec (233193764591990479918523704843175) 33,
      dec (186290210927734251426097641431655) 33,
      dec (12558036946490462463469429922394) 32,
      dec (55668567116173666482753720442548) 33]
  | 12 => [dec (4717533638651182719461596148501) 32,
      dec (10693932599531843096025471819399) 32,
      dec (16007832854334622633465252954335) 32,
      dec (20316742672306592174906445580979) 32,
      dec (23349253653835480876084989892487) 32,
      dec (24914704581340278500056243604295) 32,
      dec (24914704581340278500056243604295) 32,
      dec (23349253653835480876084989892487) 32,
      dec (20316742672306592174906445580979) 32,
      dec (16007832854334622633465252954335) 32,
      dec (10693932599531843096025471819399) 32,
      dec (4717533638651182719461596148501) 32]
  | 13 => [dec (4048400476531587952002159220098) 32,
      dec (9212149983772844791442177595379) 32,
      dec (13887351021978723846360177686887) 32,
      dec (17814598076194573828004669199609) 32,
      dec (20781604753688850231252321930605) 32,
      dec (22628318026289723841209018603977) 32,
      dec (23255155323087391019458951526883) 32,
      dec (22628318026289723841209018603977) 32,
      dec (20781604753688850231252321930605) 32,
      dec (17814598076194573828004669199609) 32,
      dec (13887351021978723846360177686887) 32,
      dec (9212149983772844791442177595379) 32,
      dec (4048400476531587952002159220098) 32]
  | 14 => [dec (3511946033175186303183287613819) 32,
      dec (8015808715976020980563327706285) 32,
      dec (12151857068790318468941480907247) 32,
      dec (15720316715819353456960193862384) 32,
      dec (18553839747793781374171659012515) 32,
      dec (20519846372129560396592406566121) 32,
      dec (21526385346315779019587644331626) 32,
      dec (21526385346315779019587644331626) 32,
      dec (20519846372129560396592406566121) 32,
      dec (18553839747793781374171659012515) 32,
      dec (15720316715819353456960193862384) 32,
      dec (12151857068790318468941480907247) 32,
      dec (8015808715976020980563327706285) 32,
      dec (3511946033175186303183287613819) 32]
  | 15 => [dec (307532419961172683546283935772) 31,
      dec (7036604748810812470926741645066) 32,
      dec (10715922046717193501186954668586) 32,
      dec (13957067792615431444780479451102) 32,
      dec (1662692058169939335532008604812) 31,
      dec (18616100001556221102680056186642) 32,
      dec (19843148532711157645611832644383) 32,
      dec (20257824192556127288062019996751) 32,
      dec (19843148532711157645611832644383) 32,
      dec (18616100001556221102680056186642) 32,
      dec (1662692058169939335532008604812) 31,
      dec (13957067792615431444780479451102) 32,
      dec (10715922046717193501186954668586) 32,
      dec (7036604748810812470926741645066) 32,
      dec (307532419961172683546283935772) 31]
  | 16 => [dec (2715245941175409485178057245601) 32,
      dec (6225352393864789286284383699437) 32,
      dec (9515851168249278480992510760224) 32,
      dec (12462897125553387205247628219201) 32,
      dec (14959598881657673208150173054747) 32,
      dec (16915651939500253818931207903035) 32,
      dec (18260341504492358886676366796921) 32,
      dec (18945061045506849628539672320828) 32,
      dec (18945061045506849628539672320828) 32,
      dec (18260341504492358886676366796921) 32,
      dec (16915651939500253818931207903035) 32,
      dec (14959598881657673208150173054747) 32,
      dec (12462897125553387205247628219201) 32,
      dec (9515851168249278480992510760224) 32,
      dec (6225352393864789286284383699437) 32,
      dec (2715245941175409485178057245601) 32]
  | 17 => [dec (2414830286854793196011002628756) 32,
      dec (5545952937398720112944016535824) 32,
      dec (8503614831717918088353537019106) 32,
      dec (11188384719340397109478838562635) 32,
      dec (13513636846852547328631998170235) 32,
      dec (15404576107681028808143159480195) 32,
      dec (16800410215645004450997066378832) 32,
      dec (17656270536699264632527099011319) 32,
      dec (17944647035620652545826564426188) 32,
      dec (17656270536699264632527099011319) 32,
      dec (16800410215645004450997066378832) 32,
      dec (15404576107681028808143159480195) 32,
      dec (13513636846852547328631998170235) 32,
      dec (11188384719340397109478838562635) 32,
      dec (8503614831717918088353537019106) 32,
      dec (5545952937398720112944016535824) 32,
      dec (2414830286854793196011002628756) 32]
  | 18 => [dec (2161601352648331031334271026645) 32,
      dec (4971454889496979645333494620263) 32,
      dec (7642573025488905652912967761663) 32,
      dec (10094204410628716556281398492483) 32,
      dec (1225552067114784601845191268002) 31,
      dec (14064291467065065120473130375194) 32,
      dec (15468467512626524492541800383637) 32,
      dec (16427648374583272298605377646592) 32,
      dec (16914238296314359184065647013498) 32,
      dec (16914238296314359184065647013498) 32,
      dec (16427648374583272298605377646592) 32,
      dec (15468467512626524492541800383637) 32,
      dec (14064291467065065120473130375194) 32,
      dec (1225552067114784601845191268002) 31,
      dec (10094204410628716556281398492483) 32,
      dec (7642573025488905652912967761663) 32,
      dec (4971454889496979645333494620263) 32,
      dec (2161601352648331031334271026645) 32]
  | 19 => [dec (1946178822972647703631204146443) 32,
      dec (4481422676569960033283815740199) 32,
      dec (6904454273764122658070825800601) 32,
      dec (9149002162244999946446209412383) 32,
      dec (11156664554733399471602390168176) 32,
      dec (12875396253933622767551578485687) 32,
      dec (1426067021736066117757461094419) 31,
      dec (15276604206585966677885540089766) 32,
      dec (15896884339395434764995643946504) 32,
      dec (16105444984878369597916362532091) 32,
      dec (15896884339395434764995643946504) 32,
      dec (15276604206585966677885540089766) 32,
      dec (1426067021736066117757461094419) 31,
      dec (12875396253933622767551578485687) 32,
      dec (11156664554733399471602390168176) 32,
      dec (9149002162244999946446209412383) 32,
      dec (6904454273764122658070825800601) 32,
      dec (4481422676569960033283815740199) 32,
      dec (1946178822972647703631204146443) 32]
  | _ => []

/-- The entries written by `legendre_weights_1D(a, num)`, elements/elements.cpp:914-1158, in order of the index. -/
noncomputable def legWeights : ℕ → List ℝ
  | n => (legWeightsQ n).map (fun q : ℚ => (q : ℝ))

/-- Sequential assignments `a(0) = ..., a(1) = ..., ...`. -/
noncomputable def assign (l : List ℝ) (a : Arr ℝ) : Option (Arr ℝ) := loopM l.length (fun i a => a.set i (l.getD i 0)) a

/-- `lobatto_nodes_1D(a, num)` (also `lobatto_nodes_1D_tmp`, swage/swage.cpp:63-327): for a `num` without
table nothing is written. -/
noncomputable def lobatto_nodes_1D (num : ℕ) (a : Arr ℝ) : Option (Arr ℝ) := assign (lobNodes num) a
/-- `lobatto_weights_1D(a, num)`. -/
noncomputable def lobatto_weights_1D (num : ℕ) (a : Arr ℝ) : Option (Arr ℝ) := assign (lobWeights num) a
/-- `legendre_nodes_1D(a, num)`. -/
noncomputable def legendre_nodes_1D (num : ℕ) (a : Arr ℝ) : Option (Arr ℝ) := assign (legNodes num) a
/-- `legendre_weights_1D(a, num)`. -/
noncomputable def legendre_weights_1D (num : ℕ) (a : Arr ℝ) : Option (Arr ℝ) := assign (legWeights num) a

end Verif.Quad
