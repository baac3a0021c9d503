import Verif.Proofs.EstCheck

/-! # Certificates for the floating point estimates, part 3

Generated: the last two arguments of `segCheck` hold the block lengths. -/

namespace NumPrime

theorem estSeg10 : segCheck 914369 1088690 72318 84898 381 269
    8843080619619488328891994103339104147261528672251622338976215305357047966735958561561788153036070950914552184430026482560097365143261440796721093117633690999124131193494484210057568023180820244685494256538011645473532550340983297806331022258651582879620335658183439144901192258464661695404605083354174869019165277535989926153011688818528415034380654715776963531179481062995886411033443264772591830308987097583677695536692267900305963964401816135749080356017066506605653127813755500940897657524056794615361673833640976499228355457394355216587633905290756696099771729350198865832994860236163906539838854484525474339015825900497551917165730832812569566422277724187870818106923111976556140857816327117837899066503726751791617837385776215064757043275311997354649602865871017686732006508098469030446589650870286955661414231595047942444594485592323098812945186750310265943762785241412453728241334858500392890664973136126344824623888528852972838795559866407105057146506842449584444874051091073270800863423924085254769352050899754182850110767942107634319419419708436891548065970238552480607986512982113285839230773622968666867574211595641976610879334519995176181343913035855338985873075279561155579882580016563749465137765745839145434388779831179043560686219802509863857097863745873027138752528968556896892854959590511305850280826441176524499349744790241835918900183864569351381978865360620423898165831135193081721634151661044215820924430648966423375877949299636555482840586828044143706489172664512975428773290276398906993728530804090415680957061551100658247648668288526163827068553146854607954884413209319298738068962565751867166269925086485755069620229154555010075012622236908898995997451402763514860537744959838818271724
    279879137616323642786115525566361712623123248479652334975590106663331875609367753219919132917021264015732683162183784414060145582300281079428074249711925853456474779875442540434100717975574798565608195133010917475611168553795696119939309399964935297608048633468437034106715486812211827607427004387124466229960672708223904384518741267081530582964346748644409795759978132812310244925154146133852205971314117252004669762923974115629079102307491653131632158284635289080242223303716595891517405801601462884931106908611177352999613078297980701502939890852538134872687678727138321606786314174646905561843123117110731842045510088433941277106614982993559648173351166733745831081513674191719932385231117371915063065439390412163545358516339265991448483906852102231117840560362872440770878517410881316864055381940781949208454496429951097688760388258741785589421802533165672795721214369908265370154117663689577371594946102798580851628751176863876417605614457088079485876190604655365299011523037645686828242475656899118887833850113379863427135211301777748344321852065654730669220009655205746745242135094530787076747598179204805629577407811049527569160762460095759482400207178842702992268695249309897361532743238982404274403857444362181597541124401833739505607800022426383890674793840771183022251982799445554591149009246543201967704943819880441808525803796791226958037916586850934846337874656175359060317246067477290165716334188450589382444817041961495088787901532617580995440108941048983210060379679862347927542884262254750411617472676392432659192566821589434124360208927106435973988250779704853476482539018556538645588736212493953012619221437565986214880452337810824056795523518643078436601113172717511326800560079681405894055465968991375715471930874943462472889155035184141161477846909164529667369941454265414942881113065492905580509659094171345451113175593150830206834771522165591510656004095760034012469355451851387019188192793938657988513142770510936576117662401358033445031461972126052799622620905083287852840300658381416468846496542755564711832020806986214670855677055004981510274675768892112644157789150994715993382623556725883707522974756207961514790630439661275830245042547309569865253511772160437134114418568516868961304028207719373138114593844930085258865141943940229018699202391164991244704919657623678240104613271335660198975410728241319693460540216938093544885147036056693941464154460099038124846932479430578681545526 = true := by
  decide +kernel

theorem estSeg11 : segCheck 1088690 1278799 84898 98520 409 245
    36960160295349525417163547903626014235923899783679443402173048901468961414027162476633241498627899806145918685286433451099727698370037219774074789667973272849640137983642824890171829458647107721251403806280731093179100331878736365776620660493055609720665081139555243145963608797779377110455127141293301960150542429449765799542689946336155934920114174305012386721913889257227100163099853546141337679498840123527410282815270569839801321241660046860846682875142247256175898157787185040409640228980698960049470749916620843905759966278121812306461426350025938689338260612801358652238348896090518458091103009569703336924342432766564339278550246799912265759795846116663084151923683810450416695738930005453402373262879481466242111527608890584873293235575025383800289792557535358188381165301456223135247507488955412988501830486698722224089541217726145291800541783682405144735351074949376881988874207857065398758012816459480645774705115751674292541837629257542821152898728284670375195765886539885955084547824327805085812019684753778135178417037358283826531923725982536989632987879351973237570667339765224215730066179267811683073230426650471156143837391460796653851334147510061395169651460868217651440591527927418481781044356379454176875954036548313800313972443431517233857901943436645545282530987702433210723077346644839593409260997452198208202426962260121562133007862223134826167628689480516787938581767591664868382599797794630130671058086840546523418366249390894924866613890009613467835613656274152823690256462332729069703864593064396564919151180875912855319015917994465172316174248711596685538970094374884522229063626998118557230915493559619220357035516649991005698162743198179241900851442909311809325935395324572782422377157825388226903325702283530177706275061537812074352803266605096436257393984289582327623356992611042415015474090596813782090169
    928167326586752455013977666436900269984649940501875128962950710401478369294799382040131101294107656690847646223758367458347567468004461265266990539453974142365025592027529323475851074360025908231474907529707914617549421137800685333497604451596269117174906051698029689972164284601210322955994414410136000527027832074164242998436817782636826977450039143243139698162760956635998915088029761297030084840934268381416028609540303288881929573135056552154953460284445889570726840844621065338742971121879032859780671331821455665684668144508267322864944506509667084936289997277947181919501841809258234216016184545241202303503648591151136543225724706455017507672281759611006504356969860592204668237150929108757572137508470831019181666768826061347338330460643565005265167167034022492728473890758912354964955748623663034537242321262962237762326548303355357387010650821074947997959216876946428305664989379273226308242525637932563071517765415312225671737546436239772395338467860286180851123652880475531022114134836693470168201706449128833993088890600879687249302511068586689975895078212042027786312773288334999565855607550719367722069746066063862173355776158459664441866154704482128227124734725360471389379283899873549655816268430918396790062806585585511669928814921675799452628189021717025619821827426005397928801865904341267031777237793132749439411820632059133490440957105162731348760563452569211657043883850356912912197746594351979911302320141526087904250230792149600881269652163838981450288642077982471109281345056627260727493423458700268070934508796935869769015930514296831962036467209061013503146005606919608742961096861151051621840302080302987091598952494496898275317763506365775178935221684075218731914834544875989330279973474406911971750303229603600078957883506064531549585989222398020140436643217656967760951887239407514585856907437940000542796679308270157846606265275479520666452434625714062774809863198966979832312330241972318563896252055643275426763824842975613491300650940919771615128475518946042914227273868173494398075848525218297344146807847191331189634968988763657347199891280356922474292568179330602799223326240602692289724386241868575499648090973561999233486123615799170488648654266289053098835971 = true := by
  decide +kernel

theorem estSeg12 : segCheck 1278799 1519163 98520 115530 403 249
    6001199942156226440578932683840453563539151333926747922504038108103913157826331962611704487125495608380637322842142355038822313465751222934632630335635078462694555202714176948891874312063170156796783226935699581409164501055362735833682858102232471355217285128279085136325945859770280216418954907327686399861118551587322848199108322653272337334822552793186761650492333078099109516709582546332254838817317960677998946938233552052109451592771270173849155841038298091339897876663543503802563678318441882471156324011040353531938220207992474634194542391320507744451288050606110572669959251434744383369250979445812501056069451268190840768307850437369916964365800236320376199574579363892706377183518175818278070140233348922532871907607828619428243244970834923452660076851701378406508444279270674101752997378967144011661163325076111629812851880023283720725307396974081817672539158707941664252589563504561047494441435875366500471220970709494868230125056853140800924588897099395118919542032720502212409663801208828143771507503131404217773615038173691294952806921828425345842891958403437161960856624713139450979134671910251394905190576798799711764229122900699614452152725651450933948781099461186268239207290827528673290665739312658517189813725491071376475982573347844604384888645126781632687856515078956154050592422732121495593913203812106005692073211015331728474097485427372903881066194855624520108234488767418279361080008757300725957135374753118269131258945598647722698101759140675981416262559139158560296538692828881588722888201672420614082987221407625592702298519017908248397816322991112888029142479244311381617146301626291091686852814683071530755387124614288061720877845162542778438765417587759997941900687840664963588223521683764580314135137005990967093870618416658594055608369057492279522218056672093890236412911878772
    930227401689053415560941970287640278113440492552547858929289256310091062752726127426696176088063142703514576651510626919219333393249015311229330756995297586024804982670163676792660321882423511003441952688052193848628314129563899500444137989831539733995060369747382046147405480755064639803433462035158455210370736116016896694015467389732302578490323791564726048290138117740928345686890367883694096879146492032197896143360684994502668156239666685962459939781524161276058009109153776749535625788178207141243215330204736470696756568351611467614644928538534307071822234212216136731617570650848669986537701294292664881259979401313606319353284398165497649669680222902526336947877963497687149469880024154836581075441386424952815039440161952487639047821162268777688679209363185894226133054905002005912115795585877272526984975879732612211914601518449773976140218523394551572253754999479634845713717913733612085726807571721683310665052535678424870809082200102180114214939151343222776969851144134360496381142373252567950609829063609627987705487767178685500031639432720474857628799990752568295434110985513518444994587612405645514892477571292556447240229608813545271950002120030898793563594761371414277886492696360886133664198471161712213239516123165100678757132336818154420103633115551164915212322825218142993731900819652060505184688683151415700241598113120946076041146720578208910078283721185380084273051723429389432407524119849444792888906754597624702994591161217122532060561723288771137564832044032926481301547037326823150364752904408562432302526743296968282603392475947550355925782433710980129601801071182543699460929326924284685059951709480612000721866468059500397897954388052676675067694702742352713788321702803509990383073412026354938994674416228620286762239149816294962939191841806176270743208703470928729779994290331859771790908425007378457667182442748449897280987455915005689031197371516208598560315587748560334526771601755169571725819592357276579323771544114750656334606124471217946385377402297826019711417223460068689643287287348514928735235750857983998307056070580422139918026820747135605709276527047415915939511200903840395355537882821990975599482963643606404059332879739275792294557814070287432224360630541178746180333980379779168142300 = true := by
  decide +kernel

theorem estSeg13 : segCheck 1519163 1820344 115530 136473 371 280
    14758962319977775435842665800856362540840976765256533147847141843299217151267749355725830199027319217861245775003794217943343346998334147663729905363406201246907644663127927351037089659015070985368042431308274467885289835322197457933300859501762458344646910119550560851381594787040400914319500106890711290975211240992795162971055734210478274766607735423392613459966716620624967378706836215040723789126480118872764088507892772412301702956457772001380372267319172920518131353561669889796637706851258397022005355186579992112892982496848995080535156899267609286489588644031713783874711217432085756130444942614028995570424213558399400600842057623246387381074004032767742895642295713773379617071019783335065055248757784681322691514851637433639458057891683610703605924837453851251462298994246571417108214380983171012540901079706514318945617463495950675978649469151250882423151821255719675954554215906899953442267174071224103729898772825445997171785705024079118511886874563583380950520811694672764994216847603287909870337328313582250530064633001183754440914601995248934313712834848883617871484093699287335464652233323420722357488497638819770610505514930668812056757903046736576078993686915640712972629083462327070829323617624723024140797213553110414488029253763214503039044121678825698006791810980296594426993696998248941723515361778868634831488821566103593948355010705120639743126292955943235810517264606426128158607744661028241395263493002104073032132210260705598533632623080200385295440562619068880419802260320329904961281262178418001390058780548774644874707062351631474274653359904852204303707467585550008876134181803109869127441768001047487641119964961564584495472808362254
    3928057829369006313538334603717317831377937047105061931095111875839396703723268947653830802416803300310813661108534914820181686989389705650147629461693262740139162669111520226021655467795584596716978658550138415185276705411900214098166779889249233686272756848525677195447865235629087273804199665991428285057586475950263892250126125447519923155313539175824877703104569255554886272188330935711406512093373531459327033420488637491296897620587576322851089885537187417747754560117869522768606043112423709734220935212725699730832181662436837034476443744549586151074882716597536350614544701666172699796927748813009883547974011169747663945259193936035679153906499784062998166278394830359206082615246900623362229821164194650664642813553596471779221150038207562419833478208962357235613534048603829466449468357471488742012781816485058614192430129167191396345272834000165880777824391812955654312169957128729483236003166713601249320826036567799589549412328786446097601277680101878474312301698521925981222793025849206569665397252833369867246926378583016347970409380191756790240004363650563956487710684247605087936345489411630149780024788884873240029567852772700891340997142683364910218205834355981551647375975821675929562217068122280304340003446931961998331937629990221312863045867961311387261183196229448962152995039860403972104759721101052494656596491523465149507284715134162545305648922382812491856642763567185705728201856222436663284476034640128168174668890954226378343977324082154812028044264453356662809805552384912897892582487040138262063241528419665480332005868224310107187021488547244856425175656349618398097000771290856240915372218590514604426262867562098846256321181486066110236253121848474435312744677682191106277628694119174709921839826064589475883393476025325364226249907864058545117256037735631121254670351432596022610688922214150915149214580720295700362800332440163113447226337077781581172935618947980941154374745488040183350019821975062041619647207205254016856851042567512834149601805134548865855749638079084551987666229075590209806331027501453638113990078902477222714770574460435636057277072305251604326248818919085484122554773914819962979581205550742851704421036302440732647892025584362647957115610559046357909392240417770065471001383058905641341432689863177860806995024107550223102919535040192850920133565041459184263294396324473973891148628264570224830048754723105093286403881442797405926184622626958556776992480320438915810721171867907172235996062556652504409508289808018922423066758359053030095507493061853810 = true := by
  decide +kernel

end NumPrime
