import Verif.Proofs.EstCheck

/-! # Certificates for the floating point estimates, part 5

Generated: the last two arguments of `segCheck` hold the block lengths. -/

namespace NumPrime

theorem estSeg19 : segCheck 3090959 3336616 222898 239324 392 258
    845170306728000858221868879772529452513932714779012666199248312061299668426208131617451745864571298834858551559986958442941234259836005176131460905219988742309905839106364771166116361931553132546302376178870650394236493011278948149623209904671799809071122863901992753364262494714604452985317811387145363913184261327310875377985855402283218730677199242610628751108230270966886729360129153880789717130169223861596320103191029475862393175307330708353523443987961752702558618967988414837905230931036295440732115334987162063409629504571761037304955903314194694929035459701235979006750748671707948470349009166987546123171104218585437156055776753608143314096967389568316080937934937952359052079247264255953593977757403012062953296083455770282646110972801482347538575693115246386655440814659064643951390101829410923377849222676292992393947002938106544667819909990777993436979034367663370583983872355053645240898228178186358756871221054310703943107166842839830341567832906940938824998921229547095492157610620033773276380605312363451848113453960355468669072865044917061439296243983697455112018221581668551386932963457576111779755036841266014414343324224424458020668706355689452371840329695133219058375563587494855428919241483524021294197203531637999692185858513990758537553427866889975112641236566828174208179833561667979482772903442687239687437782276920556587711753650508358790621548881606664477189403407932168008163801059423601449601131591883898001247799665582547840528628393058011727134915842518523441609460907597028462759057403919192664468158657899472970929079434994175649797042242620424964287434944415161650916175516092639982151730636283639458737097793740701728121801679524437085206158073885140338830183225154510783490209931637320510636100240781762050987157770021045336
    3284284399496547625078259734351341091786443494178249695007433032243447833886389212745073009779610833022420802487886620250837812577313914289820417892966479845559667760193355201079831287362965683279500806718457643986629033492412849377400045667638158038869487217908250104163484379114699656721379019800911626656101389262464940521459416026618206428326307407278074864031610326021268051401104303736730297123262196278442176746059210090260492825427538067115105651657305796568641574869689409891272530539917152468112264314911406602007081717152954516537414214120542353442017400104630804659553677433921660454044971792088297366918142804713480680798206165940600915659834974456873652257120845480781080155811140084923514605841436632219192131974650781459128571069787283111917381918319266471553579878474370449152666461193272259592292230655019747670102893770112833760559220023027217285361915699252866365792719742430920490001176270952468242433015414652972654740284814103639502770724281606073073720807867592398966745842358353333991100783137348675152992757268216496712188686641789690971250732230744916842230289264366237709089625076952073738468032240648488195453702756541652618258033327548840148073878744734140055651653836618738266603629696197122437231360112688208960816110184555885449876912006774523044465619949097888003293767419632002998388112322690009361800983586876038709826050637621977057765830962392227194526627203702612613927146383850280204170447106778114297917114451711315118192882928611493724092697086352143138884490968833768174625545322766060138923051361593731703485047906056496367297675340009319639554420170514449620948790393651836761836011737676083436468010738592692036363569513288074202608729078866378910476847101501282181240792553605333003719952291878091225086447327026047679522172917387556111774279272478788787445291174434235823045150402719183716049575257851001390043815698049033047737072874767195488444697355387749037031303528251522071584755136564572917674546684889877522783298479696363364252856142836986299606493611521691673045704063913436436093467391051638617431746792616219576989513773221277662613232992840986311300417305186831570872376423749702348190203379938394199096116825626836847352144249101620398025065065399638386015604600651419470369422616477363751805898011104116063404646850261448492971646379686822352550822472188744 = true := by
  decide +kernel

theorem estSeg20 : segCheck 3336616 3560927 239324 254137 367 286
    6959324839993266668844680227411078552892356763453758704209249568664029491097658300160023666418776956112556456537350857083587335617475339160629365360885811884083896443698267574857627824935086317483531996124594122690816564112745510430591695059523974287215332136439975207306985635345096841904321439795858472971124132811438866975882092674266668677442942662515670798607543037033364413095216142179140279666376986458165508761239078111793767359994076357170897585696069683756162971256677433164252933190113017924406096795267008256555718489064324070421230332862479496512837024254771749800025479781476590321954948307578900026688923063046159595171529786202849546276750106153533300221460863268192110789427864882600419554995191232122748465958657985088268988158421507014013342502212361738568627826681374206502520891153711224639280628453506908050910021287714243099879012035183020068941056042409807555570790376738732952954075136702782003330363562288561661653024524775010243756035542916644175852574618771763974784729149815975895645064394524967277244877751398957952579850845626940340792227283686576492845749982809937546714182145312325056062188069531263628706507159158094987980586988105093372292479896085414250348194487165621421669153295423737036344319010535024484129880621308558109665517447732146255268253845292350189557506540317253727277102246478743928048227134228912679165253688204360427275375805814938387997936450243478948104587909176802060192617635364577501706953837814870716055249447544817614393736517491959195808822686609295435816423198925984496451663023724773472123599157179303594683103297670827625139231143399423948878337561777451177372780522892618674447765865213
    6527902587699026273961643846491264951356259145393673268531357621100032049533856895426585200795445210380306702864007307078897629643893392502236973362045552847037074085135910772389978505916651901632024666238348918976728783617486320041546296966451978307709884770998904616542880546586806820274975490488778947361372504890619410637025814173536995173051158563380298835655052386856735318312368991729265720389623814196930419882383541220663069123757481483097990105947924950532910501773547494068621948253100135523318353658607719174132948475812491419621374487010236688029336763204235386229795201838851050441467676166466305914550722671404449502795613333277466873902569700551103428798933840260570084638721719749853704938192251427517477127770316176171258796923797342936433880937198594148658683876567344753880561056208958411621054173044931225825551363653643758163188281460194357827860165078936258427785516536927314972475105488301208138197138179600539083729218329108084922385407779841515213866792421831838795791127270869449646834857314305267728059987874752272160808186622156343911796210806492841087926200094678577085877313855030788467675514339565106394134577076823709863381777264868507761564160996429346067383738497989930747889892968532834673085578038531136178850454864430001968658172722458586488133603722841562083597562212693056117058100786468066218116154488570619237233877191653823883237475552197417451854195938539989589255560170587860679543832419613345026927889195521443945705529396759256546741605097489469228361863972238782198536630581506867474070619316129273341332333431892527385345054886320656686275231168146316044585298782419751345355734534389617254481730805623079201928574492971253528384260200178783768464208518246497476947789820980631680107314187168952904329336789662465174955942296232269284501967198916299646036228218549257907861143373088054779288866145990753130590248653480511874433076084287370062542087541172174723306746944197562210926046216565987231934559337477907155308670451969422805569632829078686181241597532982730022619897173929323452125255386807650700880375060984179411769111306843981183572694951965026928265125581044593410832688583143930913090719695736871737602549531673329330333436652420864956198407009838866710987928394893129546659592573808685964763399312428640387262405881447405021496768795487538426460217014905727261684044107897412787749717234766207924255222166643133899759406004920805972350227301066695260045159331101038722146594026312645935655752786463741013104768763524235720961937378094028311656931709863274993854155694243847947046200090186012752475532436701185 = true := by
  decide +kernel

theorem estSeg21 : segCheck 3560927 3849529 254137 273293 216 436
    692386414317754505200958930283515923228060824152134909156747626850128156170799741555167925569084681026770870571106091078280671327630322855984901414286448726079200536963279382078779715802299189829680992610275737112687316065182152462996621814521827500201506469717963208828522411676403151496363269636972423588509420489009807210065942505721136919385516345142552353577172224435933794409943787852323309997892556060637107068433252036963528465560585007399284367235421131250068873572949777095265337686708937289784676533665509345852377367566132637101001276549208441389424930644962933089640286992940441369214368819172671032213970995467696924733455266278453275415624889388671632022291868273109031026880115053491692559708177162281544944132263705095844008592650925191338767400223823356856553022677542486634476348422771604374904602878227947710514782818588041020847758106271098010805792105586084164004217746484002678303030070784947743127529880034925758605954733053498464093932395825000
    809614075425127581129676002599827515766252611591741994828738876684850073896382068475362659896495583176821697954255713614138028388342070632828073673828248850468958512448175114056724214523258263739372025672905546471810883000219483748133953089661439316508287861286402201450805438978850079764470366314247795830005059197716485527067364162738806249235565300198847250339774777452478673619084774093934693175209325394515549808209169817324739030959571155029308001461158851874759557745217647654726637533602118212642355924930605900079992323507641911766509603662531741705113071803887557174047729604794262713761500400772189056727682170472642827666098100238906639751078037562815693195555198213696440946823668148325674841190112025870060358059260964764496296357702012326872247644842862518182268036656783484706134081048591562835674970154676310852910289265506177022437369191593705358215792023001111199558360997170869249885446509876475714469531596462992389729984289455515330823038118126964436405988975088236008689787122470501805561722862477598069353579474557528496530422130082013208596853149692133896730014581758700675008185574785134942207900378126703206134101148142171413699662135260783329634080226758815130586568949211781343840592567935970724462121943511697969371159810730982607551874590573352296042412365207827971913424466839211265111582902108218037593967699948249882117437888942218789452711054564252524857732983737763062286834100103039324296573820381436577843385672202067821382178328752884363694078689276094524793224221293710307127421902415745136476732739832724794672757457027393407304298601734752481793077370184047514546382998143278132358765393990952829045804808053966982954395174901713475858377078272700739591670534935677753567388347179345526011232886095665256744536103243565585601035134953181383957610542612849448055258013503142524988375532773253290840601308718338735569903440182908787857069612799151916130777152267274407105564508801318763805987014160693643374689924312920980564438023771034812720672181760060238596898142000813813473408962664794640102357446645484047643159473768058898006577732196233075568104668796906369209327350061021905268994987183714396409859107145103383922334805291411432996429446127737578121317604554151177656469027936807917228972845145770399640460173103758300736367108490041012152492817297009014742248052202790080373976065098702584637822113591114868848739568200214863693475768871343738295069880528796602806575119301983407983078865324044516822530043560459106116694967267393118760169317899204785004060025384929516774095957392730271728920647816359949948873489504601519849706203558358879259396718992322049970706257796100013818447112291021813797840662335165323952600211263227902566476425589008166123304323685396972991128824169445617018089482276607332877928366907345956274381127501816864803205837981552499188912373437398359273383580396808279723218037334024394683948151079234848344817640768167491515374636387001778979152279077170976585867068544847187952025075794174052154539730734116873491280319031181393635700114292341761782672905071451463995880413143047865566322825885201964307606669113342589994971542059342106670137764347240653829370629414671256095299876922549374063867734141747438907236641311356623972246695637481650173738996025481137368180515113943757017735240385810676124816759282240416057468158433386694236795424360626265363762324915140018513134672972658345780673511443904898667841243782122530815086306078495453345036387516568570268717499697158680660825032190165834369954791239407211518112023641328872413539530009697533776356428813757850668945027467816528343850986370234992816951073762390453466115357501638110465898083644591082969997792973433833991746097320004840049950284553244634745067096784399847745593046259346159548970434918543873766327934506822552621232782856279335533365285236756385801618462282309335576165420608318831343598373194183256199162718064511356011749505259500994376745397859932470388279118049909211430 = true := by
  decide +kernel

theorem estSeg22 : segCheck 3849529 4249529 273293 299548 329 299
    2239338230111257472154567791823458941737467181503036873787714345432672399550980472394083231082786954484364009264367146476056174233612012972117219234654655829631262028628324819448295198411624661934217108633753924913579250568323356910649720594692233533934654518127256199118191608996330101817327079587666928992832788985528399102863772769043916112536897773677560008367335872791880474347506609669113307336110301232655082526643927221835972583026114843086494200178994696442429401605556218325355103415307595178567356665061511787134356145371930223672609884022172191953466038600972693611496216487181251361867802357095891487498598551022714161090138258224921339820213666908866535602644534541781708122672058071104668492222723965878847079349735123934180591108890042183255547483349563165952683402387949105053920313303563527868008047734041106177269205510875563861552891022346534130496136081787051704559003119715661244233461301072229496123049047195475031185240150623656082842882583170680475443881966723247012811714120546883005246043271812115182400443851592683166473378627676794478547428321964027103075906328143462501833321029981304939058073932654290261904045391546589257376199809935739352720779580058724626380524211784709593673454357178595724317794805192974033829589547272785559500719975520501335246436352813868753606879853088334298254645465893298937235780531730800305248240367666930021701991076891765407326429064592447048930532967128742435913028215608244348092210401836951472761125617698019410898
    2267170207603332527383314753109580165639598610591235413460746506598180332594054909092889881727476813991426974700869693143950348202389152123048169185603407923844339828290922276650756040060437507611331820436746657987065167812179601089446050960793331452808215572403185172979645935187039023345762470766466580209755180807389138250282114156753195506842970273303155431587435827783368238855685409468063128689353850096270975821316053379380327747834531199484367261801758148915868353846297070884580200799041689676955306991240491837229259208449462619502206388253865671008801804791797542377687886049499996844560504675752140666645813962203843583984124792232808933650656486374521447153458719412331136469199080818910227273839780080161024543146271219173906282534870253860989010774855094016660612497886254279369232048634616878251468770052678808458233222892555168354616794037579045698998740762710042077406242920608807761346534108982764295486034177425973989141062700148521692913557956890522721490847931166036072550367480080199537270701212514677175483373947603194615974856891386620806447570400134849039910467084846992896187268696492139533758069512071887453403531683664240398139535156802501579166220384158975021420522016872281343076990612740460134575196109023863849989761930488813236055320542902360634360591859109185829440183166107354076719482378256379042093876596798401676594985171203142999940072418271542702363844652107066332769982986320004582674689142959386422390401732782926111109452209575063188968872816429590300790186658974022436978519943805037930017657391524335922520101614250762316057845508541797367573872309252302046193166752189045570140010484668819054911651799009948186921885240672983549250652887847548038750115787887307686041849784142633254879368004832733476174701912214056076752193828415475864372188355661148365472842734064788725336794263182313029828705347524402038388703264562102938900855833411742685573608030950374492541676722863632371883799386772228686314537554698330276418539302454972699049783297646662880594225210233743248908727599243541458776240101569102509600156269455855436648264467505840238767497620822682554726079419407300793030012678324426559816793363379505313404701690498713413061077786264338394699008243755178428160011502127359462962709470422435454155204730408238086793603204186713928461603282531697201916670618452800130246528325890375348558034696285437298364233122897810582432355610430999600066105346732850236869808188699480595301379511556887384359130597317333365857592953175738044808526306241906142679733026069817704765865421279677268915656026836026903753408359555339352447642495866799611386060286698315139735920674016175525145310099872500757722262141186268845491901282970819705308780 = true := by
  decide +kernel

end NumPrime
