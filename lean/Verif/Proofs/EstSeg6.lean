import Verif.Proofs.EstCheck

/-! # Certificates for the floating point estimates, part 6

Generated: the last two arguments of `segCheck` hold the block lengths. -/

namespace NumPrime

theorem estSeg23 : segCheck 4249529 4649529 299548 325674 257 373
    62220173989589307322368138105318128363332324634234939946017859246231489748937319870617009838299698724399270039443155698334742037214302610299185890751231497147174457020566243240186739056565615453085103444626619055358842376269927387699549724184289822020024399876033947220387463591354625166903933265632058026729901867785450105181325253507804996397346980952641258485394321340233110722427919690482825937053189435995418453105520200079586290072947914931414254471230740176069344038486010076897829747921068999789948886635800793224150661828253603105949041496959788515239393311293315142765883272678432195771788165979520741133466571514973090305775988783839970505176834085368193751876439618630489965097617339271847424301206717736792636915344556482802913517750000344277362537205626205447607794511480205568083229237049696427738559437764734662670577857105922485379704432334332029481617005029611160103183016572338237987080407146775659651800994074534990406438298915416639462140625973536824319218455765762724068199644763515123725378617708557712684653185725678215037504242113924908554547219581953690278931625642127107979061281246701445415192519177485453407243749928602305862
    11861383034309075290066034866142956208166828430045054329020777217914236568725101060805701256145922361054644831760488757234275940628490113201063708327382180473533126604352033952625191334814357812938376501090469969459593265938075490608301382150717039727140145102674925239187700765242530138096598223362535758780938266847956972170212672181852228666888834974992115174959562180419382821244874137868947775061932719479531977948869947885663986443656186730300215402191943115631690117036516428250498286301247029952062091291879927193634285647373128315583397047385617719095072615613813346623408485873799533725003789764933896244033780311169264587494994886455401265229139336257911263391941359583589524495885835571540758322233622845781169913728396710514522072219913000343917127517006472359067434124425457075077977275659559040935761687682788895605225120796594350303085737412824418309493765808523500298908999424302388349297305189251482556695940340443852863515855671890441887843359058784910524203454413487537285098242060857983352046765488139973733954041849593076034516026572542153189394325334392744395587669391054144347433423924178575617636926662208534927076961874089504724117065858526114038402202746038397014277891278127191354474368507984482757703658370183172736025720739171530573814603848287429127272728721872367495342399937535824826715625419333483300294015088099667441849534766920139815078640872201383185639849012895341860194631680580220922012683217231285344981054219723287943586950257987458326983802322970074170628225807161307148211375846935831674759281463885559396677859875456296902101766628551624334795662703796937270642259901010032448954413146922247260239926961799403254004425850635941640714356445051100043737449885044560500022731815430822555248611028146402897518383914821198856347228823436843728542944331877301536134461370294701973811976082068478996978677054607687472410751794174345808852947467627916640899069594450926883878868754954982646014182498634622399285749768392484750928608938528399317088232277579075351937567918104563764728382130404806511139981316282112109002862099246784047490649604379882881093832113386187049430692792592971126406557519318054279173062045973069568659423250629764138731921751413693485492340855094696781046287872035419276927669558257719988961748360995709222890477509529377813979253622652270165498609479858706160971670341969208887070337499032151768569113812687850189771363935572836327247366735626773497778467890273987716536695745976688296143494111229108485495453935159293460616152717100276202243071730102248842151635904420462914379195592175908813842199626219069721615271709223777033401514428119248798502508069368442441322795236848373990420399372722154888277961599603759715521255915625642058943071870886251003802495574908278763629755747406869472572953105566779060930257371163951042161322575645776345560922319984704053136815643657618408195079585240133561425528285738297695200905027006081334033038753652023148954333669213255776940032417730372438318956798796401287760792805167102229310496319940565238461079780738880496154069191978163438043628064603999196437527985825689807549426794156739186883453716559785777741300926252508239894732413659852624607622546741707394868316189085566425853152548073768950900552242010803580528991238245673738190920796543533964802782923009278382548945085249682028876588862749481580824577723264344590399379740357760796082569224 = true := by
  decide +kernel

theorem estSeg24 : segCheck 4649529 5049529 325674 351688 352 266
    62873653268986326913229136657221058945698611305323609783014192530899802267930897335372511116191532320885788810271516379130297347773224115434214521467177523104327993227371979847309287793323732220133951088994508279761302324418208652921091681298091544302407139305797297706531918787608398950859951923496620059319078517947327963097631128817306336049944183396201898704856730938808089225210926996857734927199523448800977806296242952668857391139687241492439606394051821453942346670056064605636090265478008781412778741073928342785085436163950415594038249788943829801944772165722486371797236416476195651924329037882055576903929051219510616879037562620615558171645166303900945649737105015118297433783248694183114656049026577811069716933704379414827367708169140870527061717374007506948714812628421870102659445837760180830494552951024121168231571070845342599044696938802388776049235241565585806746286965293531106544345489408722379869752793980124302161646696177289638497266460275028738270553738142459262132382640392448719614569835448640791627399043613072973777118168724861915526802968728756985416635487670485057320945717668536847372258014471016865330546009902276091308334084004454625426943040642145881675298433477580177902217761981744540516343342619939880250109503656022727179908787689059594972059806018247010780922305034988696625056466900676199530436574018481569084912871508062002134286789285031870333673471312476271670718146005922273762763420112062702601012225177276364054594756983651462224599031513802765249378070923387784929389895173545565219549694708708413601197585780737213502874538040296938
    5294137659310727574549204514893963984489072373610914373723875578452588608820627431344456413505530986402133103633115762327727611088289519514618048883138962563601531461040407670488234671022510794198802325840528821740442455824821714841002286005947549307930040979301089773092928607915417465167304365333705306660145805667843607318268140492505881251094975189870136662862980331156073535207079317647919851825242142948001609369795197966751467168516664418209551409669039242000914193605903783952498956609141403933881624067819838759687458914565212518831556245688361368135347915574591733061573209779854076979902230036919146182462075438239432757171376409946602743852779955773001863588482930680950359563129336884316161438854460660599580875284479901106754544649420862746608114190191814445689535134855805774650943325270795502258756144542314309987005717533747866847265344335274006296914506640652326794769511240856616034450885867061459725824328545107797375279284225908725551226427278613742059078240264401643034660133408114526129704399103275735114274657842711144955196824750551244917393410922673028517290795523861137854324262317609951024735884914523476454499668618790594482588854341894233621213880621196199549046995193230003114656706777674913995042055956550519625620259490285793914295600353946594877613700264707071993577739682456390523772050394030720842892577333675768280070731637046395765316107945408075519863790391582597229400434600153579377313135572847829220898717908736710776025502105270016060261776137650891403725967457503565382696424270737184699821986241069839516216231750601393034762023605610887692912557118882582549937737646106051302749170284772676980607944577995822678675178100450035987026108741590429704688186193491165242006395215494955934545248566000079820039769339036691473294465749129645586338452237370749608360278764555387668368660194124935517282051293011142793115166681274977982506688871145270860707617831413177962800313120215744496263683829473452521926992660471544291481424093922171010675433247542023092307580388512326859623915616869783483756415771494514157778365148226861117285522534811576927246892013906958093836084774043385532925979394135736961157438846804415785231854322326569684189042747354207377699864250359561630943988673894552909692865536953009462477101293599674196204976757842688525530474307651114555507125009886819702280480331989232568988108208168217865907141426420540823523943033864200 = true := by
  decide +kernel

theorem estSeg25 : segCheck 5049529 5429729 351688 376271 425 224
    95676045126888504459216282552171809423621108199538954755152702739480547967870298942668513974362665103818410224559398552900117276300680097955104257922425439585398599869643683467348400818440390265643816042378836562267972939248442345227388799106823106762326315525944413476052322368685902660407389243831585607973594181889097892691135057212460457997775910951364184614190350775889118427095741710893305906264931140534286189237448430247619058563978976455325949321083810438092768822167285025626050720012649864972218479398968289467995153352729984725525358516374714261621621660561271318721200033998036762279288029414507816401897761035958529705785674958888233157407741885401737281154447968536149303052475714472654510798023268130767346922389669690276024966906057303798440335362287036757027926294810263028654243804782335002552935673103783050155405912286040201509419347175519878894225334230204800938447311593065004387553654009411188953612974262999113195283350063440618832832790675695812049170571809088969400747746128639641741987508940449558934147895666438251017138453167419108419436333654089548951486364393785039494626081550369994971406966663753938958649198404262963086029003646262008320716485843350294683062908079243499982654273442254142541957282512491807919993815812849284739863123883247197988026760070282072059149282118685662718755731715087980066602834166101248308335457798438501309451695428258447232823492899965515740455353878623884255544588026188473276901260460278398265853660434738802869523685905683322175770060371616249471377967919291404593476977767975773740584902768264454296814265231579703243683103191977709198763155874269687266579276416326890086815508784182533151158964657861394998720420039558760842240085029114478047581117273112045745934139815192728241782487824044821963781864234692507683139308079739916997781323670699945773101802502042977774244870778214041421142888694104434967884946799074946488804974002396553970732
    371557603685712234585699958183584235887539545736332944731667758060522641681367864880992729748529269778338908369229805358781706583875096542220917008875302411142308534486773642092937173923276795579895690331140907850583731929223655612288692595174776202927465961677126222912177843130715323382936802774734926147255770223163520319924304316249890630274199763652242276606787640709196805150988822725806377595658924266024355297561852026766220458951430835519149818515054787851416674186726238696806377292234456026549179901047045084488813485966010624223249795327894950444670345832711249767433820698773810188011849416389089156473044861333585093218734655966416647045173031727691572749993479454884729995495705807358652651331825277537191958078676866959504990082086820476767429890974260410901024690295968228965240829165810410243861054472052912361838621132084642343840999834907261778472728812146050329993564397807731874872683268505446054732331732951678682075562379325143201461143690964497988771556134280884665534987102337259173267040911610599718117480472299835503355469816882695667693060802102678313493626239249021656564680008945961756138890792757784068268244778750255817905731572147936213762991070902470475400913815688184536788347614294405400817986656984273150014783389756433248714204790122393211960017925741102794555904825616804749911496281902115237375493581793573961614224209942757713593360378234781213508977771894356942884278586707504701425423882518665348009160493587454933263048522717161110450308662432746987780831048174796677674670149599759501779189084152172689775001437573473798560825554232360901853651394366084163190458387695109772345423735122673958255814034173918175162870728773437810799030692834455094373063270007330499776224480184167839236555152607548363873810675807449498671778722487001810420363891562360912414521073827600557730190458420182955549369788366927503940666411553787367591709444953613202498554605510996218311347038420744356804576181336857304477182926469348415188891814744437153312675050746558101502325306687516 = true := by
  decide +kernel

theorem estSeg26 : segCheck 5429729 5829729 376271 401891 278 234
    6211502902101477973994781890429518346707735493432729482526945652630632480592195075138505140629152313235100780210688876654430461568829099623650594467809055086244684947362946433484822571497669271803782161229546938373406143104873357491479397563035780402230553859598185115625749715707281500830645238206672573413327575366580428297812093722971132370875274262301516902104109301899252075865894481317607696348752440975486584828940928378246019705421145348904235163464256427441403174784806548944198041714776474262629493268055237268263519352851555066365530409253103575573660290057160825826125371536125255122280708838189141962484207539056521423681442568826640503660566237058512917943771680864589123740470361783559533764594622318628760714333101886837201705700982615412999248355302023118818168854226062658850616349926617594457602469934738409496596664011065067658244403990197512126944219803053507545379723740197594717200784170982201337844316851572048046972256898674491968078322878165393264163881183090752358985408446942452267651259005340444591294902470288705604027434481840461229773914475369751000469978933397987991847785281594817239209618736633176699289889615189455714372273576752926931482797736637204099458998739088505285021703930929340404253397950827899954856748
    417586820473623679138959648652485514108046263066610419292454035872429371924403524454256457217106612954085727515442628426212865716644861422737205363138511384626859996147697351935047115559678652214235526831497989083594287589022147808989176785745027625112786468529765018718723046015055903800460298529001647352545629136000270732864655271235478805745078423521322811092901506479130127425208790313904822137322743775252881991416347630442538894382319434763689018270418156736844674047838957083090926460855640544225166218618238836854305877132069901434834776088513475789270169289264595728357722645703749870638100748247302808503247716442548186114223527814810341011925703251734478312395655628668986534744541625593328696301069230027067873733627146163684941103348953689460961476505798907357208089810229963722782371210905832971827369729736476358607549373403771490866390259624285923354363719897895129639822867204407631014847585994887996332278480941276218847868502628731971838023414062492979235617328098938087707235361942928241732065185775381769742534685696828024084464643266299481664883107027070662380435896053769129755386891953828196410412212067193791097653725596791871663554194969398390517186458492544872977877034074575558249027407006798985273197051261619646312998615378945390508420417160471464861503708730800656480235843116290585703977069310640102478674448054345883861506083562666333255430366223977135571491960953056091799090651068808492319267955843295862326842752108960132734993649974689962532037594383171135232130971632175576724458918282756639798116526426599130670582903308584115417771990275932701836379246797433816769604532433902470999166035709807785907867706528755544819218213262173286978011890921577637127556767539903230708629387597607843780598018621991124171437336149517695667911783310378978887743063795348614011640888378527539177170476059860311722545406257670604262513231926966726851607997702291907186673567700979872559847448873228100101097712251487329011276501717924158024256639960926067891399675349329443016762800206940484234129252037020908602225075380003294490986024663995139930440801570929240974237730276930 = true := by
  decide +kernel

theorem estSeg27 : segCheck 5829729 6229729 401891 427531 208 228
    3161760572955167961062419010000936552432548970559044003369521454792164584108282238336072536805947290653788815656388645161425933252767665902106016113500963937040299450730010154149032479106406528274406447039063129295982670876701982948237717102431518116974253018886308644153334411490584651350890821886177588310587100826140760746754338282334067327442620644599935943134076461532607504158139005807381243898884902281625082039738244905314928181635088983514762507304148504835190977853803954719622992725567288272166571221776643919031460453261105589794422508834949982101426363673475979332751999703809872002684507968836331760018709462626839186755490305870757060477154693534232808390235464783904293789041603351151098983605917377463179734936422688193847256384760607533676339768521721637240569782941579657387125887467429445449127417407817192230698258250047923472741910509086379141445945685383842027755135826960623126468525252910850657691220099860834
    413147516970147348399879056078507512006998556131299291198370123157337999310768097891356570683386057985808289745937982736876832207864132158801632227679730961844460316094616240854343086541820831225013979751900491465407480489825853568728942983255607481440781409321792185818803910597823574255533769533014604233898816628511572184434479333669913410375993380205303762481756552311749697423404392902380786703977388582295628763667575082006838902591482207405629608628430191260749725170894985442726490415191759970216507200228917436529024618495377045268203864140782872265417284279399116340807683053501081307590051162131233626133445596317285894948877126534791953267727335153039844196082761347442028505747153470310396818915738982134180026468911737883920338322451804514287612604663202458680082713659505596546078756122076461030120460320338373955122158637684812229930674789846386488906898088927476418662692323533567996376611202808361223952756105476661416462592911455645088048665259952592856514309885963396030813109709633476611094781159765317726249252272823342093208304505488429489903715498212239261950975506276735032222188319794713637523466911130196942827386265125044163689860134102790588696665560625757153648795979807310995155714907963807934165518006389061854295182029934194193780493247211731820481090865139196798717857298150162188254590806572814566783567539320874955099228062821609527826757465786255347090620251090517911131257241023374738336888788402824648660153285220558510470496601951342291389714426756249045334112597941989242046825197487774642649140360949747338401767293847445947202926507468917802045610657822023188295805111372674427273837514886958127983418004114721346095302543539509598430717326926675815498481752772939257773523117784171396235567746634889268832660644956661529281141472037537630413751568324385899746680845547062299493318107395410723639811406987661278052503267957940278990603302966116874130683484991724304598257396380533617881133773703338717984019393898125927238236975084806893253047020228947572233498444607052912486613847013265159208118496788494 = true := by
  decide +kernel

theorem estSeg28 : segCheck 6229729 6629729 427531 453062 196 223
    1896181336781912286339236092665436910236174434955024714032538947644797009768767694263008179000327229758363990675819904752333287945291921131608788949580048425419796737346933198097887994356725913961269608004037873294941455683432469560907366675358314038142558783437304406192670307643707398912139437191378577641727475537909720267004519257241794446691260144490527038386942433786115874052616009629569386979047200546986588414275928478621207560214509956090537567631445608797971418249765734209841168517151086883749763350228102825631889056702401374284013415984909573669001711597295246128631803194274801737801332500477900713983573572032255132045265722007428911947870940202030689476710953335567513090624256929152776565172187863745766979860113723365070319843711223850717644896248681481581552870230066554591142790253141356134944497921322594554965700211325991093796073045417174865424720258271564
    371230669883908923304865791907986892236243779276046614483658728463597642653990820468442153244893751047578626961432315254040316573598652132833239819012074522729633350955209358022288892730731400739706586304196301723163707809344007537697889711495734231082967903130835816155115823813644196812973886507403840570629471789820821120364025607510143298488368281293847634680727407031998368289025002479805744217346446009851522275524245298943457943262868327843306230906475053619751350474387426945898663181624420482147700933467376494874395889039958120031252129803397673661265004196318870407595737299198598326229133191061003232134615167213879125557787480560095327307264700785048145844400507004717813971014459676997572892998490145817503597937786364746128035690828511410099295919542544962698999869579851071337254382109933955433689518149016628420310351215930654582392471633459779951105452734107025352830047240904174841880056080353349637873716600456442777829140029166163275900530999583713635962529754648886352691645360261799260387101053060045092581839470495189132273406130884553252927634251902645249186796784348533179013863494003232012200867921045681614344101796398838235544451920415174062416034111349980085382230631014115366366150740617385140514862855946276587012111580167509708789784234524167678416083533946102627669201196427424619405266373626159848906256493225921846380064790827625792947241299993127013557561994199275907603626675448180574314073061470922502076963411276220659146441184355612471792248486968406001400454222287096142414794156459119959318141687136631858400533622787257373405014073894317560064879222316947545056718934905902890440191610753347643699290722477681051370771525893119346092018419071995684317181144638552606447682552032174981867137066124357163117994079729113130121266493293006968527392119249539584047174200499147275222716908331720737902542014991161349068473031798005599465616313293634689099622936098526482302286771741023600038652784702008537157101215992200347568225835986091383491837003203566213529660 = true := by
  decide +kernel

end NumPrime
