import Verif.Proofs.EstCheck

/-! # Certificates for the floating point estimates, part 1

Generated: the last two arguments of `segCheck` hold the block lengths. -/

namespace NumPrime

theorem estSeg0 : segCheck 252 15619 54 1820 417 237
    4896534713751935131203643794675064203793710855815184972643851520027524275339219077883013750482314273834262542306175656754445301801635172546796739138345371369194915209036190143868874191100303942710515712074060201699895627546597746566014654654860432041314035801000131660629461698145503367542205802858717640010101687208654721222432597529260699175875807720710516706729344067670683841675230359674302806328981161465540340207188944740826616444128181197167619830947979246005652305438104261760612491435007084467384345563601846005859721176342889371972541898539445214685073067612583053458360230178275191447864220026361527024472797637591483138355638495243444958607391485216245910502114504261849517786804505377905403531572215733065950457227128892120856400070140801474051469994179851711572709020879658594141551432601552993699040742807896434811379704803525628109056946718269753028529381944857591430251510020203435551970353748157477808454974757696163283763629003438778793422880820561598137374195117353166289014008566583372494733967399694397576516624464020288079198190760966543004728553805200260595531394387136954181277389105240261713268692349808079568547356447236441872296442583987376045115765928237511153988536127109503410038559132049998061328795715784095283542986115451508387709942009478834016149366293640368996449179130520981007758138748169736993932883682343161681054543643040430407179084940671204228984924937604669545490005148297469131694525185487420158038781654710911195849205786998499042992300726764512037891916900589583917176724567414353318898273690837846441118490103391738313744183132973526623834647975015061152263526399739990304676691218413519393325467748880156538584914452907387513883243994749867825622783176209266063173761981116308607872828341155603279643752131175766353659771231261156627891512411901931238848237293461723724841117412612447326915752497818056980833781223934721785867
    47865719872560612609712549615103620811078715017259572700120588208753509510011814668351081183063693291085602505009691032556728776761680446956245350313201210680836733768276177827847254559300407460701117232834256519562553490923696280035149467188338463072244653814625967089788857270741123938214227088895149276650480035501095682893735676234550987793592855755756116210823012878138406897075699394731155180936730762132907924247326080296516092489195828496348893430194437705646195814342791566224597083376249866896580928180415724464756928294966734667123816216967219102587319422750501353993471780924880085344726969396777890102099098457902005191161075732835079704486616511630026858464332457225277157770785926133213357237408218409649173933587800741895092082577951999978394717425621046816275984318885676112236209160498067457511068773154968315478298519612317239051145945938060399211563144599518067858544554092312153074134268006865246331147593502566369252384843692062792418518844935216143211353647309224842444935652522266900669885827331999819320130891455648595026932338942858165603808374561768588321766839292719629837042586415359921810206968051980605488521420271132073210804452071201512603096587496572214545375928137567034441619151920636485238905209028997650854546213802082250039441665943157201802923826341258407407335080697172120182262830737456605282789330389122440183106157644647753238000367315324179631445209191271360246727272123582597209196714883002293118789756562250361269438372130661313073958660907492946500195146940921864101774632332574474498030786490735634297628185982872486982245598113673466541043057570928555131041072307305202512311336387177362044008777578767623060395110537257583069693690473291780986684145121802133304360419987204461586483602788734390355702330593015655478846517841561256332058092683541601260648931895118866424553417362975565259092382468238000177450471830294876990856110739672053730373941562811502256263479623726781906574272454650401301012201241078331531549875673722114900453149424380637318012448899622653392657282840393258050571160985477659609558753274054880301113355983568416507471178332401836301003356246344151859205 = true := by
  decide +kernel

theorem estSeg1 : segCheck 15619 58831 1820 5948 415 237
    6840294156788325132041777093901788756816222876247509260089113228703928603589534651593974328183974969975024243748135382568838653384839244501432774905909580143017180370366369699513931125801611486275200089121076427017366644421018082641793547423426365519341295668721294013573439923455516424690121289760434380200395237806268152975341619318133667065752119006914176211979965186557581401476510794202459031099569633640886346301373705757044446786829472894302099293012659872649145666489239377464470673045613296103515360099666169875243644039122811545665192208019776804705106958630923287011660382321891431095419786543966516800267822258413233155298026371237923390117620288441671581733817464610597170920889286749456697137182072595097417989991958010978529977328039393259960022961600519471425379075227864342399088467615895571986352820953005702788449460616321214449806502648121125404042632241835787249805513195014858258023015032633809247412969829139109228780321375330684865365441359337226462163407251640262725542586042727144051943711139828199895701632896248081226830251366794116606258156371086653008480820569661917681380924010029414348668065903030056703925881250478520942880522483198341180647516927489212421101076517264221711995101330169321034312592185156727549278493347683469852428200484819333782258891436248092845804463397661969844298802192523446013016760448901925146710738898340890377849637868201530711351054903853260345559896203925545316862563078273920611302346328829671692624026991051844831874342742303877582716631611301054615241107299046644872391279964352942404550118311177024759941740945553172613375372549719238656949860002506506810562089351708049440059978388987351331381986164584314370417200624713778275068730664430156233905081598525800753457002214112114163853659156927110673153542495088986588897367633884584621420280889817991249329959972542361375480203754353583847029038121008
    53849455260001072441287689741488203692791102060022621593478787827235476602190714471051775939364424575575588026409430636182287432799146899727592185885292233245722857576734831250004043987734929896015888439076834170247226114190651311165101707999709632537193455571910155593441482125919410852909801754128288590897630085856401291088027788818466963463697639907541035322373391870762868776116777951457752830473661090859435421804036231492085492938827927130016770015255713955221622492939149399436452762491666216854560686553493002632569885562448213575016676048487124653357648096113960306608612345721677454194049298210790384855068765687274641960800416248917318314871040139160686043105957076008736501306912980690409476164862933075171984103327652007758569606265815326325356207407383156965864895139968306636898667539162444569640503036935287621387768620641871208327918234828184996077842546750310931734013554937983606344316769021647626913973868893398175311943859710408054499231940122307705066151894146798515423115900448003389893123698257822157130070331036025825303418393403183727823865406722001889507551111287685300484266530353082970505882011186504853423844398272557713223626743400939546925133645007335199983698868468316971541803279224144972946838379598567831140850093408240967356182416079959726597355726441726446188010775396499525461781829449701323725812432993193646030302487572415094166042104633783704188447959592606934681732507608886327793968318035027997186428277361001790603411368680083619362912340430076646016178217378206677008711076828097355465489437027905089998096994319470250835156040866134675968553712157405677453355770709125239028558008872334205296736060096859253515825287918105509711223414408607094583838561710778779489179832142913419887601205909393118160048670531593911793225123664695783635034564770710543335606639775855582225302409353551415353386249057589265983864441718255415256255136495596155755798018270435129107482756318428211097896062824680996945659556980784600980671471080059073039668570106631340490879191652844373409920471984003576050528688468899928212475228009592413174889205263755685723336156805660780847555722640454301253740 = true := by
  decide +kernel

theorem estSeg2 : segCheck 58831 121721 5948 11455 439 214
    37663020865848069760913878867680158048514181661758319221951279866124490888935313369965480151225480855316379096214533590024508871649755222700965346304750399305355830183768273589811614017070300209137953718335394434173497951031986458144095710240068773778235808658592727621370573100967684523840985248073652243576095809122031657820954843653541883546093172171456213895745940544346549507897815159736542221535429878678427547305538806354425138147929161483057137138995866733120877451314129383631321978282308919284010887787042673082497098397145388084796402258395453061696066865749853127445242831046860414249731005625497573896256687931116009983203046080732580890015675743869725152594221918290321759808637548936197617279765457112041963525811693390840472460861843821009167265394754742970487605346723168286259502541001660721451826229498672944682949946002698749874260776806335440381569088348186093219643184744367000883786836789022201810613076153663543043219881070487576966170492760514670081466641160562230298208081995716662619566235512086730178096226457681593422040040695847821417922099721481983347448088206802325904286226602987716181480572399220107072632313932795005593106353043796153336892481603919137819174103339158687919082257040943457740050204794177589233074949506190958869615636779366362894725146380626218798984230889600491983642346553658413371629629878265272028986587086868951000221392089816456191488468577047887115512739010326095562770488505719385858401742944438007976549918292306022560934544266546845965801735187991506928735758661495179071952048963607411796280042974976387276807642894417970198645209701165287629133504002340145377815588639967633405930218710364798586167384366055242148311405369587520355367143819618162501179581385867075839529678521057821136679206232809945012240690160752615364830588775137481044397847418527607456063011352986215487494366878212694798830522318004673786437479797174337996435439567160916400914767949129282782085501223257803627414731490073206351291342323818
    5823824361377809110208693944044706301974720037413189595242714162235218900531871838094058400936769458721485840165478138310050842578280876828755669062982221695814517041851309187664633821965557486307553527991231097483208826168947114328268131859537857362401755586480453034442208496075109913659882824845369880903258127919657400487564400340226420397561035909677907241954455946833445870919292752909930048583601166842290108389472489858666195671865716087434036491346932285534780053120049108457245014782115728491552399718641914067392009927516626811891795284914187404384021917470263840080593593553899381781572285927462156528010765822039860825698727327116046351392702201130002896244201787680344638896450391383442422224270832183291263785878115083843340248324431804308110699723386614760116803671397403150566954063412949611334891457017309485534505334019111552472752075716586983043029256797217504718735621761351375119889082338518839336925670758589900075831129741705210451283812379304233544507118163051806418966713947488311484455295899175937048081161835671247665662715688497281046799158114829310452016925722427153048368661278817867983602925248234650419967554767991420752161593670780837810402028182413865927771526418186281259967552368951061887406247318271709503743784099548856507527607490513289045889783719275758749943024126352162368227069553677455742782369060616623524835580872881248864004296667334026166009811381280548566412404827456178917641891287053643664193143077366754694596897956559863346409248322823685905929565666682817919080127887894555549521921598932265296312278552912509146374321455370506107659996687891756456150237841691531087649974786823237751227410076411527708882512169115834325021138445414440216744457742340425833644688677342200252044133464258292694469581544263990855320713301887876627432105606006436191423095642807876459456168701257380744031174609011249957694442428048291168428131775572311986904099132708835105101319831732 = true := by
  decide +kernel

theorem estSeg3 : segCheck 121721 210432 11455 18848 423 230
    12628356663979000436335265054578778197387059736752482911463750658104674705356232422003629355407308917205057137772775550846995522125775402605550641415268227804369394197087456089038101164917702345482290390337255017091567944495426669483199996783500682598909883432783157578904241631415740879780163152484304238406823031558225945240314916256491504408818879120492087523999421982676609050768538408977457926652591963906538508761671634125603383386160294208384388931332465308478969143427425325580342642528202355732018603579240605037454937975847562789264783685868699307406102980746014386148358658884169459195341543818197723932793154673485938159286261402974405266538524400350524108678497012997357082338411143684028303372190803856375979204851322949719121363488610859523901612818963831806736180777852894630686746863700891353630270780015463126424778000718714542504204681646215979797086563254749290431109998438494761887930461117069264069307533346308498422375418431086484738943785698863817566243519312500281541411278502694220948716276056418450582979643280335471642547875364582531000193685410756555152978269068798131397223852853171833546986866099114542045628486451086068250250910386168708243964812756240573041800940834152393371416585856071083151555800251797692102342937642133463302654884273431041454378152588049442994181810226918592985163907530511007822645377704758869816948572946875646400193369245177367888297002543954503125721548495227388888746848432691406423425519995237689206384106156173134918078958092514867418504411320930690265956087458405784365315095551129026290330192833951608914791371516100496925711620545979294003752424099859898669950254333947675634717032645372475721544397392857996681394920167500658409425024859494064980517832785616837482856463839216684886657610380601692525549027222513162283113739112098180205623042719482416773741688712979531959251655501060698559129619530696478533195388624870785234835856851174
    57450199394874739924523794279734136896662272729507455975081623064081696592699547800356401183424639632225616133635406037741843335873790545197391174809643400272192040681407495037696688906583688257581102007331359480112469542943071890252582764817386952462766972176131478543741187652448105139101390713362827734712425294266529521336473400955016298260827831193450458523292851353073426678728066422053301198250144648751945811157845342197569244679431322905656931045694398211159304787843740683447655248326876832888596980772282708385971576261951233921992545624405202333049568811400793292834615274724782337366976451368371249664056591720495151361413126661394791191600536501769176738318968084648655120654891658160049249939972891346350073346434752391396295044064959164019827650265964423950787625386214039136586725556738115469268899634364296940098970998291716268724240474307273204093973314025331994990915465890929214702602933546379100025234376196516588880846001921090079795219107799748745779779292088828056980331243104347605489205625199179981717539011385600772031547407892482372627530309995517659085280914734201101496291036243468688906806583246231381213358836195488491688884007995240291393174617185272422702656294819756715686309217111178812350648222834204744534687922760067385278702714054363987058324339558584262552664186548772201199845258900647159434053006589112397923367771591913173112897229554271221756625525593052127018064616045595896512398983673776230365563805938425712399284760583956623325985047719349924854088198028595420437446812676776264803771563153587952324308266709179390930683490920905588915211979518129626628864150408726476305115704239158803846533916469558568152708563934664849496090727499167718648432972470529457996902789165127869267383171472403951139222958472121847829593681758093023511204674726392733747497085011695919806788583088267943348757054908029238309664310963211038558183335472357720008683412338245265159926294906608675541173653561051662684117792967024381842901208274499411882730239021128300184377536996776126697627372018382396074202970570359968057659576680796 = true := by
  decide +kernel

theorem estSeg4 : segCheck 210432 322523 18848 27809 380 274
    189599843191585430684675350504566797551668552944756604039987038279244221445616817906962641389734848060737350653173336348972239759516821601461207449791058646392202920322269649538415734779423170099602432807185186236315008294522348325909169575137222201796343718837919074941704053711481987133583726432765912946929006819999992172038097798782444235851105302788747777410665152776856746010665921471230795075843907443060368711573892412644950086069305770614093820405827386922290088588696726607771869436192353789172921176199852444740772694940411322376454899404843077129610834276226222410698317266400428594889117230575269381014447985450275192152759601064131948880087681818486246574878588559378045381042856725593617977385860604649790792850281124664409921541232682763060128070982970148239769176702185294413916795812444731989290205179542360179879187414812114440560275402427815799482253010844607162451038296781596318889935105718178300288264636004436805920817688589173697413100409203441834121005440155195674655230777039868881671028426045009397837707277736216714735265613575456223492709851159497402103037175719683535537738360727746489306136968842890581969449746490902049432284908233985808879492060593306590614939716425324493232957625488019450805912856492474936709541774567035683957255912640909943807391140212563467891821537724461238384647377309162584558414401486854655560788491551052283130531662458445429667741508556808259151446442358811553871281575903251733069088351241109765059617333672467911537867607409912310352544708302794427253437374599094027774148570592244302414018702627497446953965002873435673159101603490425589172665000001906405007562879066135978413718205524984577072014275438972417340294969554606932054741991128367229
    1015285240584711977253021024385080817061446356374923392467384705269232855543874247758980505870428087458537116466914624552225184657497920126028881845619303934757540108816589954838232574859207664808765140449545168249128411522835765943066733008035155384535336327037860915998944305881644367252644392728411412322722175922276109254181940247499435326029692682567175781683532445011825384411994699777680762880913007849985635322771957408344520091356289956927985528573030672831157160298920902335177532209103177946848649319448620005176859748893809481436042427008797303372072937635709152657785245521421388806136626786234175950076427118538068217057978923969143125453159484125602868359681672017221325409675407822395412651173825281803626474534201815133503414029316501649781681298149809538064148665515794940086899071351911993449184824219169133630164090758945698293944995219212999594851643111716623593270389847413922732033414740293237806023787477658084935993544515904334485400235744023193896224272900649608485254187393200149376478782572885270501531139138241152011368558408130541244782373965411250789974056971478483910003057010901451095363137715646100613876265976496833799833215690511521034497135888952208690093125059599017380571314853290817139294491314969695812443222182136959604909919553797013464539781792787690038926340860636101175533811318659788866068894807550008694036587052516524695369784232033321721750732993784069435373087269579413754327395135221254882945559906577157734066651639212663943866842398641634973018316091343003179750606501880952718910298454978002927038312796633583740564739554969617462103710286690967968506263707297077680425710873969809995441348748331676668544286960013287877562722891264745283385784035201961392417262697227418707990612511453041292797989971096990542704968153193881009028497728252259481512739950351619566091631299168835909731754120632525815298284799274889037802477040503770016158478763983820639262550933595046945045975844415442152735194139150771356854386784328937076525691832189900652455306758121803527550345523407098165635147982502223987451110947565141714982599856314087572083102667826272663130113406441716484901477546663200967521414820294033288107562639742215083713386213921054289479092466495348684575087449884350523307880495233812474604547450353728820397782621765006629953172881120893856466974040780950985570669432378627043333519719089440083899582437134522570562167709174705595116399491316664512902178997132884209869966507211994881403310141603845 = true := by
  decide +kernel

end NumPrime
