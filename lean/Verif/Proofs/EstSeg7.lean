import Verif.Proofs.EstCheck

/-! # Certificates for the floating point estimates, part 7

Generated: the last two arguments of `segCheck` hold the block lengths. -/

namespace NumPrime

theorem estSeg29 : segCheck 6629729 7029729 453062 478541 229 194
    44935401884298824385605951217406754673023124704155755441766666569342088709209469244430233896898969362494949139798504858249557334286798790120896742274418220977224887519937604719965311860126292289711443259741299313883871604204714701462848380808255569580972554998747108869786061744588275324339322496888597818494168190150473777008690176027389039667716800741101133652096236274617295900147140454525529252660111443635365462539862454421981276271672282811529846006085377792636461731195853218527974962979338743474914611567401503614290687508894965946938951892859801436310018579145644454686703323682621684005758938044466698224142593050939166214614299347657861815120120517395809733007613422340050379948004297239316784552795126630522187947690247972223243479703610984684097701960067205091434373055586087428016806658443706446613213491835447347859760638597777307742444795365353755113066457278738928179115348509935277198897485718813199581857421352235403189095463105452071750686819267521076332322162717387594907716440583534951590694269411876734938
    13641896694558104874823795308637515722653606300363690124973084587131218327770255867892913255906978597951386444398178238637508617998044559273284760366295201772817595030933804609394083735119535398933602147443729221933858487960645986698983224423127300313352958658572621458342347559729133019139919291179259192845542359744622471360806082465725109164343000555454574020426120616585707720408669791560475581271756479061001469700042201808980755701622299757517245939227007967717883458858758209734604462316804772649529147109950160351509940612199037700839679597509147448643030120209919742841974161898315803372388556694836979551773804096232576918837964231039179212899326383056349804236870796323998905282691200233678818939113742163077992441798318973628580932054103342641958760507270805043037539896473051711113283820916066553514483480173847494243927987122800214930071015963443741275531104326083795496567081376728237961668821280566184375785157747650705352075589941285010244449176291531679341894454437965109760992973922761724043999945084553402568305543152725341125573958411557323019542863167670958215542691927356754900715469231130709387560097716144056315839554541772306831626350773940199311169741700253676079852536095690630456387521664085178982021906148858889622970208431741012932424585916960289850940077606858294186819962179391965312814563292225457923142104656585988295445726449144622482160526702969049646188452799715587303507081933145049976237900301606247185875643683223229376579432035183190566747455724093254547214363463987380365374079058320823244068015413120259571160039430503881665404982166618777296625173121079623267448878097447918788185634089325098000771898736525418148830797324168207949123834518661916262690883892646451930981072919256002406696195786876 = true := by
  decide +kernel

theorem estSeg30 : segCheck 7029729 7429729 478541 503842 377 207
    3580171992456581793207422208998005443590171891006188644205795610627834448722332953344249648006663673039777690699582151875742290823732415678507084821127041649287467535539827803183149219435564273008205147389676991923069362155332420129226902752716250703911329009503108751950606521112106380062195552089819995269468388754092032938819580975833654666672069822181641228446772656401449021635313008480125559691928865636519188536334887476638162457939829850562195214418956056012588263123589034870528781096950417020397062312869564850137338622629456972528481762262185540142553126546397913713931758363672406191485371550945501006211912077862635265480949456862318361200970250881453938873526826694638645715232946039460879031684022760986311402881614981820610879796546140026653566821848137306136257820082643909189955188951960256700123140374836553099294376210525057452934327501408975687982808015188574591514673516751034711512602412092035634259540914500079647520583663812693296234303979648586670366329273354647398255759408025398484422910832033011166157536051950160466160325418693583660527085186611497631259091001786073229128820038232808677910581301386154898635374365235386875702823928517878776073957995996662793719696681675129696433412281548967398295522606694236208965775155068061043906283016481996545947131650225972636219679413222968318457399061281222565474123306327241542819063671141206785050527208646000972111835340677090994756550227153618380206799835596114406184982890556818749616454607064608666394660050447405753993054945391563919104116009141444842047561846672255201957835382552962849673774287478041063847685659606151105277163192899664450682586213961221343039337623261313684802881800981068259465854805934494712890
    22934181910972227683807065847442858418415542659426174287050754785215116568942131315735273382473621341717882216156269424093166584646561293753901282924871545523742862988668612599979487249775975182155517954489456613586145109578536218599331420639312182772029356540995463679610029300548034677685300329333328640438954866890968784760466413708497132342421390855217993733198169986779173653937280595265395206640264297675301367098813388400732343709275823912661084975635476182399710428234519383261273783777727554775863414757627173485558175416679946968984340937981325266426242340610660949803670806676505241261018928561477782980334041354512581686341577569181336769769045096305985257873605785639877535800817653831956463897145114886353275274807462047187540989252685283207582722100716445201396069077100955881565861170188301716594064076071866525062190552954966858652298821787240294617312539588562133780838977017454287951422045640212435213665206296854657430652065091311927139782042215877553224512495304291646598321105271034410526196851828371621944295762164331322436036935933548318178936472713122047083500809439010518283360156102836926324510848622536230673953345229591641686842116456243653091160905708718425068901654191151917011850075240325831558464116386212731735989341342719298849643110175254394193444253052936195681554548507459643378139809377622584838208906686881096960111712856080768272950918273868962122507706068533333713409621473755262548159556754501900458884846319420558974633292537382377241582298309327398444597372107252752231539018076336772740741473579553107676701916772558482995833315867997580952125075053519094211962688763362807692759168852122886996897709414394300280322566534059509103407535220348281203253377268760208479698396594523401241847749052814240898258218620355792556005779290262475578620699809448602540482794710132464135427512675995158260334011167980843433986 = true := by
  decide +kernel

theorem estSeg31 : segCheck 7429729 7829729 503842 529035 227 156
    45261052438073123358046314293040207349755364775664317295046460549688428803900865917368633726662411818103935824381130752394635889408184806859222449499154019124611846693854542010581988507022260647349591118245989113258635583725133113897967494156258695844299045071073808003988028324406107565660020941215691597804423039496161060974236195418710059706096550960595461113918482622044420790001283235498615779322928814289266200215907471211563963748503413798754463680394493355312416292442616056970042621522325735231920289451339993510485788088758694365982218826202532616912771433143329513879659782479919588163622745048380253548639959007180605971824744570579422363577278617182478972059681845656782037962888758966652371931239684630155948759805686238230263278977239025798576205679239316979638897830406446712925075656745946235966699124235053810060767439409408684049490002156400608083075836327103557893817013699741214431591168250861213619868733769976333040677776962858577239358802188954228094074355044174030421477682304112145189388551614
    2428319196475575603640839095834013439889481612241193217878072202619027908369637688375206752642152342517404311600357290048659791391053267393396454391341675609213990929287589887995558718818386413673177203675963088533257394434427098675638897450624577563010820764578513244905793042907128492459553216826164520466764970353254250055044099803978266965363491732100015677559522667089904136711246067970724000379250797920543390253217400620027628779278613491149301382445828984433444391626846435827531391555452846905809039455745030320302088613342464597148873714176922710777253671968331845835598703214211769256946920416338904331531744892899441230800833549783017364505424555968011659741111458929712262872682127910511681900753545802250877079620320410865757077907264332316224100257045848958351114797017135748656687094291179693629635201664233882110036838800209476091811513830560416261222593677174849220741907388652720394927647851816404874353052277325817847352059169839735715468218091265780112635499018322192292661142028715726860244535374685336968673869812800997937349716954880803408591634208188450128131396014808315241438486064231498863551318066319006503782396665404074328595170417674903838894359772970819314191538161667625383932896904216452772522095969862704084003739773983796142630870591916111210033813431004946305023073097548040297365441847287205481199526828565697654857034177304791414423711405138997732654265927876 = true := by
  decide +kernel

theorem estSeg32 : segCheck 7829729 8229729 529035 554193 205 153
    23722906743964085568841878647758129126590561719363566219989562381325536310142920433360900654783470862079189864052060897213990276502223254673699813454896286821741951308817038463683613458816172179171897616605956245558558094701696231015484326801421709708619159145716854463767763030095871474978144615084001518201009535563933795444807340729818120761937656005542940560766689396929825410995606286524061681791213865761918681321623619369037339512331028549615726476827307918388111245459784753669315801480651069671234107856347033872684766805734817921585221489473719987549021311890399095083726655809439605229418207668821085394462664575515944737137375980176282376810206504394262746906562379809729588691283208367040915878857170378825852051726758803880911641888419230467499863168814153280386633259566427895844924572465686181624546305408226190866405994455147179392731704917434405427331928858589274550892966179937795089023641432583374998
    1827975380502692290044086179301631168105584874944995783673362232897909154925469042174743192124957122243116594725424237142360942367865186796628456947470663690659737982834404205891616318055743183134549307904271569531846196747726809394135349504768037420914508208044647466220283077307936579119626168111457538890272676746801640890749806457003920278992211541760281550876151030893532189636319662352683831411786575487149740932738976243592685453911110927456337541387991657816431460796107776475580953965498312621313121856270775364313989998077885006654729004636047333460177209614304274192223158844887562475903908860853840225869832687504539886060209714471211128685260687178984910869203170772160251876701388793442976912320808113750340026402633930053660194788054340803311507234010159140440358286304711601650683575129261457173912580548996863243583970436677255171499484398479388882275083786162844586994858050929237263724572080594271187145364132963780269739768144358227985500890899180765708853794873023414715308399097254627791097401779754804388471677274057325645708831783734656551149402248514807230954481131274508085420414361801888772585329088292412127644931505599878380608797812170024170433590719537774143256581735513964221222387316473027445990015044393230208477516083639400462986121663261338637495754157125888516915606109406645148771673405674748975935442517018113068967832394163856343048 = true := by
  decide +kernel

theorem estSeg33 : segCheck 8229729 8629729 554193 579313 186 145
    681001946902000364032100919737224544804823524867449782641456170366391708896712426159548094454179675058579062821966340461578702001912465586750769452145294112298676315984402268618975957001204905107648150841663783487894402325084580677961301566168710820679047134844833319696433014407254192682020942219460460666476795893157136344335417549709053463913476198496257808748504023876979459242528995709693580347396890816242132812353018391710568932872998460012905935021263679239669876022291487320588999869052505258124992100388349613790668298382759738202355205281237060814714324790551634919135502041333885136126144213635494748042670274933003284047166731432751536151702131087450936300611168717150478362999998764461888173114308369697300823949128169247612655086140487791228100145491324420823014585016282971345540783008785062784205994299400313897879666
    1481432906654751983598114638594391959986477385149129915958612024279918152634463514483505656382840627273719759232941810182316330747488640115882026773389504119050085586941415830027531112488952355274613727601731259613255122730894312745480463049161169012773247697748681216804864799680824024010245471187825149473081482691895063732012915076397489848162421679442694076575020862110732134794145097302073768118723718986708538415186713926560097861145982983378803685914680565039589082698685060435713444174594201539848098467918390243255620902642262649472582496440156309603018793498484645531885079086856490952064492551220175009194884321386424467831856862277874816298444158236842206764287810780058724627734050694139817023735503055655318504686360347452136280563657248383999165879793352809362866589882514184262180778966779735820383983630670656743743850807526566669590460103459847739357235172089819194134303438813303840142573599441994956679762865006463598013506410541414059872401608156139222503797236482423997943328534102639536146090701714475492567920433573122739227440183173382179986417546551020822975647389265737459353627760782381293786684414496258722679118645907507478757608634615871129842242486743193469649165824355191041169080510666701530365725792220423438323387127983008200824099021783172416385984927803660828674 = true := by
  decide +kernel

theorem estSeg34 : segCheck 8629729 9029729 579313 604284 275 173
    423014087292634043115865279844753451674361907109596756722393879516894317234131641693722507092240653891400455674237120175423232610837219473731901946106508313997236931436985797195995051005572292363226034394816135925138836426833940402893798824961966032123564803900328685593690154988384497335301122634035441864118927512045401433969790402102978432001908698062436439348049574248817205129301961541800811297617630391074693317638444272495449734068946569555107305789141522431103098239926536787645041881246882347393588969162688319457073793611092506854677783805680838358631694034297023504079590276479424607781572129655736761675219722049432962661495380156376994453760073814222202276687535082693853850776510067236909311324572578528180412953937281812555087879961587682902390567380994539849141162761352770363879447874914834653405600728578637262581355558482217425633061184213173994770833410686476659553632349395561823114500805922351883414546982287117911881585749728724711403932524080014895572778329548770819633078143388680428504491239759386144362952412837769754437765813195840237348322921097489919349165706891045891782717855108992536513751901934557744576065681146792075357845185334882657320277604218170496624745397133910904306252705718341139581774956246
    3175204060866645869099333739230077948867970728443714552781399087566977459190733925832954496738316570027784137684723011213633448771363176470939435775019564851293925823971969092485432361949089989438134065984231428387283223645979250047568358113788384316914738465361463724452919964585488353382890082947179092862044877478268988866060741089093371891905340943675154468856933263358942601363692675549839375076380375953403102209985288553631652580350376008320196871180665745358407745508019187711784864249351831792863240137352242036366202681280231651966533065065194796334742001763660671428352391216954262378429582557979241502493929341711923297233488712715899061781538901562935980990579312255161707409871651441481231973174510854644805073626089367746434509787445693607345031357859514970898843771682797245377705214164350234828103010324604225665951463211604067167981637444227732335056583403567561211705482969160364553279161958507445081647867499043550299708587868267750312792370410301353915458415531307943526056627020438040336044925736083648927472104096934545100721711144163935502898361702621775273462268891664825679240597230753097703308513761918010827096314934358378400408447425474442779699033543027945339261650367594725375856315794177572399518077243773835061301068230972908745066160669741474682093778397480616343981919378010425749414350986959579805348525590110280721041644528569727561397334160282065149511309457123364816859653619651969144454221177483002830031582364259013735738947919958215758718066276148632686489260100147400520349003921202701666107463180627751206922 = true := by
  decide +kernel

end NumPrime
